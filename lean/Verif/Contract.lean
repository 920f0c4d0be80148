import Verif.Model.Machine

/-!
# The caller's side of the contract

What theorems assume about memory during a call, and the words in which they say what a call may do.
Nothing here mentions a function of the library.
-/

namespace T1ha.Model

/-- The bytes written so far by the call. -/
abbrev Overlay := Nat → Option Byte

/-- The bytes `p ... p+n-1` are mapped at every moment. -/
def Mapped (w : World) (p n : Nat) : Prop := ∀ t i, i < n → (w.cell t (p + i)).isSome

/-- The `n` bytes at `p` may be written. -/
def Writable (w : World) (p n : Nat) : Prop :=
  Mapped w p n ∧ ∀ i, i < n → w.writable (p + i) = true

/-- The bytes at `p` are `m`, at every moment. -/
def Holds (w : World) (ov : Overlay) (p : Nat) (m : List Byte) : Prop :=
  ∀ t i b, m[i]? = some b → see w ov t (p + i) = some b

/-- Memory is mapped by pages: at every moment, either all or none of the bytes of a page are
accessible. -/
def Paged (w : World) (page : Nat) : Prop :=
  ∀ t a b, a / page = b / page → (w.cell t a).isSome = (w.cell t b).isSome

/-- The page size of the machine fits the build: words do not straddle pages, and (if the code reads
backwards from the tail) the macro `PAGESIZE` is a power of two which divides the real page size. -/
structure PageOk (cfg : Cfg) (page : Nat) : Prop where
  words : 8 ∣ page
  macro_pow : cfg.canReadUnderside = true → ∃ j, cfg.pageSize = 2 ^ j
  macro_dvd : cfg.canReadUnderside = true → cfg.pageSize ∣ page

/-- The `m.length` bytes at `data` are `m` during the call; all other bytes may be anything, may change
at any moment, and (page by page) need not be mapped. -/
structure Buf (cfg : Cfg) (w : World) (ov : Overlay) (page data : Nat) (m : List Byte) : Prop where
  holds : Holds w ov data m
  fits : data + m.length < 2 ^ cfg.bits
  paged : Paged w page
  pageOk : PageOk cfg page
  /-- The buffer is not at the very bottom of the address space, if pointers before it are computed. -/
  above : cfg.proxy = true → m.length ≠ 0 → cfg.below 8 ≤ data

/-- The byte at `b` is on a page which holds a byte of the buffer. -/
def OnPage (page data len b : Nat) : Prop := ∃ i, i < len ∧ (data + i) / page = b / page

end T1ha.Model
