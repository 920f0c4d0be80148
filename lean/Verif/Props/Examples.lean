import Verif.Props.Api

/-!
# Concrete situations

Build configurations and memories used in the `example`s which show that the hypotheses of theorems
can be met, and in counterexamples.
-/

namespace T1ha.Examples

open Model

/-- x86-64 Linux, GCC. -/
def amd64 : Cfg where
  endian := .little
  unaligned := .efficient
  oneshot := true
  asan := false
  pageSize := 4096
  ptr64 := true
  ulong64 := true
  ndebug := false
  bswap := .builtin
  bswap32 := .builtin
  bswap16 := .builtin
  carry := .builtin
  mul := .int128
  beLoad := false
  u64Align4 := false
  packed := false

/-- 64-bit Windows: `unsigned long` has 32 bits. -/
def win64 : Cfg := { amd64 with ulong64 := false, mul := .umul128 }

/-- A 32-bit big-endian machine without unaligned access. -/
def mips32 : Cfg where
  endian := .big
  unaligned := .unable
  oneshot := true
  asan := false
  pageSize := 4096
  ptr64 := false
  ulong64 := false
  ndebug := false
  bswap := .portable
  bswap32 := .portable
  bswap16 := .portable
  carry := .plain
  mul := .portable
  beLoad := false
  u64Align4 := false
  packed := true

/-- A 32-bit little-endian machine with slow unaligned access, one-shot reads switched off. -/
def arm32 : Cfg where
  endian := .little
  unaligned := .slow
  oneshot := false
  asan := false
  pageSize := 4096
  ptr64 := false
  ulong64 := false
  ndebug := false
  bswap := .builtin
  bswap32 := .builtin
  bswap16 := .builtin
  carry := .plain
  mul := .portable
  beLoad := false
  u64Align4 := false
  packed := true

/-- Only the addresses from `lo` to `hi` are mapped (and can be written). The bytes of `m` are at
`data`; all other bytes change all the time. -/
def memory (lo hi data : Nat) (m : List Byte) : World where
  cell t a :=
    if lo ≤ a ∧ a < hi then
      some (if data ≤ a then (m[a - data]?).getD (BitVec.ofNat 8 (a + 3 * t)) else BitVec.ofNat 8 (a + 5 * t))
    else none
  writable _ := true

/-- Nothing has happened yet. -/
def start : Sys := ⟨[], fun _ => none⟩

theorem mapped {lo hi data : Nat} {m : List Byte} {p n : Nat} (h1 : lo ≤ p) (h2 : p + n ≤ hi) :
    Mapped (memory lo hi data m) p n := by
  intro t i hi
  simp only [memory]
  rw [if_pos (by omega)]
  rfl

theorem writable {lo hi data : Nat} {m : List Byte} {p n : Nat} (h1 : lo ≤ p) (h2 : p + n ≤ hi) :
    Writable (memory lo hi data m) p n :=
  ⟨mapped h1 h2, fun _ _ => rfl⟩

theorem pageOk (cfg : Cfg) (h : cfg.pageSize = 4096) : PageOk cfg 4096 where
  words := by decide
  macro_pow := fun _ => ⟨12, h⟩
  macro_dvd := fun _ => by rw [h]; exact Nat.dvd_refl _

theorem buf_top (cfg : Cfg) (hp : cfg.pageSize = 4096) {lo hi data : Nat} {m : List Byte}
    (hlo : lo % 4096 = 0) (hhi : hi % 4096 = 0) (h1 : lo ≤ data) (h2 : data + m.length ≤ hi)
    (h3 : data + m.length < 2 ^ 32) (h4 : 14 ≤ data := by omega) : Buf cfg (memory lo hi data m) start.ov 4096 data m where
  holds := by
    intro t i b hb
    have hi : i < m.length := by
      rcases Nat.lt_or_ge i m.length with h | h
      · exact h
      · rw [List.getElem?_eq_none h] at hb; exact absurd hb (by simp)
    simp only [memory, see, start]
    rw [if_pos (by omega), if_pos (by omega), show data + i - data = i by omega, hb]
    rfl
  fits := by
    unfold Cfg.bits
    split
    · exact Nat.lt_trans h3 (by decide)
    · exact h3
  paged := by
    intro t a b hab
    simp only [memory]
    have hb : (lo ≤ a ∧ a < hi) ↔ (lo ≤ b ∧ b < hi) := by omega
    by_cases h : lo ≤ b ∧ b < hi
    · simp [hb, h]
    · simp [hb, h]
  pageOk := pageOk cfg hp
  above := fun _ _ => Nat.le_trans (by unfold Cfg.below; split <;> simp <;> split <;> decide) h4

theorem buf (cfg : Cfg) (hp : cfg.pageSize = 4096) {lo hi data : Nat} {m : List Byte}
    (hlo : lo % 4096 = 0) (hhi : hi % 4096 = 0) (h1 : lo ≤ data) (h2 : data + m.length ≤ hi)
    (h3 : hi < 2 ^ 32) (h4 : 14 ≤ data := by omega) : Buf cfg (memory lo hi data m) start.ov 4096 data m :=
  buf_top cfg hp hlo hhi h1 h2 (Nat.lt_of_le_of_lt h2 h3) h4

/-- A message of `n` bytes. -/
def msg (n : Nat) : List Byte := (List.range n).map fun i => BitVec.ofNat 8 (7 * i + 1)

theorem length_msg (n : Nat) : (msg n).length = n := by simp [msg]

/-- The message of `n` bytes lies at the end of the only mapped page. -/
def atEnd (n : Nat) : World := memory 4096 8192 (8192 - n) (msg n)

theorem buf_atEnd (cfg : Cfg) (hp : cfg.pageSize = 4096) (n : Nat) (hn : n ≤ 4096) :
    Buf cfg (atEnd n) start.ov 4096 (8192 - n) (msg n) :=
  buf cfg hp (by decide) (by decide) (by omega) (by rw [length_msg]; omega) (by decide)

theorem buf_mid (cfg : Cfg) (hp : cfg.pageSize = 4096) (m : List Byte) (hm : m.length ≤ 3000) :
    Buf cfg (memory 4096 8192 5001 m) start.ov 4096 5001 m :=
  buf cfg hp (by decide) (by decide) (by decide) (by omega) (by decide)

/-- A call with `n > 0` bytes at the end of a page, in a build with `SafeTail`. -/
theorem ready_atEnd (f : OneShot) (cfg : Cfg) (n : Nat) (hn : n ≤ 4096) (hs : cfg.SafeTail)
    (hb : cfg.Buildable) (ho : ∀ p, f.output = some p → 4096 ≤ p ∧ p + 8 ≤ 8192) :
    f.Ready cfg (atEnd n) (8192 - n) (msg n).length where
  slack := fun _ => Or.inl hs
  builds := fun _ => hb
  output := fun p hp => writable (ho p hp).1 (ho p hp).2
  bottom := fun _ _ _ => by rw [length_msg]; omega
  top := fun _ _ _ => by
    rw [length_msg]
    have : 2 ^ 32 ≤ 2 ^ cfg.bits := by unfold Cfg.bits; split <;> decide
    omega
  ulong := fun _ _ => by
    rw [length_msg]
    have : 2 ^ 32 ≤ 2 ^ (if cfg.ulong64 then 64 else 32) := by split <;> decide
    omega

/-- The addresses from 4096 to 12288 are mapped. The first page does not change; the bytes of the second
one change all the time. -/
def quiet : World where
  cell t a :=
    if 4096 ≤ a ∧ a < 8192 then some (BitVec.ofNat 8 (7 * a + 1))
    else if 8192 ≤ a ∧ a < 12288 then some (BitVec.ofNat 8 (a + t)) else none
  writable _ := true

/-- The `n` bytes at `p` in the first page. -/
def quietBytes (p n : Nat) : List Byte := (List.range n).map fun i => BitVec.ofNat 8 (7 * (p + i) + 1)

theorem length_quietBytes (p n : Nat) : (quietBytes p n).length = n := by simp [quietBytes]

theorem quiet_holds {p n : Nat} (h1 : 4096 ≤ p) (h2 : p + n ≤ 8192) :
    Holds quiet start.ov p (quietBytes p n) := by
  intro t i b hb
  have hi : i < n := by
    rcases Nat.lt_or_ge i n with h | h
    · exact h
    · rw [List.getElem?_eq_none (by rw [length_quietBytes]; exact h)] at hb
      exact absurd hb (by simp)
  simp only [quiet, see, start]
  rw [if_pos (by omega)]
  simp [quietBytes, hi] at hb
  simp [hb]

theorem quiet_writable {p n : Nat} (h1 : 4096 ≤ p) (h2 : p + n ≤ 12288) : Writable quiet p n := by
  refine ⟨fun t i hi => ?_, fun _ _ => rfl⟩
  simp only [quiet]
  by_cases h : 4096 ≤ p + i ∧ p + i < 8192
  · rw [if_pos h]; rfl
  · rw [if_neg h, if_pos (by omega)]; rfl

end T1ha.Examples
