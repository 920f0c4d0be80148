import Verif.Contract

/-!
# The caller's side of the contract for the hash functions of other authors

Nothing here mentions one of these functions.
-/

namespace T1ha.Model

/-- The `m.length` bytes at `data` are `m` during the call; nothing is assumed about any other byte (it may
change at any moment, and need not be mapped). The message does not fill the address space: it ends before
the last address, and at least 32 addresses are elsewhere. -/
structure Message (cfg : Cfg) (w : World) (ov : Overlay) (data : Nat) (m : List Byte) : Prop where
  holds : Holds w ov data m
  fits : data + m.length < 2 ^ cfg.bits
  room : m.length + 32 < 2 ^ cfg.bits

/-- What a function may do which only looks at the `len` bytes at `data`: read some of them, iterate, and
compute pointers which are not more than `below` bytes before and not after them. -/
def Looks (below data len : Nat) : Ev → Prop
  | .rd a n => data ≤ a ∧ a + n ≤ data + len
  | .wr _ _ => False
  | .iter => True
  | .ptr a => data ≤ a + below ∧ a ≤ data + len

end T1ha.Model
