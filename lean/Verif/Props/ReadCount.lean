import Verif.Props.Api

/-!
# Counting reads: the vocabulary of C51
-/

namespace T1ha.Model

/-- Whether the event reads the byte at `x`. -/
def Ev.reads (x : Nat) : Ev → Bool
  | .rd p n => decide (p ≤ x ∧ x < p + n)
  | _ => false

/-- How many of the events `t` read the byte at `x`. -/
def readsOf (x : Nat) (t : List Ev) : Nat := t.countP (·.reads x)

/-- The size of the words in which a one-shot function reads its message. -/
def OneShot.word (f : OneShot) : Nat := if f.words64 then 8 else 4

end T1ha.Model
