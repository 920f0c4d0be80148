import Verif.ContractOthers
import Verif.Props.Api
import Verif.Model.HighwayVerify

/-!
# The hash functions of other authors: the vocabulary of the theorems
-/

namespace T1ha.Model

/-- The call `f`, of a function which hashes the `len` bytes at `data`, returns `v` and changes no byte of memory.
All it does is to read bytes of the message, to iterate at most `steps` times, and to compute pointers (at most
`below` bytes before the message); and it reads every byte of the message. -/
def Hashes (w : World) (s : Sys) {α : Type} (f : M α) (v : α) (below data len steps : Nat) : Prop :=
  ∃ s' t, Returns f w s v s' t ∧ s'.ov = s.ov ∧ (∀ x ∈ t, Looks below data len x) ∧
    (∀ i < len, ∃ p n, Ev.rd p n ∈ t ∧ p ≤ data + i ∧ data + i < p + n) ∧ t.count .iter ≤ steps

/-- `n` bytes: `first`, `first + 1`, and so on. -/
def countUp (first n : Nat) : List Byte := (List.range n).map fun i => BitVec.ofNat 8 (first + i)

/-- The implementation `fn` of HighwayHash returns `answer key m` whenever the message `m`, of at most 64 bytes, is at
`data`, and changes nothing in memory. -/
def HashesAt (w : World) (data : Nat) (fn : HighwayFn) (answer : Quad → List Byte → U64) : Prop :=
  ∀ key m (s : Sys), m.length ≤ 64 → Holds w s.ov data m →
    ∃ s' t, Returns (fn key data m.length) w s (answer key m) s' t ∧ s'.ov = s.ov

/-- The answers to the 66 calls of the verification are those which are expected. -/
def HighwayPasses (answer : Quad → List Byte → U64) : Prop :=
  (∀ i < 65, Ref.kExpected64[i]? = some
    (answer ⟨0x0706050403020100, 0x0F0E0D0C0B0A0908, 0x1716151413121110, 0x1F1E1D1C1B1A1918⟩ (countUp 0 i))) ∧
  answer ⟨1, 2, 3, 4⟩ (countUp 128 33) = 0x53c516cce478cad7

end T1ha.Model
