import Verif.Proofs.Avalanche
import Verif.Props.Pairs

/-!
# Strict avalanche criterion: C54

A hash function meets the criterion if flipping one bit of the input flips each bit of the result in half of the
cases. The header says that `t1ha1` fails it (t1ha.h:533-534), but not how.
-/

namespace T1ha.Props

open Model Examples

/-- The value which a call returns (none if it does not return). -/
def returned (f : OneShot) (cfg : Cfg) (w : World) (s : Sys) (data len : Nat) (seed : U64) : Option U64 :=
  match f.run cfg data len seed w s with
  | .ok (v, _) => some v
  | .error _ => none

/-- The seeds for which the lowest bit of the result is flipped when the highest bit of the seed is flipped. -/
def flipped (f : OneShot) (cfg : Cfg) (w : World) (s : Sys) (data len : Nat) : Set U64 :=
  {seed | ∃ v v', returned f cfg w s data len seed = some v ∧
    returned f cfg w s data len (seed ^^^ 0x8000000000000000) = some v' ∧ v.getLsbD 0 ≠ v'.getLsbD 0}

/-- C54: `t1ha1` is far from the criterion. Whatever the message of up to 32 bytes, for more than 94 % of all
seeds the lowest bit of the hash is flipped if the highest bit of the seed is flipped. -/
theorem avalanche_fails (f : OneShot) (hf : f = .t1ha1_le ∨ f = .t1ha1_be) {cfg : Cfg} {w : World} {s : Sys}
    {page data : Nat} {m : List Byte} (short : m.length ≤ 32) (h : Buf cfg w s.ov page data m)
    (r : f.Ready cfg w data m.length) :
    94 * 2 ^ 64 ≤ 100 * (flipped f cfg w s data m.length).ncard := by
  have hret : ∀ seed, returned f cfg w s data m.length seed = some (f.hash m seed) := by
    intro seed
    obtain ⟨t, ⟨h1, _⟩, _⟩ := f.returns h r seed
    rw [returned, h1]
  obtain ⟨e, he⟩ : ∃ e, f.hash m = Spec.t1ha1 e m := by
    rcases hf with rfl | rfl
    · exact ⟨.little, rfl⟩
    · exact ⟨.big, rfl⟩
  have hset : flipped f cfg w s data m.length = {seed : U64 |
      (Spec.t1ha1 e m (seed ^^^ BitVec.twoPow 64 63)).getLsbD 0 ≠ (Spec.t1ha1 e m seed).getLsbD 0} := by
    ext seed
    simp only [flipped, hret, he, Set.mem_ofPred_eq, Option.some.injEq]
    rw [show (0x8000000000000000 : U64) = BitVec.twoPow 64 63 by decide]
    constructor
    · rintro ⟨v, v', rfl, rfl, h1⟩
      exact h1.symm
    · intro h1
      exact ⟨_, _, rfl, rfl, h1.symm⟩
  have := t1ha1_flips e m short
  rw [hset]
  omega

/-- A message of 23 bytes at the end of a page. -/
example : 94 * 2 ^ 64 ≤ 100 * (flipped .t1ha1_le amd64 (atEnd 23) start (8192 - 23) (msg 23).length).ncard :=
  avalanche_fails _ (Or.inl rfl) (by decide) (buf_atEnd amd64 rfl 23 (by decide))
    (ready_atEnd _ amd64 23 (by decide) (by decide) (by decide) (by simp [OneShot.output]))

end T1ha.Props
