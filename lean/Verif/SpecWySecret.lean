import Mathlib.Data.Nat.Prime.Defs
import Verif.SpecOthers

/-!
# Specification of the secrets and of the generator of random numbers of wyhash
-/

namespace T1ha.Spec

/-- How many of the bits of a number are ones. -/
def ones {n : Nat} (x : BitVec n) : Nat := ((List.range n).filter fun i => x.getLsbD i).length

/-- What the `k`-th call (from 0) of the generator returns, if it began with `seed`. -/
def wyRandom (seed : BitVec 64) (k : Nat) : BitVec 64 :=
  let s := seed + BitVec.ofNat 64 (k + 1) * 0xa0761d6478bd642f
  mux s (s ^^^ 0xe7037ed1a0b428db)

/-- The bytes with four ones, in ascending order. -/
def fourOnes : List Nat := (List.range 256).filter fun b => ones (BitVec.ofNat 8 b) = 4

/-- The `k`-th candidate (from 0) for a word of the secret: eight bytes, the first of which is the lowest. -/
def wyCandidate (seed : BitVec 64) (k : Nat) : Nat :=
  ((List.range 8).map fun i => fourOnes.getD ((wyRandom seed (8 * k + i)).toNat % 70) 0 * 256 ^ i).sum

/-- A word which the secret may have after the words `earlier`: a prime which differs from each of them in half of
the bits. -/
def Suitable (earlier : List (BitVec 64)) (v : BitVec 64) : Prop :=
  v.toNat.Prime ∧ ∀ u ∈ earlier, ones (u ^^^ v) = 32

/-- `v` is the first suitable one of the candidates beginning with the `lo`-th, and is the `k`-th. -/
def FirstSuitable (seed : BitVec 64) (earlier : List (BitVec 64)) (lo k : Nat) (v : BitVec 64) : Prop :=
  lo ≤ k ∧ v.toNat = wyCandidate seed k ∧ Suitable earlier v ∧
    ∀ i, lo ≤ i → i < k → ¬ Suitable earlier (BitVec.ofNat 64 (wyCandidate seed i))

end T1ha.Spec
