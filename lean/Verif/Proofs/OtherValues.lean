import Verif.Props.Probes
import Verif.Props.OthersApi
import Verif.Model.Wyhash

/-!
# The reference values of the hash functions of other authors are those of the specification

Evaluated by the kernel.
-/

namespace T1ha.Model

/-- What StadtX answers to the probes. -/
def stadtxAnswer (k : Nat) : U64 :=
  let seed := (probeAt k).seed
  Spec.stadtx ⟨seed, seed, seed, seed⟩ (probeAt k).msg

/-- What wyhash answers to the probes. -/
def wyhashAnswer (k : Nat) : U64 := Spec.wyhash Spec.wyp (probeAt k).msg (probeAt k).seed

theorem values_stadtx : PassesAll stadtxAnswer Ref.refval_StadtX := by
  unfold PassesAll; decide +kernel

theorem values_wyhash : PassesAll wyhashAnswer Ref.refval_wyhash_v7 := by
  unfold PassesAll; decide +kernel

/-- The bytes of a string literal without its terminating zero. -/
def literal (text : String) : List Byte := text.toList.map fun c => BitVec.ofNat 8 c.toNat

theorem values_wyhash_texts :
    ∀ x ∈ wyhash_v7_cases, Spec.wyhash Spec.wyp (literal x.1) x.2.1 = x.2.2 := by
  decide +kernel

theorem values_highway : HighwayPasses Spec.highway64 := by
  unfold HighwayPasses; decide +kernel

/-- What the portable C++ code computes on a big-endian machine is wrong for 2 bytes. -/
theorem wrong_highway :
    ¬ HighwayPasses fun key m => Spec.highwayResult64 (Spec.highwayAbsorb (Spec.highwayStored .big) key m) := by
  intro h
  exact absurd (h.1 2 (by decide)) (by decide +kernel)

end T1ha.Model
