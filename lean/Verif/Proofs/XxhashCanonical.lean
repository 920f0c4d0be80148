import Verif.Proofs.Mem
import Verif.Proofs.XxhashRead

/-!
# xxHash: the canonical representation
-/

namespace T1ha.Model

variable {w : World} {ov : Overlay} {cfg : Cfg} {x : Xxh}

theorem canonical32_eq (h : U32) : (leBytes 4 h.toNat).reverse = Spec.canonical32 h := by
  simp only [leBytes, List.reverse_cons, List.reverse_nil, List.nil_append, List.cons_append, Spec.canonical32,
    Nat.div_div_eq_div_mul, Nat.reduceMul]
  have key : ∀ k, BitVec.ofNat 8 (h.toNat / 2 ^ k) = h.extractLsb' k 8 := fun k => by
    apply BitVec.eq_of_toNat_eq
    rw [BitVec.extractLsb'_toNat, BitVec.toNat_ofNat, Nat.shiftRight_eq_div_pow]
  rw [← key 24, ← key 16, ← key 8, ← key 0, Nat.pow_zero, Nat.div_one]
  simp only [Nat.reducePow]

theorem canonical64_eq (h : U64) : (leBytes 8 h.toNat).reverse = Spec.canonical64 h := by
  simp only [leBytes, List.reverse_cons, List.reverse_nil, List.nil_append, List.cons_append, Spec.canonical64,
    Nat.div_div_eq_div_mul, Nat.reduceMul]
  have key : ∀ k, BitVec.ofNat 8 (h.toNat / 2 ^ k) = h.extractLsb' k 8 := fun k => by
    apply BitVec.eq_of_toNat_eq
    rw [BitVec.extractLsb'_toNat, BitVec.toNat_ofNat, Nat.shiftRight_eq_div_pow]
  rw [← key 56, ← key 48, ← key 40, ← key 32, ← key 24, ← key 16, ← key 8, ← key 0, Nat.pow_zero, Nat.div_one]
  simp only [Nat.reducePow]

theorem canonical_swapped (n v : Nat) : leBytes n (beVal (leBytes n v)) = (leBytes n v).reverse := by
  have h := leBytes_leVal (leBytes n v).reverse
  rw [List.length_reverse, leBytes_length] at h
  rw [beVal_eq, h]

theorem canonical32_stored (h : U32) :
    cfg.endian.bytes 4 (match cfg.endian with | .little => XXH_swap32 x h | .big => h).toNat = Spec.canonical32 h := by
  cases cfg.endian with
  | little =>
    simp only [Endian.bytes]
    have hlt := beVal_lt (leBytes 4 h.toNat)
    rw [leBytes_length] at hlt
    rw [xxh_swap32_eq, BitVec.toNat_ofNat, Nat.mod_eq_of_lt (by omega), canonical_swapped, canonical32_eq]
  | big => exact canonical32_eq h

theorem canonical64_stored (h : U64) :
    cfg.endian.bytes 8 (match cfg.endian with | .little => XXH_swap64 x h | .big => h).toNat = Spec.canonical64 h := by
  cases cfg.endian with
  | little =>
    simp only [Endian.bytes]
    have hlt := beVal_lt (leBytes 8 h.toNat)
    rw [leBytes_length] at hlt
    rw [xxh_swap64_eq, BitVec.toNat_ofNat, Nat.mod_eq_of_lt (by omega), canonical_swapped, canonical64_eq]
  | big => exact canonical64_eq h

theorem canonicalFromHash32_eq (dst : Nat) (h : U32) :
    XXH32_canonicalFromHash cfg x dst h = store dst (Spec.canonical32 h) :=
  congrArg (store dst) (canonical32_stored h)

theorem canonical32_value (h : U32) : BitVec.ofNat 32 (beVal (Spec.canonical32 h)) = h := by
  rw [← canonical32_eq, beVal_eq, List.reverse_reverse, leVal_leBytes]
  apply BitVec.eq_of_toNat_eq
  have := h.isLt
  rw [BitVec.toNat_ofNat]
  omega

theorem canonicalFromHash64_eq (dst : Nat) (h : U64) :
    XXH64_canonicalFromHash cfg x dst h = store dst (Spec.canonical64 h) :=
  congrArg (store dst) (canonical64_stored h)

theorem canonical64_value (h : U64) : BitVec.ofNat 64 (beVal (Spec.canonical64 h)) = h := by
  rw [← canonical64_eq, beVal_eq, List.reverse_reverse, leVal_leBytes]
  apply BitVec.eq_of_toNat_eq
  have := h.isLt
  rw [BitVec.toNat_ofNat]
  omega

end T1ha.Model
