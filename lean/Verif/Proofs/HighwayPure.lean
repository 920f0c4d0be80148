import Verif.Proofs.Others
import Verif.Model.Highway

/-!
# HighwayHash computes its specification: the pure part
-/

namespace T1ha.Model

open Spec (Highway)

/-! ## Bytes of numbers -/

theorem leBytes_getD (n v j : Nat) (h : j < n) : (leBytes n v).getD j 0#8 = BitVec.ofNat 8 (v / 256 ^ j) := by
  induction n generalizing v j with
  | zero => omega
  | succ n ih =>
    cases j with
    | zero => simp [leBytes]
    | succ j =>
      rw [leBytes, List.getD_cons_succ, ih _ _ (by omega), Nat.div_div_eq_div_mul, Nat.pow_succ, Nat.mul_comm]

/-- Byte `j` of a number. -/
theorem leBytes_byte (x : U64) (j : Nat) (h : j < 8) :
    (leBytes 8 x.toNat).getD j 0#8 = x.extractLsb' (8 * j) 8 := by
  rw [leBytes_getD _ _ _ h]
  apply BitVec.eq_of_toNat_eq
  rw [BitVec.toNat_ofNat, BitVec.extractLsb'_toNat, Nat.shiftRight_eq_div_pow, Nat.pow_mul]

theorem num_append_byte (bs : List Byte) (b : Byte) {k : Nat} (hk : k = 8 * bs.length) (h : bs.length < 8) :
    Spec.num bs ||| b.setWidth 64 <<< k = Spec.num (bs ++ [b]) := by
  have h1 := leVal_lt bs
  have h2 := b.isLt
  have h3 := leVal_lt (bs ++ [b])
  have hp : (256 : Nat) ^ bs.length = 2 ^ k := by rw [hk, Nat.pow_mul]
  have hk' : 2 ^ k * 256 ≤ 2 ^ 64 := by
    rw [show (256 : Nat) = 2 ^ 8 from rfl, ← Nat.pow_add]
    exact Nat.pow_le_pow_right (by omega) (by omega)
  have h4 : b.toNat * 2 ^ k ≤ 255 * 2 ^ k := Nat.mul_le_mul_right _ (by omega)
  rw [hp] at h1
  apply BitVec.eq_of_toNat_eq
  simp only [Spec.num, BitVec.toNat_or, BitVec.toNat_shiftLeft, BitVec.toNat_setWidth, BitVec.toNat_ofNat]
  rw [leVal_append, hp, Nat.mod_eq_of_lt (a := b.toNat) (by omega),
    Nat.mod_eq_of_lt (a := leVal bs) (by omega),
    Nat.mod_eq_of_lt (a := b.toNat <<< k) (by rw [Nat.shiftLeft_eq]; omega), or_shift_eq_add h1]
  simp only [leVal, Nat.mul_zero, Nat.add_zero]
  rw [Nat.mul_comm (2 ^ k), Nat.mod_eq_of_lt (by omega)]

theorem add_num_append_byte (bs : List Byte) (b : Byte) {k : Nat} (hk : k = 8 * bs.length) :
    Spec.num bs + b.setWidth 64 <<< k = Spec.num (bs ++ [b]) := by
  have h2 := b.isLt
  have hp : (256 : Nat) ^ bs.length = 2 ^ k := by rw [hk, Nat.pow_mul]
  apply BitVec.eq_of_toNat_eq
  simp only [Spec.num, BitVec.toNat_add, BitVec.toNat_shiftLeft, BitVec.toNat_setWidth, BitVec.toNat_ofNat]
  rw [leVal_append, hp, Nat.mod_eq_of_lt (a := b.toNat) (by omega), Nat.shiftLeft_eq]
  simp only [leVal, Nat.mul_zero, Nat.add_zero]
  rw [← Nat.add_mod, Nat.mul_comm (2 ^ k)]

theorem num_eight (b0 b1 b2 b3 b4 b5 b6 b7 : Byte) :
    (b0.setWidth 64 ||| b1.setWidth 64 <<< 8 ||| b2.setWidth 64 <<< 16 ||| b3.setWidth 64 <<< 24 |||
      b4.setWidth 64 <<< 32 ||| b5.setWidth 64 <<< 40 ||| b6.setWidth 64 <<< 48 ||| b7.setWidth 64 <<< 56 : U64) =
      Spec.num [b0, b1, b2, b3, b4, b5, b6, b7] := by
  rw [setWidth_byte b0]
  rw [num_append_byte (k := 8) [b0] b1 rfl (by simp)]
  rw [num_append_byte (k := 16) ([b0] ++ [b1]) b2 rfl (by simp)]
  rw [num_append_byte (k := 24) ([b0] ++ [b1] ++ [b2]) b3 rfl (by simp)]
  rw [num_append_byte (k := 32) ([b0] ++ [b1] ++ [b2] ++ [b3]) b4 rfl (by simp)]
  rw [num_append_byte (k := 40) ([b0] ++ [b1] ++ [b2] ++ [b3] ++ [b4]) b5 rfl (by simp)]
  rw [num_append_byte (k := 48) ([b0] ++ [b1] ++ [b2] ++ [b3] ++ [b4] ++ [b5]) b6 rfl (by simp)]
  rw [num_append_byte (k := 56) ([b0] ++ [b1] ++ [b2] ++ [b3] ++ [b4] ++ [b5] ++ [b6]) b7 rfl (by simp)]
  rfl

/-! ## The zipper merge -/

theorem zipper_bytes (a b : U64) : Spec.zipper a b =
    (Spec.num [a.extractLsb' 24 8, b.extractLsb' 32 8, a.extractLsb' 16 8, a.extractLsb' 40 8,
      b.extractLsb' 48 8, a.extractLsb' 8 8, b.extractLsb' 56 8, a.extractLsb' 0 8],
     Spec.num [b.extractLsb' 24 8, a.extractLsb' 32 8, b.extractLsb' 16 8, b.extractLsb' 40 8,
      b.extractLsb' 8 8, a.extractLsb' 48 8, b.extractLsb' 0 8, a.extractLsb' 56 8]) := by
  have hla : (leBytes 8 a.toNat).length = 8 := leBytes_length _ _
  have e1 : ∀ j, j < 8 → (leBytes 8 a.toNat ++ leBytes 8 b.toNat).getD j 0#8 = a.extractLsb' (8 * j) 8 := by
    intro j hj
    rw [List.getD_eq_getElem?_getD, List.getElem?_append_left (by omega), ← List.getD_eq_getElem?_getD, leBytes_byte a j hj]
  have e2 : ∀ j, j < 8 → (leBytes 8 a.toNat ++ leBytes 8 b.toNat).getD (8 + j) 0#8 = b.extractLsb' (8 * j) 8 := by
    intro j hj
    rw [List.getD_eq_getElem?_getD, List.getElem?_append_right (by omega), ← List.getD_eq_getElem?_getD, hla,
      Nat.add_sub_cancel_left, leBytes_byte b j hj]
  unfold Spec.zipper
  simp only [List.map_cons, List.map_nil]
  refine Prod.ext (congrArg Spec.num ?_) (congrArg Spec.num ?_)
  · exact (congrArg₂ List.cons (e1 3 (by omega)) (congrArg₂ List.cons (e2 4 (by omega)) (congrArg₂ List.cons (e1 2 (by omega)) (congrArg₂ List.cons (e1 5 (by omega)) (congrArg₂ List.cons (e2 6 (by omega)) (congrArg₂ List.cons (e1 1 (by omega)) (congrArg₂ List.cons (e2 7 (by omega)) (congrArg₂ List.cons (e1 0 (by omega)) rfl))))))))
  · exact (congrArg₂ List.cons (e2 3 (by omega)) (congrArg₂ List.cons (e1 4 (by omega)) (congrArg₂ List.cons (e2 2 (by omega)) (congrArg₂ List.cons (e2 5 (by omega)) (congrArg₂ List.cons (e2 1 (by omega)) (congrArg₂ List.cons (e1 6 (by omega)) (congrArg₂ List.cons (e2 0 (by omega)) (congrArg₂ List.cons (e1 7 (by omega)) rfl))))))))

theorem zipperC (v1 v0 add1 add0 : U64) : HighwayC.ZipperMergeAndAdd v1 v0 add1 add0 =
    (add1 + (Spec.zipper v0 v1).2, add0 + (Spec.zipper v0 v1).1) := by
  rw [zipper_bytes]
  unfold HighwayC.ZipperMergeAndAdd
  simp only [← num_eight]
  refine Prod.ext (congrArg (add1 + ·) ?_) (congrArg (add0 + ·) ?_)
  · refine BitVec.eq_of_getLsbD_eq fun i hi => ?_
    interval_cases i <;> simp
  · refine BitVec.eq_of_getLsbD_eq fun i hi => ?_
    interval_cases i <;> simp

theorem getLsbD_255 (j : Nat) : (0xFF#64).getLsbD j = decide (j < 8) := by
  by_cases h : j < 8
  · interval_cases j <;> rfl
  · rw [decide_eq_false h, BitVec.getLsbD_ofNat, Nat.testBit_lt_two_pow, Bool.and_false]
    calc 255 < 2 ^ 8 := by decide
      _ ≤ 2 ^ j := Nat.pow_le_pow_right (by omega) (by omega)

theorem MASK_eq (v : U64) (k : Nat) :
    HighwayPortable.MASK v k = (v.extractLsb' (8 * k) 8).setWidth 64 <<< (8 * k) := by
  unfold HighwayPortable.MASK
  refine BitVec.eq_of_getLsbD_eq fun i hi => ?_
  rw [BitVec.getLsbD_and, BitVec.getLsbD_shiftLeft, BitVec.getLsbD_shiftLeft, getLsbD_255, BitVec.getLsbD_setWidth,
    BitVec.getLsbD_extractLsb', Nat.mul_comm k 8]
  by_cases h1 : i < 8 * k
  · simp [h1]
  · by_cases h2 : i - 8 * k < 8
    · rw [show 8 * k + (i - 8 * k) = i by omega]
      simp [h1, h2, hi, show i - 8 * k < 64 by omega]
    · simp [h2]

theorem toNat_MASK (v : U64) (k : Nat) (hk : k < 8) :
    (HighwayPortable.MASK v k).toNat = (v.extractLsb' (8 * k) 8).toNat * 2 ^ (8 * k) := by
  have h := (v.extractLsb' (8 * k) 8).isLt
  have h2 : (v.extractLsb' (8 * k) 8).toNat * 2 ^ (8 * k) < 2 ^ 64 := by
    calc (v.extractLsb' (8 * k) 8).toNat * 2 ^ (8 * k) < 2 ^ 8 * 2 ^ (8 * k) :=
          Nat.mul_lt_mul_of_pos_right h (Nat.two_pow_pos _)
      _ = 2 ^ (8 + 8 * k) := by rw [Nat.pow_add]
      _ ≤ 2 ^ 64 := Nat.pow_le_pow_right (by omega) (by omega)
  rw [MASK_eq v k, BitVec.toNat_shiftLeft, BitVec.toNat_setWidth, Nat.mod_eq_of_lt (a := BitVec.toNat _) (by omega),
    Nat.shiftLeft_eq, Nat.mod_eq_of_lt h2]

theorem toNat_num_eight (b0 b1 b2 b3 b4 b5 b6 b7 : Byte) : (Spec.num [b0, b1, b2, b3, b4, b5, b6, b7]).toNat =
    b0.toNat + b1.toNat * 2 ^ 8 + b2.toNat * 2 ^ 16 + b3.toNat * 2 ^ 24 + b4.toNat * 2 ^ 32 + b5.toNat * 2 ^ 40 +
      b6.toNat * 2 ^ 48 + b7.toNat * 2 ^ 56 := by
  have h : leVal [b0, b1, b2, b3, b4, b5, b6, b7] < 256 ^ 8 := leVal_lt [b0, b1, b2, b3, b4, b5, b6, b7]
  rw [show (256 : Nat) ^ 8 = 2 ^ 64 by decide] at h
  unfold Spec.num
  rw [BitVec.toNat_ofNat, Nat.mod_eq_of_lt h]
  simp only [leVal]
  omega

theorem zipperPortable (v1 v0 add1 add0 : U64) : HighwayPortable.ZipperMergeAndAdd v1 v0 add1 add0 =
    (add1 + (Spec.zipper v0 v1).2, add0 + (Spec.zipper v0 v1).1) := by
  have hb : ∀ b : Byte, b.toNat < 256 := fun b => b.isLt
  have h56 : (v0 <<< 56).toNat = (v0.extractLsb' 0 8).toNat * 2 ^ 56 := by
    rw [BitVec.toNat_shiftLeft, Nat.shiftLeft_eq, BitVec.extractLsb'_toNat]
    omega
  rw [zipper_bytes]
  unfold HighwayPortable.ZipperMergeAndAdd
  refine Prod.ext (congrArg (add1 + ·) ?_) (congrArg (add0 + ·) ?_)
  · apply BitVec.eq_of_toNat_eq
    rw [toNat_num_eight]
    simp only [BitVec.toNat_add, BitVec.toNat_shiftLeft, BitVec.toNat_ushiftRight, Nat.shiftLeft_eq,
      Nat.shiftRight_eq_div_pow, toNat_MASK _ _ (show 0 < 8 by decide), toNat_MASK _ _ (show 1 < 8 by decide),
      toNat_MASK _ _ (show 2 < 8 by decide), toNat_MASK _ _ (show 3 < 8 by decide),
      toNat_MASK _ _ (show 4 < 8 by decide), toNat_MASK _ _ (show 5 < 8 by decide),
      toNat_MASK _ _ (show 6 < 8 by decide), toNat_MASK _ _ (show 7 < 8 by decide)]
    simp only [Nat.reduceMul]
    have h0 := hb (v1.extractLsb' 24 8)
    have h1 := hb (v0.extractLsb' 32 8)
    have h2 := hb (v1.extractLsb' 16 8)
    have h3 := hb (v1.extractLsb' 40 8)
    have h4 := hb (v1.extractLsb' 8 8)
    have h5 := hb (v0.extractLsb' 48 8)
    have h6 := hb (v1.extractLsb' 0 8)
    have h7 := hb (v0.extractLsb' 56 8)
    omega
  · apply BitVec.eq_of_toNat_eq
    rw [toNat_num_eight]
    simp only [BitVec.toNat_add, BitVec.toNat_shiftLeft, BitVec.toNat_ushiftRight, Nat.shiftLeft_eq,
      Nat.shiftRight_eq_div_pow, toNat_MASK _ _ (show 1 < 8 by decide),
      toNat_MASK _ _ (show 2 < 8 by decide), toNat_MASK _ _ (show 3 < 8 by decide),
      toNat_MASK _ _ (show 4 < 8 by decide), toNat_MASK _ _ (show 5 < 8 by decide),
      toNat_MASK _ _ (show 6 < 8 by decide), toNat_MASK _ _ (show 7 < 8 by decide)]
    rw [show v0.toNat * 2 ^ 56 % 2 ^ 64 = (v0.extractLsb' 0 8).toNat * 2 ^ 56 by
      rw [← h56, BitVec.toNat_shiftLeft, Nat.shiftLeft_eq]]
    simp only [Nat.reduceMul]
    have h0 := hb (v0.extractLsb' 24 8)
    have h1 := hb (v1.extractLsb' 32 8)
    have h2 := hb (v0.extractLsb' 16 8)
    have h3 := hb (v0.extractLsb' 40 8)
    have h4 := hb (v1.extractLsb' 48 8)
    have h5 := hb (v0.extractLsb' 8 8)
    have h6 := hb (v1.extractLsb' 56 8)
    have h7 := hb (v0.extractLsb' 0 8)
    omega

/-! ## Absorbing four numbers -/

theorem halves_and (a b : U64) : (a &&& 0xffffffff#64) * (b >>> 32) = Spec.halves a b := by
  have hb := b.isLt
  unfold Spec.halves
  apply BitVec.eq_of_toNat_eq
  rw [BitVec.toNat_mul, BitVec.toNat_and, BitVec.toNat_ushiftRight, Nat.shiftRight_eq_div_pow,
    show (0xffffffff#64).toNat = 2 ^ 32 - 1 from rfl, Nat.and_two_pow_sub_one_eq_mod, BitVec.toNat_ofNat]

theorem halves_setWidth (a b : U64) : (a.setWidth 32).setWidth 64 * (b >>> 32) = Spec.halves a b := by
  unfold Spec.halves
  apply BitVec.eq_of_toNat_eq
  rw [BitVec.toNat_mul, BitVec.toNat_setWidth, BitVec.toNat_setWidth, BitVec.toNat_ushiftRight, BitVec.toNat_ofNat,
    Nat.shiftRight_eq_div_pow, Nat.mod_eq_of_lt (a := a.toNat % 2 ^ 32) (by omega)]

theorem UpdateC (l : Quad) (s : Highway) : HighwayC.Update l s = Spec.highwayUpdate s l := by
  unfold HighwayC.Update HighwayC.updateZip HighwayC.updateLane
  simp only [zipperC, halves_and]
  rfl

theorem add_lanes (a b c : U64) : a + b + c = a + (c + b) := by rw [BitVec.add_assoc, BitVec.add_comm b c]

theorem add_twice (l a b : Quad) :
    HighwayPortable.Add a (HighwayPortable.Add l b) = b.zip (· + ·) (a.zip (· + ·) l) := by
  unfold HighwayPortable.Add Quad.zip
  simp only [add_lanes]

theorem UpdatePortable (l : Quad) (s : Highway) : HighwayPortable.UpdateLanes l s = Spec.highwayUpdate s l := by
  unfold HighwayPortable.UpdateLanes HighwayPortable.updateLane
  simp only [zipperPortable, halves_setWidth, add_twice]
  rfl

/-! ## Start, rounds and result -/

theorem swap_eq (x : U64) : x >>> 32 ||| x <<< 32 = Spec.swap32 x := rfl

theorem ResetC (key : Quad) : HighwayC.HighwayHashReset_pure_c key = Spec.highwayStart key := rfl

theorem ResetPortable (key : Quad) : HighwayPortable.Reset key = Spec.highwayStart key := rfl

theorem roundsC (n : Nat) (s : Highway) : HighwayC.rounds n s = Spec.highwayRounds n s := by
  induction n generalizing s with
  | zero => rfl
  | succ n ih =>
    unfold HighwayC.rounds Spec.highwayRounds HighwayC.PermuteAndUpdate HighwayC.Permute
    rw [ih, UpdateC]
    rfl

theorem roundsPortable (n : Nat) (s : Highway) : HighwayPortable.rounds n s = Spec.highwayRounds n s := by
  induction n generalizing s with
  | zero => rfl
  | succ n ih =>
    unfold HighwayPortable.rounds Spec.highwayRounds HighwayPortable.PermuteAndUpdate HighwayPortable.Permute
    rw [ih, UpdatePortable]
    rfl

theorem reductionC (a3 a2 a1 a0 : U64) : HighwayC.ModularReduction a3 a2 a1 a0 =
    (((Spec.reduce a0 a1 a2 a3) >>> 64).setWidth 64, (Spec.reduce a0 a1 a2 a3).setWidth 64) := by
  have h3 : ∀ i, i < 64 → (0x3FFFFFFFFFFFFFFF#64).getLsbD i = decide (i < 62) := by decide
  have hm : a3 &&& 0x3FFFFFFFFFFFFFFF#64 = a3 <<< 2 >>> 2 := by
    refine BitVec.eq_of_getLsbD_eq fun i hi => ?_
    have := h3 i hi
    simp only [BitVec.getLsbD_and, BitVec.getLsbD_ushiftRight, BitVec.getLsbD_shiftLeft]
    rw [this]
    by_cases h : i < 62
    · simp [h, show 2 + i < 64 by omega]
    · simp [h, show ¬ 2 + i < 64 by omega]
  unfold HighwayC.ModularReduction Spec.reduce
  simp only [hm]
  generalize a3 <<< 2 >>> 2 = b
  refine Prod.ext ?_ ?_
  · refine BitVec.eq_of_getLsbD_eq fun i hi => ?_
    simp only [BitVec.getLsbD_xor, BitVec.getLsbD_or, BitVec.getLsbD_shiftLeft, BitVec.getLsbD_ushiftRight,
      BitVec.getLsbD_setWidth, BitVec.getLsbD_append]
    have h64 : ¬ 64 + i < 64 := by omega
    have e : 64 + i - 64 = i := by omega
    have h128 : 64 + i < 128 := by omega
    simp only [hi, h64, e, h128, decide_true, Bool.true_and, if_false]
    by_cases h0 : i = 0
    · subst h0; simp
    · by_cases h1 : i = 1
      · subst h1; simp
      · have q2 : ¬ 64 + i - 2 < 64 := by omega
        have q4 : 64 + i - 2 - 64 = i - 2 := by omega
        have q5 : ¬ i < 1 := by omega
        have q6 : ¬ i < 2 := by omega
        have q7 : ¬ 64 + i < 1 := by omega
        have q8 : ¬ 64 + i < 2 := by omega
        have r1 : a2.getLsbD (63 + i) = false := BitVec.getLsbD_of_ge _ _ (by omega)
        have r2 : a2.getLsbD (62 + i) = false := BitVec.getLsbD_of_ge _ _ (by omega)
        simp [q2, q4, q5, q6, q7, q8, r1, r2, show ¬ 63 + i < 64 by omega, show 63 + i - 64 = i - 1 by omega]
  · refine BitVec.eq_of_getLsbD_eq fun i hi => ?_
    simp only [BitVec.getLsbD_xor, BitVec.getLsbD_shiftLeft,
      BitVec.getLsbD_setWidth, BitVec.getLsbD_append]
    have h1 : i - 1 < 64 := by omega
    have h2 : i - 2 < 64 := by omega
    have h128 : i < 128 := by omega
    simp [hi, h1, h2, h128]

theorem reductionPortable (a3 a2 a1 a0 : U64) : HighwayPortable.ModularReduction a3 a2 a1 a0 =
    HighwayC.ModularReduction a3 a2 a1 a0 := rfl

theorem finalize64C (s : Highway) : HighwayC.HighwayHashFinalize64_pure_c s = Spec.highwayResult64 s := by
  unfold HighwayC.HighwayHashFinalize64_pure_c Spec.highwayResult64
  rw [roundsC]

theorem finalize64Portable (s : Highway) : HighwayPortable.Finalize64 s = Spec.highwayResult64 s := by
  unfold HighwayPortable.Finalize64 Spec.highwayResult64
  rw [roundsPortable]

theorem finalize128C (s : Highway) : HighwayC.HighwayHashFinalize128_pure_c s = Spec.highwayResult128 s := by
  unfold HighwayC.HighwayHashFinalize128_pure_c Spec.highwayResult128
  rw [roundsC]

theorem finalize128Portable (s : Highway) : HighwayPortable.Finalize128 s = Spec.highwayResult128 s := by
  unfold HighwayPortable.Finalize128 Spec.highwayResult128
  rw [roundsPortable]

theorem finalize256C (s : Highway) : HighwayC.HighwayHashFinalize256_pure_c s = Spec.highwayResult256 s := by
  unfold HighwayC.HighwayHashFinalize256_pure_c Spec.highwayResult256
  rw [roundsC]
  simp only [reductionC]
  rfl

theorem finalize256Portable (s : Highway) : HighwayPortable.Finalize256 s = Spec.highwayResult256 s := by
  unfold HighwayPortable.Finalize256 Spec.highwayResult256
  rw [roundsPortable]
  simp only [reductionPortable, reductionC]
  rfl

/-! ## Rotating halves -/

theorem rotHalves_eq (n : Nat) (hn : n < 32) (x : U64) :
    Spec.rotHalves n x = ((x >>> 32).setWidth 32 <<< n ||| (x >>> 32).setWidth 32 >>> (32 - n) : U32) ++
      (x.setWidth 32 <<< n ||| x.setWidth 32 >>> (32 - n) : U32) := by
  unfold Spec.rotHalves
  rw [BitVec.rotateLeft_def, BitVec.rotateLeft_def, Nat.mod_eq_of_lt hn]
  rfl

theorem rotatePortable (n : Nat) (h0 : 0 < n) (hn : n < 32) (x : U64) :
    HighwayPortable.rotateHalves n x = pure (Spec.rotHalves n x) := by
  unfold HighwayPortable.rotateHalves
  rw [if_neg (by omega), rotHalves_eq n hn]

theorem rotateC (n : Nat) (h0 : 0 < n) (hn : n < 32) (x : U64) :
    HighwayC.rotateLane n x = pure (Spec.rotHalves n x) := by
  unfold HighwayC.rotateLane
  rw [if_neg (by omega), rotHalves_eq n hn]
  have e : (x &&& 0xffffffff#64).setWidth 32 = x.setWidth 32 := by
    apply BitVec.eq_of_toNat_eq
    rw [BitVec.toNat_setWidth, BitVec.toNat_setWidth, BitVec.toNat_and,
      show (0xffffffff#64).toNat = 2 ^ 32 - 1 from rfl, Nat.and_two_pow_sub_one_eq_mod]
    omega
  simp only [e]
  refine congrArg pure (BitVec.eq_of_toNat_eq ?_)
  rw [toNat_append_add, BitVec.toNat_or, BitVec.toNat_shiftLeft, BitVec.toNat_setWidth, BitVec.toNat_setWidth]
  generalize (x >>> 32).setWidth 32 <<< n ||| (x >>> 32).setWidth 32 >>> (32 - n) = hi
  generalize x.setWidth 32 <<< n ||| x.setWidth 32 >>> (32 - n) = lo
  have h1 := hi.isLt
  have h2 := lo.isLt
  rw [Nat.mod_eq_of_lt (a := lo.toNat) (by omega), Nat.mod_eq_of_lt (a := hi.toNat) (by omega),
    Nat.mod_eq_of_lt (by rw [Nat.shiftLeft_eq]; omega), or_shift_eq_add h2]
  omega

end T1ha.Model
