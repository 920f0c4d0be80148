import Verif.Proofs.HighwayPure
import Verif.Model.HighwaySimd

/-!
# HighwayHash with SSE4.1 and AVX2 computes its specification: the pure part
-/

namespace T1ha.X86

open Model

/-! ## Lanes -/

theorem lane0_set (h l : U64) : lane0 (set64x h l) = l := by
  unfold lane0 set64x
  rw [BitVec.setWidth_append]
  simp

theorem bit_set (a b : U64) (i : Nat) : (set64x a b).getLsbD i = if i < 64 then b.getLsbD i else a.getLsbD (i - 64) :=
  BitVec.getLsbD_append

theorem lane1_set (h l : U64) : lane1 (set64x h l) = h := by
  refine BitVec.eq_of_getLsbD_eq fun i hi => ?_
  simp [lane1, bit_set, hi]

theorem set_lanes (x : U128) : set64x (lane1 x) (lane0 x) = x := by
  refine BitVec.eq_of_getLsbD_eq fun i hi => ?_
  simp only [lane1, lane0, set64x, BitVec.getLsbD_append, BitVec.getLsbD_setWidth, BitVec.getLsbD_ushiftRight]
  by_cases h : i < 64
  · simp [h]
  · simp [h, show i - 64 < 64 by omega, show 64 + (i - 64) = i by omega]

theorem add64_set (a b c d : U64) : add64 (set64x a b) (set64x c d) = set64x (a + c) (b + d) := by
  simp only [add64, lane0_set, lane1_set]

theorem xor_set (a b c d : U64) : xor (set64x a b) (set64x c d) = set64x (a ^^^ c) (b ^^^ d) :=
  (BitVec.xor_append ..)

theorem or_set (a b c d : U64) : or (set64x a b) (set64x c d) = set64x (a ||| c) (b ||| d) :=
  (BitVec.or_append ..)

theorem and_set (a b c d : U64) : and (set64x a b) (set64x c d) = set64x (a &&& c) (b &&& d) :=
  (BitVec.and_append ..)

theorem andnot_set (a b c d : U64) : andnot (set64x a b) (set64x c d) = set64x (~~~a &&& c) (~~~b &&& d) := by
  unfold andnot
  rw [← and_set]
  unfold and set64x
  rw [BitVec.not_append]

theorem srli_set (a b : U64) (n : Nat) : srli64 (set64x a b) n = set64x (a >>> n) (b >>> n) := by
  simp only [srli64, lane0_set, lane1_set]

theorem slli_set (a b : U64) (n : Nat) : slli64 (set64x a b) n = set64x (a <<< n) (b <<< n) := by
  simp only [slli64, lane0_set, lane1_set]

theorem slli8_set (a b : U64) : slliSi128 (set64x a b) 8 = set64x b 0 := by
  refine BitVec.eq_of_getLsbD_eq fun i hi => ?_
  simp only [slliSi128, set64x, BitVec.getLsbD_append, BitVec.getLsbD_shiftLeft]
  by_cases h : i < 64
  · simp [h]
  · simp [h, hi, show i - 64 < 64 by omega]

theorem unpack_set (a b c d : U64) : unpacklo64 (set64x a b) (set64x c d) = set64x d b := by
  simp only [unpacklo64, lane0_set]

theorem cmpeq_self (x : U128) : cmpeq64 x x = set64x (BitVec.allOnes 64) (BitVec.allOnes 64) := by
  simp [cmpeq64]

/-- The low and the high half of a number. -/
def low (x : U64) : U32 := x.setWidth 32
def high (x : U64) : U32 := (x >>> 32).setWidth 32

theorem set32_eq (a b c d : U32) : set32 a b c d = set64x (a ++ b) (c ++ d) := by
  refine BitVec.eq_of_getLsbD_eq fun i hi => ?_
  simp only [set32, set64x, BitVec.getLsbD_append]
  by_cases h1 : i < 32
  · simp [h1, show i < 64 by omega]
  · by_cases h2 : i < 64
    · simp [h1, h2, show i - 32 < 32 by omega]
    · by_cases h3 : i < 96
      · simp [h1, h2, show ¬ i - 32 < 32 by omega, show i - 64 < 32 by omega,
          show i - 32 - 32 = i - 64 by omega]
      · simp [h1, h2, show ¬ i - 32 < 32 by omega, show ¬ i - 32 - 32 < 32 by omega, show ¬ i - 64 < 32 by omega,
          show i - 32 - 32 - 32 = i - 64 - 32 by omega]

theorem lane32_0 (a b : U64) : lane32 (set64x a b) 0 = low b := by
  refine BitVec.eq_of_getLsbD_eq fun i hi => ?_
  simp [lane32, bit_set, low, hi, show i < 64 by omega]

theorem lane32_1 (a b : U64) : lane32 (set64x a b) 1 = high b := by
  refine BitVec.eq_of_getLsbD_eq fun i hi => ?_
  simp [lane32, bit_set, high, hi, show 32 + i < 64 by omega]

theorem lane32_2 (a b : U64) : lane32 (set64x a b) 2 = low a := by
  refine BitVec.eq_of_getLsbD_eq fun i hi => ?_
  simp [lane32, bit_set, low, hi]

theorem lane32_3 (a b : U64) : lane32 (set64x a b) 3 = high a := by
  refine BitVec.eq_of_getLsbD_eq fun i hi => ?_
  simp [lane32, bit_set, high, hi, show ¬ 96 + i < 64 by omega, show 96 + i - 64 = 32 + i by omega]

theorem bit_append (a b : U32) (i : Nat) : (a ++ b : U64).getLsbD i = if i < 32 then b.getLsbD i else a.getLsbD (i - 32) :=
  BitVec.getLsbD_append

theorem low_append (a b : U32) : low (a ++ b) = b := by
  refine BitVec.eq_of_getLsbD_eq fun i hi => ?_
  simp [low, bit_append, hi]

theorem high_append (a b : U32) : high (a ++ b) = a := by
  refine BitVec.eq_of_getLsbD_eq fun i hi => ?_
  simp [high, bit_append, hi]

theorem append_halves (x : U64) : high x ++ low x = x := by
  refine BitVec.eq_of_getLsbD_eq fun i hi => ?_
  simp only [high, low, BitVec.getLsbD_append, BitVec.getLsbD_setWidth, BitVec.getLsbD_ushiftRight]
  by_cases h : i < 32
  · simp [h]
  · simp [h, show i - 32 < 32 by omega, show 32 + (i - 32) = i by omega]

theorem swap_halves (x : U64) : low x ++ high x = Spec.swap32 x := by
  refine BitVec.eq_of_getLsbD_eq fun i hi => ?_
  simp only [high, low, Spec.swap32, BitVec.getLsbD_append, BitVec.getLsbD_setWidth, BitVec.getLsbD_ushiftRight,
    BitVec.getLsbD_rotateRight]
  by_cases h : i < 32
  · simp [h]
  · simp [h, show i - 32 < 32 by omega, hi]

theorem rot_set (a b : U64) : shuffle32 (set64x a b) 0xB1 = set64x (Spec.swap32 a) (Spec.swap32 b) := by
  have : shuffle32 (set64x a b) 0xB1 = set32 (lane32 (set64x a b) 2) (lane32 (set64x a b) 3)
      (lane32 (set64x a b) 0) (lane32 (set64x a b) 1) := rfl
  rw [this, set32_eq, lane32_0, lane32_1, lane32_2, lane32_3, swap_halves, swap_halves]

theorem mul_srl (a b c d : U64) : mulEpu32 (set64x a b) (srli64 (set64x c d) 32) =
    set64x (Spec.halves a c) (Spec.halves b d) := by
  have h : ∀ x : U64, (x >>> 32).toNat % 2 ^ 32 = x.toNat / 2 ^ 32 := by
    intro x
    have := x.isLt
    rw [BitVec.toNat_ushiftRight, Nat.shiftRight_eq_div_pow, Nat.mod_eq_of_lt]
    omega
  simp only [srli_set, mulEpu32, lane0_set, lane1_set, h, Spec.halves]

theorem mul_rot (a b c d : U64) : mulEpu32 (set64x a b) (set64x (Spec.swap32 c) (Spec.swap32 d)) =
    set64x (Spec.halves a c) (Spec.halves b d) := by
  have h : ∀ x : U64, (Spec.swap32 x).toNat % 2 ^ 32 = x.toNat / 2 ^ 32 := by
    intro x
    have h1 : (Spec.swap32 x).setWidth 32 = high x := by
      rw [← swap_halves]
      exact low_append _ _
    have := x.isLt
    have h2 := congrArg BitVec.toNat h1
    rw [BitVec.toNat_setWidth] at h2
    rw [h2, high, BitVec.toNat_setWidth, BitVec.toNat_ushiftRight, Nat.shiftRight_eq_div_pow, Nat.mod_eq_of_lt]
    omega
  simp only [mulEpu32, lane0_set, lane1_set, h, Spec.halves]

/-! ## Bytes -/

theorem toList_length (v : U128) : (toList v).length = 16 := leBytes_length _ _

theorem ofBytes_eq (f : Nat → Byte) : ofBytes f = ofList ((List.range 16).map f) := rfl

theorem leVal_of_bytes (n v : Nat) (h : v < 256 ^ n) : leVal (leBytes n v) = v := by
  rw [leVal_leBytes, Nat.mod_eq_of_lt h]

theorem ofList_toList (v : U128) : ofList (toList v) = v := by
  unfold ofList toList
  rw [leVal_of_bytes 16 _ (by have := v.isLt; simpa using this)]
  simp

theorem toList_ofList (l : List Byte) (h : l.length = 16) : toList (ofList l) = l := by
  have h2 := leVal_lt l
  rw [h] at h2
  unfold toList ofList
  rw [BitVec.toNat_ofNat, Nat.mod_eq_of_lt (by simpa using h2)]
  rw [← h]
  exact leBytes_leVal l

theorem byteAt_eq (v : U128) (i : Nat) (h : i < 16) : byteAt v i = (toList v).getD i 0#8 := by
  unfold toList byteAt
  rw [leBytes_getD _ _ _ h]
  apply BitVec.eq_of_toNat_eq
  rw [BitVec.toNat_setWidth, BitVec.toNat_ushiftRight, BitVec.toNat_ofNat, Nat.shiftRight_eq_div_pow, Nat.pow_mul]

theorem ofList_set (a b : List Byte) (ha : a.length = 8) (hb : b.length = 8) :
    ofList (a ++ b) = set64x (Spec.num b) (Spec.num a) := by
  have h1 := leVal_lt a
  have h2 := leVal_lt b
  rw [ha] at h1
  rw [hb] at h2
  have e8 : (256 : Nat) ^ 8 = 2 ^ 64 := by decide
  rw [e8] at h1 h2
  apply BitVec.eq_of_toNat_eq
  unfold ofList set64x Spec.num
  rw [BitVec.toNat_append, BitVec.toNat_ofNat, BitVec.toNat_ofNat, BitVec.toNat_ofNat, leVal_append, ha, e8,
    Nat.mod_eq_of_lt h1, Nat.mod_eq_of_lt h2, Nat.shiftLeft_eq, Nat.mod_eq_of_lt (by omega), Nat.mul_comm,
    Nat.or_comm, ← Nat.shiftLeft_eq, or_shift_eq_add h1, Nat.shiftLeft_eq]

theorem toList_set (a b : U64) : toList (set64x a b) = leBytes 8 b.toNat ++ leBytes 8 a.toNat := by
  have h := ofList_set (leBytes 8 b.toNat) (leBytes 8 a.toNat) (leBytes_length _ _) (leBytes_length _ _)
  have hn : ∀ x : U64, Spec.num (leBytes 8 x.toNat) = x := by
    intro x
    unfold Spec.num
    rw [leVal_of_bytes 8 _ (by have := x.isLt; simpa using this)]
    simp
  rw [hn, hn] at h
  rw [← h, toList_ofList _ (by rw [List.length_append, leBytes_length, leBytes_length])]

theorem zipper_set (a b : U64) : HighwaySse41.ZipperMerge (set64x a b) =
    set64x (Spec.zipper b a).2 (Spec.zipper b a).1 := by
  unfold HighwaySse41.ZipperMerge shuffle8
  have hc : ∀ i, i < 16 → byteAt (set64x 0x070806090D0A040B 0x000F010E05020C03) i =
      BitVec.ofNat 8 ([3, 12, 2, 5, 14, 1, 15, 0, 11, 4, 10, 13, 9, 6, 8, 7].getD i 0) := by decide
  have hx : ∀ i, i < 16 → byteAt (set64x a b) i = (leBytes 8 b.toNat ++ leBytes 8 a.toNat).getD i 0#8 := by
    intro i hi
    rw [byteAt_eq _ _ hi, toList_set]
  rw [ofBytes_eq]
  have hl : (List.range 16).map (fun i => if (byteAt (set64x 0x070806090D0A040B 0x000F010E05020C03) i).msb then 0
      else byteAt (set64x a b) ((byteAt (set64x 0x070806090D0A040B 0x000F010E05020C03) i).toNat % 16)) =
      ([3, 12, 2, 5, 14, 1, 15, 0].map fun i => (leBytes 8 b.toNat ++ leBytes 8 a.toNat).getD i 0#8) ++
      ([11, 4, 10, 13, 9, 6, 8, 7].map fun i => (leBytes 8 b.toNat ++ leBytes 8 a.toNat).getD i 0#8) := by
    have : ∀ i ∈ List.range 16, (if (byteAt (set64x 0x070806090D0A040B 0x000F010E05020C03) i).msb then (0 : Byte)
      else byteAt (set64x a b) ((byteAt (set64x 0x070806090D0A040B 0x000F010E05020C03) i).toNat % 16)) =
      (leBytes 8 b.toNat ++ leBytes 8 a.toNat).getD ([3, 12, 2, 5, 14, 1, 15, 0, 11, 4, 10, 13, 9, 6, 8, 7].getD i 0) 0#8 := by
      intro i hi
      have hi' := List.mem_range.1 hi
      rw [hc i hi', hx _ (Nat.mod_lt _ (by omega))]
      have h1 : ∀ i, i < 16 → (BitVec.ofNat 8 ([3, 12, 2, 5, 14, 1, 15, 0, 11, 4, 10, 13, 9, 6, 8, 7].getD i 0)).msb = false := by
        decide
      have h2 : ∀ i, i < 16 → (BitVec.ofNat 8 ([3, 12, 2, 5, 14, 1, 15, 0, 11, 4, 10, 13, 9, 6, 8, 7].getD i 0)).toNat % 16 =
          [3, 12, 2, 5, 14, 1, 15, 0, 11, 4, 10, 13, 9, 6, 8, 7].getD i 0 := by decide
      rw [h1 i hi', h2 i hi']
      rfl
    rw [List.map_congr_left this]
    rfl
  rw [hl, ofList_set _ _ rfl rfl]
  rfl

end T1ha.X86

namespace T1ha.Model

open Spec (Highway)
open X86

/-! ## SSE4.1 -/

/-- A state as SSE4.1 vectors. -/
def repSse (s : Highway) : HighwaySse41.State where
  v0L := set64x s.v0.x1 s.v0.x0
  v0H := set64x s.v0.x3 s.v0.x2
  v1L := set64x s.v1.x1 s.v1.x0
  v1H := set64x s.v1.x3 s.v1.x2
  mul0L := set64x s.mul0.x1 s.mul0.x0
  mul0H := set64x s.mul0.x3 s.mul0.x2
  mul1L := set64x s.mul1.x1 s.mul1.x0
  mul1H := set64x s.mul1.x3 s.mul1.x2

theorem ResetSse (key : Quad) : HighwaySse41.Reset key = repSse (Spec.highwayStart key) := by
  simp only [HighwaySse41.Reset, HighwaySse41.Rotate64By32, rot_set, xor_set, repSse, Spec.highwayStart, Quad.zip,
    Quad.map, Spec.highwayInit0, Spec.highwayInit1, BitVec.xor_comm key.x0, BitVec.xor_comm key.x1,
    BitVec.xor_comm key.x2, BitVec.xor_comm key.x3, BitVec.xor_comm (Spec.swap32 _)]

theorem UpdateSse (l : Quad) (s : Highway) :
    HighwaySse41.UpdateLanes (set64x l.x3 l.x2) (set64x l.x1 l.x0) (repSse s) = repSse (Spec.highwayUpdate s l) := by
  simp only [HighwaySse41.UpdateLanes, HighwaySse41.Rotate64By32, repSse, rot_set, add64_set, mul_rot, mul_srl, xor_set,
    zipper_set, Spec.highwayUpdate, Quad.zip, Spec.zipper4, add_lanes]

theorem permuteSse (s : Highway) : HighwaySse41.PermuteAndUpdate (repSse s) = repSse (Spec.highwayUpdate s
    ⟨Spec.swap32 s.v0.x2, Spec.swap32 s.v0.x3, Spec.swap32 s.v0.x0, Spec.swap32 s.v0.x1⟩) := by
  rw [← UpdateSse]
  simp only [HighwaySse41.PermuteAndUpdate, HighwaySse41.Rotate64By32, repSse, rot_set]

theorem roundsSse (n : Nat) (s : Highway) : HighwaySse41.rounds n (repSse s) = repSse (Spec.highwayRounds n s) := by
  induction n generalizing s with
  | zero => rfl
  | succ n ih =>
    unfold HighwaySse41.rounds
    rw [permuteSse, ih]
    rfl

theorem twice (x : U64) : x + x = x <<< 1 := by
  apply BitVec.eq_of_toNat_eq
  rw [BitVec.toNat_add, BitVec.toNat_shiftLeft, Nat.shiftLeft_eq]
  congr 1
  omega

theorem four_times (x : U64) : x + x + (x + x) = x <<< 2 := by
  apply BitVec.eq_of_toNat_eq
  rw [twice, twice, BitVec.toNat_shiftLeft, BitVec.toNat_shiftLeft, BitVec.toNat_shiftLeft, Nat.shiftLeft_eq, Nat.shiftLeft_eq,
    Nat.shiftLeft_eq]
  omega

theorem sign_bit : insert32_3 0 0x80000000 = set64x 0x8000000000000000 0 := by decide

/-- The high number of the reduction. -/
theorem reduce_high (a3 a2 a1 : U64) :
    a1 ^^^ (a3 + a3 + (a3 + a3)) ^^^ a2 >>> 62 ^^^ (~~~0x8000000000000000#64 &&& (a3 + a3)) ^^^ a2 >>> 63 =
      (HighwayPortable.ModularReduction a3 a2 a1 0).1 := by
  have h3 : ∀ i, i < 64 → (0x3FFFFFFFFFFFFFFF#64).getLsbD i = decide (i < 62) := by decide
  have h4 : ∀ i, i < 64 → (~~~0x8000000000000000#64).getLsbD i = decide (i < 63) := by decide
  rw [four_times, twice]
  unfold HighwayPortable.ModularReduction HighwayPortable.Shift128Left
  refine BitVec.eq_of_getLsbD_eq fun i hi => ?_
  simp only [BitVec.getLsbD_xor, BitVec.getLsbD_or, BitVec.getLsbD_and, BitVec.getLsbD_shiftLeft,
    BitVec.getLsbD_ushiftRight]
  rw [h4 i hi]
  by_cases h0 : i = 0
  · subst h0; simp
    exact Bool.xor_comm _ _
  · by_cases h1 : i = 1
    · subst h1; simp
      exact Bool.xor_comm _ _
    · have q5 : ¬ i < 1 := by omega
      have q6 : ¬ i < 2 := by omega
      have r1 : a2.getLsbD (63 + i) = false := BitVec.getLsbD_of_ge _ _ (by omega)
      have r2 : a2.getLsbD (62 + i) = false := BitVec.getLsbD_of_ge _ _ (by omega)
      rw [h3 (i - 1) (by omega), h3 (i - 2) (by omega)]
      simp only [q5, q6, r1, r2, hi, show i - 2 < 62 by omega, decide_true, decide_false, Bool.not_false, Bool.true_and,
        Bool.and_true, Bool.xor_false, Bool.or_false, Nat.reduceSub]
      by_cases h63 : i < 63
      · simp only [h63, show i - 1 < 62 by omega, decide_true, Bool.true_and, Bool.and_true]
        cases a1.getLsbD i <;> cases a3.getLsbD (i - 1) <;> cases a3.getLsbD (i - 2) <;> rfl
      · simp only [h63, show ¬ i - 1 < 62 by omega, decide_false, Bool.false_and, Bool.and_false]
        cases a1.getLsbD i <;> cases a3.getLsbD (i - 2) <;> rfl

/-- The low number of the reduction. -/
theorem reduce_low (a3 a2 a1 a0 : U64) :
    a0 ^^^ (a2 + a2 + (a2 + a2)) ^^^ 0#64 ^^^ (~~~0#64 &&& (a2 + a2)) ^^^ 0#64 =
      (HighwayPortable.ModularReduction a3 a2 a1 a0).2 := by
  rw [four_times, twice]
  unfold HighwayPortable.ModularReduction HighwayPortable.Shift128Left
  simp only [BitVec.xor_zero, show ~~~0#64 = BitVec.allOnes 64 from rfl, BitVec.allOnes_and]
  rw [BitVec.xor_assoc, BitVec.xor_comm (a2 <<< 2), ← BitVec.xor_assoc]

theorem reductionSse (a3 a2 a1 a0 : U64) : HighwaySse41.ModularReduction (set64x a3 a2) (set64x a1 a0) =
    Spec.reduce a0 a1 a2 a3 := by
  have h : HighwaySse41.ModularReduction (set64x a3 a2) (set64x a1 a0) =
      set64x (HighwayPortable.ModularReduction a3 a2 a1 a0).1 (HighwayPortable.ModularReduction a3 a2 a1 a0).2 := by
    unfold HighwaySse41.ModularReduction HighwaySse41.XorByShift128Left12
    simp only [sign_bit, srli_set, add64_set, slli8_set, xor_set, andnot_set]
    exact congrArg₂ set64x (reduce_high a3 a2 a1) (reduce_low a3 a2 a1 a0)
  rw [h, reductionPortable, reductionC]
  exact set_lanes _

theorem finalize64Sse (s : Highway) : HighwaySse41.Finalize64 (repSse s) = Spec.highwayResult64 s := by
  unfold HighwaySse41.Finalize64 Spec.highwayResult64
  rw [roundsSse]
  generalize Spec.highwayRounds 4 s = s
  simp only [repSse, add64_set, lane0_set]
  ac_rfl

theorem finalize128Sse (s : Highway) : HighwaySse41.Finalize128 (repSse s) = Spec.highwayResult128 s := by
  unfold HighwaySse41.Finalize128 Spec.highwayResult128
  rw [roundsSse]
  generalize Spec.highwayRounds 6 s = s
  simp only [repSse, add64_set, lane0_set, lane1_set, BitVec.add_assoc]

theorem finalize256Sse (s : Highway) : HighwaySse41.Finalize256 (repSse s) = Spec.highwayResult256 s := by
  unfold HighwaySse41.Finalize256 Spec.highwayResult256
  rw [roundsSse]
  generalize Spec.highwayRounds 10 s = s
  simp only [repSse, add64_set, reductionSse]
  rfl

/-- Numbers of 32 bits, twice. -/
theorem set1_eq (n : Nat) (h : n < 32) :
    set1_32 (BitVec.ofNat 32 n) = set64x (BitVec.ofNat 64 n <<< 32 + BitVec.ofNat 64 n)
      (BitVec.ofNat 64 n <<< 32 + BitVec.ofNat 64 n) := by
  have : ∀ n, n < 32 → set1_32 (BitVec.ofNat 32 n) = set64x (BitVec.ofNat 64 n <<< 32 + BitVec.ofNat 64 n)
      (BitVec.ofNat 64 n <<< 32 + BitVec.ofNat 64 n) := by decide
  exact this n h

theorem map32_set (f : U32 → U32) (a b : U64) : map32 f (set64x a b) =
    set64x (f (high a) ++ f (low a)) (f (high b) ++ f (low b)) := by
  unfold map32
  rw [lane32_0, lane32_1, lane32_2, lane32_3, set32_eq]

theorem append_or (a b c d : U32) : ((a ++ b : U64) ||| (c ++ d : U64)) = (a ||| c) ++ (b ||| d) := BitVec.or_append ..

theorem rotateSse (n : Nat) (h0 : 0 < n) (hn : n < 32) (a b : U64) :
    HighwaySse41.Rotate32By (set64x a b) (BitVec.ofNat 64 n) =
      set64x (Spec.rotHalves n a) (Spec.rotHalves n b) := by
  have h1 : (BitVec.ofNat 64 n).toNat = n := by rw [BitVec.toNat_ofNat, Nat.mod_eq_of_lt (by omega)]
  have h2 : (32 - BitVec.ofNat 64 n : U64).toNat = 32 - n := by
    rw [BitVec.toNat_sub, h1]
    have : (32 : U64).toNat = 32 := rfl
    rw [this]
    omega
  unfold HighwaySse41.Rotate32By sll32 srl32 cvtsi64
  simp only [lane0_set, h1, h2]
  rw [if_neg (by omega), if_neg (by omega), map32_set, map32_set, or_set, append_or, append_or, rotHalves_eq n hn, rotHalves_eq n hn]
  rfl

/-! ## AVX2 -/

/-- A state of the specification as the AVX2 code holds it. -/
def repAvx (s : Highway) : HighwayAvx2.State where
  v0 := ⟨set64x s.v0.x1 s.v0.x0, set64x s.v0.x3 s.v0.x2⟩
  v1 := ⟨set64x s.v1.x1 s.v1.x0, set64x s.v1.x3 s.v1.x2⟩
  mul0 := ⟨set64x s.mul0.x1 s.mul0.x0, set64x s.mul0.x3 s.mul0.x2⟩
  mul1 := ⟨set64x s.mul1.x1 s.mul1.x0, set64x s.mul1.x3 s.mul1.x2⟩

theorem ResetAvx (key : Quad) : HighwayAvx2.Reset key = repAvx (Spec.highwayStart key) := by
  simp only [HighwayAvx2.Reset, HighwayAvx2.Rotate64By32, U256.zip, U256.map, set256, rot_set, xor_set, repAvx,
    Spec.highwayStart, Quad.zip, Quad.map, Spec.highwayInit0, Spec.highwayInit1, BitVec.xor_comm key.x0,
    BitVec.xor_comm key.x1, BitVec.xor_comm key.x2, BitVec.xor_comm key.x3, BitVec.xor_comm (Spec.swap32 _)]

theorem zipperAvx (a b c d : U64) : HighwayAvx2.ZipperMerge ⟨set64x a b, set64x c d⟩ =
    ⟨HighwaySse41.ZipperMerge (set64x a b), HighwaySse41.ZipperMerge (set64x c d)⟩ := rfl

theorem UpdateAvx (l : Quad) (s : Highway) :
    HighwayAvx2.UpdateHalves (set64x l.x3 l.x2) (set64x l.x1 l.x0) (repAvx s) = repAvx (Spec.highwayUpdate s l) := by
  simp only [HighwayAvx2.UpdateHalves, HighwayAvx2.UpdateLanes, U256.zip, U256.map, repAvx, add64_set, mul_srl, xor_set,
    zipperAvx, zipper_set, Spec.highwayUpdate, Quad.zip, Spec.zipper4, add_lanes]

theorem permute_set (a b c d : U64) : HighwayAvx2.Permute ⟨set64x b a, set64x d c⟩ =
    ⟨set64x (Spec.swap32 d) (Spec.swap32 c), set64x (Spec.swap32 b) (Spec.swap32 a)⟩ := by
  have : HighwayAvx2.Permute ⟨set64x b a, set64x d c⟩ =
      ⟨set32 (lane32 (set64x d c) 2) (lane32 (set64x d c) 3) (lane32 (set64x d c) 0) (lane32 (set64x d c) 1),
       set32 (lane32 (set64x b a) 2) (lane32 (set64x b a) 3) (lane32 (set64x b a) 0) (lane32 (set64x b a) 1)⟩ := rfl
  rw [this, set32_eq, set32_eq]
  simp only [lane32_0, lane32_1, lane32_2, lane32_3, swap_halves]

theorem permuteAvx (s : Highway) : HighwayAvx2.UpdateLanes (HighwayAvx2.Permute (repAvx s).v0) (repAvx s) =
    repAvx (Spec.highwayUpdate s
      ⟨Spec.swap32 s.v0.x2, Spec.swap32 s.v0.x3, Spec.swap32 s.v0.x0, Spec.swap32 s.v0.x1⟩) := by
  rw [← UpdateAvx]
  have : HighwayAvx2.Permute (repAvx s).v0 = _ := permute_set s.v0.x0 s.v0.x1 s.v0.x2 s.v0.x3
  rw [this]
  rfl

theorem roundsAvx (n : Nat) (s : Highway) : HighwayAvx2.rounds n (repAvx s) = repAvx (Spec.highwayRounds n s) := by
  induction n generalizing s with
  | zero => rfl
  | succ n ih =>
    unfold HighwayAvx2.rounds
    rw [permuteAvx, ih]
    rfl

theorem upper_bit : slli64 (set64x (BitVec.allOnes 64) 0) 63 =
    set64x 0x8000000000000000 0 := by decide

/-- The two numbers of the reduction in a half of the vectors. -/
theorem xorAvx (x3 x2 x1 x0 y3 y2 y1 y0 : U64) :
    HighwayAvx2.ModularReduction ⟨set64x x3 x2, set64x y3 y2⟩ ⟨set64x x1 x0, set64x y1 y0⟩ =
      ⟨Spec.reduce x0 x1 x2 x3, Spec.reduce y0 y1 y2 y3⟩ := by
  rw [← reductionSse, ← reductionSse]
  unfold HighwayAvx2.ModularReduction HighwayAvx2.XorByShift128Left12 HighwaySse41.ModularReduction
    HighwaySse41.XorByShift128Left12
  simp only [U256.zip, U256.map, cmpeq_self, upper_bit, sign_bit, srli_set, add64_set, slli8_set, xor_set, andnot_set, unpack_set,
    BitVec.xor_self]
  ac_rfl

theorem finalize64Avx (s : Highway) : HighwayAvx2.Finalize64 (repAvx s) = Spec.highwayResult64 s := by
  unfold HighwayAvx2.Finalize64 Spec.highwayResult64
  rw [roundsAvx]
  generalize Spec.highwayRounds 4 s = s
  simp only [repAvx, U256.zip, add64_set, lane0_set]
  ac_rfl

theorem finalize128Avx (s : Highway) : HighwayAvx2.Finalize128 (repAvx s) = Spec.highwayResult128 s := by
  unfold HighwayAvx2.Finalize128 Spec.highwayResult128
  rw [roundsAvx]
  generalize Spec.highwayRounds 6 s = s
  simp only [repAvx, U256.zip, add64_set, lane0_set, lane1_set, BitVec.add_assoc]

theorem finalize256Avx (s : Highway) : HighwayAvx2.Finalize256 (repAvx s) = Spec.highwayResult256 s := by
  unfold HighwayAvx2.Finalize256 Spec.highwayResult256
  rw [roundsAvx]
  generalize Spec.highwayRounds 10 s = s
  simp only [repAvx, U256.zip, add64_set, xorAvx]
  rfl

theorem broadcast_eq (n : Nat) (h : n < 32) :
    broadcastd (cvtsi64 (BitVec.ofNat 64 n)) =
      ⟨set1_32 (BitVec.ofNat 32 n), set1_32 (BitVec.ofNat 32 n)⟩ := by
  have : ∀ n, n < 32 → broadcastd (cvtsi64 (BitVec.ofNat 64 n)) =
      ⟨set1_32 (BitVec.ofNat 32 n), set1_32 (BitVec.ofNat 32 n)⟩ := by decide
  exact this n h

theorem zip32_set1 (f : U32 → U32 → U32) (x : U128) (n : U32) : zip32 f x (set1_32 n) = map32 (f · n) x := by
  have h0 : lane32 (set1_32 n) 0 = n := by unfold set1_32; rw [set32_eq, lane32_0, low_append]
  have h1 : lane32 (set1_32 n) 1 = n := by unfold set1_32; rw [set32_eq, lane32_1, high_append]
  have h2 : lane32 (set1_32 n) 2 = n := by unfold set1_32; rw [set32_eq, lane32_2, low_append]
  have h3 : lane32 (set1_32 n) 3 = n := by unfold set1_32; rw [set32_eq, lane32_3, high_append]
  simp only [zip32, map32, h0, h1, h2, h3]

theorem map32_set1 (f : U32 → U32) (n : U32) : map32 f (set1_32 n) = set1_32 (f n) := by
  unfold set1_32
  rw [set32_eq, map32_set, low_append, high_append, ← set32_eq]

theorem rotateAvx (n : Nat) (h0 : 0 < n) (hn : n < 32) (a b c d : U64) :
    HighwayAvx2.Rotate32By ⟨set64x a b, set64x c d⟩ ⟨set1_32 (BitVec.ofNat 32 n), set1_32 (BitVec.ofNat 32 n)⟩ =
      ⟨set64x (Spec.rotHalves n a) (Spec.rotHalves n b), set64x (Spec.rotHalves n c) (Spec.rotHalves n d)⟩ := by
  have h1 : (BitVec.ofNat 32 n).toNat = n := by rw [BitVec.toNat_ofNat, Nat.mod_eq_of_lt (by omega)]
  have h2 : (32 - BitVec.ofNat 32 n : U32).toNat = 32 - n := by
    rw [BitVec.toNat_sub, h1]
    have : (32 : U32).toNat = 32 := rfl
    rw [this]
    omega
  simp only [HighwayAvx2.Rotate32By, U256.zip, sllv32, srlv32, sub32, zip32_set1, map32_set1, h1, h2, map32_set, or_set, append_or,
    rotHalves_eq n hn]
  rfl

end T1ha.Model
