import Verif.Model.HighwayVsx
import Verif.Proofs.HighwaySimdCat

/-!
# HighwayHash with VSX computes its specification on little-endian machines
-/

namespace T1ha.Model

open X86 Ppc
open Spec (Highway)

variable {w : World} {ov : Overlay} {cfg : Cfg} {P : Ev → Prop} {strict : Bool} {b : Bytes} {r : List Byte}
  {C : Nat → Nat → Prop}

theorem ppc_add_set (a b c d : U64) : Ppc.add (set64x a b) (set64x c d) = set64x (a + c) (b + d) := by
  simp only [Ppc.add, vec64, lane0_set, lane1_set]

theorem ppc_xor_set (a b c d : U64) : set64x a b ^^^ set64x c d = set64x (a ^^^ c) (b ^^^ d) := xor_set a b c d

theorem ppc_and_set (a b c d : U64) : set64x a b &&& set64x c d = set64x (a &&& c) (b &&& d) := and_set a b c d

theorem swap_left (x : U64) : x.rotateLeft 32 = Spec.swap32 x := by
  refine BitVec.eq_of_getLsbD_eq fun i hi => ?_
  simp only [Spec.swap32, BitVec.getLsbD_rotateLeft, BitVec.getLsbD_rotateRight]

theorem ppc_rot_set (a b : U64) : HighwayVsx.Rotate64By32 (set64x a b) = set64x (Spec.swap32 a) (Spec.swap32 b) := by
  simp only [HighwayVsx.Rotate64By32, rl64, vec64, lane0_set, lane1_set, swap_left]

theorem ppc_mul_eq (x y : U128) : HighwayVsx.MultiplyVectors .little x y = mulEpu32 x y := rfl

theorem ppc_shift_eq (x : U128) : shiftRight x 32 = srli64 x 32 := rfl

theorem ppc_zipper_set (a b : U64) : HighwayVsx.ZipperMerge .little (set64x a b) =
    set64x (Spec.zipper b a).2 (Spec.zipper b a).1 := by
  rw [← zipper_set]
  unfold HighwayVsx.ZipperMerge HighwaySse41.ZipperMerge vperm shuffle8 vec64
  rw [ofBytes_eq, ofBytes_eq]
  refine congrArg ofList ?_
  apply List.map_congr_left
  intro i hi
  have hc : ∀ i ∈ List.range 16, (X86.byteAt (set64x 0x070806090D0A040B 0x000F010E05020C03) i).msb = false ∧
      (X86.byteAt (set64x 0x070806090D0A040B 0x000F010E05020C03) i).toNat % 32 % 16 =
      (X86.byteAt (set64x 0x070806090D0A040B 0x000F010E05020C03) i).toNat % 16 := by decide
  rw [(hc i hi).1, (hc i hi).2]
  rfl

/-- A state as VSX vectors. -/
def repVsx (s : Highway) : HighwayVsx.State where
  v0L := set64x s.v0.x1 s.v0.x0
  v0H := set64x s.v0.x3 s.v0.x2
  v1L := set64x s.v1.x1 s.v1.x0
  v1H := set64x s.v1.x3 s.v1.x2
  mul0L := set64x s.mul0.x1 s.mul0.x0
  mul0H := set64x s.mul0.x3 s.mul0.x2
  mul1L := set64x s.mul1.x1 s.mul1.x0
  mul1H := set64x s.mul1.x3 s.mul1.x2

theorem ResetVsx (key : Quad) : HighwayVsx.Reset key = repVsx (Spec.highwayStart key) := by
  simp only [HighwayVsx.Reset, vec64, ppc_rot_set, ppc_xor_set, repVsx, Spec.highwayStart, Quad.zip,
    Quad.map, Spec.highwayInit0, Spec.highwayInit1, BitVec.xor_comm key.x0, BitVec.xor_comm key.x1,
    BitVec.xor_comm key.x2, BitVec.xor_comm key.x3, BitVec.xor_comm (Spec.swap32 _)]

theorem UpdateVsx (l : Quad) (s : Highway) :
    HighwayVsx.UpdateLanes .little (set64x l.x3 l.x2) (set64x l.x1 l.x0) (repVsx s) = repVsx (Spec.highwayUpdate s l) := by
  have h := UpdateSse l s
  simp only [HighwaySse41.UpdateLanes, HighwaySse41.Rotate64By32, repSse, rot_set, add64_set, mul_rot, mul_srl, xor_set,
    zipper_set, HighwaySse41.State.mk.injEq] at h
  simp only [HighwayVsx.UpdateLanes, repVsx, ppc_rot_set, ppc_add_set, ppc_mul_eq, ppc_shift_eq, mul_rot, mul_srl,
    ppc_xor_set, ppc_zipper_set, HighwayVsx.State.mk.injEq, ← BitVec.add_assoc]
  exact h

theorem permuteVsx (s : Highway) : HighwayVsx.PermuteAndUpdate .little (repVsx s) = repVsx (Spec.highwayUpdate s
    ⟨Spec.swap32 s.v0.x2, Spec.swap32 s.v0.x3, Spec.swap32 s.v0.x0, Spec.swap32 s.v0.x1⟩) := by
  rw [← UpdateVsx]
  simp only [HighwayVsx.PermuteAndUpdate, repVsx, ppc_rot_set]

theorem roundsVsx (n : Nat) (s : Highway) :
    HighwayVsx.rounds .little n (repVsx s) = repVsx (Spec.highwayRounds n s) := by
  induction n generalizing s with
  | zero => rfl
  | succ n ih =>
    unfold HighwayVsx.rounds
    rw [permuteVsx, ih]
    rfl

/-- A shift of both numbers. -/
theorem shift_set (a b : U64) (n : Nat) (h0 : 0 < n) (hn : n < 64) :
    set64x a b <<< n = set64x (a <<< n ||| b >>> (64 - n)) (b <<< n) := by
  refine BitVec.eq_of_getLsbD_eq fun i hi => ?_
  rw [BitVec.getLsbD_shiftLeft, bit_set, bit_set]
  simp only [BitVec.getLsbD_or, BitVec.getLsbD_shiftLeft, BitVec.getLsbD_ushiftRight]
  by_cases h1 : i < n
  · have h64 : i < 64 := by omega
    simp [h1, h64]
  · by_cases h64 : i < 64
    · simp [h1, h64, hi, show i - n < 64 by omega]
    · simp only [h1, h64, hi, decide_true, decide_false, Bool.not_false, Bool.true_and, if_false]
      by_cases h2 : i - n < 64
      · simp only [h2, if_true, show i - 64 < n by omega, show i - 64 < 64 by omega, decide_true, Bool.not_true,
          Bool.and_false, Bool.false_and, Bool.false_or]
        congr 1
        omega
      · simp only [h2, if_false, show ¬ i - 64 < n by omega, show i - 64 < 64 by omega, decide_true, decide_false,
          Bool.not_false, Bool.true_and]
        rw [BitVec.getLsbD_of_ge b _ (by omega), Bool.or_false]
        congr 1
        omega

/-- The high number of the reduction. -/
theorem reduce_high_vsx (a3 a2 a1 : U64) :
    a1 ^^^ ((a3 <<< 1 ||| a2 >>> 63) &&& 0x7FFFFFFFFFFFFFFF#64 ^^^ (a3 <<< 2 ||| a2 >>> 62)) =
      (HighwayPortable.ModularReduction a3 a2 a1 0).1 := by
  have h3 : ∀ i, i < 64 → (0x3FFFFFFFFFFFFFFF#64).getLsbD i = decide (i < 62) := by decide
  have h4 : ∀ i, i < 64 → (0x7FFFFFFFFFFFFFFF#64).getLsbD i = decide (i < 63) := by decide
  unfold HighwayPortable.ModularReduction HighwayPortable.Shift128Left
  refine BitVec.eq_of_getLsbD_eq fun i hi => ?_
  simp only [BitVec.getLsbD_xor, BitVec.getLsbD_or, BitVec.getLsbD_and, BitVec.getLsbD_shiftLeft,
    BitVec.getLsbD_ushiftRight]
  rw [h4 i hi]
  by_cases h0 : i = 0
  · subst h0; simp
  · by_cases h1 : i = 1
    · subst h1; simp
    · have q5 : ¬ i < 1 := by omega
      have q6 : ¬ i < 2 := by omega
      have r1 : a2.getLsbD (63 + i) = false := BitVec.getLsbD_of_ge _ _ (by omega)
      have r2 : a2.getLsbD (62 + i) = false := BitVec.getLsbD_of_ge _ _ (by omega)
      rw [h3 (i - 1) (by omega), h3 (i - 2) (by omega)]
      simp only [q5, q6, r1, r2, hi, show i - 2 < 62 by omega, decide_true, decide_false, Bool.not_false, Bool.true_and,
        Bool.and_true, Bool.or_false, Nat.reduceSub]
      by_cases h63 : i < 63
      · simp only [h63, show i - 1 < 62 by omega, decide_true, Bool.and_true]
        cases a1.getLsbD i <;> cases a3.getLsbD (i - 1) <;> cases a3.getLsbD (i - 2) <;> rfl
      · simp only [h63, show ¬ i - 1 < 62 by omega, decide_false, Bool.and_false]
        cases a1.getLsbD i <;> cases a3.getLsbD (i - 2) <;> rfl

/-- The low number of the reduction. -/
theorem reduce_low_vsx (a3 a2 a1 a0 : U64) :
    a0 ^^^ (a2 <<< 1 &&& 0xFFFFFFFFFFFFFFFF#64 ^^^ a2 <<< 2) = (HighwayPortable.ModularReduction a3 a2 a1 a0).2 := by
  unfold HighwayPortable.ModularReduction HighwayPortable.Shift128Left
  rw [show 0xFFFFFFFFFFFFFFFF#64 = BitVec.allOnes 64 from rfl, BitVec.and_allOnes, ← BitVec.xor_assoc]

theorem reductionVsx (a3 a2 a1 a0 : U64) : HighwayVsx.ModularReduction .little (set64x a3 a2) (set64x a1 a0) =
    Spec.reduce a0 a1 a2 a3 := by
  have h : HighwayVsx.ModularReduction .little (set64x a3 a2) (set64x a1 a0) =
      set64x (HighwayPortable.ModularReduction a3 a2 a1 a0).1 (HighwayPortable.ModularReduction a3 a2 a1 a0).2 := by
    unfold HighwayVsx.ModularReduction Ppc.sll register vec64
    simp only [shift_set _ _ 1 (by omega) (by omega), shift_set _ _ 2 (by omega) (by omega), ppc_and_set, ppc_xor_set]
    exact congrArg₂ set64x (reduce_high_vsx a3 a2 a1) (reduce_low_vsx a3 a2 a1 a0)
  rw [h, reductionPortable, reductionC]
  exact set_lanes _

theorem finalize64Vsx (s : Highway) : HighwayVsx.Finalize64 .little (repVsx s) = Spec.highwayResult64 s := by
  unfold HighwayVsx.Finalize64 Spec.highwayResult64
  rw [roundsVsx]
  generalize Spec.highwayRounds 4 s = s
  simp only [repVsx, ppc_add_set, lane0_set]

theorem finalize128Vsx (s : Highway) : HighwayVsx.Finalize128 .little (repVsx s) = Spec.highwayResult128 s := by
  unfold HighwayVsx.Finalize128 Spec.highwayResult128
  rw [roundsVsx]
  generalize Spec.highwayRounds 6 s = s
  simp only [repVsx, ppc_add_set, lane0_set, lane1_set, BitVec.add_assoc]

theorem finalize256Vsx (s : Highway) : HighwayVsx.Finalize256 .little (repVsx s) = Spec.highwayResult256 s := by
  unfold HighwayVsx.Finalize256 Spec.highwayResult256
  rw [roundsVsx]
  generalize Spec.highwayRounds 10 s = s
  simp only [repVsx, ppc_add_set, reductionVsx]
  rfl

theorem rotateVsx (n : Nat) (hn : n < 32) (a b : U64) :
    HighwayVsx.Rotate32By .little (set64x a b) (BitVec.ofNat 64 n) =
      set64x (Spec.rotHalves n a) (Spec.rotHalves n b) := by
  have h1 : ((BitVec.ofNat 64 n).setWidth 32 : U32).toNat = n := by
    rw [BitVec.toNat_setWidth, BitVec.toNat_ofNat]
    omega
  unfold HighwayVsx.Rotate32By rl32 vec32
  simp only [elem32, place32, (lanes_set32 _ _ _ _).1, (lanes_set32 _ _ _ _).2.1, (lanes_set32 _ _ _ _).2.2.1,
    (lanes_set32 _ _ _ _).2.2.2, h1, Nat.mod_eq_of_lt hn]
  rw [lane32_0, lane32_1, lane32_2, lane32_3, set32_eq]
  rfl

/-! ## Memory -/

theorem reads_wordVsx (g : Yields w ov cfg P strict b r C) (i : Nat) (h : i + 4 ≤ r.length) :
    Reads w ov P (span C i (i + 4)) 0 (HighwayVsx.word .little cfg strict b i)
      (BitVec.ofNat 32 (leVal ((r.drop i).take 4))) :=
  reads_load32 g i h

theorem reads_LoadUnaligned (g : Yields w ov cfg P strict b r C) (i : Nat) (h : i + 16 ≤ r.length) :
    Reads w ov P (span C i (i + 16)) 0 (HighwayVsx.LoadUnaligned .little cfg strict b i) (ofList ((r.drop i).take 16)) := by
  have hl : ((r.drop i).take 16).length = 16 := by rw [List.length_take, List.length_drop]; omega
  have e : ofList ((r.drop i).take 16) = vec64 (BitVec.ofNat 64 (leVal (((r.drop i).take 16).take 8)))
      (BitVec.ofNat 64 (leVal (((r.drop i).take 16).drop 8))) := by
    have := ofList_set (((r.drop i).take 16).take 8) (((r.drop i).take 16).drop 8) (by rw [List.length_take]; omega)
      (by rw [List.length_drop]; omega)
    rw [List.take_append_drop] at this
    exact this
  rw [e]
  exact Exec.cov (Reads.bind (C₂ := nowhere) (n₂ := 0) (reads_getBytes g 16 i h) (Reads.pure _)) (fun _ h => Or.inl h) rfl

theorem insert_little (d c b a v : U32) : insert32 .little (set32 d c b a) 0 v = set32 d c b v ∧
    insert32 .little (set32 d c b a) 1 v = set32 d c v a ∧ insert32 .little (set32 d c b a) 2 v = set32 d v b a := by
  simp [insert32, vec32, elem32, place32, (lanes_set32 _ _ _ _).1, (lanes_set32 _ _ _ _).2.1,
    (lanes_set32 _ _ _ _).2.2.1, (lanes_set32 _ _ _ _).2.2.2]

theorem insert_three (x : U128) (v : U32) : insert32 .little x 3 v = insert32_3 x v := by
  simp [insert32, vec32, elem32, place32, insert32_3]

theorem vec32_little (x : U32) : vec32 .little (fun _ => x) = set32 x x x x := rfl

theorem reads_LoadMultipleVsx (g : Yields w ov cfg P strict b r C) (i n : Nat) (h : i + n % 16 ≤ r.length) :
    Reads w ov P (span C i (i + n % 16 / 4 * 4)) 0 (HighwayVsx.LoadMultipleOfFour .little cfg strict b i n)
      (ofList (zeroed r i (n % 16 / 4 * 4))) := by
  have h8 := and_eight n
  have h4 := and_four n
  rw [ofList_zeroed r i _ (by omega) (by omega)]
  unfold HighwayVsx.LoadMultipleOfFour
  rw [vec32_little]
  by_cases c8 : n / 8 % 2 = 1
  · simp only [if_pos (h8.2 c8)]
    by_cases c4 : n / 4 % 2 = 1
    · simp only [if_pos (h4.2 c4)]
      rw [show n % 16 / 4 = 3 by omega] at *
      refine Exec.cov (Exec.post (Reads.bind (reads_wordVsx g i (by omega)) <| Reads.bind (reads_wordVsx g (i + 4) (by omega)) <|
        Reads.bind (C₂ := nowhere) (n₂ := 0) (reads_wordVsx g (i + 8) (by omega)) (Reads.pure _)) ?_)
        (fun a ⟨k, h1, h2, h3⟩ => ?_) rfl
      · rintro x o ⟨rfl, rfl⟩
        refine ⟨?_, rfl⟩
        rw [(insert_little _ _ _ _ _).1, (insert_little _ _ _ _ _).2.1, (insert_little _ _ _ _ _).2.2]
        simp [wordIf]
      · by_cases hk : k < i + 4
        · exact Or.inl ⟨k, by omega, by omega, h3⟩
        · by_cases hk : k < i + 8
          · exact Or.inr (Or.inl ⟨k, by omega, by omega, h3⟩)
          · exact Or.inr (Or.inr (Or.inl ⟨k, by omega, by omega, h3⟩))
    · simp only [if_neg (mt h4.1 c4)]
      rw [show n % 16 / 4 = 2 by omega] at *
      refine Exec.cov (Exec.post (Reads.bind (reads_wordVsx g i (by omega)) <|
        Reads.bind (C₂ := nowhere) (n₂ := 0) (reads_wordVsx g (i + 4) (by omega)) (Reads.pure _)) ?_)
        (fun a ⟨k, h1, h2, h3⟩ => ?_) rfl
      · rintro x o ⟨rfl, rfl⟩
        refine ⟨?_, rfl⟩
        rw [(insert_little _ _ _ _ _).1, (insert_little _ _ _ _ _).2.1]
        simp [wordIf]
      · by_cases hk : k < i + 4
        · exact Or.inl ⟨k, by omega, by omega, h3⟩
        · exact Or.inr (Or.inl ⟨k, by omega, by omega, h3⟩)
  · simp only [if_neg (mt h8.1 c8)]
    by_cases c4 : n / 4 % 2 = 1
    · simp only [if_pos (h4.2 c4)]
      rw [show n % 16 / 4 = 1 by omega] at *
      refine Exec.cov (Exec.post (Reads.bind (C₂ := nowhere) (n₂ := 0)
        (reads_wordVsx g i (by omega)) (Reads.pure _)) ?_) (fun a ⟨k, h1, h2, h3⟩ => Or.inl ⟨k, by omega, by omega, h3⟩) rfl
      rintro x o ⟨rfl, rfl⟩
      refine ⟨?_, rfl⟩
      rw [(insert_little _ _ _ _ _).1]
      simp [wordIf]
    · simp only [if_neg (mt h4.1 c4)]
      rw [show n % 16 / 4 = 0 by omega] at *
      refine Exec.cov (Exec.post (Reads.pure _) ?_) (fun a ⟨k, h1, h2, h3⟩ => by omega) rfl
      rintro x o ⟨rfl, rfl⟩
      exact ⟨by simp [wordIf], rfl⟩

theorem packetVsx (h l : U128) (s : Highway) :
    HighwayVsx.UpdateLanes .little h l (repVsx s) = repVsx (Spec.highwayPacket s (toList l ++ toList h)) := by
  unfold Spec.highwayPacket
  rw [← UpdateVsx, (lanes_lists _ _ (toList_length l) (toList_length h)).1, (lanes_lists _ _ (toList_length l) (toList_length h)).2,
    ofList_toList, ofList_toList]

theorem reads_UpdateVsx (g : Yields w ov cfg P strict b r C) (h : r.length = 32) (s : Highway) :
    Reads w ov P (span C 0 32) 0 (HighwayVsx.Update .little cfg strict b (repVsx s)) (repVsx (Spec.highwayPacket s r)) := by
  unfold HighwayVsx.Update
  refine Exec.cov (Exec.post (Reads.bind (reads_LoadUnaligned g 0 (by omega)) <| Reads.bind (C₂ := nowhere) (n₂ := 0)
    (reads_LoadUnaligned g 16 (by omega)) (Reads.pure _)) ?_) (fun a ⟨k, h1, h2, h3⟩ => ?_) rfl
  · rintro x o ⟨rfl, rfl⟩
    rw [packetVsx, twoHalves r h]
    exact ⟨rfl, rfl⟩
  · by_cases hk : k < 16
    · exact Or.inl ⟨k, by omega, by omega, h3⟩
    · exact Or.inr (Or.inl ⟨k, by omega, by omega, h3⟩)

theorem stateVsx (s : Highway) (n : Nat) (hn : n < 32) :
    { repVsx s with
      v0L := Ppc.add (repVsx s).v0L (vec32 .little fun _ => BitVec.ofNat 32 n)
      v0H := Ppc.add (repVsx s).v0H (vec32 .little fun _ => BitVec.ofNat 32 n)
      v1L := HighwayVsx.Rotate32By .little (repVsx s).v1L (BitVec.ofNat 64 n)
      v1H := HighwayVsx.Rotate32By .little (repVsx s).v1H (BitVec.ofNat 64 n) } = repVsx (remainderState s n) := by
  have h := set1_eq n hn
  unfold set1_32 at h
  simp only [repVsx, vec32_little, h, ppc_add_set, rotateVsx n hn, remainderState, Quad.map]

theorem reads_RemainderVsx (g : Yields w ov cfg P strict b r C) (h0 : 0 < r.length) (h : r.length < 32) (s : Highway) :
    Reads w ov P (span C 0 r.length) 0 (HighwayVsx.UpdateRemainder .little cfg strict b r.length (repVsx s))
      (repVsx (Spec.highwayRemainder Spec.highwayPadded s r)) := by
  unfold HighwayVsx.UpdateRemainder
  simp only [stateVsx s _ h, and_minus_4 (cfg := cfg) _ h, and_3]
  rw [← remainder_eq]
  by_cases h16 : 16 ≤ r.length
  · simp only [if_pos ((and_16_iff _ h).2 h16)]
    have hm := reads_LoadMultipleVsx g 16 r.length (by omega)
    rw [show r.length % 16 = r.length - 16 by omega] at hm
    refine Exec.cov (Reads.bind (g.pointer _ (by omega)) <| Reads.bind (reads_LoadUnaligned g 0 (by omega)) <|
      Reads.bind (g.pointer _ (by omega)) <| Reads.bind hm <| Exec.bind (C₂ := nowhere) (n₂ := 0) (reads_readBefore g h16) ?_)
      (fun a ⟨k, h1, h2, h3⟩ => ?_) rfl
    · rintro x o ⟨hx, rfl⟩
      rw [insert_three, packetVsx, padded_high r h16 h x hx]
      exact Reads.pure _
    · by_cases k1 : k < 16
      · exact Or.inr (Or.inl ⟨k, by omega, by omega, h3⟩)
      · by_cases k2 : k < 16 + (r.length - 16) / 4 * 4
        · exact Or.inr (Or.inr (Or.inr (Or.inl ⟨k, by omega, by omega, h3⟩)))
        · exact Or.inr (Or.inr (Or.inr (Or.inr (Or.inl ⟨k, by omega, by omega, h3⟩))))
  · simp only [if_neg (mt (and_16_iff _ h).1 h16)]
    have hm := reads_LoadMultipleVsx g 0 r.length (by omega)
    rw [show r.length % 16 = r.length by omega] at hm
    refine Exec.cov (Reads.bind (g.pointer _ (by omega)) <|
      Reads.bind hm <| Exec.bind (C₂ := nowhere) (n₂ := 0) (reads_unordered g) ?_)
      (fun a ⟨k, h1, h2, h3⟩ => ?_) rfl
    · rintro x o ⟨hx, rfl⟩
      rw [packetVsx, show vec64 x 0 = cvtsi64 x from rfl, padded_low r h16 x hx]
      exact Reads.pure _
    · by_cases k2 : k < r.length / 4 * 4
      · exact Or.inr (Or.inl ⟨k, by omega, by omega, h3⟩)
      · exact Or.inr (Or.inr (Or.inl ⟨k, by omega, by omega, h3⟩))

theorem appendUpdateVsx {v : Nat} (g : Yields w ov cfg P strict (.memory v) r C) (u : Nat) (h : u + r.length = 32)
    (buffer : List Byte) (hb : buffer.length = 32) (s : Highway) :
    Reads w ov P (span C 0 r.length) 32 (HighwayVsx.AppendAndUpdate .little cfg strict v r.length buffer u (repVsx s))
      (repVsx (Spec.highwayPacket s (buffer.take u ++ r))) := by
  have hbits := bits_ge_32 cfg
  have ga : Yields w ov cfg P strict (.array buffer) buffer (fun _ => nowhere) :=
    gives_array g.iter List.prefix_rfl (by omega)
  unfold HighwayVsx.AppendAndUpdate
  have hul : (buffer.take u).length = u := by rw [List.length_take]; omega
  have hc1 := reads_copyBytes ga 0 u 0 (List.replicate 32 0#8) (by omega) (by rw [List.length_replicate]; omega)
  rw [List.drop_zero, Nat.add_zero] at hc1
  have hl1 : (splice (List.replicate 32 0#8) 0 (buffer.take u)).length = 32 := by
    rw [length_splice _ _ _ (by rw [List.length_replicate]; omega), List.length_replicate]
  have hc2 := reads_copyBytes g u r.length 0 (splice (List.replicate 32 0#8) 0 (buffer.take u)) (by omega) (by omega)
  rw [List.drop_zero, Nat.add_zero, Nat.zero_add, List.take_of_length_le (i := r.length) (by omega)] at hc2
  have hl2 : (splice (splice (List.replicate 32 0#8) 0 (buffer.take u)) u r).length = 32 := by
    rw [length_splice _ _ _ (by omega), hl1]
  have heq : splice (splice (List.replicate 32 0#8) 0 (buffer.take u)) u r = buffer.take u ++ r := by
    have h1 := take_splice (splice (List.replicate 32 0#8) 0 (buffer.take u)) u r (by omega)
    rw [h, List.take_of_length_le (by omega)] at h1
    have h2 := take_splice (List.replicate 32 0#8) 0 (buffer.take u) (by omega)
    rw [Nat.zero_add, List.take_zero, List.nil_append, hul] at h2
    rw [h1, h2]
  rw [heq] at hc2 hl2
  refine Exec.cov (Reads.bind hc1 <| Reads.bind hc2 <|
    reads_UpdateVsx (gives_array g.iter List.prefix_rfl (by omega)) hl2 s) (fun a h => ?_) (by omega)
  exact Or.inr (Or.inl h)

theorem refines_vsx : Refines (vsx .little) repVsx (fun n => n) where
  reset := ResetVsx
  update := reads_UpdateVsx
  remainder := reads_RemainderVsx
  copy := copySse
  append := appendSse
  fill g u _ _ := appendUpdateVsx g u
  finalize64 := finalize64Vsx
  finalize128 := finalize128Vsx
  finalize256 := finalize256Vsx

end T1ha.Model
