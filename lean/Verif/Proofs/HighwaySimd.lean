import Verif.Proofs.HighwayCat
import Verif.Proofs.Aes
import Verif.Proofs.HighwaySimdPure

/-!
# HighwayHash with SSE4.1 and AVX2 computes its specification: memory
-/

namespace T1ha.X86

open Model

/-! ## Vectors as bytes -/

/-- The bytes of a number of 32 bits. -/
def le4 (x : U32) : List Byte := leBytes 4 x.toNat

theorem le4_length (x : U32) : (le4 x).length = 4 := leBytes_length _ _

theorem le4_word (l : List Byte) (h : l.length = 4) : le4 (BitVec.ofNat 32 (leVal l)) = l := by
  have h2 := leVal_lt l
  rw [h] at h2
  unfold le4
  rw [BitVec.toNat_ofNat, Nat.mod_eq_of_lt (by simpa using h2), ← h]
  exact leBytes_leVal l

theorem leVal_le4 (x : U32) : leVal (le4 x) = x.toNat := leVal_of_bytes 4 _ (by have := x.isLt; simpa using this)

theorem bytes_append (a b : U32) : leBytes 8 (a ++ b : U64).toNat = le4 b ++ le4 a := by
  have h : (a ++ b : U64).toNat = leVal (le4 b ++ le4 a) := by
    rw [leVal_append, leVal_le4, leVal_le4, le4_length]
    have := b.isLt
    rw [BitVec.toNat_append, ← Nat.shiftLeft_add_eq_or_of_lt b.isLt, Nat.shiftLeft_eq]
    omega
  have h8 : (le4 b ++ le4 a).length = 8 := by rw [List.length_append, le4_length, le4_length]
  rw [h, ← h8]
  exact leBytes_leVal _

theorem toList_set32 (d c b a : U32) : toList (set32 d c b a) = le4 a ++ le4 b ++ le4 c ++ le4 d := by
  rw [set32_eq, toList_set, bytes_append, bytes_append]
  simp only [List.append_assoc]

theorem toList_inj {x y : U128} (h : toList x = toList y) : x = y := by
  rw [← ofList_toList x, ← ofList_toList y, h]

theorem eq_ofList {x : U128} {l : List Byte} (h : toList x = l) : x = ofList l := by
  rw [← h, ofList_toList]

theorem toList_cvtsi64 (x : U64) (l : List Byte) (hl : l.length = 8) (h : x.toNat = leVal l) :
    toList (cvtsi64 x) = l ++ List.replicate 8 0 := by
  unfold cvtsi64
  rw [toList_set, h]
  congr 1
  rw [← hl]
  exact leBytes_leVal l

theorem set32_lanes (x : U128) : set32 (lane32 x 3) (lane32 x 2) (lane32 x 1) (lane32 x 0) = x := by
  rw [← set_lanes x, lane32_0, lane32_1, lane32_2, lane32_3, set32_eq, append_halves, append_halves]

theorem lanes_set32 (d c b a : U32) : lane32 (set32 d c b a) 0 = a ∧ lane32 (set32 d c b a) 1 = b ∧
    lane32 (set32 d c b a) 2 = c ∧ lane32 (set32 d c b a) 3 = d := by
  rw [set32_eq, lane32_0, lane32_1, lane32_2, lane32_3, low_append, low_append, high_append, high_append]
  exact ⟨rfl, rfl, rfl, rfl⟩

theorem toList_lanes (x : U128) : toList x = le4 (lane32 x 0) ++ le4 (lane32 x 1) ++ le4 (lane32 x 2) ++ le4 (lane32 x 3) := by
  rw [← toList_set32, set32_lanes]

theorem toList_insert (x : U128) (v : U32) : toList (insert32_3 x v) = (toList x).take 12 ++ le4 v := by
  unfold insert32_3
  rw [toList_set32, toList_lanes x, List.take_append_of_le_length (by simp [le4_length]),
    List.take_of_length_le (by simp [le4_length])]

theorem or_set32 (d c b a d' c' b' a' : U32) :
    or (set32 d c b a) (set32 d' c' b' a') = set32 (d ||| d') (c ||| c') (b ||| b') (a ||| a') := by
  rw [set32_eq, set32_eq, set32_eq, or_set, append_or, append_or]

theorem low_mask (w : U32) : (w ++ w : U64) &&& 0xFFFFFFFF = 0#32 ++ w := by
  have : (0xFFFFFFFF : U64) = 0#32 ++ BitVec.allOnes 32 := by decide
  rw [this, BitVec.and_append, BitVec.and_zero, BitVec.and_allOnes]

theorem and_mask4 (w : U32) : and (shuffle32 (cvtsi32 w) 0) (cvtsi64 0xFFFFFFFF) = set32 0 0 0 w := by
  have : shuffle32 (cvtsi32 w) 0 = set32 w w w w := by
    have h := (lanes_set32 0 0 0 w).1
    show set32 (lane32 (cvtsi32 w) 0) (lane32 (cvtsi32 w) 0) (lane32 (cvtsi32 w) 0) (lane32 (cvtsi32 w) 0) = _
    unfold cvtsi32
    rw [h]
  rw [this, set32_eq, set32_eq]
  unfold cvtsi64
  rw [and_set, low_mask, show (w ++ w : U64) &&& 0 = 0 from BitVec.and_zero]
  rfl

theorem and_mask8 (w : U32) : and (shuffle32 (cvtsi32 w) 0) (slliSi128 (cvtsi64 0xFFFFFFFF) 8) = set32 0 w 0 0 := by
  have : shuffle32 (cvtsi32 w) 0 = set32 w w w w := by
    have h := (lanes_set32 0 0 0 w).1
    show set32 (lane32 (cvtsi32 w) 0) (lane32 (cvtsi32 w) 0) (lane32 (cvtsi32 w) 0) (lane32 (cvtsi32 w) 0) = _
    unfold cvtsi32
    rw [h]
  rw [this, set32_eq, set32_eq]
  unfold cvtsi64
  rw [slli8_set, and_set, low_mask, show (w ++ w : U64) &&& 0 = 0 from BitVec.and_zero]
  rfl

end T1ha.X86

namespace T1ha.Model

open Spec (Highway)
open X86

variable {w : World} {ov : Overlay} {cfg : Cfg} {P : Ev → Prop} {lo hi d : Nat} {strict : Bool}
  {b : Bytes} {r : List Byte} {C : Nat → Nat → Prop}

/-! ## Reading -/

theorem reads_getBytes (g : Yields w ov cfg P strict b r C) (n : Nat) (i : Nat) (h : i + n ≤ r.length) :
    Reads w ov P (span C i (i + n)) 0 (getBytes cfg strict b i n) ((r.drop i).take n) := by
  induction n generalizing i with
  | zero =>
    rw [List.take_zero]
    exact Exec.cov (Reads.pure _) (fun a ⟨k, h1, h2, _⟩ => by omega) rfl
  | succ n ih =>
    unfold getBytes
    rw [List.drop_eq_getElem_cons (by omega : i < r.length), List.take_succ_cons]
    refine Exec.cov (Reads.bind (g.get i _ (List.getElem?_eq_getElem (by omega))) <|
      Reads.bind (C₂ := nowhere) (n₂ := 0) (ih (i + 1) (by omega)) (Reads.pure _)) (fun a ⟨k, h1, h2, h3⟩ => ?_) rfl
    by_cases hk : k = i
    · exact Or.inl (hk ▸ h3)
    · exact Or.inr (Or.inl ⟨k, by omega, by omega, h3⟩)

theorem reads_loadVec (g : Yields w ov cfg P strict b r C) (i : Nat) (h : i + 16 ≤ r.length) :
    Reads w ov P (span C i (i + 16)) 0 (loadVec cfg strict b i) (ofList ((r.drop i).take 16)) :=
  Exec.cov (Reads.bind (C₂ := nowhere) (n₂ := 0) (reads_getBytes g 16 i h) (Reads.pure _)) (fun _ h => Or.inl h) rfl

theorem reads_load32 (g : Yields w ov cfg P strict b r C) (i : Nat) (h : i + 4 ≤ r.length) :
    Reads w ov P (span C i (i + 4)) 0 (load32 cfg strict b i) (BitVec.ofNat 32 (leVal ((r.drop i).take 4))) :=
  Exec.cov (Reads.bind (C₂ := nowhere) (n₂ := 0) (reads_getBytes g 4 i h) (Reads.pure _)) (fun _ h => Or.inl h) rfl

theorem reads_loadl (g : Yields w ov cfg P strict b r C) (i : Nat) (h : i + 8 ≤ r.length) :
    Reads w ov P (span C i (i + 8)) 0 (loadl cfg strict b i)
      (cvtsi64 (BitVec.ofNat 64 (leVal ((r.drop i).take 8)))) :=
  Exec.cov (Reads.bind (C₂ := nowhere) (n₂ := 0) (reads_getBytes g 8 i h) (Reads.pure _)) (fun _ h => Or.inl h) rfl

/-- `n` bytes at `i`, and zeros. -/
def zeroed (r : List Byte) (i n : Nat) : List Byte := (r.drop i).take n ++ List.replicate (16 - n) 0

theorem length_zeroed (r : List Byte) (i n : Nat) (h : i + n ≤ r.length) (hn : n ≤ 16) : (zeroed r i n).length = 16 := by
  unfold zeroed
  rw [List.length_append, List.length_take, List.length_drop, List.length_replicate]
  omega

/-- A group of four bytes as a number, or 0. -/
def wordIf (r : List Byte) (i k j : Nat) : U32 := if j < k then BitVec.ofNat 32 (leVal ((r.drop (i + 4 * j)).take 4)) else 0

theorem take_groups (l : List Byte) (k : Nat) : l.take (4 + k) = l.take 4 ++ (l.drop 4).take k := by
  rw [List.take_add]

theorem le4_zero : le4 0 = List.replicate 4 0 := by decide

theorem ofList_zeroed (r : List Byte) (i k : Nat) (hk : k ≤ 4) (h : i + 4 * k ≤ r.length) :
    ofList (zeroed r i (k * 4)) = set32 (wordIf r i k 3) (wordIf r i k 2) (wordIf r i k 1) (wordIf r i k 0) := by
  apply toList_inj
  rw [toList_ofList _ (length_zeroed r i _ (by omega) (by omega)), toList_set32]
  have hw : ∀ j, j < k → le4 (wordIf r i k j) = (r.drop (i + 4 * j)).take 4 := by
    intro j hj
    unfold wordIf
    rw [if_pos hj]
    exact le4_word _ (by rw [List.length_take, List.length_drop]; omega)
  have hz : ∀ j, k ≤ j → le4 (wordIf r i k j) = List.replicate 4 0 := by
    intro j hj
    unfold wordIf
    rw [if_neg (by omega)]
    exact le4_zero
  have hg : ∀ n, (r.drop i).take (4 * n + 4) = (r.drop i).take (4 * n) ++ (r.drop (i + 4 * n)).take 4 := by
    intro n
    rw [List.take_add, List.drop_drop]
  unfold zeroed
  have hcases : k = 0 ∨ k = 1 ∨ k = 2 ∨ k = 3 ∨ k = 4 := by omega
  rcases hcases with rfl | rfl | rfl | rfl | rfl
  · rw [hz 0 (by omega), hz 1 (by omega), hz 2 (by omega), hz 3 (by omega)]
    rfl
  · rw [hw 0 (by omega), hz 1 (by omega), hz 2 (by omega), hz 3 (by omega)]
    simp only [List.append_assoc, Nat.mul_zero, Nat.add_zero]
    rfl
  · rw [hw 0 (by omega), hw 1 (by omega), hz 2 (by omega), hz 3 (by omega), hg 1]
    simp only [List.append_assoc, Nat.mul_zero, Nat.add_zero]
    rfl
  · rw [hw 0 (by omega), hw 1 (by omega), hw 2 (by omega), hz 3 (by omega), hg 2, hg 1]
    simp only [List.append_assoc, Nat.mul_zero, Nat.add_zero]
  · rw [hw 0 (by omega), hw 1 (by omega), hw 2 (by omega), hw 3 (by omega), hg 3, hg 2, hg 1]
    simp only [List.append_assoc, Nat.mul_zero, Nat.add_zero, Nat.reduceMul, Nat.reduceSub, List.replicate_zero,
      List.append_nil]

theorem low8_eq (r : List Byte) (i k : Nat) (h : i + 8 ≤ r.length) (hk : 2 ≤ k) :
    cvtsi64 (BitVec.ofNat 64 (leVal ((r.drop i).take 8))) = set32 0 0 (wordIf r i k 1) (wordIf r i k 0) := by
  have hl : ((r.drop i).take 8).length = 8 := by rw [List.length_take, List.length_drop]; omega
  have h2 := leVal_lt ((r.drop i).take 8)
  rw [hl] at h2
  have e : toList (cvtsi64 (BitVec.ofNat 64 (leVal ((r.drop i).take 8)))) = zeroed r i (2 * 4) :=
    toList_cvtsi64 _ _ hl (by rw [BitVec.toNat_ofNat, Nat.mod_eq_of_lt (by simpa using h2)])
  rw [eq_ofList e, ofList_zeroed r i 2 (by omega) (by omega)]
  simp only [wordIf, if_pos (show 0 < 2 by omega), if_pos (show 1 < 2 by omega), if_neg (show ¬ 2 < 2 by omega),
    if_neg (show ¬ 3 < 2 by omega), if_pos (show 0 < k by omega), if_pos (show 1 < k by omega)]

theorem and_eight (n : Nat) : n &&& 8 ≠ 0 ↔ n / 8 % 2 = 1 := and_bit n 3
theorem and_four (n : Nat) : n &&& 4 ≠ 0 ↔ n / 4 % 2 = 1 := and_bit n 2

theorem reads_LoadMultipleOfFour (g : Yields w ov cfg P strict b r C) (i n : Nat) (h : i + n % 16 ≤ r.length) :
    Reads w ov P (span C i (i + n % 16 / 4 * 4)) 0 (HighwaySse41.LoadMultipleOfFour cfg strict b i n)
      (ofList (zeroed r i (n % 16 / 4 * 4))) := by
  have h8 := and_eight n
  have h4 := and_four n
  have hzero : (0 : U128) = set32 0 0 0 0 := by decide
  rw [ofList_zeroed r i _ (by omega) (by omega)]
  unfold HighwaySse41.LoadMultipleOfFour
  by_cases c8 : n / 8 % 2 = 1
  · simp only [if_pos (h8.2 c8), bind_assoc, pure_bind]
    by_cases c4 : n / 4 % 2 = 1
    · simp only [if_pos (h4.2 c4)]
      rw [show n % 16 / 4 = 3 by omega] at *
      refine Exec.cov (Exec.post (Reads.bind (reads_loadl g i (by omega)) <| Reads.bind (C₂ := nowhere) (n₂ := 0)
        (reads_load32 g (i + 8) (by omega)) (Reads.pure _)) ?_) (fun a ⟨k, h1, h2, h3⟩ => ?_) rfl
      · rintro x o ⟨rfl, rfl⟩
        refine ⟨?_, rfl⟩
        rw [and_mask8, low8_eq r i 3 (by omega) (by omega), or_set32]
        simp only [wordIf, if_pos (show 2 < 3 by omega), if_neg (show ¬ 3 < 3 by omega)]
        simp
      · by_cases hk : k < i + 8
        · exact Or.inl ⟨k, by omega, by omega, h3⟩
        · exact Or.inr (Or.inl ⟨k, by omega, by omega, h3⟩)
    · simp only [if_neg (mt h4.1 c4)]
      rw [show n % 16 / 4 = 2 by omega] at *
      refine Exec.cov (Exec.post (Reads.bind (C₂ := nowhere) (n₂ := 0) (reads_loadl g i (by omega)) (Reads.pure _)) ?_)
        (fun a ⟨k, h1, h2, h3⟩ => Or.inl ⟨k, by omega, by omega, h3⟩) rfl
      rintro x o ⟨rfl, rfl⟩
      refine ⟨?_, rfl⟩
      rw [low8_eq r i 2 (by omega) (by omega)]
      simp only [wordIf, if_neg (show ¬ 2 < 2 by omega), if_neg (show ¬ 3 < 2 by omega)]
  · simp only [if_neg (mt h8.1 c8), pure_bind]
    by_cases c4 : n / 4 % 2 = 1
    · simp only [if_pos (h4.2 c4)]
      rw [show n % 16 / 4 = 1 by omega] at *
      refine Exec.cov (Exec.post (Reads.bind (C₂ := nowhere) (n₂ := 0)
        (reads_load32 g i (by omega)) (Reads.pure _)) ?_) (fun a ⟨k, h1, h2, h3⟩ => Or.inl ⟨k, by omega, by omega, h3⟩) rfl
      rintro x o ⟨rfl, rfl⟩
      refine ⟨?_, rfl⟩
      rw [and_mask4, hzero, or_set32]
      simp only [wordIf, if_pos (show 0 < 1 by omega), if_neg (show ¬ 1 < 1 by omega), if_neg (show ¬ 2 < 1 by omega), if_neg (show ¬ 3 < 1 by omega)]
      simp
    · simp only [if_neg (mt h4.1 c4)]
      rw [show n % 16 / 4 = 0 by omega] at *
      refine Exec.cov (Exec.post (Reads.pure _) ?_) (fun a ⟨k, h1, h2, h3⟩ => by omega) rfl
      rintro x o ⟨rfl, rfl⟩
      exact ⟨hzero, rfl⟩

theorem reads_maskLane (g : Yields w ov cfg P strict b r C) (i k j : Nat) (mask : U32) (hm : mask.msb = decide (j < k))
    (h : i + 4 * k ≤ r.length) :
    Reads w ov P (span C (i + 4 * j) (if j < k then i + 4 * j + 4 else 0)) 0 (maskLane cfg strict b (i + 4 * j) mask)
      (wordIf r i k j) := by
  unfold maskLane wordIf
  rw [hm]
  by_cases hj : j < k
  · simp only [hj, decide_true, if_true]
    exact reads_load32 g _ (by omega)
  · simp only [hj, decide_false, if_false]
    exact Exec.cov (Reads.pure _) (fun a ⟨k, h1, h2, h3⟩ => by omega) rfl

theorem reads_maskload (g : Yields w ov cfg P strict b r C) (i k : Nat) (mask : U128) (hk : k ≤ 4)
    (hm : ∀ j, j < 4 → (lane32 mask j).msb = decide (j < k)) (h : i + 4 * k ≤ r.length) :
    Reads w ov P (span C i (i + k * 4)) 0 (maskload cfg strict b i mask) (ofList (zeroed r i (k * 4))) := by
  rw [ofList_zeroed r i k hk h]
  unfold maskload
  refine Exec.cov (Reads.bind (reads_maskLane g i k 0 _ (hm 0 (by omega)) h) <|
    Reads.bind (reads_maskLane g i k 1 _ (hm 1 (by omega)) h) <|
    Reads.bind (reads_maskLane g i k 2 _ (hm 2 (by omega)) h) <|
    Reads.bind (C₂ := nowhere) (n₂ := 0) (reads_maskLane g i k 3 _ (hm 3 (by omega)) h) (Reads.pure _)) (fun a ⟨q, h1, h2, h3⟩ => ?_) rfl
  have hc : ∀ j, i + 4 * j ≤ q → q < i + 4 * j + 4 → span C (i + 4 * j) (if j < k then i + 4 * j + 4 else 0) a := by
    intro j hj1 hj2
    rw [if_pos (by omega)]
    exact ⟨q, hj1, hj2, h3⟩
  by_cases q1 : q < i + 4
  · exact Or.inl (hc 0 (by omega) (by omega))
  · by_cases q2 : q < i + 8
    · exact Or.inr (Or.inl (hc 1 (by omega) (by omega)))
    · by_cases q3 : q < i + 12
      · exact Or.inr (Or.inr (Or.inl (hc 2 (by omega) (by omega))))
      · exact Or.inr (Or.inr (Or.inr (Or.inl (hc 3 (by omega) (by omega)))))

/-! ## Packets -/

theorem lanes_lists (l h : List Byte) (hl : l.length = 16) (hh : h.length = 16) :
    set64x (Spec.lanes (l ++ h)).x1 (Spec.lanes (l ++ h)).x0 = ofList l ∧
      set64x (Spec.lanes (l ++ h)).x3 (Spec.lanes (l ++ h)).x2 = ofList h := by
  have h1 : ofList l = set64x (Spec.num (l.drop 8)) (Spec.num (l.take 8)) := by
    rw [← ofList_set _ _ (by rw [List.length_take]; omega) (by rw [List.length_drop]; omega), List.take_append_drop]
  have h2 : ofList h = set64x (Spec.num (h.drop 8)) (Spec.num (h.take 8)) := by
    rw [← ofList_set _ _ (by rw [List.length_take]; omega) (by rw [List.length_drop]; omega), List.take_append_drop]
  rw [h1, h2]
  have e : ∀ i, Spec.word64 .little (l ++ h) i = Spec.num (((l ++ h).drop (8 * i)).take 8) := fun _ => rfl
  have d8 : (l.drop 8).length = 8 := by rw [List.length_drop]; omega
  have d8' : (h.drop 8).length = 8 := by rw [List.length_drop]; omega
  simp only [Spec.lanes, e, Nat.mul_zero, List.drop_zero, Nat.reduceMul]
  rw [List.take_append_of_le_length (by omega), List.drop_append_of_le_length (by omega : 8 ≤ l.length),
    List.take_append_of_le_length (by omega), List.take_of_length_le (l := l.drop 8) (by omega),
    List.drop_append (i := 16), List.drop_of_length_le (i := 16) (by omega), List.drop_append (i := 24),
    List.drop_of_length_le (i := 24) (by omega), hl]
  simp only [List.nil_append, Nat.reduceSub, List.drop_zero]
  rw [List.take_of_length_le (l := h.drop 8) (by omega)]
  exact ⟨trivial, rfl⟩

theorem packetSse (h l : U128) (s : Highway) :
    HighwaySse41.UpdateLanes h l (repSse s) = repSse (Spec.highwayPacket s (toList l ++ toList h)) := by
  unfold Spec.highwayPacket
  rw [← UpdateSse, (lanes_lists _ _ (toList_length l) (toList_length h)).1, (lanes_lists _ _ (toList_length l) (toList_length h)).2,
    ofList_toList, ofList_toList]

theorem packetAvx (h l : U128) (s : Highway) :
    HighwayAvx2.UpdateHalves h l (repAvx s) = repAvx (Spec.highwayPacket s (toList l ++ toList h)) := by
  unfold Spec.highwayPacket
  rw [← UpdateAvx, (lanes_lists _ _ (toList_length l) (toList_length h)).1, (lanes_lists _ _ (toList_length l) (toList_length h)).2,
    ofList_toList, ofList_toList]

theorem twoHalves (r : List Byte) (h : r.length = 32) :
    toList (ofList ((r.drop 0).take 16)) ++ toList (ofList ((r.drop 16).take 16)) = r := by
  rw [toList_ofList _ (by rw [List.length_take, List.length_drop]; omega),
    toList_ofList _ (by rw [List.length_take, List.length_drop]; omega), List.drop_zero,
    List.take_of_length_le (l := r.drop 16) (by rw [List.length_drop]; omega), List.take_append_drop]

theorem reads_UpdateSse (g : Yields w ov cfg P strict b r C) (h : r.length = 32) (s : Highway) :
    Reads w ov P (span C 0 32) 0 (HighwaySse41.Update cfg strict b (repSse s)) (repSse (Spec.highwayPacket s r)) := by
  unfold HighwaySse41.Update
  refine Exec.cov (Exec.post (Reads.bind (reads_loadVec g 0 (by omega)) <| Reads.bind (C₂ := nowhere) (n₂ := 0)
    (reads_loadVec g 16 (by omega)) (Reads.pure _)) ?_) (fun a ⟨k, h1, h2, h3⟩ => ?_) rfl
  · rintro x o ⟨rfl, rfl⟩
    rw [packetSse, twoHalves r h]
    exact ⟨rfl, rfl⟩
  · by_cases hk : k < 16
    · exact Or.inl ⟨k, by omega, by omega, h3⟩
    · exact Or.inr (Or.inl ⟨k, by omega, by omega, h3⟩)

theorem reads_UpdateAvx (g : Yields w ov cfg P strict b r C) (h : r.length = 32) (s : Highway) :
    Reads w ov P (span C 0 32) 0 (HighwayAvx2.Update cfg strict b (repAvx s)) (repAvx (Spec.highwayPacket s r)) := by
  unfold HighwayAvx2.Update
  refine Exec.cov (Exec.post (Reads.bind (reads_loadVec g 0 (by omega)) <| Reads.bind (C₂ := nowhere) (n₂ := 0)
    (reads_loadVec g 16 (by omega)) (Reads.pure _)) ?_) (fun a ⟨k, h1, h2, h3⟩ => ?_) rfl
  · rintro x o ⟨rfl, rfl⟩
    have := packetAvx (ofList ((r.drop 16).take 16)) (ofList ((r.drop 0).take 16)) s
    rw [twoHalves r h] at this
    exact ⟨this, rfl⟩
  · by_cases hk : k < 16
    · exact Or.inl ⟨k, by omega, by omega, h3⟩
    · exact Or.inr (Or.inl ⟨k, by omega, by omega, h3⟩)

/-- What the last bytes do to the state before they are absorbed. -/
def remainderState (s : Highway) (n : Nat) : Highway :=
  { s with
    v0 := s.v0.map (· + (BitVec.ofNat 64 n <<< 32 + BitVec.ofNat 64 n))
    v1 := s.v1.map (Spec.rotHalves n) }

theorem stateSse (s : Highway) (n : Nat) (h0 : 0 < n) (hn : n < 32) :
    { repSse s with
      v0L := add64 (repSse s).v0L (set1_32 (BitVec.ofNat 32 n))
      v0H := add64 (repSse s).v0H (set1_32 (BitVec.ofNat 32 n))
      v1L := HighwaySse41.Rotate32By (repSse s).v1L (BitVec.ofNat 64 n)
      v1H := HighwaySse41.Rotate32By (repSse s).v1H (BitVec.ofNat 64 n) } = repSse (remainderState s n) := by
  simp only [repSse, set1_eq n hn, add64_set, rotateSse n h0 hn, remainderState, Quad.map]

theorem stateAvx (s : Highway) (n : Nat) (h0 : 0 < n) (hn : n < 32) :
    { repAvx s with
      v0 := (repAvx s).v0.zip add64 ⟨set1_32 (BitVec.ofNat 32 n), set1_32 (BitVec.ofNat 32 n)⟩
      v1 := HighwayAvx2.Rotate32By (repAvx s).v1 ⟨set1_32 (BitVec.ofNat 32 n), set1_32 (BitVec.ofNat 32 n)⟩ } =
      repAvx (remainderState s n) := by
  simp only [repAvx, rotateAvx n h0 hn, U256.zip]
  simp only [set1_eq n hn, add64_set, remainderState, Quad.map]

theorem padded_high (r : List Byte) (h16 : 16 ≤ r.length) (h : r.length < 32) (x : U32)
    (hx : x.toNat = leVal (r.drop (r.length - 4))) :
    toList (ofList ((r.drop 0).take 16)) ++
      toList (insert32_3 (ofList (zeroed r 16 ((r.length - 16) / 4 * 4))) x) = Spec.highwayPadded r := by
  have hl4 : (r.drop (r.length - 4)).length = 4 := by rw [List.length_drop]; omega
  have hx4 : le4 x = r.drop (r.length - 4) := by
    unfold le4
    rw [hx]
    generalize r.drop (r.length - 4) = l at *
    rw [← hl4]
    exact leBytes_leVal l
  have hz := length_zeroed r 16 ((r.length - 16) / 4 * 4) (by omega) (by omega)
  rw [toList_insert, hx4, toList_ofList _ hz, toList_ofList _ (by rw [List.length_take, List.length_drop]; omega)]
  unfold Spec.highwayPadded zeroed
  simp only [if_pos h16, List.drop_zero]
  have hn : r.length / 4 * 4 = 16 + (r.length - 16) / 4 * 4 := by omega
  have htl : ((r.drop 16).take ((r.length - 16) / 4 * 4)).length = (r.length - 16) / 4 * 4 := by
    rw [List.length_take, List.length_drop]; omega
  rw [hn, List.take_add, List.take_append (i := 12), htl, List.take_of_length_le (i := 12) (by omega), List.take_replicate,
    show min (12 - (r.length - 16) / 4 * 4) (16 - (r.length - 16) / 4 * 4) = 28 - (16 + (r.length - 16) / 4 * 4) by omega]
  simp only [List.append_assoc]

theorem padded_low (r : List Byte) (h16 : ¬ 16 ≤ r.length) (x : U64)
    (hx : x.toNat = leVal ((if r.drop (r.length / 4 * 4) = [] then [0, 0, 0] else
        [(r.drop (r.length / 4 * 4)).getD 0 0,
         (r.drop (r.length / 4 * 4)).getD ((r.drop (r.length / 4 * 4)).length / 2) 0,
         (r.drop (r.length / 4 * 4)).getD ((r.drop (r.length / 4 * 4)).length - 1) 0]) ++ List.replicate 5 0)) :
    toList (ofList (zeroed r 0 (r.length / 4 * 4))) ++ toList (cvtsi64 x) = Spec.highwayPadded r := by
  have hl8 := length_three (r.drop (r.length / 4 * 4))
  have hz := length_zeroed r 0 (r.length / 4 * 4) (by omega) (by omega)
  rw [toList_cvtsi64 x _ (by rw [List.length_append, hl8]; rfl) hx, toList_ofList _ hz]
  unfold Spec.highwayPadded zeroed
  simp only [if_neg h16, List.drop_zero]
  rw [show List.replicate 13 (0 : Byte) = List.replicate 5 0 ++ List.replicate 8 0 from rfl]
  simp only [List.append_assoc]

theorem remainder_eq (s : Highway) (r : List Byte) : Spec.highwayPacket (remainderState s r.length) (Spec.highwayPadded r) =
    Spec.highwayRemainder Spec.highwayPadded s r := rfl

theorem reads_RemainderSse (g : Yields w ov cfg P strict b r C) (h0 : 0 < r.length) (h : r.length < 32) (s : Highway) :
    Reads w ov P (span C 0 r.length) 0 (HighwaySse41.UpdateRemainder cfg strict b r.length (repSse s))
      (repSse (Spec.highwayRemainder Spec.highwayPadded s r)) := by
  unfold HighwaySse41.UpdateRemainder
  simp only [stateSse s _ h0 h, and_minus_4 (cfg := cfg) _ h, and_3]
  rw [← remainder_eq]
  by_cases h16 : 16 ≤ r.length
  · simp only [if_pos ((and_16_iff _ h).2 h16)]
    have hm := reads_LoadMultipleOfFour g 16 r.length (by omega)
    rw [show r.length % 16 = r.length - 16 by omega] at hm
    refine Exec.cov (Reads.bind (g.pointer _ (by omega)) <| Reads.bind (reads_loadVec g 0 (by omega)) <|
      Reads.bind (g.pointer _ (by omega)) <| Reads.bind hm <| Exec.bind (C₂ := nowhere) (n₂ := 0) (reads_readBefore g h16) ?_)
      (fun a ⟨k, h1, h2, h3⟩ => ?_) rfl
    · rintro x o ⟨hx, rfl⟩
      rw [packetSse, padded_high r h16 h x hx]
      exact Reads.pure _
    · by_cases k1 : k < 16
      · exact Or.inr (Or.inl ⟨k, by omega, by omega, h3⟩)
      · by_cases k2 : k < 16 + (r.length - 16) / 4 * 4
        · exact Or.inr (Or.inr (Or.inr (Or.inl ⟨k, by omega, by omega, h3⟩)))
        · exact Or.inr (Or.inr (Or.inr (Or.inr (Or.inl ⟨k, by omega, by omega, h3⟩))))
  · simp only [if_neg (mt (and_16_iff _ h).1 h16)]
    have hm := reads_LoadMultipleOfFour g 0 r.length (by omega)
    rw [show r.length % 16 = r.length by omega] at hm
    refine Exec.cov (Reads.bind (g.pointer _ (by omega)) <|
      Reads.bind hm <| Exec.bind (C₂ := nowhere) (n₂ := 0) (reads_unordered g) ?_)
      (fun a ⟨k, h1, h2, h3⟩ => ?_) rfl
    · rintro x o ⟨hx, rfl⟩
      rw [packetSse, padded_low r h16 x hx]
      exact Reads.pure _
    · by_cases k2 : k < r.length / 4 * 4
      · exact Or.inr (Or.inl ⟨k, by omega, by omega, h3⟩)
      · exact Or.inr (Or.inr (Or.inl ⟨k, by omega, by omega, h3⟩))

theorem mask0 (n : Nat) (h : n < 32) : ∀ j, j < 4 →
    (lane32 (HighwayAvx2.IntMask 0 (set1_32 (BitVec.ofNat 32 n))) j).msb = decide (j < n / 4) := by
  have : ∀ n, n < 32 → ∀ j, j < 4 →
    (lane32 (HighwayAvx2.IntMask 0 (set1_32 (BitVec.ofNat 32 n))) j).msb = decide (j < n / 4) := by decide +kernel
  exact this n h

theorem mask16 (n : Nat) (h16 : 16 ≤ n) (h : n < 32) : ∀ j, j < 4 →
    (lane32 (HighwayAvx2.IntMask 16 (set1_32 (BitVec.ofNat 32 n))) j).msb = decide (j < (n - 16) / 4) := by
  have : ∀ n, n < 32 → 16 ≤ n → ∀ j, j < 4 →
    (lane32 (HighwayAvx2.IntMask 16 (set1_32 (BitVec.ofNat 32 n))) j).msb = decide (j < (n - 16) / 4) := by decide +kernel
  exact this n h h16

theorem reads_RemainderAvx (g : Yields w ov cfg P strict b r C) (h0 : 0 < r.length) (h : r.length < 32) (s : Highway) :
    Reads w ov P (span C 0 r.length) 0 (HighwayAvx2.UpdateRemainder cfg strict b r.length (repAvx s))
      (repAvx (Spec.highwayRemainder Spec.highwayPadded s r)) := by
  unfold HighwayAvx2.UpdateRemainder
  simp only [broadcast_eq _ h, stateAvx s _ h0 h, and_minus_4 (cfg := cfg) _ h, and_3]
  rw [← remainder_eq]
  by_cases h16 : 16 ≤ r.length
  · simp only [if_pos ((and_16_iff _ h).2 h16)]
    have hm := reads_maskload g 16 ((r.length - 16) / 4) _ (by omega) (mask16 _ h16 h) (by omega)
    refine Exec.cov (Reads.bind (g.pointer _ (by omega)) <| Reads.bind (reads_loadVec g 0 (by omega)) <|
      Reads.bind (g.pointer _ (by omega)) <| Reads.bind hm <| Exec.bind (C₂ := nowhere) (n₂ := 0) (reads_readBefore g h16) ?_)
      (fun a ⟨k, h1, h2, h3⟩ => ?_) rfl
    · rintro x o ⟨hx, rfl⟩
      rw [packetAvx, padded_high r h16 h x hx]
      exact Reads.pure _
    · by_cases k1 : k < 16
      · exact Or.inr (Or.inl ⟨k, by omega, by omega, h3⟩)
      · by_cases k2 : k < 16 + (r.length - 16) / 4 * 4
        · exact Or.inr (Or.inr (Or.inr (Or.inl ⟨k, by omega, by omega, h3⟩)))
        · exact Or.inr (Or.inr (Or.inr (Or.inr (Or.inl ⟨k, by omega, by omega, h3⟩))))
  · simp only [if_neg (mt (and_16_iff _ h).1 h16)]
    have hm := reads_maskload g 0 (r.length / 4) _ (by omega) (mask0 _ h) (by omega)
    rw [Nat.zero_add] at hm
    refine Exec.cov (Reads.bind (g.pointer _ (by omega)) <|
      Reads.bind hm <| Exec.bind (C₂ := nowhere) (n₂ := 0) (reads_unordered g) ?_)
      (fun a ⟨k, h1, h2, h3⟩ => ?_) rfl
    · rintro x o ⟨hx, rfl⟩
      rw [packetAvx, padded_low r h16 x hx]
      exact Reads.pure _
    · by_cases k2 : k < r.length / 4 * 4
      · exact Or.inr (Or.inl ⟨k, by omega, by omega, h3⟩)
      · exact Or.inr (Or.inr (Or.inl ⟨k, by omega, by omega, h3⟩))

end T1ha.Model
