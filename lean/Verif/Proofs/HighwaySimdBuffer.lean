import Verif.Proofs.HighwaySimd

/-!
# HighwayHash with SSE4.1 and AVX2 computes its specification: the buffer
-/

namespace T1ha.X86

open Model

theorem toList_ofBytes (f : Nat → Byte) : toList (ofBytes f) = (List.range 16).map f := by
  rw [ofBytes_eq, toList_ofList _ (by simp)]

theorem byteAt_ofBytes (f : Nat → Byte) (i : Nat) (h : i < 16) : byteAt (ofBytes f) i = f i := by
  rw [byteAt_eq _ _ h, toList_ofBytes, List.getD_eq_getElem?_getD, List.getElem?_map, List.getElem?_range h]
  rfl

theorem not_set32 (d c b a : U32) : ~~~(set32 d c b a) = set32 (~~~d) (~~~c) (~~~b) (~~~a) := by
  rw [set32_eq, set32_eq]
  unfold set64x
  rw [BitVec.not_append, BitVec.not_append, BitVec.not_append]

theorem and_set32 (d c b a d' c' b' a' : U32) :
    set32 d c b a &&& set32 d' c' b' a' = set32 (d &&& d') (c &&& c') (b &&& b') (a &&& a') := by
  rw [set32_eq, set32_eq, set32_eq]
  have h : ∀ x y z t : U32, ((x ++ y : U64) &&& (z ++ t : U64)) = (x &&& z) ++ (y &&& t) := fun _ _ _ _ => BitVec.and_append ..
  have := and_set (d ++ c) (b ++ a) (d' ++ c') (b' ++ a')
  rw [h, h] at this
  exact this

end T1ha.X86

namespace T1ha.Model

open Spec (Highway)
open X86

variable {w : World} {ov : Overlay} {cfg : Cfg} {P : Ev → Prop} {lo hi d : Nat} {strict : Bool}
  {b : Bytes} {r : List Byte} {C : Nat → Nat → Prop}

/-! ## Up to 16 bytes -/

/-- Lane `j` of a mask for `k` groups. -/
def maskOf (k j : Nat) : U32 := if j < k then BitVec.allOnes 32 else 0

theorem mask0_eq (n : Nat) (h : n < 32) : HighwayAvx2.IntMask 0 (set1_32 (BitVec.ofNat 32 n)) =
    set32 (maskOf (n / 4) 3) (maskOf (n / 4) 2) (maskOf (n / 4) 1) (maskOf (n / 4) 0) := by
  have : ∀ n, n < 32 → HighwayAvx2.IntMask 0 (set1_32 (BitVec.ofNat 32 n)) =
    set32 (maskOf (n / 4) 3) (maskOf (n / 4) 2) (maskOf (n / 4) 1) (maskOf (n / 4) 0) := by decide +kernel
  exact this n h

theorem mask16_eq (n : Nat) (h16 : 16 ≤ n) (h : n < 32) : HighwayAvx2.IntMask 16 (set1_32 (BitVec.ofNat 32 n)) =
    set32 (maskOf ((n - 16) / 4) 3) (maskOf ((n - 16) / 4) 2) (maskOf ((n - 16) / 4) 1) (maskOf ((n - 16) / 4) 0) := by
  have : ∀ n, n < 32 → 16 ≤ n → HighwayAvx2.IntMask 16 (set1_32 (BitVec.ofNat 32 n)) =
    set32 (maskOf ((n - 16) / 4) 3) (maskOf ((n - 16) / 4) 2) (maskOf ((n - 16) / 4) 1) (maskOf ((n - 16) / 4) 0) := by decide +kernel
  exact this n h h16

/-- The groups, and `x` in the other lanes. -/
theorem insert_above (r : List Byte) (i k : Nat) (x : U32) (hk : k ≤ 4) (h : i + 4 * k ≤ r.length) :
    toList (HighwayAvx2.Insert4AboveMask x (set32 (maskOf k 3) (maskOf k 2) (maskOf k 1) (maskOf k 0))
      (ofList (zeroed r i (k * 4)))) = (r.drop i).take (k * 4) ++ (List.replicate (4 - k) (le4 x)).flatten := by
  have hl : ∀ j, wordIf r i k j ||| (~~~(maskOf k j) &&& x) = if j < k then wordIf r i k j else x := by
    intro j
    unfold wordIf maskOf
    by_cases hj : j < k
    · simp [hj]
    · simp only [hj, if_false, show ~~~(0 : U32) = BitVec.allOnes 32 from rfl, BitVec.allOnes_and]
      exact BitVec.zero_or
  unfold HighwayAvx2.Insert4AboveMask andnot set1_32
  rw [ofList_zeroed r i k hk h, not_set32, and_set32, or_set32, hl, hl, hl, hl, toList_set32]
  have hw : ∀ j, j < k → le4 (if j < k then wordIf r i k j else x) = (r.drop (i + 4 * j)).take 4 := by
    intro j hj
    unfold wordIf
    rw [if_pos hj, if_pos hj]
    exact le4_word _ (by rw [List.length_take, List.length_drop]; omega)
  have hz : ∀ j, k ≤ j → le4 (if j < k then wordIf r i k j else x) = le4 x := by
    intro j hj
    rw [if_neg (by omega)]
  have hg : ∀ n, (r.drop i).take (4 * n + 4) = (r.drop i).take (4 * n) ++ (r.drop (i + 4 * n)).take 4 := by
    intro n
    rw [List.take_add, List.drop_drop]
  have hcases : k = 0 ∨ k = 1 ∨ k = 2 ∨ k = 3 ∨ k = 4 := by omega
  rcases hcases with rfl | rfl | rfl | rfl | rfl
  · rw [hz 0 (by omega), hz 1 (by omega), hz 2 (by omega), hz 3 (by omega)]
    simp [List.replicate]
  · rw [hw 0 (by omega), hz 1 (by omega), hz 2 (by omega), hz 3 (by omega)]
    simp [List.replicate]
  · rw [hw 0 (by omega), hw 1 (by omega), hz 2 (by omega), hz 3 (by omega), hg 1]
    simp [List.replicate]
  · rw [hw 0 (by omega), hw 1 (by omega), hw 2 (by omega), hz 3 (by omega), hg 2, hg 1]
    simp
  · rw [hw 0 (by omega), hw 1 (by omega), hw 2 (by omega), hw 3 (by omega), hg 3, hg 2, hg 1]
    simp

/-- The first `n` bytes, if `x` has the bytes after the groups. -/
theorem insert_take (r : List Byte) (i n : Nat) (x : U32) (h : i + n ≤ r.length)
    (hx : n < 16 → (le4 x).take (n % 4) = (r.drop (i + n / 4 * 4)).take (n % 4)) (j : Nat) (hj : j ≤ n) (hj2 : j ≤ 16) :
    (toList (HighwayAvx2.Insert4AboveMask x (set32 (maskOf (min (n / 4) 4) 3) (maskOf (min (n / 4) 4) 2) (maskOf (min (n / 4) 4) 1) (maskOf (min (n / 4) 4) 0))
      (ofList (zeroed r i (min (n / 4) 4 * 4))))).take j = (r.drop i).take j := by
  have hm : ∀ y : List Byte, y.take j = (y.take (min n 16)).take j := by
    intro y
    rw [List.take_take]
    congr 1
    omega
  rw [insert_above r i _ x (by omega) (by omega), hm, hm (r.drop i)]
  congr 1
  by_cases h16 : 16 ≤ n
  · rw [show min (n / 4) 4 = 4 by omega, show min n 16 = 16 by omega]
    simp [List.take_take]
  · rw [show min (n / 4) 4 = n / 4 by omega, show min n 16 = n / 4 * 4 + n % 4 by omega]
    have htl : ((r.drop i).take (n / 4 * 4)).length = n / 4 * 4 := by rw [List.length_take, List.length_drop]; omega
    rw [List.take_add (i := n / 4 * 4) (j := n % 4), List.take_append_of_le_length (by omega), List.take_take, Nat.min_self, List.drop_append_of_le_length (by omega),
      List.drop_of_length_le (l := (r.drop i).take (n / 4 * 4)) (by omega), List.nil_append, List.take_add (i := n / 4 * 4) (j := n % 4),
      List.drop_drop, ← hx (by omega),
      show 4 - n / 4 = (3 - n / 4) + 1 by omega, List.replicate_succ, List.flatten_cons,
      List.take_append_of_le_length (by rw [le4_length]; omega)]

theorem word_of (x : U64) (l : List Byte) (hl : l.length = 4) (h : x.toNat = leVal l) : le4 (x.setWidth 32) = l := by
  have : x.setWidth 32 = BitVec.ofNat 32 (leVal l) := by
    apply BitVec.eq_of_toNat_eq
    rw [BitVec.toNat_setWidth, BitVec.toNat_ofNat, h]
  rw [this, le4_word l hl]

theorem sum1 (a : Byte) : ((0 : U64) + a.setWidth 64 : U64).toNat = leVal [a, 0, 0, 0] := by
  have ha := a.isLt
  simp only [BitVec.toNat_add, BitVec.toNat_setWidth, leVal]
  rw [show (0 : U64).toNat = 0 from rfl, show (0 : Byte).toNat = 0 from rfl]
  omega

theorem sum2 (a b : Byte) : ((0 : U64) + a.setWidth 64 + b.setWidth 64 <<< 8 : U64).toNat = leVal [a, b, 0, 0] := by
  have ha := a.isLt
  have hb := b.isLt
  simp only [BitVec.toNat_add, BitVec.toNat_shiftLeft, BitVec.toNat_setWidth, Nat.shiftLeft_eq, leVal]
  rw [show (0 : U64).toNat = 0 from rfl, show (0 : Byte).toNat = 0 from rfl]
  omega

theorem sum3 (a b c : Byte) :
    ((0 : U64) + a.setWidth 64 + b.setWidth 64 <<< 8 + c.setWidth 64 <<< 16 : U64).toNat = leVal [a, b, c, 0] := by
  have ha := a.isLt
  have hb := b.isLt
  have hc := c.isLt
  simp only [BitVec.toNat_add, BitVec.toNat_shiftLeft, BitVec.toNat_setWidth, Nat.shiftLeft_eq, leVal]
  rw [show (0 : U64).toNat = 0 from rfl, show (0 : Byte).toNat = 0 from rfl]
  omega

theorem reads_load3None (g : Yields w ov cfg P strict b r C) (i n : Nat) (hn : n < 4) (h : i + n ≤ r.length) :
    Exec w ov P (span C i (i + n)) 0 (HighwayAvx2.load3None cfg strict b i n)
      (fun x o => o = ov ∧ (le4 (x.setWidth 32)).take n = (r.drop i).take n) := by
  have hget : ∀ j, (hj : j < n) → Reads w ov P (C (i + j)) 0 (b.get cfg strict (i + j)) (r[i + j]'(by omega)) :=
    fun j hj => g.get _ _ (List.getElem?_eq_getElem (by omega))
  have hd : ∀ j, (hj : j < n) → r.drop (i + j) = r[i + j]'(by omega) :: r.drop (i + j + 1) :=
    fun j hj => List.drop_eq_getElem_cons (by omega)
  unfold HighwayAvx2.load3None
  have hcases : n = 0 ∨ n = 1 ∨ n = 2 ∨ n = 3 := by omega
  rcases hcases with rfl | rfl | rfl | rfl
  · simp only [show ¬ 1 ≤ 0 by omega, show ¬ 2 ≤ 0 by omega, show ¬ 0 = 3 by omega, if_false, pure_bind]
    refine Exec.cov (Exec.post (Reads.pure _) ?_) (fun a ⟨k, h1, h2, _⟩ => by omega) rfl
    rintro x o ⟨rfl, rfl⟩
    exact ⟨rfl, by rw [List.take_zero, List.take_zero]⟩
  · simp only [show 1 ≤ 1 by omega, show ¬ 2 ≤ 1 by omega, show ¬ 1 = 3 by omega, if_false, if_true, pure_bind, bind_assoc]
    refine Exec.cov (Exec.post (Reads.bind (C₂ := nowhere) (n₂ := 0) (hget 0 (by omega)) (Reads.pure _)) ?_)
      (fun a ⟨k, h1, h2, h3⟩ => ?_) rfl
    · rintro x o ⟨rfl, rfl⟩
      refine ⟨rfl, ?_⟩
      rw [show r.drop i = _ from hd 0 (by omega), word_of _ _ rfl (sum1 _)]
      rfl
    · obtain rfl : k = i + 0 := by omega
      exact Or.inl h3
  · simp only [show 1 ≤ 2 by omega, show 2 ≤ 2 by omega, show ¬ 2 = 3 by omega, if_false, if_true, pure_bind, bind_assoc]
    refine Exec.cov (Exec.post (Reads.bind (hget 0 (by omega)) <| Reads.bind (C₂ := nowhere) (n₂ := 0) (hget 1 (by omega)) (Reads.pure _)) ?_)
      (fun a ⟨k, h1, h2, h3⟩ => ?_) rfl
    · rintro x o ⟨rfl, rfl⟩
      refine ⟨rfl, ?_⟩
      rw [show r.drop i = _ from hd 0 (by omega), show r.drop (i + 0 + 1) = _ from hd 1 (by omega), word_of _ _ rfl (sum2 _ _)]
      rfl
    · have : k = i + 0 ∨ k = i + 1 := by omega
      rcases this with rfl | rfl
      · exact Or.inl h3
      · exact Or.inr (Or.inl h3)
  · simp only [show 1 ≤ 3 by omega, show 2 ≤ 3 by omega, if_true, pure_bind, bind_assoc]
    refine Exec.cov (Exec.post (Reads.bind (hget 0 (by omega)) <| Reads.bind (hget 1 (by omega)) <|
      Reads.bind (C₂ := nowhere) (n₂ := 0) (hget 2 (by omega)) (Reads.pure _)) ?_)
      (fun a ⟨k, h1, h2, h3⟩ => ?_) rfl
    · rintro x o ⟨rfl, rfl⟩
      refine ⟨rfl, ?_⟩
      rw [show r.drop i = _ from hd 0 (by omega), show r.drop (i + 0 + 1) = _ from hd 1 (by omega),
        show r.drop (i + 1 + 1) = _ from hd 2 (by omega), word_of _ _ rfl (sum3 _ _ _)]
      rfl
    · have : k = i + 0 ∨ k = i + 1 ∨ k = i + 2 := by omega
      rcases this with rfl | rfl | rfl
      · exact Or.inl h3
      · exact Or.inr (Or.inl h3)
      · exact Or.inr (Or.inr (Or.inl h3))

theorem reads_Load0To16 (g : Yields w ov cfg P strict b r C) (i n : Nat) (hn : n < 32) (h : i + n ≤ r.length) :
    Exec w ov P (span C i (i + min n 16)) 0 (HighwayAvx2.Load0To16 cfg strict b i n)
      (fun v o => o = ov ∧ ∀ j, j ≤ n → j ≤ 16 → (toList v).take j = (r.drop i).take j) := by
  unfold HighwayAvx2.Load0To16
  simp only [and_minus_4 (cfg := cfg) _ hn, and_3]
  have hm := reads_maskload g i (min (n / 4) 4) (HighwayAvx2.IntMask 0 (set1_32 (BitVec.ofNat 32 n))) (by omega)
    (fun j hj => by rw [mask0 n hn j hj]; congr 1; apply propext; omega) (by omega)
  refine Exec.cov (Reads.bind (g.pointer _ (by omega)) <| Exec.bind (C₂ := span C i (i + min (n / 4) 4 * 4)) (n₂ := 0)
    (reads_load3None g (i + n / 4 * 4) (n % 4) (by omega) (by omega)) ?_) (fun a ⟨k, h1, h2, h3⟩ => ?_) rfl
  · rintro x o ⟨rfl, hx⟩
    refine Exec.cov (Exec.post (Reads.bind (C₂ := nowhere) (n₂ := 0) hm (Reads.pure _)) ?_) (fun a h => Or.inl h) rfl
    rintro v o ⟨rfl, rfl⟩
    refine ⟨rfl, fun j hj hj2 => ?_⟩
    rw [mask0_eq n hn]
    have e : ∀ j, j < 4 → maskOf (n / 4) j = maskOf (min (n / 4) 4) j := by
      intro j hj
      unfold maskOf
      by_cases c : j < n / 4
      · rw [if_pos c, if_pos (by omega)]
      · rw [if_neg c, if_neg (by omega)]
    rw [e 0 (by omega), e 1 (by omega), e 2 (by omega), e 3 (by omega)]
    exact insert_take r i n _ h (fun _ => hx) j hj hj2
  · by_cases hk : k < i + min (n / 4) 4 * 4
    · exact Or.inr (Or.inr ⟨k, h1, hk, h3⟩)
    · exact Or.inr (Or.inl ⟨k, by omega, by omega, h3⟩)

theorem leVal_shift (l : List Byte) (k : Nat) (hk : k ≤ l.length) : leVal l >>> (8 * k) = leVal (l.drop k) := by
  have h1 := leVal_append (l.take k) (l.drop k)
  rw [List.take_append_drop, List.length_take, Nat.min_eq_left hk] at h1
  have h2 := leVal_lt (l.take k)
  rw [List.length_take, Nat.min_eq_left hk] at h2
  rw [h1, Nat.shiftRight_eq_div_pow, Nat.pow_mul, show 2 ^ 8 = 256 from rfl, Nat.add_mul_div_left _ _ (by positivity),
    Nat.div_eq_of_lt h2, Nat.zero_add]

theorem reads_load3Before (g : Yields w ov cfg P strict b r C) (h16 : 16 ≤ r.length) (h : r.length < 32) :
    Exec w ov P (span C (r.length - 4) r.length) 0 (HighwayAvx2.load3Before cfg strict b (r.length / 4 * 4) (r.length % 4))
      (fun x o => o = ov ∧ (le4 (x.setWidth 32)).take (r.length % 4) = (r.drop (r.length / 4 * 4)).take (r.length % 4)) := by
  unfold HighwayAvx2.load3Before
  refine Exec.cov (Exec.bind (C₂ := nowhere) (n₂ := 0) (reads_readBefore g h16) ?_) (fun a h => Or.inl h) rfl
  rintro x o ⟨hx, rfl⟩
  refine Exec.post (Reads.pure _) ?_
  rintro y o ⟨rfl, rfl⟩
  refine ⟨rfl, ?_⟩
  have hl4 : (r.drop (r.length - 4)).length = 4 := by rw [List.length_drop]; omega
  have hd : (r.drop (r.length - 4)).drop (4 - r.length % 4) = r.drop (r.length / 4 * 4) := by
    rw [List.drop_drop]
    congr 1
    omega
  have hdl : (r.drop (r.length / 4 * 4)).length = r.length % 4 := by rw [List.length_drop]; omega
  have hval : (x.setWidth 64 >>> (32 - r.length % 4 * 8) : U64).toNat =
      leVal (r.drop (r.length / 4 * 4) ++ List.replicate (4 - r.length % 4) 0) := by
    have hz : ∀ n, leVal (List.replicate n (0 : Byte)) = 0 := by
      intro n
      induction n with
      | zero => rfl
      | succ n ih => rw [List.replicate_succ, leVal, ih]; rfl
    have := x.isLt
    rw [BitVec.toNat_ushiftRight, BitVec.toNat_setWidth, Nat.mod_eq_of_lt (by omega), hx,
      show 32 - r.length % 4 * 8 = 8 * (4 - r.length % 4) by omega, leVal_shift _ _ (by omega), hd, leVal_append, hz, Nat.mul_zero, Nat.add_zero]
  rw [word_of _ _ (by rw [List.length_append, List.length_replicate]; omega) hval, List.take_append_of_le_length (by omega)]

theorem reads_Load0To16After16 (g : Yields w ov cfg P strict b r C) (h16 : 16 ≤ r.length) (h : r.length < 32) :
    Exec w ov P (span C 16 r.length) 0 (HighwayAvx2.Load0To16After16 cfg strict b r.length)
      (fun v o => o = ov ∧ (toList v).take (r.length - 16) = r.drop 16) := by
  unfold HighwayAvx2.Load0To16After16
  simp only [and_minus_4 (cfg := cfg) (r.length - 16) (by omega), and_3]
  have hm := reads_maskload g 16 ((r.length - 16) / 4) _ (by omega) (mask16 _ h16 h) (by omega)
  have h3 := reads_load3Before g h16 h
  rw [show r.length / 4 * 4 = 16 + (r.length - 16) / 4 * 4 by omega, show r.length % 4 = (r.length - 16) % 4 by omega] at h3
  refine Exec.cov (Reads.bind (g.pointer _ (by omega)) <| Reads.bind (g.pointer _ (by omega)) <|
    Exec.bind (C₂ := span C 16 (16 + (r.length - 16) / 4 * 4)) (n₂ := 0) h3 ?_) (fun a ⟨k, h1, h2, h3⟩ => ?_) rfl
  · rintro x o ⟨rfl, hx⟩
    refine Exec.cov (Exec.post (Reads.bind (C₂ := nowhere) (n₂ := 0) hm (Reads.pure _)) ?_) (fun a h => Or.inl h) rfl
    rintro v o ⟨rfl, rfl⟩
    refine ⟨rfl, ?_⟩
    rw [mask16_eq _ h16 h]
    have := insert_take r 16 (r.length - 16) (x.setWidth 32) (by omega) (fun _ => hx) (r.length - 16) (by omega) (by omega)
    rw [show min ((r.length - 16) / 4) 4 = (r.length - 16) / 4 by omega] at this
    rw [this, List.take_of_length_le (by rw [List.length_drop])]
  · by_cases hk : k < 16 + (r.length - 16) / 4 * 4
    · exact Or.inr (Or.inr (Or.inr ⟨k, h1, hk, h3⟩))
    · exact Or.inr (Or.inr (Or.inl ⟨k, by omega, by omega, h3⟩))

/-! ## The buffer -/

theorem table_row : ∀ k, k < 16 → HighwayAvx2.concatenateTable[k]? = some (HighwayAvx2.concatenateTable.getD k (0, 0)) ∧
    ∀ i, i < 16 → X86.byteAt (set64x (HighwayAvx2.concatenateTable.getD k (0, 0)).2 (HighwayAvx2.concatenateTable.getD k (0, 0)).1) i =
      if i < k then 255 else BitVec.ofNat 8 (i - k) := by decide +kernel

theorem reads_Concatenate (pre suffix : U128) (k : Nat) (hk : k < 16) :
    Exec w ov P nowhere 0 (HighwayAvx2.Concatenate pre k suffix)
      (fun v o => o = ov ∧ toList v = (toList pre).take k ++ (toList suffix).take (16 - k)) := by
  unfold HighwayAvx2.Concatenate
  obtain ⟨h1, h2⟩ := table_row k hk
  rw [h1]
  refine Exec.post (Reads.pure _) ?_
  rintro v o ⟨rfl, rfl⟩
  refine ⟨rfl, ?_⟩
  unfold blendv8
  rw [toList_ofBytes]
  have hp := toList_length pre
  have hs := toList_length suffix
  apply List.ext_getElem
  · rw [List.length_map, List.length_range, List.length_append, List.length_take, List.length_take]; omega
  · intro i hi1 hi2
    rw [List.length_map, List.length_range] at hi1
    rw [List.getElem_map, List.getElem_range, h2 i hi1]
    have hm : ∀ k, k < 16 → (BitVec.ofNat 8 k).msb = false := by decide
    have hn : ∀ k, k < 16 → (BitVec.ofNat 8 k).toNat % 16 = k := by decide
    by_cases hik : i < k
    · rw [if_pos hik, if_pos (by decide), List.getElem_append_left (by rw [List.length_take]; omega), List.getElem_take,
        byteAt_eq _ _ hi1, List.getD_eq_getElem?_getD, List.getElem?_eq_getElem (by omega)]
      rfl
    · rw [if_neg hik, hm _ (by omega), if_neg (by decide), List.getElem_append_right (by rw [List.length_take]; omega),
        List.getElem_take]
      unfold shuffle8
      rw [byteAt_ofBytes _ _ hi1, h2 i hi1, if_neg hik, hm _ (by omega), if_neg (by decide), hn _ (by omega),
        byteAt_eq _ _ (by omega), List.getD_eq_getElem?_getD, List.getElem?_eq_getElem (by omega)]
      simp only [Option.getD_some, List.length_take, show min k (toList pre).length = k by omega]

theorem reads_storeVec (buffer : List Byte) (i : Nat) (v : U128) (h : i + 16 ≤ buffer.length) :
    Reads w ov P nowhere 0 (storeVec buffer i v) (splice buffer i (toList v)) := by
  unfold storeVec splice
  rw [if_pos h, toList_length]
  exact Reads.pure _

theorem room16 (cfg : Cfg) (u : Nat) (h : u ≤ 16) : szSub cfg 16 u = 16 - u := by
  have hbits := bits_ge_32 cfg
  unfold szSub
  rw [show 2 ^ cfg.bits + 16 - u = 2 ^ cfg.bits + (16 - u) by omega, Nat.add_mod_left, Nat.mod_eq_of_lt (by omega)]

theorem store_low (buffer : List Byte) (v : U128) :
    splice buffer 0 (toList v) = toList v ++ buffer.drop 16 := by
  unfold splice
  rw [toList_length, List.take_zero, List.nil_append, Nat.zero_add]

theorem store_high (l buffer : List Byte) (v : U128) (hl : l.length = 16) (h : buffer.length = 16) :
    splice (l ++ buffer) 16 (toList v) = l ++ toList v := by
  unfold splice
  rw [toList_length, List.take_append_of_le_length (by omega), List.take_of_length_le (by omega),
    List.drop_of_length_le (by rw [List.length_append]; omega), List.append_nil]

theorem copyAvx {v : Nat} (g : Yields w ov cfg P strict (.memory v) r C) (h : r.length < 32)
    (buffer : List Byte) (hb : buffer.length = 32) :
    Exec w ov P (span C 0 r.length) 0 (HighwayAvx2.CopyPartial cfg strict v r.length buffer)
      (fun b' o => o = ov ∧ b'.length = 32 ∧ b'.take r.length = r) := by
  have hd : (buffer.drop 16).length = 16 := by rw [List.length_drop]; omega
  unfold HighwayAvx2.CopyPartial
  by_cases h16 : 16 ≤ r.length
  · rw [if_pos ((and_16_iff _ h).2 h16)]
    have htl : ((r.drop 0).take 16).length = 16 := by rw [List.length_take, List.length_drop]; omega
    refine Exec.cov (Reads.bind (reads_loadVec g 0 (by omega)) <| Reads.bind (reads_storeVec _ 0 _ (by omega)) <|
      Exec.bind (C₂ := nowhere) (n₂ := 0) (reads_Load0To16After16 g h16 h) ?_) (fun a ⟨k, h1, h2, h3⟩ => ?_) rfl
    · rintro x o ⟨rfl, hx⟩
      refine Exec.post (reads_storeVec _ 16 _ (by rw [length_splice _ _ _ (by rw [toList_length]; omega)]; omega)) ?_
      rintro y o ⟨rfl, rfl⟩
      rw [store_low _ _, store_high _ _ _ (toList_length _) hd, toList_ofList _ htl, List.drop_zero]
      refine ⟨rfl, ?_, ?_⟩
      · rw [List.length_append, toList_length, List.length_take]; omega
      · rw [List.take_append (i := r.length), List.length_take, show min 16 r.length = 16 by omega, hx,
          List.take_of_length_le (i := r.length) (by rw [List.length_take]; omega), List.take_append_drop]
    · by_cases hk : k < 16
      · exact Or.inl ⟨k, h1, by omega, h3⟩
      · exact Or.inr (Or.inr (Or.inl ⟨k, by omega, h2, h3⟩))
  · rw [if_neg (mt (and_16_iff _ h).1 h16)]
    refine Exec.cov (Exec.bind (C₂ := nowhere) (n₂ := 0) (reads_Load0To16 g 0 r.length h (by omega)) ?_)
      (fun a ⟨k, h1, h2, h3⟩ => Or.inl ⟨k, h1, by omega, h3⟩) rfl
    rintro x o ⟨rfl, hx⟩
    refine Exec.post (reads_storeVec _ 0 _ (by omega)) ?_
    rintro y o ⟨rfl, rfl⟩
    rw [store_low _ _]
    refine ⟨rfl, ?_, ?_⟩
    · rw [List.length_append, toList_length, hd]
    · rw [List.take_append_of_le_length (by rw [toList_length]; omega), hx _ (by omega) (by omega), List.drop_zero,
        List.take_of_length_le (by omega)]

/-- What `Concatenate` gives for the low half. -/
theorem reads_low {v : Nat} (g : Yields w ov cfg P strict (.memory v) r C) (h : r.length < 32)
    (buffer : List Byte) (hb : buffer.length = 32) (u : Nat) (hu : u < 16) {α : Type} (f : U128 → M α)
    {C' : Nat → Prop} {Q : α → Overlay → Prop}
    (hf : ∀ x, (∀ j, u + j ≤ 16 → j ≤ r.length → (toList x).take (u + j) = buffer.take u ++ r.take j) →
      Exec w ov P C' 0 (f x) Q) (hP : P .iter) :
    Exec w ov P (fun a => span C 0 (min r.length 16) a ∨ C' a) 0
      (do
        let bufferL ← loadVec cfg strict (.array buffer) 0
        let suffixL ← HighwayAvx2.Load0To16 cfg strict (.memory v) 0 r.length
        let outL ← HighwayAvx2.Concatenate bufferL u suffixL
        f outL) Q := by
  have hbits := bits_ge_32 cfg
  have ga : Yields w ov cfg P strict (.array buffer) buffer (fun _ => nowhere) :=
    gives_array hP List.prefix_rfl (by omega)
  refine Exec.cov (Reads.bind (reads_loadVec ga 0 (by omega)) <|
    Exec.bind (C₂ := C') (n₂ := 0) (reads_Load0To16 g 0 r.length h (by omega)) ?_) (fun a h => ?_) rfl
  · rintro x o ⟨rfl, hx⟩
    refine Exec.cov (Exec.bind (C₂ := C') (n₂ := 0) (reads_Concatenate _ x u hu) ?_) (fun a h => Or.inr h) rfl
    rintro y o ⟨rfl, hy⟩
    refine hf y fun j hj hj2 => ?_
    rw [toList_ofList _ (by rw [List.length_take, List.length_drop]; omega), List.drop_zero, List.take_take,
      show min u 16 = u by omega] at hy
    have hul : (buffer.take u).length = u := by rw [List.length_take]; omega
    rw [hy, List.take_append (i := u + j), hul, List.take_of_length_le (i := u + j) (by omega), List.take_take,
      show min (u + j - u) (16 - u) = j by omega, hx j hj2 (by omega), List.drop_zero]
  · rcases h with h | h
    · exact Or.inr (Or.inl (by rwa [Nat.zero_add]))
    · exact Or.inr (Or.inr h)

theorem appendAvx {v : Nat} (g : Yields w ov cfg P strict (.memory v) r C) (u : Nat) (h : u + r.length < 32)
    (buffer : List Byte) (hb : buffer.length = 32) :
    Exec w ov P (span C 0 r.length) 0 (HighwayAvx2.AppendPartial cfg strict v r.length buffer u)
      (fun b' o => o = ov ∧ b'.length = 32 ∧ b'.take (u + r.length) = buffer.take u ++ r) := by
  have hbits := bits_ge_32 cfg
  have ga : Yields w ov cfg P strict (.array buffer) buffer (fun _ => nowhere) :=
    gives_array g.iter List.prefix_rfl (by omega)
  have hd : (buffer.drop 16).length = 16 := by rw [List.length_drop]; omega
  unfold HighwayAvx2.AppendPartial
  by_cases h16 : 16 ≤ u
  · rw [if_pos ((and_16_iff _ (by omega)).2 h16)]
    refine Exec.cov (Exec.bind (C₂ := nowhere) (n₂ := 0) (reads_Load0To16 g 0 r.length (by omega) (by omega)) ?_)
      (fun a ⟨k, h1, h2, h3⟩ => Or.inl ⟨k, h1, by omega, h3⟩) rfl
    rintro x o ⟨rfl, hx⟩
    refine Exec.cov (Reads.bind (reads_loadVec ga 16 (by omega)) <|
      Exec.bind (C₂ := nowhere) (n₂ := 0) (reads_Concatenate _ x (u - 16) (by omega)) ?_) (fun a h => nomatch h) rfl
    rintro y o ⟨rfl, hy⟩
    refine Exec.post (reads_storeVec _ 16 _ (by omega)) ?_
    rintro z o ⟨rfl, rfl⟩
    rw [toList_ofList _ (by rw [List.length_take, List.length_drop]; omega), List.take_take,
      show min (u - 16) 16 = u - 16 by omega] at hy
    have hsp : splice buffer 16 (toList y) = buffer.take 16 ++ toList y := by
      have := store_high (buffer.take 16) (buffer.drop 16) y (by rw [List.length_take]; omega) hd
      rwa [List.take_append_drop] at this
    rw [hsp]
    refine ⟨rfl, ?_, ?_⟩
    · rw [List.length_append, toList_length, List.length_take]; omega
    · have hul : ((buffer.drop 16).take (u - 16)).length = u - 16 := by rw [List.length_take]; omega
      have e : buffer.take u = buffer.take 16 ++ (buffer.drop 16).take (u - 16) := by
        rw [← List.take_add]; congr 1; omega
      rw [hy, List.take_append (i := u + r.length), List.take_of_length_le (i := u + r.length) (by rw [List.length_take]; omega),
        List.length_take, show min 16 buffer.length = 16 by omega, List.take_append (i := u + r.length - 16), hul,
        List.take_of_length_le (i := u + r.length - 16) (by omega), List.take_take,
        show min (u + r.length - 16 - (u - 16)) (16 - (u - 16)) = r.length by omega, hx _ (by omega) (by omega), List.drop_zero,
        List.take_of_length_le (i := r.length) (by omega), e, List.append_assoc]
  · rw [if_neg (mt (and_16_iff _ (by omega)).1 h16), room16 cfg u (by omega)]
    refine Exec.cov (reads_low (C' := span C (16 - u) r.length) g (by omega) buffer hb u (by omega) _ (fun x hx => ?_) g.iter)
      (fun a ⟨k, h1, h2, h3⟩ => ?_) rfl
    · refine Exec.cov (Reads.bind (C₂ := span C (16 - u) r.length) (n₂ := 0) (reads_storeVec _ 0 _ (by omega)) ?_)
        (fun a h => Or.inr h) rfl
      rw [store_low _ _]
      by_cases hl : r.length > 16 - u
      · simp only [if_pos hl]
        refine Exec.cov (Reads.bind (g.pointer _ (by omega)) <| Exec.bind (C₂ := nowhere) (n₂ := 0)
          (reads_Load0To16 g (16 - u) (r.length - (16 - u)) (by omega) (by omega)) ?_)
          (fun a ⟨k, h1, h2, h3⟩ => Or.inr (Or.inl ⟨k, h1, by omega, h3⟩)) rfl
        rintro y o ⟨rfl, hy⟩
        refine Exec.post (reads_storeVec _ 16 _ (by rw [List.length_append, toList_length, hd])) ?_
        rintro z o ⟨rfl, rfl⟩
        rw [store_high _ _ _ (toList_length _) hd]
        refine ⟨rfl, ?_, ?_⟩
        · rw [List.length_append, toList_length, toList_length]
        · have hx' := hx (16 - u) (by omega) (by omega)
          rw [show u + (16 - u) = 16 by omega, List.take_of_length_le (i := 16) (by rw [toList_length])] at hx'
          have hy' := hy (r.length - (16 - u)) (by omega) (by omega)
          rw [List.take_of_length_le (l := r.drop (16 - u)) (by rw [List.length_drop])] at hy'
          rw [List.take_append (i := u + r.length), toList_length, List.take_of_length_le (i := u + r.length) (by rw [toList_length]; omega),
            show u + r.length - 16 = r.length - (16 - u) by omega, hy', hx', List.append_assoc, List.take_append_drop]
      · simp only [if_neg hl]
        refine Exec.cov (Exec.post (Reads.pure _) ?_) (fun a ⟨k, h1, h2, _⟩ => by omega) rfl
        rintro z o ⟨rfl, rfl⟩
        refine ⟨rfl, ?_, ?_⟩
        · rw [List.length_append, toList_length, hd]
        · rw [List.take_append_of_le_length (by rw [toList_length]; omega), hx _ (by omega) (by omega),
            List.take_of_length_le (i := r.length) (by omega)]
    · by_cases hk : k < 16 - u
      · exact Or.inl ⟨k, h1, by omega, h3⟩
      · exact Or.inr ⟨k, by omega, h2, h3⟩

theorem appendUpdateAvx {v : Nat} (g : Yields w ov cfg P strict (.memory v) r C) (u : Nat) (h0 : 0 < u) (hu : u < 32) (h : u + r.length = 32)
    (buffer : List Byte) (hb : buffer.length = 32) (s : Highway) :
    Reads w ov P (span C 0 r.length) 0 (HighwayAvx2.AppendAndUpdate cfg strict v r.length buffer u (repAvx s))
      (repAvx (Spec.highwayPacket s (buffer.take u ++ r))) := by
  have hbits := bits_ge_32 cfg
  have ga : Yields w ov cfg P strict (.array buffer) buffer (fun _ => nowhere) :=
    gives_array g.iter List.prefix_rfl (by omega)
  have hd : (buffer.drop 16).length = 16 := by rw [List.length_drop]; omega
  unfold HighwayAvx2.AppendAndUpdate
  by_cases h16 : 16 ≤ u
  · rw [if_pos ((and_16_iff _ (by omega)).2 h16)]
    refine Exec.cov (Exec.bind (C₂ := nowhere) (n₂ := 0) (reads_Load0To16 g 0 r.length (by omega) (by omega)) ?_)
      (fun a ⟨k, h1, h2, h3⟩ => Or.inl ⟨k, h1, by omega, h3⟩) rfl
    rintro x o ⟨rfl, hx⟩
    refine Exec.cov (Reads.bind (reads_loadVec ga 0 (by omega)) <|
      Reads.bind (reads_loadVec ga 16 (by omega)) <|
      Exec.bind (C₂ := nowhere) (n₂ := 0) (reads_Concatenate _ x (u - 16) (by omega)) ?_) (fun a h => nomatch h) rfl
    rintro y o ⟨rfl, hy⟩
    refine Exec.post (Reads.pure _) ?_
    rintro z o ⟨rfl, rfl⟩
    refine ⟨?_, rfl⟩
    rw [packetAvx]
    congr 2
    rw [toList_ofList _ (by rw [List.length_take, List.length_drop]; omega), List.take_take,
      show min (u - 16) 16 = u - 16 by omega, show 16 - (u - 16) = r.length by omega, hx _ (by omega) (by omega),
      List.drop_zero, List.take_of_length_le (i := r.length) (by omega)] at hy
    rw [hy, toList_ofList _ (by rw [List.length_take, List.length_drop]; omega), List.drop_zero, ← List.append_assoc,
      ← List.take_add]
    congr 2
    omega
  · rw [if_neg (mt (and_16_iff _ (by omega)).1 h16), room16 cfg u (by omega)]
    refine Exec.cov (reads_low (C' := span C (16 - u) r.length) g (by omega) buffer hb u (by omega) _ (fun x hx => ?_) g.iter)
      (fun a ⟨k, h1, h2, h3⟩ => ?_) rfl
    · simp only [if_pos (show r.length > 16 - u by omega), bind_assoc]
      refine Exec.cov (Reads.bind (g.pointer _ (by omega)) <| Exec.bind (C₂ := nowhere) (n₂ := 0)
        (reads_Load0To16 g (16 - u) (r.length - (16 - u)) (by omega) (by omega)) ?_)
        (fun a ⟨k, h1, h2, h3⟩ => Or.inr (Or.inl ⟨k, h1, by omega, h3⟩)) rfl
      rintro y o ⟨rfl, hy⟩
      refine Exec.post (Reads.pure _) ?_
      rintro z o ⟨rfl, rfl⟩
      refine ⟨?_, rfl⟩
      have hx' := hx (16 - u) (by omega) (by omega)
      rw [show u + (16 - u) = 16 by omega, List.take_of_length_le (i := 16) (by rw [toList_length])] at hx'
      have hy' := hy (r.length - (16 - u)) (by omega) (by omega)
      rw [List.take_of_length_le (l := r.drop (16 - u)) (by rw [List.length_drop]),
        List.take_of_length_le (l := toList y) (by rw [toList_length]; omega)] at hy'
      rw [packetAvx, hx', hy', List.append_assoc, List.take_append_drop]
    · by_cases hk : k < 16 - u
      · exact Or.inl ⟨k, h1, by omega, h3⟩
      · exact Or.inr ⟨k, by omega, h2, h3⟩

/-! ## SSE4.1 -/

theorem copySse {v : Nat} (g : Yields w ov cfg P strict (.memory v) r C) (h : r.length < 32)
    (buffer : List Byte) (hb : buffer.length = 32) :
    Exec w ov P (span C 0 r.length) r.length (HighwaySse41.CopyPartial cfg strict v r.length buffer)
      (fun b' o => o = ov ∧ b'.length = 32 ∧ b'.take r.length = r) := by
  unfold HighwaySse41.CopyPartial
  have hc := reads_copyBytes g 0 r.length 0 buffer (by omega) (by omega)
  rw [Nat.zero_add, List.drop_zero, List.take_of_length_le (by omega), Nat.zero_add] at hc
  refine Exec.post hc ?_
  rintro y o ⟨rfl, rfl⟩
  refine ⟨rfl, by rw [length_splice _ _ _ (by omega), hb], ?_⟩
  have := take_splice buffer 0 r (by omega)
  rwa [Nat.zero_add, List.take_zero, List.nil_append] at this

theorem appendSse {v : Nat} (g : Yields w ov cfg P strict (.memory v) r C) (u : Nat) (h : u + r.length < 32)
    (buffer : List Byte) (hb : buffer.length = 32) :
    Exec w ov P (span C 0 r.length) r.length (HighwaySse41.AppendPartial cfg strict v r.length buffer u)
      (fun b' o => o = ov ∧ b'.length = 32 ∧ b'.take (u + r.length) = buffer.take u ++ r) := by
  unfold HighwaySse41.AppendPartial
  have hc := reads_copyBytes g u r.length 0 buffer (by omega) (by omega)
  rw [Nat.zero_add, List.drop_zero, List.take_of_length_le (by omega), Nat.add_zero] at hc
  refine Exec.post hc ?_
  rintro y o ⟨rfl, rfl⟩
  exact ⟨rfl, by rw [length_splice _ _ _ (by omega), hb], take_splice buffer u r (by omega)⟩

theorem appendUpdateSse {v : Nat} (g : Yields w ov cfg P strict (.memory v) r C) (u : Nat) (h : u + r.length = 32)
    (buffer : List Byte) (hb : buffer.length = 32) (s : Highway) :
    Reads w ov P (span C 0 r.length) 32 (HighwaySse41.AppendAndUpdate cfg strict v r.length buffer u (repSse s))
      (repSse (Spec.highwayPacket s (buffer.take u ++ r))) := by
  have hbits := bits_ge_32 cfg
  have ga : Yields w ov cfg P strict (.array buffer) buffer (fun _ => nowhere) :=
    gives_array g.iter List.prefix_rfl (by omega)
  unfold HighwaySse41.AppendAndUpdate
  have hul : (buffer.take u).length = u := by rw [List.length_take]; omega
  have hc1 := reads_copyBytes ga 0 u 0 (List.replicate 32 0#8) (by omega) (by rw [List.length_replicate]; omega)
  rw [List.drop_zero, Nat.add_zero] at hc1
  have hl1 : (splice (List.replicate 32 0#8) 0 (buffer.take u)).length = 32 := by
    rw [length_splice _ _ _ (by rw [List.length_replicate]; omega), List.length_replicate]
  have hc2 := reads_copyBytes g u r.length 0 (splice (List.replicate 32 0#8) 0 (buffer.take u)) (by omega) (by omega)
  rw [List.drop_zero, Nat.add_zero, Nat.zero_add, List.take_of_length_le (i := r.length) (by omega)] at hc2
  have hl2 : (splice (splice (List.replicate 32 0#8) 0 (buffer.take u)) u r).length = 32 := by
    rw [length_splice _ _ _ (by omega), hl1]
  have heq : splice (splice (List.replicate 32 0#8) 0 (buffer.take u)) u r = buffer.take u ++ r := by
    have h1 := take_splice (splice (List.replicate 32 0#8) 0 (buffer.take u)) u r (by omega)
    rw [h, List.take_of_length_le (by omega)] at h1
    have h2 := take_splice (List.replicate 32 0#8) 0 (buffer.take u) (by omega)
    rw [Nat.zero_add, List.take_zero, List.nil_append, hul] at h2
    rw [h1, h2]
  rw [heq] at hc2 hl2
  refine Exec.cov (Reads.bind hc1 <| Reads.bind hc2 <|
    reads_UpdateSse (gives_array g.iter List.prefix_rfl (by omega)) hl2 s) (fun a h => ?_) (by omega)
  exact Or.inr (Or.inl h)

end T1ha.Model
