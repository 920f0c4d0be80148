import Verif.Proofs.Region
import Verif.Model.Aes

/-!
# The AES-NI variants compute the specification
-/

namespace T1ha.Model

open X86 (aesenc aesdec add64 sub64 set64x lane0 lane1 lane32 unpackhi64 shuffle32)

variable {w : World} {ov : Overlay} {cfg : Cfg} {P : Ev → Prop} {lo hi : Nat}

/-! ## Extraction of the halves -/

theorem join32 (l h : U32) : l.setWidth 64 ||| h.signExtend 64 <<< 32 = h ++ l := by
  apply BitVec.eq_of_getLsbD_eq
  intro i hi
  simp only [BitVec.getLsbD_or, BitVec.getLsbD_setWidth, BitVec.getLsbD_shiftLeft,
    BitVec.getLsbD_signExtend, BitVec.getLsbD_append]
  by_cases h1 : i < 32
  · simp [h1, hi]
  · have : i - 32 < 32 := by omega
    have h3 : i - 32 < 64 := by omega
    simp [h1, hi, this, h3, BitVec.getLsbD_of_ge l i (by omega)]

theorem lane32_join (x : U128) (i : Nat) :
    lane32 x (i + 1) ++ lane32 x i = (x >>> (32 * i)).setWidth 64 := by
  apply BitVec.eq_of_getLsbD_eq
  intro j hj
  simp only [BitVec.getLsbD_append, lane32, BitVec.getLsbD_setWidth, BitVec.getLsbD_ushiftRight]
  by_cases h : j < 32
  · simp [h, hj]
  · have : j - 32 < 32 := by omega
    simp only [h, hj, this, decide_true, Bool.true_and, if_false]
    congr 1
    omega

theorem lane0_eq (x : U128) : lane0 x = (x >>> (32 * 0)).setWidth 64 := by
  simp [lane0]

theorem lane1_eq (x : U128) : lane1 x = (x >>> (32 * 2)).setWidth 64 := by
  simp [lane1]

theorem lane0_set64x (a b : U64) : lane0 (set64x a b) = b := by
  simp only [lane0, set64x]
  apply BitVec.eq_of_getLsbD_eq
  intro j hj
  simp only [BitVec.getLsbD_setWidth, hj, decide_true, Bool.true_and]
  rw [BitVec.getLsbD_append, if_pos hj]

theorem lane32_shuffle (x : U128) : lane32 (shuffle32 x 1) 0 = lane32 x 1 := by
  show ((shuffle32 x 1) >>> (32 * 0)).setWidth 32 = _
  apply BitVec.eq_of_getLsbD_eq
  intro j hj
  simp only [shuffle32, BitVec.getLsbD_setWidth, hj, decide_true, Bool.true_and,
    BitVec.getLsbD_ushiftRight, Nat.mul_zero, Nat.zero_add]
  rw [BitVec.getLsbD_append, if_pos hj]

theorem lane32_lane (x : U128) (i : Nat) (hi : i < 2) :
    lane32 (unpackhi64 x x) i = lane32 x (i + 2) := by
  apply BitVec.eq_of_getLsbD_eq
  intro j hj
  have h64 : 32 * i + j < 64 := by omega
  simp only [lane32, unpackhi64, set64x, lane1, BitVec.getLsbD_setWidth, hj, decide_true,
    Bool.true_and, BitVec.getLsbD_ushiftRight]
  rw [BitVec.getLsbD_append, if_pos h64]
  simp only [BitVec.getLsbD_setWidth, h64, decide_true, Bool.true_and, BitVec.getLsbD_ushiftRight]
  congr 1
  omega

/-- All four ways give the two halves. -/
theorem aes_extract_eq (ac : AesCfg) (x : U128) : aes_extract ac x = (lane0 x, lane1 x) := by
  unfold aes_extract
  have e0 : lane32 x 1 ++ lane32 x 0 = lane0 x := by rw [lane0_eq]; exact lane32_join x 0
  have e1 : lane32 x 3 ++ lane32 x 2 = lane1 x := by rw [lane1_eq]; exact lane32_join x 2
  split
  · split
    · rfl
    · rw [unpackhi64, lane0_set64x]
  · split
    · rw [join32, join32, e0, e1]
    · simp only [join32, lane32_shuffle, e0]
      rw [lane32_lane x 1 (by omega), lane32_lane x 0 (by omega), e1]

/-! ## Tail -/

/-- One step of the tail. -/
def pairStep (n : Nat) (s : U64 × U64) (x : U64) : U64 × U64 :=
  if n % 2 = 1 then Spec.mix s.1 s.2 x (Spec.tailPrime n)
  else ((Spec.mix s.2 s.1 x (Spec.tailPrime n)).2, (Spec.mix s.2 s.1 x (Spec.tailPrime n)).1)

theorem tailAB_pair (ws : List U64) (s : U64 × U64) : Spec.tailAB ws s = tailFold pairStep ws s := by
  induction ws generalizing s with
  | nil => rfl
  | cons x ws ih =>
    obtain ⟨a, b⟩ := s
    simp only [Spec.tailAB, tailFold, pairStep]
    split <;> exact ih _

theorem pairStep_3 (s : U64 × U64) (x : U64) : pairStep 3 s x = Spec.mix s.1 s.2 x prime_4 := (rfl)
theorem pairStep_2 (s : U64 × U64) (x : U64) : pairStep 2 s x =
    ((Spec.mix s.2 s.1 x prime_3).2, (Spec.mix s.2 s.1 x prime_3).1) := (rfl)
theorem pairStep_1 (s : U64 × U64) (x : U64) : pairStep 1 s x = Spec.mix s.1 s.2 x prime_2 := (rfl)
theorem pairStep_0 (s : U64 × U64) (x : U64) : pairStep 0 s x =
    ((Spec.mix s.2 s.1 x prime_1).2, (Spec.mix s.2 s.1 x prime_1).1) := (rfl)

set_option linter.unusedSimpArgs false in
theorem aes_tail_eq (a b : U64) (v len : Nat) :
    aes_tail cfg a b v len = (do
      let ab ← steps cfg 8 (fetch64 cfg .little .unaligned) (tail64 cfg .little .unaligned) pairStep
        len 3 (a, b) v
      pure (Spec.final64 ab)) := by
  unfold aes_tail
  simp only [steps, Nat.reduceAdd, Nat.reduceMul, Nat.zero_add, Nat.one_mul, fetch64, tail64]
  by_cases h24 : 24 < len <;> by_cases h16 : 16 < len <;> by_cases h8 : 8 < len <;>
    by_cases h0 : 0 < len <;> first | omega | skip
  all_goals
    simp only [h24, h16, h8, h0, if_true, if_false, bind_assoc, pure_bind]
    try simp only [pairStep_3, pairStep_2, pairStep_1, pairStep_0]
    try simp only [mixup64_eq]
    simp only [final64_eq]

theorem reads_aes_tail (hr : Region cfg .unaligned w P lo hi) {v len : Nat} {r : List Byte} (a b : U64)
    (hh : Holds w ov v r) (hlo : lo ≤ v) (hhi : v + r.length = hi)
    (hlen : r.length = len) (h32 : len ≤ 32) :
    Reads w ov P (range v len) 0 (aes_tail cfg a b v len)
      (Spec.final64 (Spec.tailAB (Spec.words64 .little r) (a, b))) := by
  rw [aes_tail_eq, tailAB_pair]
  exact Exec.cov (Reads.bind (hr.steps (e := .little) (fun h => nomatch h) pairStep (a, b) .unaligned
    hh hlo hhi hlen h32) (Reads.pure _)) (fun a h => Or.inl h) rfl

/-! ## Vectors -/

/-- The `i`-th vector of what is in memory at `v`. -/
theorem reads_loadu {q : Nat} (hr : Region cfg .unaligned w P lo hi) {v i : Nat} {r : List Byte}
    (hh : Holds w ov v r) (hlo : lo ≤ v) (hhi : v + r.length ≤ hi) (hl : 16 * i + 16 ≤ r.length)
    (hq : q = v + 16 * i) :
    Reads w ov P (range q 16) 0 (loadu q) (Spec.vec r i) := by
  subst hq
  unfold loadu
  refine Exec.bindL (Reads.load (hh.slice (16 * i) 16)
    (by simp only [List.length_take, List.length_drop]; omega)
    ((hr.sub (v + 16 * i) 16 (by omega) (by omega)).rd _ _ (by omega) (by omega))) ?_
  rintro x o ⟨rfl, rfl⟩
  exact Reads.pure _

theorem vec_take {k i : Nat} (r : List Byte) (h : 16 * i + 16 ≤ k) :
    Spec.vec (r.take k) i = Spec.vec r i := by
  unfold Spec.vec
  congr 2
  rw [List.drop_take, List.take_take]
  congr 1
  omega

theorem vec_drop (j i : Nat) (r : List Byte) :
    Spec.vec (r.drop (16 * j)) i = Spec.vec r (j + i) := by
  unfold Spec.vec
  rw [List.drop_drop, Nat.mul_add]

theorem reads_aes_pair (hr : Region cfg .unaligned w P lo hi) {v : Nat} {r : List Byte} (s : Spec.XY)
    (hh : Holds w ov v r) (hlo : lo ≤ v) (hhi : v + r.length ≤ hi) (hl : 32 ≤ r.length) :
    Reads w ov P (range v 32) 0 (aes_pair cfg s.x s.y v)
      ((Spec.aesPair s (Spec.vec r 0) (Spec.vec r 1)).x,
        (Spec.aesPair s (Spec.vec r 0) (Spec.vec r 1)).y, v + 32) := by
  have hlt := hr.hi_lt
  unfold aes_pair
  refine Exec.cov (Reads.bind (reads_loadu (i := 0) hr hh hlo hhi (by omega) (by omega)) <|
    Reads.bind (Reads.ptrAdd (by omega) (hr.ptr _ (by omega) (by omega))) <|
    Reads.bind (reads_loadu (i := 1) hr hh hlo hhi (by omega) (by omega)) <|
    Reads.bind (Reads.ptrAdd (by omega) (hr.ptr _ (by omega) (by omega))) <| Reads.pure _)
    (fun a h => by simp only [range, nowhere] at *; omega) rfl

/-! ## Variant A -/

theorem reads_aes_a_loop (hr : Region cfg .unaligned w P lo hi) (n : Nat) (s : Spec.XY) (v : Nat)
    (r : List Byte) (hh : Holds w ov v r) (hlo : lo ≤ v) (hhi : v + r.length = hi)
    (hn : r.length / 128 = n) {fuel : Nat} (hf : n < fuel) {detent : Nat}
    (hd : detent + 127 = hi) :
    Reads w ov P (range v (128 * n)) n (aes_a_loop cfg detent fuel s.x s.y v)
      (((chunks 128 n r).foldl Spec.aesBlockA s).x, ((chunks 128 n r).foldl Spec.aesBlockA s).y,
        v + 128 * n) := by
  have hlt := hr.hi_lt
  induction n generalizing s v r fuel with
  | zero =>
    obtain ⟨fuel, rfl⟩ : ∃ k, fuel = k + 1 := ⟨fuel - 1, by omega⟩
    unfold aes_a_loop
    rw [if_neg (by omega)]
    exact Exec.cov (Reads.pure _) (fun a h => by simp only [range, nowhere] at *; omega) rfl
  | succ n ih =>
    obtain ⟨fuel, rfl⟩ : ∃ k, fuel = k + 1 := ⟨fuel - 1, by omega⟩
    have hd' : (r.drop 128).length = r.length - 128 := List.length_drop
    have hw : ∀ i q, i < 8 → q = v + 16 * i → Reads w ov P (range q 16) 0 (loadu q) (Spec.vec r i) :=
      fun i q hi8 hq => reads_loadu hr hh hlo (by omega) (by omega) hq
    unfold aes_a_loop
    rw [if_pos (by omega)]
    refine Exec.cov (Reads.bind (Reads.iterate hr.iter) <|
      Reads.bind (hw 0 _ (by omega) (by omega)) <| Reads.bind (hw 1 _ (by omega) (by omega)) <|
      Reads.bind (hw 2 _ (by omega) (by omega)) <| Reads.bind (hw 3 _ (by omega) (by omega)) <|
      Reads.bind (hw 4 _ (by omega) (by omega)) <| Reads.bind (hw 5 _ (by omega) (by omega)) <|
      Reads.bind (hw 6 _ (by omega) (by omega)) <| Reads.bind (hw 7 _ (by omega) (by omega)) <|
      Reads.bind (C₂ := range (v + 128) (128 * n)) (n₂ := n)
        (Reads.ptrAdd (by omega) (hr.ptr _ (by omega) (by omega))) ?_)
      (fun a h => by simp only [range, nowhere] at *; omega) (by omega)
    have := ih (Spec.aesBlockA s (r.take 128)) (v + 128) (r.drop 128) (hh.drop 128) (by omega)
      (by omega) (by omega) (fuel := fuel) (by omega)
    rw [show v + 128 * (n + 1) = v + 128 + 128 * n by omega]
    simp only [Spec.aesBlockA, chunks, List.foldl_cons] at this ⊢
    rw [vec_take r (i := 0) (by decide), vec_take r (i := 1) (by decide),
      vec_take r (i := 2) (by decide), vec_take r (i := 3) (by decide),
      vec_take r (i := 4) (by decide), vec_take r (i := 5) (by decide),
      vec_take r (i := 6) (by decide), vec_take r (i := 7) (by decide)] at this ⊢
    exact this

theorem and_bit (n k : Nat) : n &&& 2 ^ k ≠ 0 ↔ n / 2 ^ k % 2 = 1 := by
  have hb := Nat.testBit_eq_decide_div_mod_eq (x := n) (i := k)
  constructor
  · intro h
    refine Classical.byContradiction fun hc => ?_
    apply h
    apply Nat.eq_of_testBit_eq
    intro i
    rw [Nat.testBit_and, Nat.testBit_two_pow]
    by_cases hi : k = i
    · subst hi; simp [hb, hc]
    · simp [hi]
  · intro h h0
    have := congrArg (fun x => Nat.testBit x k) h0
    simp [Nat.testBit_and, hb, h] at this

theorem and_16 (n : Nat) : n &&& 16 ≠ 0 ↔ n / 16 % 2 = 1 := and_bit n 4
theorem and_32 (n : Nat) : n &&& 32 ≠ 0 ↔ n / 32 % 2 = 1 := and_bit n 5
theorem and_64 (n : Nat) : n &&& 64 ≠ 0 ↔ n / 64 % 2 = 1 := and_bit n 6

/-- An optional piece of work which consumes `k` bytes. -/
theorem reads_opt {c : Prop} [Decidable c] {f : M (U128 × U128 × Nat)} {s s' : Spec.XY} {v k : Nat}
    {r : List Byte} (hh : Holds w ov v r) (hc : c ↔ k ≤ r.length)
    (h : k ≤ r.length → Reads w ov P (range v k) 0 f (s'.x, s'.y, v + k)) :
    ∃ s1 r1, (if k ≤ r.length then (s', r.drop k) else (s, r)) = (s1, r1) ∧
      r1.length = (if k ≤ r.length then r.length - k else r.length) ∧
      Holds w ov (v + (r.length - r1.length)) r1 ∧
      Reads w ov P (range v (r.length - r1.length)) 0 (if c then f else pure (s.x, s.y, v))
        (s1.x, s1.y, v + (r.length - r1.length)) := by
  by_cases hk : k ≤ r.length
  · have e : r.length - (r.drop k).length = k := by rw [List.length_drop]; omega
    simp only [if_pos hk, if_pos (hc.2 hk)]
    refine ⟨s', r.drop k, rfl, List.length_drop, ?_, ?_⟩
    · rw [e]; exact hh.drop k
    · rw [e]; exact h hk
  · have e : r.length - r.length = 0 := by omega
    simp only [if_neg hk, if_neg (fun x => hk (hc.1 x))]
    refine ⟨s, r, rfl, rfl, ?_, ?_⟩
    · rw [e]; exact hh
    · rw [e]
      exact Exec.cov (Reads.pure _) (fun a h => by simp only [range, nowhere] at *; omega) rfl

theorem reads_aes_a_rest (hr : Region cfg .unaligned w P lo hi) (s : Spec.XY) {v len : Nat}
    {r : List Byte} (hh : Holds w ov v r) (hlo : lo ≤ v) (hhi : v + r.length = hi)
    (hl : r.length = len % 128) :
    Reads w ov P (range v (16 * (r.length / 16))) 0 (aes_a_rest cfg s.x s.y v len)
      ((Spec.aesRestA s r).x, (Spec.aesRestA s r).y, v + 16 * (r.length / 16)) := by
  have hlt := hr.hi_lt
  have h128 : r.length < 128 := by omega
  obtain ⟨s1, r1, e1, l1, hh1, x1⟩ := reads_opt (P := P) (c := len &&& 64 ≠ 0) (s := s) (k := 64)
    (f := do
      let (x, y, v) ← aes_pair cfg s.x s.y v
      aes_pair cfg x y v)
    (s' := Spec.aesPair (Spec.aesPair s (Spec.vec r 0) (Spec.vec r 1)) (Spec.vec r 2) (Spec.vec r 3))
    hh (by rw [and_64]; omega) (fun hk => by
      have hd : (r.drop (16 * 2)).length = r.length - 16 * 2 := List.length_drop
      have k2 := reads_aes_pair hr (Spec.aesPair s (Spec.vec r 0) (Spec.vec r 1)) (hh.drop (16 * 2))
        (by omega) (by omega) (by omega)
      rw [vec_drop, vec_drop] at k2
      exact Exec.cov (Reads.bind (reads_aes_pair hr s hh hlo (by omega) (by omega)) k2)
        (fun a h => by simp only [range] at *; omega) rfl)
  have l1' : r1.length = r.length % 64 := by rw [l1]; split <;> omega
  clear l1
  obtain ⟨s2, r2, e2, l2, hh2, x2⟩ := reads_opt (P := P) (c := len &&& 32 ≠ 0) (s := s1) (k := 32)
    (f := aes_pair cfg s1.x s1.y (v + (r.length - r1.length)))
    (s' := Spec.aesPair s1 (Spec.vec r1 0) (Spec.vec r1 1))
    hh1 (by rw [and_32]; omega) (fun hk =>
      reads_aes_pair hr s1 hh1 (by omega) (by omega) (by omega))
  have l2' : r2.length = r.length % 32 := by
    rw [l2]; split <;> omega
  clear l2
  obtain ⟨s3, r3, e3, l3, hh3, x3⟩ := reads_opt (P := P) (c := len &&& 16 ≠ 0) (s := s2) (k := 16)
    (f := do
      let y := add64 s2.x s2.y
      let l ← loadu (v + (r.length - r1.length) + (r1.length - r2.length))
      let v ← ptrAdd cfg (v + (r.length - r1.length) + (r1.length - r2.length)) 16
      let x := aesdec s2.x l
      pure (x, y, v))
    (s' := { x := aesdec s2.x (Spec.vec r2 0), y := add64 s2.x s2.y })
    hh2 (by rw [and_16]; omega) (fun hk =>
      Exec.cov (Reads.bind (reads_loadu (i := 0) hr hh2 (by omega) (by omega) (by omega) (by omega)) <|
        Reads.bind (Reads.ptrAdd (by omega) (hr.ptr _ (by omega) (by omega))) <| Reads.pure _)
        (fun a h => by simp only [range] at *; omega) rfl)
  have l3' : r3.length = r.length % 16 := by
    rw [l3]; split <;> omega
  clear l3
  have hs : Spec.aesRestA s r = s3 := by
    unfold Spec.aesRestA
    simp only [ge_iff_le, e1, e2]
    have := congrArg Prod.fst e3
    simp only at this
    rw [← this]
    split <;> rfl
  rw [hs]
  unfold aes_a_rest
  refine Exec.cov (Reads.bind x1 <| Reads.bind x2 <| x3.post ?_)
    (fun a h => by simp only [range] at *; omega) rfl
  rintro x o ⟨hx, ho⟩
  refine ⟨?_, ho⟩
  rw [hx]
  congr 2
  omega

/-- As `Foot`, for the AES functions: they compute pointers which are further away. -/
def FootAes (cfg : Cfg) (page data len : Nat) (x : Ev) : Prop :=
  Foot cfg page data len x ∨ ∃ a, x = .ptr a ∧ data ≤ a + 94 ∧ a ≤ data + len + 112

theorem rest_rest (m : List Byte) : Spec.rest 16 m =
    (Spec.rest 128 m).drop (16 * ((Spec.rest 128 m).length / 16)) := by
  rw [length_rest]
  unfold Spec.rest
  rw [List.drop_drop]
  congr 1
  omega

theorem reads_aes_a {page data : Nat} {m : List Byte} (h : Buf cfg w ov page data m)
    (hslack : cfg.SafeTail ∨ Mapped w (data + m.length) 8) (ac : AesCfg) (seed : U64)
    (h127 : 32 < m.length → 127 ≤ data + m.length) :
    Reads w ov (FootAes cfg page data m.length) (range data m.length) (m.length / 128)
      (t1ha0_ia32aes_a cfg ac data m.length seed) (Spec.t1ha0_aesA m seed) := by
  have hr := (h.region (al := .unaligned) hslack (fun h => nomatch h)).mono
    (P' := FootAes cfg page data m.length) (fun _ h => Or.inl h)
  have hlt := hr.hi_lt
  have hh := h.holds
  unfold t1ha0_ia32aes_a Spec.t1ha0_aesA
  by_cases h32 : 32 < m.length
  · have hrest := length_rest 128 m
    have hrest16 := length_rest 16 m
    have := h127 h32
    simp only [if_pos h32, gt_iff_lt]
    refine Exec.cov (Reads.bind (Reads.ptrAdd (by omega) (hr.ptr _ (by omega) (by omega))) <| Reads.bind (Reads.ptrSub (by omega)
        (Or.inr ⟨_, rfl, by omega, by omega⟩)) <|
      Reads.bind (reads_aes_a_loop hr (m.length / 128) ⟨_, _⟩ data m hh (Nat.le_refl _) rfl rfl
        (by omega) (by omega)) <|
      Reads.bind (reads_aes_a_rest hr ⟨_, _⟩ (r := Spec.rest 128 m) (hh.drop (128 * (m.length / 128)))
        (by omega) (by rw [hrest]; omega) hrest) <| ?_)
        (C₁ := fun a => nowhere a ∨ nowhere a ∨ range data (128 * (m.length / 128)) a ∨
          range (data + 128 * (m.length / 128)) (16 * ((Spec.rest 128 m).length / 16)) a ∨
          range (data + 128 * (m.length / 128) + 16 * ((Spec.rest 128 m).length / 16))
            (m.length % 16) a)
        (n₁ := 0 + (0 + (m.length / 128 + (0 + 0)))) (fun a h => ?_) (by omega)
    · rw [and_15]
      simp only [aes_extract_eq]
      refine reads_aes_tail hr _ _ (r := Spec.rest 16 m) ?_ (by omega) ?_ hrest16 (by omega)
      · rw [rest_rest]
        exact (hh.drop _).drop _
      · rw [hrest, hrest16]
        omega
    · rw [hrest]
      simp only [range, nowhere] at *; omega
  · simp only [if_neg h32, gt_iff_lt]
    exact Exec.cov (reads_aes_tail hr _ _ hh (Nat.le_refl _) rfl rfl (by omega))
      (fun _ h => h) (by omega)

/-! ## Variant B -/

theorem reads_aes_b_dec (hr : Region cfg .unaligned w P lo hi) {v i q : Nat} {r : List Byte} (t : U128)
    (hh : Holds w ov v r) (hlo : lo ≤ v) (hhi : v + r.length ≤ hi) (hl : 16 * i + 16 ≤ r.length)
    (hq : q = v + 16 * i) :
    Reads w ov P (range q 16) 0 (aes_b_dec cfg t q) (aesdec t (Spec.vec r i), q + 16) := by
  have hlt := hr.hi_lt
  unfold aes_b_dec
  exact Exec.cov (Reads.bind (reads_loadu hr hh hlo hhi hl hq) <|
    Reads.bind (Reads.ptrAdd (by omega) (hr.ptr _ (by omega) (by omega))) <| Reads.pure _)
    (fun a h => by simp only [range] at *; omega) rfl

/-- One iteration of the big loop of variant B. -/
theorem reads_aes_b_step (hr : Region cfg .unaligned w P lo hi) (s : Spec.XY × U128) (v : Nat)
    (r : List Byte) (hh : Holds w ov v r) (hlo : lo ≤ v) (hhi : v + r.length ≤ hi)
    (hl : 128 ≤ r.length) (htop : hi + 112 < 2 ^ cfg.bits)
    (hpt : ∀ a, lo ≤ a → a ≤ hi + 112 → P (.ptr a)) {fuel detent : Nat}
    {C : Nat → Prop} {n : Nat} {Q : U128 × U128 × Nat → Overlay → Prop}
    (hnext : Exec w ov P C n (if v + 128 + 7 * 16 < detent then
        aes_b_loop cfg detent fuel (Spec.aesBlockB s (r.take 128)).1.x
          (Spec.aesBlockB s (r.take 128)).1.y (Spec.aesBlockB s (r.take 128)).2 (v + 128)
      else pure ((Spec.aesBlockB s (r.take 128)).1.x,
          (Spec.aesBlockB s (r.take 128)).1.y, v + 128)) Q) :
    Exec w ov P (fun a => range v 128 a ∨ C a) (n + 1)
      (aes_b_loop cfg detent (fuel + 1) s.1.x s.1.y s.2 v) Q := by
  have hlt := hr.hi_lt
  have hd : ∀ (t : U128) (i q : Nat), i < 8 → q = v + 16 * i →
      Reads w ov P (range q 16) 0 (aes_b_dec cfg t q) (aesdec t (Spec.vec r i), q + 16) :=
    fun t i q hi8 hq => reads_aes_b_dec hr t hh hlo hhi (by omega) hq
  unfold aes_b_loop
  refine Exec.cov (Reads.bind (Reads.iterate hr.iter) <|
    Reads.bind (reads_loadu (i := 0) hr hh hlo hhi (by omega) (by omega)) <|
    Reads.bind (Reads.ptrAdd (by omega) (hr.ptr _ (by omega) (by omega))) <|
    Reads.bind (hd _ 1 _ (by omega) (by omega)) <| Reads.bind (hd _ 2 _ (by omega) (by omega)) <|
    Reads.bind (hd _ 3 _ (by omega) (by omega)) <| Reads.bind (hd _ 4 _ (by omega) (by omega)) <|
    Reads.bind (hd _ 5 _ (by omega) (by omega)) <| Reads.bind (hd _ 6 _ (by omega) (by omega)) <|
    Reads.bind (hd _ 7 _ (by omega) (by omega)) <|
    Reads.bind (C₂ := C) (n₂ := n) (Reads.ptrAdd (by omega) (hpt _ (by omega) (by omega))) ?_)
    (fun a h => ?_) (by omega)
  · simp only [Spec.aesBlockB, List.range, List.range.loop, List.foldl_cons, List.foldl_nil,
      Nat.reduceAdd] at hnext
    rw [vec_take r (i := 0) (by decide), vec_take r (i := 1) (by decide),
      vec_take r (i := 2) (by decide), vec_take r (i := 3) (by decide),
      vec_take r (i := 4) (by decide), vec_take r (i := 5) (by decide),
      vec_take r (i := 6) (by decide), vec_take r (i := 7) (by decide)] at hnext
    exact hnext
  · by_cases hc : C a
    · simp only [hc, or_true]
    · simp only [range, nowhere, hc, or_false] at *; omega

theorem reads_aes_b_loop (hr : Region cfg .unaligned w P lo hi) (n : Nat) (s : Spec.XY × U128) (v : Nat)
    (r : List Byte) (hh : Holds w ov v r) (hlo : lo ≤ v) (hhi : v + r.length ≤ hi)
    (hn : r.length / 128 = n + 1) (h16 : r.length % 16 = 0) (htop : hi + 112 < 2 ^ cfg.bits)
    (hpt : ∀ a, lo ≤ a → a ≤ hi + 112 → P (.ptr a))
    {fuel : Nat} (hf : n < fuel) {detent : Nat} (hd : detent = v + r.length) :
    Reads w ov P (range v (128 * (n + 1))) (n + 1) (aes_b_loop cfg detent fuel s.1.x s.1.y s.2 v)
      (((chunks 128 (n + 1) r).foldl Spec.aesBlockB s).1.x,
        ((chunks 128 (n + 1) r).foldl Spec.aesBlockB s).1.y, v + 128 * (n + 1)) := by
  induction n generalizing s v r fuel with
  | zero =>
    obtain ⟨fuel, rfl⟩ : ∃ k, fuel = k + 1 := ⟨fuel - 1, by omega⟩
    refine Exec.cov (reads_aes_b_step (C := nowhere) (n := 0) hr s v r hh hlo hhi (by omega) htop hpt ?_)
      (fun a h => Or.inl h) rfl
    rw [if_neg (by omega)]
    exact Reads.pure _
  | succ n ih =>
    obtain ⟨fuel, rfl⟩ : ∃ k, fuel = k + 1 := ⟨fuel - 1, by omega⟩
    refine Exec.cov (reads_aes_b_step (C := range (v + 128) (128 * (n + 1))) (n := n + 1) hr s v r hh
      hlo hhi (by omega) htop hpt ?_) (fun a h => by simp only [range] at *; omega) rfl
    rw [if_pos (by omega)]
    have hd' : (r.drop 128).length = r.length - 128 := List.length_drop
    have := ih (Spec.aesBlockB s (r.take 128)) (v + 128) (r.drop 128)
      (hh.drop 128) (by omega) (by omega) (by omega) (by omega) (fuel := fuel) (by omega)
      (by omega)
    rw [show v + 128 * (n + 1 + 1) = v + 128 + 128 * (n + 1) by omega, chunks, List.foldl_cons]
    exact this

theorem reads_aes_b_pairs (hr : Region cfg .unaligned w P lo hi) (n : Nat) (s : Spec.XY) (v : Nat)
    (r : List Byte) (hh : Holds w ov v r) (hlo : lo ≤ v) (hhi : v + r.length ≤ hi)
    (hn : r.length = 32 * n) {fuel : Nat} (hf : n < fuel) {detent : Nat} (hd : detent = v + r.length) :
    Reads w ov P (range v (32 * n)) n (aes_b_pairs cfg detent fuel s.x s.y v)
      (((chunks 32 n r).foldl (fun s p => Spec.aesPair s (Spec.vec p 0) (Spec.vec p 1)) s).x,
        ((chunks 32 n r).foldl (fun s p => Spec.aesPair s (Spec.vec p 0) (Spec.vec p 1)) s).y,
        v + 32 * n) := by
  have hlt := hr.hi_lt
  induction n generalizing s v r fuel with
  | zero =>
    obtain ⟨fuel, rfl⟩ : ∃ k, fuel = k + 1 := ⟨fuel - 1, by omega⟩
    unfold aes_b_pairs
    rw [if_neg (by omega)]
    exact Exec.cov (Reads.pure _) (fun a h => by simp only [range, nowhere] at *; omega) rfl
  | succ n ih =>
    obtain ⟨fuel, rfl⟩ : ∃ k, fuel = k + 1 := ⟨fuel - 1, by omega⟩
    have hd' : (r.drop 32).length = r.length - 32 := List.length_drop
    have := ih (Spec.aesPair s (Spec.vec (r.take 32) 0) (Spec.vec (r.take 32) 1)) (v + 32) (r.drop 32)
      (hh.drop 32) (by omega) (by omega) (by omega) (fuel := fuel) (by omega) (by omega)
    rw [vec_take r (i := 0) (by decide), vec_take r (i := 1) (by decide)] at this
    unfold aes_b_pairs
    rw [if_pos (by omega)]
    refine Exec.cov (Reads.bind (Reads.iterate hr.iter) <|
      Reads.bind (reads_aes_pair hr s hh hlo hhi (by omega)) <| this.post ?_)
      (fun a h => by simp only [range, nowhere] at *; omega) (by omega)
    rintro x o ⟨hx, ho⟩
    refine ⟨?_, ho⟩
    rw [hx]
    simp only [chunks, List.foldl_cons]
    rw [vec_take r (i := 0) (by decide), vec_take r (i := 1) (by decide),
      show v + 32 * (n + 1) = v + 32 + 32 * n by omega]

/-- What `t1ha0_ia32aes_avx2` computes for a claimed length `len > 32`, when it looks at `m` only. -/
def aesB (len : Nat) (m : List Byte) (seed : U64) : U64 :=
  let x := set64x seed (BitVec.ofNat 64 len)
  let y := aesenc x (set64x Spec.prime0 Spec.prime1)
  let v := m.take (16 * (m.length / 16))
  let odd := (v.length / 16) % 2 = 1
  let s : Spec.XY := if odd then
      { x := add64 x (Spec.vec v 0), y := aesenc (add64 x (Spec.vec v 0)) y }
    else { x := x, y := y }
  let v := if odd then v.drop 16 else v
  let s := ((Spec.blocks 128 v).foldl Spec.aesBlockB (s, s.y)).1
  let s := (Spec.blocks 32 (Spec.rest 128 v)).foldl
    (fun s p => Spec.aesPair s (Spec.vec p 0) (Spec.vec p 1)) s
  Spec.final64 (Spec.tailAB (Spec.words64 .little (Spec.rest 16 m)) (Spec.aesSqueeze s))

theorem aesB_spec (m : List Byte) (seed : U64) (h : 32 < m.length) :
    aesB m.length m seed = Spec.t1ha0_aesB m seed := by
  unfold Spec.t1ha0_aesB
  rw [if_pos h]
  rfl

/-- Iterations of both loops. -/
def loopsB (len : Nat) : Nat := len / 32 / 4 + len / 32 % 4

theorem mask_eq (k : Nat) (hk : 4 ≤ k) (len : Nat) :
    len &&& (2 ^ k - 16) = 16 * (len % 2 ^ k / 16) := by
  apply Nat.eq_of_testBit_eq
  intro i
  rw [show (2 : Nat) ^ k - 16 = 2 ^ 4 * (2 ^ (k - 4) - 1) by
      rw [Nat.mul_sub, ← Nat.pow_add, Nat.mul_one, show (2 : Nat) ^ 4 = 16 from rfl, show 4 + (k - 4) = k by omega],
    show 16 * (len % 2 ^ k / 16) = 2 ^ 4 * (len % 2 ^ k / 2 ^ 4) from rfl]
  rw [Nat.testBit_and, Nat.testBit_two_pow_mul, Nat.testBit_two_pow_mul, Nat.testBit_two_pow_sub_one,
    Nat.testBit_div_two_pow, Nat.testBit_mod_two_pow]
  by_cases h : 4 ≤ i
  · simp only [h, decide_true, Bool.true_and]
    rw [show i - 4 + 4 = i by omega]
    by_cases hi : i < k
    · have : i - 4 < k - 4 := by omega
      simp [hi, this]
    · have : ¬ i - 4 < k - 4 := by omega
      simp [hi, this]
  · simp [h]

theorem aes_b_mask_eq (len : Nat) : aes_b_mask cfg len =
    16 * (len % 2 ^ (if cfg.ulong64 then 64 else 32) / 16) :=
  mask_eq _ (by split <;> decide) len

theorem reads_aes_b_long {page data len : Nat} {m : List Byte} (h : Buf cfg w ov page data m)
    (hslack : cfg.SafeTail ∨ Mapped w (data + m.length) 8) (ac : AesCfg) (seed : U64)
    (htop : data + m.length + 112 < 2 ^ cfg.bits) (h32 : 32 < len)
    (hlen : m.length = len % 2 ^ (if cfg.ulong64 then 64 else 32)) :
    Reads w ov (FootAes cfg page data m.length) (range data m.length) (loopsB m.length)
      (t1ha0_ia32aes_avx2 cfg ac data len seed) (aesB len m seed) := by
  have hr := (h.region (al := .unaligned) hslack (fun h => nomatch h)).mono
    (P' := FootAes cfg page data m.length) (fun _ h => Or.inl h)
  have hlt := hr.hi_lt
  have hh := h.holds
  have hmod : len % 16 = m.length % 16 := by
    rw [hlen]
    exact (Nat.mod_mod_of_dvd _ (by split <;> decide)).symm
  have hmod2 : len / 16 % 2 = m.length / 16 % 2 := by
    have : len % 32 = m.length % 32 := by
      rw [hlen]
      exact (Nat.mod_mod_of_dvd _ (by split <;> decide)).symm
    omega
  have hmask : aes_b_mask cfg len = 16 * (m.length / 16) := by rw [aes_b_mask_eq, hlen]
  unfold t1ha0_ia32aes_avx2 aesB
  simp only [if_pos h32]
  rw [hmask, and_15, hmod]
  have hvl : (m.take (16 * (m.length / 16))).length = 16 * (m.length / 16) := by
    rw [List.length_take]; omega
  generalize hv : m.take (16 * (m.length / 16)) = v at *
  have hvh : Holds w ov data v := hv ▸ hh.take _
  have hrest16 := length_rest 16 m
  -- the odd vector
  obtain ⟨s1, v1, p1, e1s, e1v, l1, hh1, hp1, x1⟩ : ∃ (s1 : Spec.XY) (v1 : List Byte) (p1 : Nat),
      (if (v.length / 16) % 2 = 1 then
        (⟨add64 (set64x seed (BitVec.ofNat 64 len)) (Spec.vec v 0),
          aesenc (add64 (set64x seed (BitVec.ofNat 64 len)) (Spec.vec v 0))
            (aesenc (set64x seed (BitVec.ofNat 64 len)) (set64x Spec.prime0 Spec.prime1))⟩ : Spec.XY)
       else ⟨set64x seed (BitVec.ofNat 64 len),
        aesenc (set64x seed (BitVec.ofNat 64 len)) (set64x Spec.prime0 Spec.prime1)⟩) = s1 ∧
      (if (v.length / 16) % 2 = 1 then v.drop 16 else v) = v1 ∧
      v1.length = 32 * (m.length / 32) ∧
      Holds w ov p1 v1 ∧ p1 + v1.length = data + v.length ∧
      Reads w ov (FootAes cfg page data m.length) (range data (p1 - data)) 0
        (if len &&& 16 ≠ 0 then do
          let l ← loadu data
          let v ← ptrAdd cfg data 16
          let x := add64 (set64x seed (BitVec.ofNat 64 len)) l
          let y := aesenc x (aesenc (set64x seed (BitVec.ofNat 64 len)) (set64x prime_0 prime_1))
          pure (x, y, v)
        else pure (set64x seed (BitVec.ofNat 64 len),
          aesenc (set64x seed (BitVec.ofNat 64 len)) (set64x prime_0 prime_1), data))
        (s1.x, s1.y, p1) := by
    have hc : len &&& 16 ≠ 0 ↔ (v.length / 16) % 2 = 1 := by
      rw [and_16, hmod2, hvl]; omega
    by_cases ho : (v.length / 16) % 2 = 1
    · simp only [if_pos ho, if_pos (hc.2 ho)]
      refine ⟨_, _, data + 16, rfl, rfl, ?_, hvh.drop 16, ?_, ?_⟩
      · rw [List.length_drop, hvl]; omega
      · rw [List.length_drop, hvl]; omega
      · refine Exec.cov (Reads.bind (reads_loadu (i := 0) hr hvh (Nat.le_refl _) (by omega)
          (by omega) (by omega)) <| Reads.bind (Reads.ptrAdd (by omega) (hr.ptr _ (by omega) (by omega))) <| Reads.pure _)
          (fun a h => by simp only [range, nowhere] at *; omega) rfl
    · simp only [if_neg ho, if_neg (fun h => ho (hc.1 h))]
      refine ⟨_, _, data, rfl, rfl, by omega, hvh, by omega, ?_⟩
      exact Exec.cov (Reads.pure _) (fun a h => by simp only [range, nowhere] at *; omega) rfl
  rw [e1s, e1v]
  -- the blocks of 128 bytes
  have hr1 := length_rest 128 v1
  have x2 : Reads w ov (FootAes cfg page data m.length) (range p1 (128 * (v1.length / 128)))
      (v1.length / 128)
      (if p1 + 7 * 16 < data + 16 * (m.length / 16) then
        aes_b_loop cfg (data + 16 * (m.length / 16)) (data + 16 * (m.length / 16) - p1) s1.x s1.y s1.y p1
      else pure (s1.x, s1.y, p1))
      (((Spec.blocks 128 v1).foldl Spec.aesBlockB (s1, s1.y)).1.x,
        ((Spec.blocks 128 v1).foldl Spec.aesBlockB (s1, s1.y)).1.y, p1 + 128 * (v1.length / 128)) := by
    by_cases hc : p1 + 7 * 16 < data + 16 * (m.length / 16)
    · rw [if_pos hc]
      obtain ⟨n, hn⟩ : ∃ n, v1.length / 128 = n + 1 := ⟨v1.length / 128 - 1, by omega⟩
      have := reads_aes_b_loop hr n (s1, s1.y) p1 v1 hh1 (by omega) (by omega) hn (by omega) htop
        (fun a h1 h2 => Or.inr ⟨a, rfl, by omega, h2⟩)
        (fuel := data + 16 * (m.length / 16) - p1) (by omega)
        (detent := data + 16 * (m.length / 16)) (by omega)
      rw [Spec.blocks, hn]
      exact this
    · have h0 : v1.length / 128 = 0 := by omega
      rw [if_neg hc, Spec.blocks, h0]
      exact Exec.cov (Reads.pure _) (fun a h => by simp only [range, nowhere] at *; omega) rfl
  generalize ((Spec.blocks 128 v1).foldl Spec.aesBlockB (s1, s1.y)).1 = s2 at x2 ⊢
  -- the pairs
  have x3 := reads_aes_b_pairs hr ((Spec.rest 128 v1).length / 32) s2 (p1 + 128 * (v1.length / 128))
    (Spec.rest 128 v1) (hh1.drop _) (by omega) (by omega) (by omega)
    (fuel := data + 16 * (m.length / 16) - (p1 + 128 * (v1.length / 128)) + 1) (by omega)
    (detent := data + 16 * (m.length / 16)) (by omega)
  have x4 := fun a b => reads_aes_tail hr (v := data + 16 * (m.length / 16)) (r := Spec.rest 16 m) a b
    (hh.drop _) (by omega) (by omega) hrest16 (by omega)
  refine Exec.cov (Reads.bind (Reads.ptrAdd (by omega) (hr.ptr _ (by omega) (by omega))) <| Reads.bind x1 <|
    Reads.bind (Reads.ptrAdd (show p1 + 7 * 16 < _ by omega)
      (Or.inr ⟨_, rfl, by show data ≤ p1 + 7 * 16 + 94; omega,
        by show p1 + 7 * 16 ≤ data + m.length + 112; omega⟩)) <| Reads.bind x2 <| Reads.bind x3 <| ?_)
    (C₁ := fun a => nowhere a ∨ range data (p1 - data) a ∨ nowhere a ∨
      range p1 (128 * (v1.length / 128)) a ∨
      range (p1 + 128 * (v1.length / 128)) (32 * ((Spec.rest 128 v1).length / 32)) a ∨
      range (data + 16 * (m.length / 16)) (m.length % 16) a)
    (n₁ := 0 + (0 + (0 + (v1.length / 128 + ((Spec.rest 128 v1).length / 32 + 0)))))
    (fun a h => ?_) ?_
  · simp only [aes_extract_eq]
    exact x4 _ _
  · rw [hr1, l1]
    simp only [range, nowhere] at *; omega
  · unfold loopsB
    rw [hr1]; omega

theorem reads_aes_b_short {page data : Nat} {m : List Byte} (h : Buf cfg w ov page data m)
    (hslack : cfg.SafeTail ∨ Mapped w (data + m.length) 8) (ac : AesCfg) (seed : U64)
    (h32 : ¬ 32 < m.length) :
    Reads w ov (FootAes cfg page data m.length) (range data m.length) 0
      (t1ha0_ia32aes_avx2 cfg ac data m.length seed) (Spec.t1ha0_aesB m seed) := by
  have hr := (h.region (al := .unaligned) hslack (fun h => nomatch h)).mono
    (P' := FootAes cfg page data m.length) (fun _ h => Or.inl h)
  unfold t1ha0_ia32aes_avx2 Spec.t1ha0_aesB
  simp only [if_neg h32, gt_iff_lt]
  exact reads_aes_tail hr _ _ h.holds (Nat.le_refl _) rfl rfl (by omega)

theorem reads_aes_b {page data : Nat} {m : List Byte} (h : Buf cfg w ov page data m)
    (hslack : cfg.SafeTail ∨ Mapped w (data + m.length) 8) (ac : AesCfg) (seed : U64)
    (htop : 32 < m.length → data + m.length + 112 < 2 ^ cfg.bits)
    (hul : m.length < 2 ^ (if cfg.ulong64 then 64 else 32)) :
    Reads w ov (FootAes cfg page data m.length) (range data m.length)
      (if 32 < m.length then loopsB m.length else 0)
      (t1ha0_ia32aes_avx2 cfg ac data m.length seed) (Spec.t1ha0_aesB m seed) := by
  by_cases h32 : 32 < m.length
  · rw [if_pos h32, ← aesB_spec m seed h32]
    exact reads_aes_b_long h hslack ac seed (htop h32) h32 (Nat.mod_eq_of_lt hul).symm
  · rw [if_neg h32]
    exact reads_aes_b_short h hslack ac seed h32

end T1ha.Model
