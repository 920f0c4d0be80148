import Verif.Proofs.Region
import Verif.Model.T1ha0

/-!
# `t1ha0_32le`, `t1ha0_32be` compute the specification
-/

namespace T1ha.Model

variable {w : World} {ov : Overlay} {cfg : Cfg} {P : Ev → Prop} {al : Aligness} {lo hi : Nat}
  {e : Endian}

/-- One step of the tail. -/
def t1ha0Step (n : Nat) (ab : U32 × U32) (x : U32) : U32 × U32 :=
  if n % 2 = 1 then
    ((Spec.mix32 ab.1 ab.2 x (Spec.tailPrime32 n)).1, (Spec.mix32 ab.1 ab.2 x (Spec.tailPrime32 n)).2)
  else
    ((Spec.mix32 ab.2 ab.1 x (Spec.tailPrime32 n)).2, (Spec.mix32 ab.2 ab.1 x (Spec.tailPrime32 n)).1)

theorem tail32_spec_eq (ws : List U32) (ab : U32 × U32) :
    Spec.tail32 ws ab = tailFold t1ha0Step ws ab := by
  induction ws generalizing ab with
  | nil => rfl
  | cons x ws ih =>
    obtain ⟨a, b⟩ := ab
    rw [tailFold, ← ih]
    simp only [Spec.tail32, t1ha0Step]
    split <;> rfl

theorem t1ha0Step_3 (ab : U32 × U32) (x : U32) : t1ha0Step 3 ab x =
    ((Spec.mix32 ab.1 ab.2 x prime32_4).1, (Spec.mix32 ab.1 ab.2 x prime32_4).2) := (rfl)
theorem t1ha0Step_2 (ab : U32 × U32) (x : U32) : t1ha0Step 2 ab x =
    ((Spec.mix32 ab.2 ab.1 x prime32_3).2, (Spec.mix32 ab.2 ab.1 x prime32_3).1) := (rfl)
theorem t1ha0Step_1 (ab : U32 × U32) (x : U32) : t1ha0Step 1 ab x =
    ((Spec.mix32 ab.1 ab.2 x prime32_2).1, (Spec.mix32 ab.1 ab.2 x prime32_2).2) := (rfl)
theorem t1ha0Step_0 (ab : U32 × U32) (x : U32) : t1ha0Step 0 ab x =
    ((Spec.mix32 ab.2 ab.1 x prime32_1).2, (Spec.mix32 ab.2 ab.1 x prime32_1).1) := (rfl)

set_option linter.unusedSimpArgs false in
theorem t1ha0_tail_eq (a b : U32) (v len : Nat) :
    t1ha0_tail cfg e al a b v len = (do
      let ab ← steps cfg 4 (fetch32 cfg e al) (tail32 cfg e al) t1ha0Step len 3 (a, b) v
      pure (Spec.final32 ab)) := by
  unfold t1ha0_tail
  simp only [steps, Nat.reduceAdd, Nat.reduceMul, Nat.zero_add, Nat.one_mul]
  by_cases h24 : 12 < len <;> by_cases h16 : 8 < len <;> by_cases h8 : 4 < len <;>
    by_cases h0 : 0 < len <;> first | omega | skip
  all_goals
    simp only [h24, h16, h8, h0, if_true, if_false, bind_assoc, pure_bind]
    try simp only [t1ha0Step_3, t1ha0Step_2, t1ha0Step_1, t1ha0Step_0]
    try simp only [mixup32_eq]
    simp only [final32_eq]

theorem reads_t1ha0_tail (hr : Region32 cfg al w P lo hi) {v len : Nat}
    {r : List Byte} (a b : U32) (ha : AlOk32 al v) (hh : Holds w ov v r) (hlo : lo ≤ v)
    (hhi : v + r.length = hi) (hlen : r.length = len) (h16 : len ≤ 16) :
    Reads w ov P (range v len) 0 (t1ha0_tail cfg e al a b v len)
      (Spec.final32 (Spec.tail32 (Spec.words32 e r) (a, b))) := by
  rw [t1ha0_tail_eq, tail32_spec_eq]
  exact Exec.cov (Reads.bind (hr.steps t1ha0Step (a, b) ha hh hlo hhi hlen h16)
    (Reads.pure _)) (fun a h => Or.inl h) rfl

/-- The variables for a state of the specification. -/
def vars0 (s : Spec.State32) (v : Nat) : T1ha0Vars := ⟨s.a, s.b, s.c, s.d, v⟩

theorem reads_t1ha0_step (hr : Region32 cfg al w P lo hi) (s : Spec.State32) (v : Nat)
    (r : List Byte) (ha : AlOk32 al v) (hh : Holds w ov v r) (hlo : lo ≤ v)
    (hhi : v + r.length = hi) (hl : 16 ≤ r.length) {fuel : Nat} {detent : Nat}
    {C : Nat → Prop} {n : Nat} {Q : T1ha0Vars → Overlay → Prop}
    (hnext : Exec w ov P C n (if v + 16 < detent then
        t1ha0_loop cfg e al detent fuel (vars0 (Spec.absorb32 e s (r.take 16)) (v + 16))
      else pure (vars0 (Spec.absorb32 e s (r.take 16)) (v + 16))) Q) :
    Exec w ov P (fun a => range v 16 a ∨ C a) (n + 1)
      (t1ha0_loop cfg e al detent (fuel + 1) (vars0 s v)) Q := by
  have hlt := hr.hi_lt
  have hw := fun i (hi4 : i < 4) => hr.word (e := e) ha hh hlo (by omega) hl hi4
  unfold t1ha0_loop
  refine Exec.cov (Reads.bind (Reads.iterate hr.iter) <| Reads.bind (hw 0 (by omega)) <|
    Reads.bind (hw 1 (by omega)) <| Reads.bind (hw 2 (by omega)) <|
    Reads.bind (hw 3 (by omega)) <|
    Reads.bind (C₂ := C) (n₂ := n) (Reads.ptrAdd (by simp only [vars0]; omega) (hr.ptr _ (by simp only [vars0]; omega) (by simp only [vars0]; omega))) ?_)
    (fun a h => ?_) ?_
  · simp only [rot32_eq]
    exact hnext
  · by_cases hc : C a
    · simp only [hc, or_true]
    · simp only [range, nowhere, hc, or_false] at *; omega
  · omega

theorem reads_t1ha0_loop (hr : Region32 cfg al w P lo hi) (n : Nat) (s : Spec.State32) (v : Nat)
    (r : List Byte) (ha : AlOk32 al v) (hh : Holds w ov v r) (hlo : lo ≤ v)
    (hhi : v + r.length = hi) (hn : r.length / 16 = n + 1) {fuel : Nat} (hf : n < fuel) {detent : Nat}
    (hd : detent = hi - 15) :
    Reads w ov P (range v (16 * (n + 1))) (n + 1)
      (t1ha0_loop cfg e al detent fuel (vars0 s v))
      (vars0 ((chunks 16 (n + 1) r).foldl (Spec.absorb32 e) s) (v + 16 * (n + 1))) := by
  induction n generalizing s v r fuel with
  | zero =>
    obtain ⟨fuel, rfl⟩ : ∃ k, fuel = k + 1 := ⟨fuel - 1, by omega⟩
    refine Exec.cov (reads_t1ha0_step (C := nowhere) (n := 0) hr s v r ha hh hlo hhi (by omega) ?_)
      (fun a h => Or.inl h) rfl
    rw [if_neg (by omega)]
    exact Reads.pure _
  | succ n ih =>
    obtain ⟨fuel, rfl⟩ : ∃ k, fuel = k + 1 := ⟨fuel - 1, by omega⟩
    refine Exec.cov (reads_t1ha0_step (C := range (v + 16) (16 * (n + 1))) (n := n + 1) hr s v r ha hh
      hlo hhi (by omega) ?_) (fun a h => ?_) rfl
    · rw [if_pos (by omega)]
      have hd' : (r.drop 16).length = r.length - 16 := List.length_drop
      have := ih (Spec.absorb32 e s (r.take 16)) (v + 16) (r.drop 16) (ha.add16 (j := 1))
        (hh.drop 16) (by omega) (by omega) (by omega) (fuel := fuel) (by omega)
      rw [show v + 16 * (n + 1 + 1) = v + 16 + 16 * (n + 1) by omega]
      exact this
    · simp only [range] at *; omega

theorem setWidth_seed (seed : U64) : seed.setWidth 32 = BitVec.ofNat 32 seed.toNat := by
  apply BitVec.eq_of_toNat_eq
  simp

theorem setWidth_seed_hi (seed : U64) :
    (seed >>> 32).setWidth 32 = BitVec.ofNat 32 (seed.toNat / 2 ^ 32) := by
  apply BitVec.eq_of_toNat_eq
  simp [Nat.shiftRight_eq_div_pow]

theorem reads_t1ha0_body (hr : Region32 cfg al w P lo hi) {data : Nat}
    {m : List Byte} (seed : U64) (ha : AlOk32 al data) (hh : Holds w ov data m) (hlo : lo ≤ data)
    (hhi : data + m.length = hi) :
    Reads w ov P (range data m.length) (loops 16 m.length)
      (t1ha0_body cfg e al data m.length seed) (Spec.t1ha0_32 e m seed) := by
  have hlt := hr.hi_lt
  unfold t1ha0_body Spec.t1ha0_32 loops
  simp only [setWidth_seed_hi]
  simp only [setWidth_seed, rot32_eq]
  generalize BitVec.rotateRight (BitVec.ofNat 32 m.length) 17 + BitVec.ofNat 32 seed.toNat = a
  generalize BitVec.ofNat 32 m.length ^^^ BitVec.ofNat 32 (seed.toNat / 2 ^ 32) = b
  by_cases h : 16 < m.length
  · have hn : m.length / 16 = (m.length / 16 - 1) + 1 := by omega
    simp only [if_pos h, gt_iff_lt]
    have hrest := length_rest 16 m
    refine Exec.cov (Reads.bind (Reads.ptrAdd (by omega) (hr.ptr _ (by omega) (by omega))) <| Reads.bind (Reads.ptrSub (by omega) (hr.ptr _ (by omega) (by omega))) <|
      Reads.bind (reads_t1ha0_loop hr (m.length / 16 - 1) ⟨a, b, ~~~a, b.rotateRight 5⟩ data m ha hh hlo
        hhi hn (fuel := m.length) (by omega) (detent := data + m.length - 15) (by rw [hhi])) <|
      ?_) (C₁ := fun a => nowhere a ∨ nowhere a ∨ range data (16 * (m.length / 16 - 1 + 1)) a ∨
        range (data + 16 * (m.length / 16 - 1 + 1)) (m.length % 16) a)
        (n₁ := 0 + (0 + (m.length / 16 - 1 + 1 + 0))) (fun a h => ?_) (by omega)
    · rw [and_15]
      simp only [← hn]
      exact reads_t1ha0_tail hr _ _ ha.add16 (hh.drop _) (by omega)
        (by rw [hrest]; omega) hrest (by omega)
    · simp only [range, nowhere] at *; omega
  · simp only [if_neg h, gt_iff_lt]
    exact reads_t1ha0_tail hr _ _ ha hh hlo hhi rfl (by omega)

theorem reads_t1ha0_32 {page data : Nat} {m : List Byte} (h : Buf cfg w ov page data m) (seed : U64) :
    Reads w ov (Foot32 cfg page data m.length) (range data m.length) (loops 16 m.length)
      (t1ha0_32 cfg e data m.length seed) (Spec.t1ha0_32 e m seed) := by
  unfold t1ha0_32
  by_cases he : cfg.unaligned = .efficient
  · rw [if_pos he]
    exact reads_t1ha0_body (h.region32 (al := .unaligned)) seed .unaligned h.holds
      (Nat.le_refl _) rfl
  · rw [if_neg he]
    by_cases hm : (data &&& (4 - 1) != 0) = true
    · simp only [if_pos hm]
      exact reads_t1ha0_body (h.region32 (al := .unaligned)) seed .unaligned h.holds
        (Nat.le_refl _) rfl
    · simp only [if_neg hm]
      exact reads_t1ha0_body h.region32 seed (misaligned_false32 hm) h.holds
        (Nat.le_refl _) rfl

end T1ha.Model
