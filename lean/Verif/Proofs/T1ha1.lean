import Verif.Proofs.Region
import Verif.Model.T1ha1

/-!
# `t1ha1_le`, `t1ha1_be` compute the specification
-/

namespace T1ha.Model

variable {w : World} {ov : Overlay} {cfg : Cfg} {P : Ev → Prop} {al : Aligness} {lo hi : Nat}
  {e : Endian}

/-- One step of the tail. -/
def t1ha1Step (n : Nat) (ab : U64 × U64) (x : U64) : U64 × U64 :=
  if n % 2 = 1 then (ab.1, ab.2 + Spec.mux x (Spec.tailPrime n))
  else (ab.1 + Spec.mux x (Spec.tailPrime n), ab.2)

theorem t1ha1Tail_eq (ws : List U64) (ab : U64 × U64) :
    Spec.t1ha1Tail ws ab = tailFold t1ha1Step ws ab := by
  induction ws generalizing ab with
  | nil => rfl
  | cons x ws ih =>
    obtain ⟨a, b⟩ := ab
    simp only [Spec.t1ha1Tail, tailFold, t1ha1Step]
    split <;> exact ih _

theorem t1ha1Step_3 (ab : U64 × U64) (x : U64) :
    t1ha1Step 3 ab x = (ab.1, ab.2 + Spec.mux x prime_4) := (rfl)
theorem t1ha1Step_2 (ab : U64 × U64) (x : U64) :
    t1ha1Step 2 ab x = (ab.1 + Spec.mux x prime_3, ab.2) := (rfl)
theorem t1ha1Step_1 (ab : U64 × U64) (x : U64) :
    t1ha1Step 1 ab x = (ab.1, ab.2 + Spec.mux x prime_2) := (rfl)
theorem t1ha1Step_0 (ab : U64 × U64) (x : U64) :
    t1ha1Step 0 ab x = (ab.1 + Spec.mux x prime_1, ab.2) := (rfl)

set_option linter.unusedSimpArgs false in
theorem t1ha1_tail_eq (a b : U64) (v len : Nat) :
    t1ha1_tail cfg e al a b v len = (do
      let ab ← steps cfg 8 (fetch64 cfg e al) (tail64 cfg e al) t1ha1Step len 3 (a, b) v
      pure (Spec.t1ha1Final ab)) := by
  unfold t1ha1_tail
  simp only [steps, Nat.reduceAdd, Nat.reduceMul, Nat.zero_add, Nat.one_mul]
  by_cases h24 : 24 < len <;> by_cases h16 : 16 < len <;> by_cases h8 : 8 < len <;>
    by_cases h0 : 0 < len <;> first | omega | skip
  all_goals
    simp only [h24, h16, h8, h0, if_true, if_false, bind_assoc, pure_bind]
    try simp only [t1ha1Step_3, t1ha1Step_2, t1ha1Step_1, t1ha1Step_0]
    simp only [mux64_eq, final_weak_avalanche_eq]

theorem reads_t1ha1_tail (hr : Region cfg al w P lo hi) (hb : e = .big → cfg.Buildable) {v len : Nat}
    {r : List Byte} (a b : U64) (ha : AlOk cfg al v) (hh : Holds w ov v r) (hlo : lo ≤ v)
    (hhi : v + r.length = hi) (hlen : r.length = len) (h32 : len ≤ 32) :
    Reads w ov P (range v len) 0 (t1ha1_tail cfg e al a b v len)
      (Spec.t1ha1Final (Spec.t1ha1Tail (Spec.words64 e r) (a, b))) := by
  rw [t1ha1_tail_eq, t1ha1Tail_eq]
  exact Exec.cov (Reads.bind (hr.steps hb t1ha1Step (a, b) ha hh hlo hhi hlen h32)
    (Reads.pure _)) (fun a h => Or.inl h) rfl

/-- The variables for a state of the specification. -/
def vars1 (s : Spec.State) (v : Nat) : T1ha1Vars := ⟨s.a, s.b, s.c, s.d, v⟩

theorem reads_t1ha1_step (hr : Region cfg al w P lo hi) (s : Spec.State) (v : Nat)
    (r : List Byte) (ha : AlOk cfg al v) (hh : Holds w ov v r) (hlo : lo ≤ v)
    (hhi : v + r.length = hi) (hl : 32 ≤ r.length) {fuel : Nat} {detent : Nat}
    {C : Nat → Prop} {n : Nat} {Q : T1ha1Vars → Overlay → Prop}
    (hnext : Exec w ov P C n (if v + 32 < detent then
        t1ha1_loop cfg e al detent fuel (vars1 (Spec.t1ha1Absorb e s (r.take 32)) (v + 32))
      else pure (vars1 (Spec.t1ha1Absorb e s (r.take 32)) (v + 32))) Q) :
    Exec w ov P (fun a => range v 32 a ∨ C a) (n + 1)
      (t1ha1_loop cfg e al detent (fuel + 1) (vars1 s v)) Q := by
  have hlt := hr.hi_lt
  have hw := fun i (hi4 : i < 4) => hr.word (e := e) ha hh hlo (by omega) hl hi4
  unfold t1ha1_loop
  refine Exec.cov (Reads.bind (Reads.iterate hr.iter) <| Reads.bind (hw 0 (by omega)) <|
    Reads.bind (hw 1 (by omega)) <| Reads.bind (hw 2 (by omega)) <|
    Reads.bind (hw 3 (by omega)) <|
    Reads.bind (C₂ := C) (n₂ := n) (Reads.ptrAdd (by simp only [vars1]; omega) (hr.ptr _ (by simp only [vars1]; omega) (by simp only [vars1]; omega))) ?_)
    (fun a h => ?_) ?_
  · simp only [rot64_eq]
    exact hnext
  · by_cases hc : C a
    · simp only [hc, or_true]
    · simp only [range, nowhere, hc, or_false] at *; omega
  · omega

theorem reads_t1ha1_loop (hr : Region cfg al w P lo hi) (n : Nat) (s : Spec.State) (v : Nat)
    (r : List Byte) (ha : AlOk cfg al v) (hh : Holds w ov v r) (hlo : lo ≤ v)
    (hhi : v + r.length = hi) (hn : r.length / 32 = n + 1) {fuel : Nat} (hf : n < fuel) {detent : Nat}
    (hd : detent = hi - 31) :
    Reads w ov P (range v (32 * (n + 1))) (n + 1)
      (t1ha1_loop cfg e al detent fuel (vars1 s v))
      (vars1 ((chunks 32 (n + 1) r).foldl (Spec.t1ha1Absorb e) s) (v + 32 * (n + 1))) := by
  induction n generalizing s v r fuel with
  | zero =>
    obtain ⟨fuel, rfl⟩ : ∃ k, fuel = k + 1 := ⟨fuel - 1, by omega⟩
    refine Exec.cov (reads_t1ha1_step (C := nowhere) (n := 0) hr s v r ha hh hlo hhi (by omega) ?_)
      (fun a h => Or.inl h) rfl
    rw [if_neg (by omega)]
    exact Reads.pure _
  | succ n ih =>
    obtain ⟨fuel, rfl⟩ : ∃ k, fuel = k + 1 := ⟨fuel - 1, by omega⟩
    refine Exec.cov (reads_t1ha1_step (C := range (v + 32) (32 * (n + 1))) (n := n + 1) hr s v r ha hh
      hlo hhi (by omega) ?_) (fun a h => ?_) rfl
    · rw [if_pos (by omega)]
      have hd' : (r.drop 32).length = r.length - 32 := List.length_drop
      have := ih (Spec.t1ha1Absorb e s (r.take 32)) (v + 32) (r.drop 32) (ha.add32 (j := 1))
        (hh.drop 32) (by omega) (by omega) (by omega) (fuel := fuel) (by omega)
      rw [show v + 32 * (n + 1 + 1) = v + 32 + 32 * (n + 1) by omega]
      exact this
    · simp only [range] at *; omega

theorem reads_t1ha1_body (hr : Region cfg al w P lo hi) (hb : e = .big → cfg.Buildable) {data : Nat}
    {m : List Byte} (seed : U64) (ha : AlOk cfg al data) (hh : Holds w ov data m) (hlo : lo ≤ data)
    (hhi : data + m.length = hi) :
    Reads w ov P (range data m.length) (if 32 < m.length then m.length / 32 else 0)
      (t1ha1_body cfg e al data m.length seed) (Spec.t1ha1 e m seed) := by
  have hlt := hr.hi_lt
  unfold t1ha1_body Spec.t1ha1
  by_cases h : 32 < m.length
  · have hn : m.length / 32 = (m.length / 32 - 1) + 1 := by omega
    simp only [if_pos h, gt_iff_lt]
    have hrest := length_rest 32 m
    refine Exec.cov (Reads.bind (Reads.ptrAdd (by omega) (hr.ptr _ (by omega) (by omega))) <| Reads.bind (Reads.ptrSub (by omega) (hr.ptr _ (by omega) (by omega))) <|
      Reads.bind (reads_t1ha1_loop hr (m.length / 32 - 1) ⟨seed, Spec.len64 m,
        (Spec.len64 m).rotateRight 17 + seed, Spec.len64 m ^^^ seed.rotateRight 17⟩ data m ha hh hlo hhi
        hn (by omega) (by rw [hhi])) <|
      ?_) (C₁ := fun a => nowhere a ∨ nowhere a ∨ range data (32 * (m.length / 32 - 1 + 1)) a ∨
        range (data + 32 * (m.length / 32 - 1 + 1)) (m.length % 32) a)
        (n₁ := 0 + (0 + (m.length / 32 - 1 + 1 + 0))) (fun a h => ?_) (by omega)
    · rw [and_31]
      simp only [rot64_eq]
      simp only [← hn]
      exact reads_t1ha1_tail hr hb _ _ ha.add32 (hh.drop _) (by omega)
        (by rw [hrest]; omega) hrest (by omega)
    · simp only [range, nowhere] at *; omega
  · simp only [if_neg h, gt_iff_lt]
    exact reads_t1ha1_tail hr hb _ _ ha hh hlo hhi rfl (by omega)

theorem reads_t1ha1 {page data : Nat} {m : List Byte} (h : Buf cfg w ov page data m)
    (hslack : cfg.SafeTail ∨ Mapped w (data + m.length) 8) (hb : e = .big → cfg.Buildable) (seed : U64) :
    Reads w ov (Foot cfg page data m.length) (range data m.length) (loops 32 m.length)
      (t1ha1 cfg e data m.length seed) (Spec.t1ha1 e m seed) := by
  unfold t1ha1
  by_cases he : cfg.unaligned = .efficient
  · rw [if_pos he]
    exact reads_t1ha1_body (h.region (al := .unaligned) hslack (fun h => nomatch h)) hb seed .unaligned h.holds
      (Nat.le_refl _) rfl
  · rw [if_neg he]
    by_cases hm : (data &&& (cfg.alignment64 - 1) != 0) = true
    · simp only [if_pos hm]
      exact reads_t1ha1_body (h.region (al := .unaligned) hslack (fun h => nomatch h)) hb seed .unaligned h.holds
        (Nat.le_refl _) rfl
    · simp only [if_neg hm]
      exact reads_t1ha1_body (h.region hslack (fun _ => he)) hb seed (misaligned_false hm) h.holds
        (Nat.le_refl _) rfl

end T1ha.Model
