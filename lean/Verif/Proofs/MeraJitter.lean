import Verif.Proofs.Mera

/-!
# Lemmas about the measurements on a machine on which durations vary
-/

namespace T1ha.Model

variable {σ : Type} {m : Bench σ} {ahead : U32 → U64} {τ : σ → Nat} {p : Pace} {ε e : Nat} {unit : ℚ}

theorem waitEdge_some (c : U32) (snap : U64) :
    ∀ fuel s r s', waitEdge m c snap fuel s = some (some r, s') → ∃ s0, r = (m.start s0).1.2 ∧ s' = (m.start s0).2 ∧
      (m.start s0).1.1 = c
  | 0, _, _, _, h => by simp [waitEdge] at h
  | fuel + 1, s, r, s', h => by
    rw [waitEdge] at h
    split at h
    · simp at h
    · rename_i hc
      split at h
      · exact waitEdge_some c snap fuel _ _ _ h
      · simp only [Option.some.injEq, Prod.mk.injEq] at h
        exact ⟨s, h.1.symm, h.2.symm, (not_not.1 (not_or.1 hc).1).symm⟩

theorem callTarget_jitter (h : Jitter m ahead τ p ε e unit) {L : Nat} (hL : 0 < L) (hL' : L < 2 ^ 32) (s : σ) :
    τ s + L * p.call ≤ τ (callTarget m (BitVec.ofNat 32 L) (2 ^ 32) 0 s) ∧
      τ (callTarget m (BitVec.ofNat 32 L) (2 ^ 32) 0 s) ≤ τ s + L * (p.call + e) := by
  have key : ∀ left i s, i < L → L - i ≤ left →
      τ s + (L - i) * p.call ≤ τ (callTarget m (BitVec.ofNat 32 L) left (BitVec.ofNat 32 i) s) ∧
      τ (callTarget m (BitVec.ofNat 32 L) left (BitVec.ofNat 32 i) s) ≤ τ s + (L - i) * (p.call + e) := by
    intro left
    induction left with
    | zero => intro i s h1 h2; omega
    | succ left ih =>
      intro i s h1 h2
      unfold callTarget
      have h3 : (BitVec.ofNat 32 i + 1 : U32) = BitVec.ofNat 32 (i + 1) := by
        rw [BitVec.ofNat_add]; rfl
      have h4 : (BitVec.ofNat 32 i + 1 < BitVec.ofNat 32 L) ↔ i + 1 < L := by
        rw [h3, BitVec.lt_def, toNat_of32 (by omega), toNat_of32 hL']
      have h5 := h.target s
      simp only
      by_cases hi : i + 1 < L
      · rw [if_pos (h4.2 hi), h3]
        have := ih (i + 1) (m.target s) hi (by omega)
        have e1 : L - i = (L - (i + 1)) + 1 := by omega
        rw [e1, Nat.add_mul, Nat.one_mul, Nat.add_mul, Nat.one_mul]
        omega
      · rw [if_neg (fun h' => hi (h4.1 h'))]
        have e1 : L - i = 1 := by omega
        rw [e1, Nat.one_mul, Nat.one_mul]
        omega
  have := key (2 ^ 32) 0 s hL (by omega)
  simpa using this

theorem ofNat_ne {x y : Nat} (h1 : 0 < y) (h2 : y < 2 ^ 64) : BitVec.ofNat 64 x ≠ BitVec.ofNat 64 (x + y) := by
  intro h
  have := congrArg BitVec.toNat h
  rw [BitVec.toNat_ofNat, BitVec.toNat_ofNat] at this
  omega

theorem ahead_sub (k x y : U64) : k + x - (k + y) = x - y := by
  apply BitVec.eq_of_toNat_eq
  simp only [BitVec.toNat_sub, BitVec.toNat_add]
  omega

theorem ahead_cancel {k x y : U64} (h : k + x = k + y) : x = y := (BitVec.add_right_inj _).1 h

theorem overhead_jitter (h : Jitter m ahead τ p ε e unit) (ok : p.Ok) (hε : ε < 2 ^ 40) {fuel : Nat} {s s' : σ} {c l : U32}
    {el : U64} (hm : measureOverhead m fuel s = some (some (c, l, el), s')) :
    l = 1 ∧ ∃ x, el = BitVec.ofNat 64 x ∧ p.overhead ≤ x ∧ x ≤ p.overhead + 2 * ε := by
  unfold measureOverhead at hm
  simp only at hm
  split at hm
  · simp at hm
  · simp at hm
  · rename_i st s1 e1
    obtain ⟨s0, hst, hs1, hcore⟩ := waitEdge_some _ _ _ _ _ _ e1
    obtain ⟨a, b, g1, g2, g3, g4, g5, g6⟩ := h.start s0
    obtain ⟨a', b', k1, k2, k3, k4, k5, k6⟩ := h.finish s1
    have ho : 0 < b + a' := by
      have := ok.overhead
      unfold Pace.overhead at this
      omega
    have hlt : b + a' < 2 ^ 64 := by
      have := ok.startAfter; have := ok.finishBefore
      omega
    split at hm
    · simp at hm
    · rename_i hc
      have hf : (m.finish s1).1.2 = ahead (m.start s0).1.1 + BitVec.ofNat 64 (τ s0 + a + (b + a')) := by
        rw [k1, ← not_not.1 (not_or.1 hc).1, hcore, hs1, g2]
        congr 2
        omega
      have hne : st ≠ (m.finish s1).1.2 := by
        rw [hst, g1, hf]
        exact fun h => ofNat_ne ho hlt (ahead_cancel h)
      cases fuel with
      | zero => simp [waitTick] at hm
      | succ fuel =>
        rw [waitTick, if_neg hne] at hm
        simp only [Option.some.injEq, Prod.mk.injEq] at hm
        obtain ⟨⟨-, q1, q2⟩, -⟩ := hm
        refine ⟨q1.symm, b + a', ?_, ?_, ?_⟩
        · rw [← q2, hst, g1, hf, ahead_sub, ofNat_sub (by omega)]
          congr 1
          omega
        · unfold Pace.overhead; omega
        · unfold Pace.overhead; omega

theorem waitNext_first {c : U32} {finish : U64} {fuel : Nat} {loops l : U32} {s s' : σ}
    (hne : c = (m.start s).1.1 → finish ≠ (m.start s).1.2) (h : waitNext m c finish (fuel + 1) loops s = some (some l, s')) : l = loops := by
  rw [waitNext] at h
  simp only at h
  split at h
  · simp at h
  · rename_i hc
    rw [if_pos (hne (not_not.1 (not_or.1 hc).1))] at h
    simp only [Option.some.injEq, Prod.mk.injEq] at h
    exact h.1.symm

theorem target_jitter (h : Jitter m ahead τ p ε e unit) (hb : 0 < p.startBefore) {fuel L : Nat} (hL : 0 < L)
    (hL' : L < 2 ^ 32) {s s' : σ} {c l : U32} {el : U64}
    (hm : measureTarget m fuel c (BitVec.ofNat 32 L) s = some (some (l, el), s')) :
    l = 1 ∧ ∃ x, el = BitVec.ofNat 64 x ∧ p.overhead + L * p.call ≤ x ∧
      x ≤ p.overhead + 2 * ε + L * (p.call + e) := by
  unfold measureTarget at hm
  simp only at hm
  split at hm
  · simp at hm
  · split at hm
    · simp at hm
    · simp at hm
    · rename_i st s1 e1
      obtain ⟨s0, hst, hs1, hcore⟩ := waitEdge_some _ _ _ _ _ _ e1
      obtain ⟨a, b, g1, g2, g3, g4, g5, g6⟩ := h.start s0
      have hc := callTarget_jitter h hL hL' s1
      generalize callTarget m (BitVec.ofNat 32 L) (2 ^ 32) 0 s1 = s2 at hm hc
      obtain ⟨a', b', k1, k2, k3, k4, k5, k6⟩ := h.finish s2
      obtain ⟨a2, b2, j1, j2, j3, j4, j5, j6⟩ := h.start (m.finish s2).2
      obtain ⟨d, hd⟩ := Nat.exists_eq_add_of_le hc.1
      split at hm
      · simp at hm
      · rename_i hcf
        have hcf := not_not.1 (not_or.1 hcf).1
        cases fuel with
        | zero => simp [waitNext] at hm
        | succ fuel =>
          have hne : c = (m.start (m.finish s2).2).1.1 → (m.finish s2).1.2 ≠ (m.start (m.finish s2).2).1.2 := by
            intro hc2
            rw [k1, j1, ← hc2, ← hcf, k2, Nat.add_assoc (τ s2 + a')]
            exact fun h => ofNat_ne (by omega) (by omega) (ahead_cancel h)
          split at hm
          · simp at hm
          · simp at hm
          · rename_i l' s3 heq
            have hl := waitNext_first hne heq
            simp only [Option.some.injEq, Prod.mk.injEq] at hm
            obtain ⟨⟨q1, q2⟩, -⟩ := hm
            refine ⟨by rw [← q1, hl], b + (L * p.call + d) + a', ?_, ?_, ?_⟩
            · rw [← q2, hst, g1, k1, ← hcf, hcore, ahead_sub,
                ofNat_sub (by rw [hd, hs1, g2]; omega), hd, hs1, g2]
              congr 1
              omega
            · unfold Pace.overhead; omega
            · unfold Pace.overhead; omega

/-! ## The invariant -/

/-- What is known about the overhead after at most `N` rounds; `O` and `O'`: bounds of the measurements. -/
structure SoundO (O O' N : Nat) (v : BenchVars) : Prop where
  best : (v.overhead_best = INT64_MAX ∧ v.overhead_loops_max = 0) ∨
    (O ≤ v.overhead_best.toNat ∧ v.overhead_best.toNat ≤ O' ∧ v.overhead_loops_max = 1)
  few : v.overhead_accounted_loops.toNat ≤ N
  count : v.overhead_total_count = v.overhead_accounted_loops
  lower : v.overhead_accounted_loops.toNat * O ≤ v.overhead_sum.toNat
  upper : v.overhead_sum.toNat ≤ v.overhead_accounted_loops.toNat * O'

/-- What is known about the target after at most `N` rounds; `T` and `T'`: bounds of the measurements. -/
structure SoundT (T T' N : Nat) (v : BenchVars) : Prop where
  best : (v.target_best = INT64_MAX ∧ v.tail_loops_max = 0) ∨
    (T ≤ v.target_best.toNat ∧ v.target_best.toNat ≤ T' ∧ v.tail_loops_max = 1)
  few : v.target_accounted_loops.toNat ≤ N
  count : v.target_overhead_count = v.target_accounted_loops
  total : v.target_total_count.toNat = v.target_accounted_loops.toNat * v.target_loops.toNat
  lower : v.target_accounted_loops.toNat * T ≤ v.target_brutto_sum.toNat
  upper : v.target_brutto_sum.toNat ≤ v.target_accounted_loops.toNat * T'

theorem int64_max_toNat : INT64_MAX.toNat = 0x7FFFFFFFFFFFFFFF := rfl

theorem succ_toNat {x : U32} (h : x.toNat < 2 ^ 31) : (x + 1).toNat = x.toNat + 1 := by
  rw [BitVec.toNat_add]
  show (x.toNat + 1) % 2 ^ 32 = _
  omega

theorem SoundO.mono {O O' N N' : Nat} {v : BenchVars} (h : SoundO O O' N v) (hn : N ≤ N') : SoundO O O' N' v :=
  ⟨h.best, h.few.trans hn, h.count, h.lower, h.upper⟩

theorem SoundT.mono {O O' N N' : Nat} {v : BenchVars} (h : SoundT O O' N v) (hn : N ≤ N') : SoundT O O' N' v :=
  ⟨h.best, h.few.trans hn, h.count, h.total, h.lower, h.upper⟩

theorem SoundT.restart_bottom {T T' N : Nat} {v : BenchVars}
    (h : (v.target_best = INT64_MAX ∧ v.tail_loops_max = 0) ∨
      (T ≤ v.target_best.toNat ∧ v.target_best.toNat ≤ T' ∧ v.tail_loops_max = 1)) :
    SoundT T T' N (restart_bottom v) :=
  ⟨h, Nat.zero_le _, rfl, by show 0 = 0 * _; omega, by show 0 * T ≤ 0; omega, by show 0 ≤ 0 * T'; omega⟩

theorem SoundT.restart_middle (T T' N : Nat) (v : BenchVars) : SoundT T T' N (restart_middle v) :=
  SoundT.restart_bottom (Or.inl ⟨rfl, rfl⟩)

/-- A measurement of the overhead is accounted. -/
theorem account_soundO {O O' N x : Nat} {v : BenchVars} (h : SoundO O O' N v) (hN : N < 2 ^ 20) (hO : O' < 2 ^ 43)
    (h1 : O ≤ x) (h2 : x ≤ O') :
    (∃ v', accountOverhead 1 (BitVec.ofNat 64 x) v = .inl v' ∧ SoundO O O' N (restart_top v') ∧
      v'.target_loops = v.target_loops) ∨
    (∃ v', accountOverhead 1 (BitVec.ofNat 64 x) v = .inr v' ∧ SoundO O O' (N + 1) v' ∧
      (O ≤ v'.overhead_best.toNat ∧ v'.overhead_best.toNat ≤ O' ∧ v'.overhead_loops_max = 1) ∧
      ∀ T T' M, SoundT T T' M v → SoundT T T' M v' ∧ v'.target_loops = v.target_loops) := by
  have hx : (BitVec.ofNat 64 x).toNat = x := toNat_of (by omega)
  unfold accountOverhead
  by_cases hc : v.overhead_best > BitVec.ofNat 64 x ∨ v.overhead_loops_max < 1
  · rw [if_pos hc]
    refine Or.inl ⟨_, rfl, ?_, ?_⟩
    · refine ⟨Or.inr ?_, Nat.zero_le _, rfl, by show 0 * O ≤ 0; omega, by show 0 ≤ 0 * O'; omega⟩
      by_cases hb : v.overhead_best > BitVec.ofNat 64 x
      · rw [if_pos hb]
        refine ⟨?_, ?_, ?_⟩
        · show O ≤ (BitVec.ofNat 64 x).toNat; omega
        · show (BitVec.ofNat 64 x).toNat ≤ O'; omega
        · show (if v.overhead_loops_max > 1 then v.overhead_loops_max else 1) = 1
          rcases h.best with ⟨-, h0⟩ | ⟨-, -, h0⟩ <;> rw [h0] <;> decide
      · rw [if_neg hb]
        have hlt : (0 : U32) < 1 := by decide
        rcases h.best with ⟨h0, -⟩ | ⟨-, -, h0⟩
        · exfalso; apply hb; rw [h0]
          show _ < _
          rw [BitVec.lt_def, hx, int64_max_toNat]; omega
        · exfalso
          rcases hc with hc | hc
          · exact hb hc
          · rw [h0] at hc; exact absurd hc (by decide)
    · split <;> rfl
  · rw [if_neg hc]
    have hr : O ≤ v.overhead_best.toNat ∧ v.overhead_best.toNat ≤ O' ∧ v.overhead_loops_max = 1 := by
      rcases h.best with ⟨-, h0⟩ | h0
      · exact absurd (Or.inr (by rw [h0]; decide)) hc
      · exact h0
    have hacc : (v.overhead_accounted_loops + 1).toNat = v.overhead_accounted_loops.toNat + 1 :=
      succ_toNat (by have := h.few; omega)
    by_cases hg : BitVec.ofNat 64 x ≤ v.overhead_gate ∧ (1 : U32) + 1 ≥ v.overhead_loops_max
    · rw [if_pos hg]
      refine Or.inr ⟨_, rfl, ⟨Or.inr hr, ?_, ?_, ?_, ?_⟩, hr, fun T T' M g => ⟨⟨g.best, g.few, g.count, g.total,
        g.lower, g.upper⟩, rfl⟩⟩
      · show (v.overhead_accounted_loops + 1).toNat ≤ N + 1
        have := h.few; omega
      · show v.overhead_total_count + 1 = v.overhead_accounted_loops + 1
        rw [h.count]
      · show (v.overhead_accounted_loops + 1).toNat * O ≤ (v.overhead_sum + BitVec.ofNat 64 x).toNat
        have hs : (v.overhead_sum + BitVec.ofNat 64 x).toNat = v.overhead_sum.toNat + x := by
          rw [BitVec.toNat_add, hx]
          have := h.upper
          have : v.overhead_accounted_loops.toNat * O' ≤ 2 ^ 20 * 2 ^ 43 :=
            Nat.mul_le_mul (by have := h.few; omega) (by omega)
          omega
        rw [hs, hacc, Nat.add_mul, Nat.one_mul]
        have := h.lower
        omega
      · show (v.overhead_sum + BitVec.ofNat 64 x).toNat ≤ (v.overhead_accounted_loops + 1).toNat * O'
        rw [hacc, Nat.add_mul, Nat.one_mul]
        have h1 := h.upper
        have : (v.overhead_sum + BitVec.ofNat 64 x).toNat ≤ v.overhead_sum.toNat + x := by
          rw [BitVec.toNat_add, hx]; exact Nat.mod_le _ _
        omega
    · rw [if_neg hg]
      exact Or.inr ⟨_, rfl, ⟨Or.inr hr, h.few.trans (by omega), h.count, h.lower, h.upper⟩, hr,
        fun T T' M g => ⟨⟨g.best, g.few, g.count, g.total, g.lower, g.upper⟩, rfl⟩⟩

/-- A measurement of the target is accounted. -/
theorem account_soundT {T T' N x : Nat} {v : BenchVars} (h : SoundT T T' N v) (hN : N < 2 ^ 19) (hT : T' < 2 ^ 43)
    (hL : v.target_loops.toNat < 2 ^ 13) (h1 : T ≤ x) (h2 : x ≤ T') :
    (∃ v', accountTarget 1 (BitVec.ofNat 64 x) v = .inl v' ∧ SoundT T T' N (restart_bottom v') ∧
      v'.target_loops = v.target_loops ∧ ∀ O O' M, SoundO O O' M v → SoundO O O' M (restart_bottom v')) ∨
    (∃ v', accountTarget 1 (BitVec.ofNat 64 x) v = .inr v' ∧ SoundT T T' (N + 1) v' ∧
      (T ≤ v'.target_best.toNat ∧ v'.target_best.toNat ≤ T' ∧ v'.tail_loops_max = 1) ∧
      v'.target_loops = v.target_loops ∧ v'.overhead_best = v.overhead_best ∧
      v'.overhead_loops_max = v.overhead_loops_max ∧ ∀ O O' M, SoundO O O' M v → SoundO O O' M v') := by
  have hx : (BitVec.ofNat 64 x).toNat = x := toNat_of (by omega)
  unfold accountTarget
  by_cases hc : v.target_best > BitVec.ofNat 64 x ∨ (v.target_best = BitVec.ofNat 64 x ∧ v.tail_loops_max < 1)
  · rw [if_pos hc]
    have hb : v.target_best > BitVec.ofNat 64 x := by
      rcases hc with hc | ⟨hc, hl⟩
      · exact hc
      · rcases h.best with ⟨h0, -⟩ | ⟨-, -, h0⟩
        · exfalso
          rw [h0] at hc
          have := congrArg BitVec.toNat hc
          rw [hx, int64_max_toNat] at this
          omega
        · rw [h0] at hl; exact absurd hl (by decide)
    rw [if_pos hb]
    refine Or.inl ⟨_, rfl, SoundT.restart_bottom (Or.inr ⟨?_, ?_, rfl⟩), rfl,
      fun O O' M g => ⟨g.best, g.few, g.count, g.lower, g.upper⟩⟩
    · show T ≤ (BitVec.ofNat 64 x).toNat; omega
    · show (BitVec.ofNat 64 x).toNat ≤ T'; omega
  · rw [if_neg hc]
    have hr : T ≤ v.target_best.toNat ∧ v.target_best.toNat ≤ T' ∧ v.tail_loops_max = 1 := by
      rcases h.best with ⟨h0, -⟩ | h0
      · exfalso
        apply hc
        left
        rw [h0]
        show _ < _
        rw [BitVec.lt_def, hx, int64_max_toNat]; omega
      · exact h0
    have hacc : (v.target_accounted_loops + 1).toNat = v.target_accounted_loops.toNat + 1 :=
      succ_toNat (by have := h.few; omega)
    by_cases hg : BitVec.ofNat 64 x ≤ v.target_gate ∧ v.tail_loops_max - 1 < 2
    · rw [if_pos hg]
      refine Or.inr ⟨_, rfl, ⟨Or.inr hr, ?_, ?_, ?_, ?_, ?_⟩, hr, rfl, rfl, rfl,
        fun O O' M g => ⟨g.best, g.few, g.count, g.lower, g.upper⟩⟩
      · show (v.target_accounted_loops + 1).toNat ≤ N + 1
        have := h.few; omega
      · show v.target_overhead_count + 1 = v.target_accounted_loops + 1
        rw [h.count]
      · show (v.target_total_count + v.target_loops).toNat = (v.target_accounted_loops + 1).toNat * v.target_loops.toNat
        rw [hacc, Nat.add_mul, Nat.one_mul, BitVec.toNat_add, h.total]
        apply Nat.mod_eq_of_lt
        have : v.target_accounted_loops.toNat * v.target_loops.toNat ≤ (2 ^ 19 - 1) * (2 ^ 13 - 1) :=
          Nat.mul_le_mul (by have := h.few; omega) (by omega)
        omega
      · show (v.target_accounted_loops + 1).toNat * T ≤ (v.target_brutto_sum + BitVec.ofNat 64 x).toNat
        have hs : (v.target_brutto_sum + BitVec.ofNat 64 x).toNat = v.target_brutto_sum.toNat + x := by
          rw [BitVec.toNat_add, hx]
          have := h.upper
          have : v.target_accounted_loops.toNat * T' ≤ 2 ^ 20 * 2 ^ 43 :=
            Nat.mul_le_mul (by have := h.few; omega) (by omega)
          omega
        rw [hs, hacc, Nat.add_mul, Nat.one_mul]
        have := h.lower
        omega
      · show (v.target_brutto_sum + BitVec.ofNat 64 x).toNat ≤ (v.target_accounted_loops + 1).toNat * T'
        rw [hacc, Nat.add_mul, Nat.one_mul]
        have h1 := h.upper
        have : (v.target_brutto_sum + BitVec.ofNat 64 x).toNat ≤ v.target_brutto_sum.toNat + x := by
          rw [BitVec.toNat_add, hx]; exact Nat.mod_le _ _
        omega
    · rw [if_neg hg]
      exact Or.inr ⟨_, rfl, ⟨Or.inr hr, h.few.trans (by omega), h.count, h.total, h.lower, h.upper⟩, hr, rfl, rfl, rfl,
        fun O O' M g => ⟨g.best, g.few, g.count, g.lower, g.upper⟩⟩

/-! ## The result -/

theorem half_avg (b : Bool) : ((if b then 4999 else 29999 : U32) / 2).toNat ≥ 1 := by
  cases b <;> decide

theorem overhead_between (hm : ∀ x, m.convert x = unit * number x) {O O' N : Nat} {v : BenchVars}
    (h : SoundO O O' N v) (hr : O ≤ v.overhead_best.toNat ∧ v.overhead_best.toNat ≤ O' ∧ v.overhead_loops_max = 1) :
    ∃ q : ℚ, measuredOverhead m v = some (unit * q) ∧ (O : ℚ) ≤ q ∧ q ≤ O' := by
  unfold measuredOverhead
  simp only [hm]
  have h1 : number (1 : U32) = 1 := by unfold number; rfl
  by_cases hc : v.overhead_best_count > 2 ∨
    v.overhead_total_count < (if (m.flags &&& timestamp_clock_stable != 0) = true then 4999 else 29999 : U32) / 2
  · rw [if_pos hc, hr.2.2, h1]
    refine ⟨number v.overhead_best, ?_, ?_, ?_⟩
    · unfold divide; simp
    · unfold number; exact_mod_cast hr.1
    · unfold number; exact_mod_cast hr.2.1
  · rw [if_neg hc]
    have hn : 1 ≤ v.overhead_accounted_loops.toNat := by
      have hlt : ¬ v.overhead_total_count <
        (if (m.flags &&& timestamp_clock_stable != 0) = true then 4999 else 29999 : U32) / 2 := fun g => hc (Or.inr g)
      rw [BitVec.lt_def, h.count] at hlt
      have := half_avg (m.flags &&& timestamp_clock_stable != 0)
      omega
    rw [h.count]
    have hq : (0 : ℚ) < v.overhead_accounted_loops.toNat := by exact_mod_cast hn
    refine ⟨number v.overhead_sum / number v.overhead_accounted_loops, ?_, ?_, ?_⟩
    · unfold divide number
      rw [if_neg (ne_of_gt hq)]
      simp only [Option.map_some, Option.some.injEq]
      ring
    · unfold number
      rw [le_div_iff₀ hq]
      have := h.lower
      rw [Nat.mul_comm] at this
      exact_mod_cast this
    · unfold number
      rw [div_le_iff₀ hq]
      have := h.upper
      rw [Nat.mul_comm] at this
      exact_mod_cast this

theorem target_between (hm : ∀ x, m.convert x = unit * number x) {O O' T T' N N' : Nat} {v : BenchVars}
    (h : SoundO O O' N v) (hr : O ≤ v.overhead_best.toNat ∧ v.overhead_best.toNat ≤ O' ∧ v.overhead_loops_max = 1)
    (h' : SoundT T T' N' v) (hr' : T ≤ v.target_best.toNat ∧ v.target_best.toNat ≤ T' ∧ v.tail_loops_max = 1)
    (hL : 1 ≤ v.target_loops.toNat) :
    ∃ y : ℚ, measuredTarget m v = some (unit * y) ∧ (T : ℚ) - O' ≤ v.target_loops.toNat * y ∧
      v.target_loops.toNat * y ≤ T' - O := by
  obtain ⟨q, hq, q1, q2⟩ := overhead_between hm h hr
  unfold measuredTarget
  simp only [hm, hq, Option.map_some]
  have h1 : number (1 : U32) = 1 := by unfold number; rfl
  have hL0 : (0 : ℚ) < v.target_loops.toNat := by exact_mod_cast hL
  by_cases hc : v.target_best_count > 2 ∨
    v.target_total_count < (if (m.flags &&& timestamp_clock_stable != 0) = true then 4999 else 29999 : U32) / 2
  · rw [if_pos hc, hr'.2.2, h1]
    have b1 : (T : ℚ) ≤ number v.target_best := by unfold number; exact_mod_cast hr'.1
    have b2 : number v.target_best ≤ (T' : ℚ) := by unfold number; exact_mod_cast hr'.2.1
    refine ⟨(number v.target_best - q) / v.target_loops.toNat, ?_, ?_, ?_⟩
    · unfold divide
      rw [if_neg (by unfold number; exact ne_of_gt hL0)]
      simp only [Option.map_some, Option.some.injEq]
      unfold number
      ring
    · rw [mul_div_cancel₀ _ (ne_of_gt hL0)]; linarith
    · rw [mul_div_cancel₀ _ (ne_of_gt hL0)]; linarith
  · rw [if_neg hc]
    have hn : 1 ≤ v.target_accounted_loops.toNat := by
      have hlt : ¬ v.target_total_count <
        (if (m.flags &&& timestamp_clock_stable != 0) = true then 4999 else 29999 : U32) / 2 := fun g => hc (Or.inr g)
      rw [BitVec.lt_def, h'.total] at hlt
      have := half_avg (m.flags &&& timestamp_clock_stable != 0)
      rcases Nat.eq_zero_or_pos v.target_accounted_loops.toNat with e0 | e0
      · rw [e0] at hlt; omega
      · exact e0
    have hk : (0 : ℚ) < v.target_accounted_loops.toNat := by exact_mod_cast hn
    have htot : number v.target_total_count = (v.target_accounted_loops.toNat : ℚ) * v.target_loops.toNat := by
      unfold number; rw [h'.total]; push_cast; rfl
    rw [h'.count, htot]
    have hne : (v.target_accounted_loops.toNat : ℚ) * v.target_loops.toNat ≠ 0 := ne_of_gt (mul_pos hk hL0)
    have b1 : (v.target_accounted_loops.toNat : ℚ) * T ≤ number v.target_brutto_sum := by
      unfold number; exact_mod_cast h'.lower
    have b2 : number v.target_brutto_sum ≤ (v.target_accounted_loops.toNat : ℚ) * T' := by
      unfold number; exact_mod_cast h'.upper
    refine ⟨(number v.target_brutto_sum - q * v.target_accounted_loops.toNat) /
      (v.target_accounted_loops.toNat * v.target_loops.toNat), ?_, ?_, ?_⟩
    · unfold divide
      rw [if_neg hne]
      simp only [Option.map_some, Option.some.injEq]
      unfold number
      ring
    · rw [mul_div_assoc', le_div_iff₀ (mul_pos hk hL0)]
      nlinarith [mul_le_mul_of_nonneg_left q2 (le_of_lt (mul_pos hk hL0)),
        mul_le_mul_of_nonneg_left b1 (le_of_lt hL0)]
    · rw [mul_div_assoc', div_le_iff₀ (mul_pos hk hL0)]
      nlinarith [mul_le_mul_of_nonneg_left q1 (le_of_lt (mul_pos hk hL0)),
        mul_le_mul_of_nonneg_left b2 (le_of_lt hL0)]

/-! ## The loop -/

/-- What a checkpoint does. -/
theorem checkpoint_cases (fuse : U64) (v : BenchVars) (s : σ) :
    checkpoint m true fuse v s = .again { v with stable := v.stable + 1 } ∨
    (v.target_best < 1042 + v.overhead_best * v.overhead_loops_max.setWidth 64 ∧
      checkpoint m true fuse v s = .again (restart_middle { { v with stable := v.stable + 1 } with
        target_loops := v.target_loops + v.target_loops })) ∨
    (v.target_loops > 1 ∧
      checkpoint m true fuse v s = .again (restart_middle { { v with stable := v.stable + 1 } with
        target_loops := v.target_loops >>> 1 })) ∨
    (¬ v.target_best < 1042 + v.overhead_best * v.overhead_loops_max.setWidth 64 ∧
      ∃ r, checkpoint m true fuse v s = .done r ∧ r.value = measuredTarget m { v with stable := v.stable + 1 }) := by
  by_cases hz : v.stable + 1 &&& 1023 = 0
  · by_cases h1 : v.target_best < 1042 + v.overhead_best * v.overhead_loops_max.setWidth 64
    · refine Or.inr (Or.inl ⟨h1, ?_⟩)
      unfold checkpoint
      simp only
      rw [if_pos hz, if_pos ⟨trivial, h1⟩]
    · by_cases h2 : v.target_loops > 1 ∧
        v.target_best > (1042 + v.overhead_best * v.overhead_loops_max.setWidth 64) * 4
      · refine Or.inr (Or.inr (Or.inl ⟨h2.1, ?_⟩))
        unfold checkpoint
        simp only
        rw [if_pos hz, if_neg (fun h => h1 h.2), if_pos ⟨trivial, h2⟩]
      · rcases checkpoint_settled (fuse := fuse) m true v s hz (fun h => h1 h.2) (fun h => h2 h.2) with
          ⟨r, g, g'⟩ | ⟨g, -⟩
        · exact Or.inr (Or.inr (Or.inr ⟨h1, r, g, g'⟩))
        · exact Or.inl g
  · left
    unfold checkpoint
    simp only
    rw [if_neg hz]

theorem jitter_loop (h : Jitter m ahead τ p ε e unit) (ok : p.Ok) (hb : 0 < p.startBefore) (hc : 0 < p.call)
    (hε : 2 * ε < 1042) (he : e < 2 ^ 28) (fuse : U64) (inner : Nat) :
    ∀ k N v s r s', N + k ≤ 2 ^ 19 → 1 ≤ v.target_loops.toNat →
      (v.target_loops.toNat = 1 ∨ v.target_loops.toNat * p.call < 2 * (1042 + 2 * ε)) →
      SoundO p.overhead (p.overhead + 2 * ε) N v →
      SoundT (p.overhead + v.target_loops.toNat * p.call)
        (p.overhead + 2 * ε + v.target_loops.toNat * (p.call + e)) N v →
      benchLoop m true fuse inner k v s = some (r, s') →
      ∃ (y : ℚ) (L : Nat), r.value = some (unit * y) ∧ 1 ≤ L ∧ 1042 ≤ 2 * ε + L * (p.call + e) ∧
        (L : ℚ) * p.call - 2 * ε ≤ L * y ∧ L * y ≤ L * (p.call + e) + 2 * ε
  | 0, _, _, _, _, _, _, _, _, _, _, g => by simp [benchLoop] at g
  | k + 1, N, v, s, r, s', hk, hL, hL', so, st, g => by
    have ho : p.overhead < 2 ^ 41 := by unfold Pace.overhead; have := ok.startAfter; have := ok.finishBefore; omega
    have hmul : v.target_loops.toNat ≤ v.target_loops.toNat * p.call := Nat.le_mul_of_pos_right _ hc
    have hL13 : v.target_loops.toNat < 2 ^ 13 := by omega
    have hT : p.overhead + 2 * ε + v.target_loops.toNat * (p.call + e) < 2 ^ 43 := by
      have h1 : v.target_loops.toNat * p.call < 2 ^ 40 := by
        rcases hL' with e1 | e1
        · rw [e1, Nat.one_mul]; exact ok.call
        · omega
      have h2 : v.target_loops.toNat * e ≤ 2 ^ 13 * 2 ^ 28 := Nat.mul_le_mul (by omega) (by omega)
      rw [Nat.mul_add]
      omega
    rw [benchLoop] at g
    unfold benchRound at g
    cases eo : measureOverhead m inner s with
    | none => simp [eo] at g
    | some x =>
      obtain ⟨x, s1⟩ := x
      cases x with
      | none =>
        simp only [eo] at g
        exact jitter_loop h ok hb hc hε he fuse inner k N (retry v) s1 r s' (by omega) hL hL'
          ⟨so.best, so.few, so.count, so.lower, so.upper⟩ ⟨st.best, st.few, st.count, st.total, st.lower, st.upper⟩ g
      | some x =>
        obtain ⟨c, l, el⟩ := x
        obtain ⟨rfl, x, rfl, x1, x2⟩ := overhead_jitter h ok (by omega) eo
        simp only [eo] at g
        rcases account_soundO so (by omega) (by omega) x1 x2 with ⟨v1, ea, so1, el1⟩ | ⟨v1, ea, so1, ro, so2⟩
        · simp only [ea] at g
          refine jitter_loop h ok hb hc hε he fuse inner k N (restart_top v1) s1 r s' (by omega) ?_ ?_ so1 ?_ g
          · show 1 ≤ v1.target_loops.toNat
            rw [el1]; exact hL
          · show v1.target_loops.toNat = 1 ∨ v1.target_loops.toNat * p.call < 2 * (1042 + 2 * ε)
            rw [el1]; exact hL'
          · exact SoundT.restart_middle _ _ _ _
        · obtain ⟨st1, el1⟩ := so2 _ _ _ st
          simp only [ea, if_true] at g
          cases et : measureTarget m inner c v1.target_loops s1 with
          | none => simp [et] at g
          | some y =>
            obtain ⟨y, s2⟩ := y
            cases y with
            | none =>
              simp only [et] at g
              refine jitter_loop h ok hb hc hε he fuse inner k (N + 1) (retry v1) s2 r s' (by omega) ?_ ?_ ?_ ?_ g
              · show 1 ≤ v1.target_loops.toNat
                rw [el1]; exact hL
              · show v1.target_loops.toNat = 1 ∨ v1.target_loops.toNat * p.call < 2 * (1042 + 2 * ε)
                rw [el1]; exact hL'
              · exact ⟨so1.best, so1.few, so1.count, so1.lower, so1.upper⟩
              · show SoundT (p.overhead + v1.target_loops.toNat * p.call)
                  (p.overhead + 2 * ε + v1.target_loops.toNat * (p.call + e)) (N + 1) (retry v1)
                rw [el1]
                have := st1.mono (show N ≤ N + 1 by omega)
                exact ⟨this.best, this.few, this.count, this.total, this.lower, this.upper⟩
            | some y =>
              obtain ⟨l', el'⟩ := y
              have et' := et
              rw [el1, show v.target_loops = BitVec.ofNat 32 v.target_loops.toNat by simp] at et'
              obtain ⟨rfl, z, rfl, z1, z2⟩ := target_jitter h hb hL v.target_loops.isLt et'
              simp only [et] at g
              rcases account_soundT st1 (by omega) hT (by rw [el1]; exact hL13) z1 z2 with
                ⟨v2, eb, st2, el2, so3⟩ | ⟨v2, eb, st2, rt, el2, eb1, eb2, so3⟩
              · simp only [eb] at g
                refine jitter_loop h ok hb hc hε he fuse inner k (N + 1) (restart_bottom v2) s2 r s' (by omega) ?_ ?_
                  (so3 _ _ _ so1) ?_ g
                · show 1 ≤ v2.target_loops.toNat
                  rw [el2, el1]; exact hL
                · show v2.target_loops.toNat = 1 ∨ v2.target_loops.toNat * p.call < 2 * (1042 + 2 * ε)
                  rw [el2, el1]; exact hL'
                · show SoundT (p.overhead + v2.target_loops.toNat * p.call)
                    (p.overhead + 2 * ε + v2.target_loops.toNat * (p.call + e)) (N + 1) (restart_bottom v2)
                  rw [el2, el1]
                  exact st2.mono (by omega)
              · simp only [eb] at g
                have so4 := so3 _ _ _ so1
                have ro2 : p.overhead ≤ v2.overhead_best.toNat ∧ v2.overhead_best.toNat ≤ p.overhead + 2 * ε ∧
                    v2.overhead_loops_max = 1 := by rw [eb1, eb2]; exact ro
                have el3 : v2.target_loops = v.target_loops := el2.trans el1
                have wanna : (1042 + v2.overhead_best * v2.overhead_loops_max.setWidth 64 : U64).toNat =
                    1042 + v2.overhead_best.toNat := by
                  rw [ro2.2.2]
                  have w1 : BitVec.setWidth 64 (1 : U32) = 1#64 := by decide
                  rw [w1, BitVec.mul_one, BitVec.toNat_add]
                  show (1042 + v2.overhead_best.toNat) % 2 ^ 64 = _
                  have := ro2.2.1
                  omega
                rcases checkpoint_cases (m := m) fuse v2 s2 with k1 | ⟨k1, k2⟩ | ⟨k1, k2⟩ | ⟨k1, r', k2, k3⟩
                · rw [k1] at g
                  refine jitter_loop h ok hb hc hε he fuse inner k (N + 1) _ s2 r s' (by omega) ?_ ?_ ?_ ?_ g
                  · show 1 ≤ v2.target_loops.toNat
                    rw [el3]; exact hL
                  · show v2.target_loops.toNat = 1 ∨ v2.target_loops.toNat * p.call < 2 * (1042 + 2 * ε)
                    rw [el3]; exact hL'
                  · exact ⟨so4.best, so4.few, so4.count, so4.lower, so4.upper⟩
                  · show SoundT (p.overhead + v2.target_loops.toNat * p.call)
                      (p.overhead + 2 * ε + v2.target_loops.toNat * (p.call + e)) (N + 1)
                      { v2 with stable := v2.stable + 1 }
                    rw [show p.overhead + v2.target_loops.toNat * p.call = p.overhead + v.target_loops.toNat * p.call by
                      rw [el3], show p.overhead + 2 * ε + v2.target_loops.toNat * (p.call + e) =
                        p.overhead + 2 * ε + v.target_loops.toNat * (p.call + e) by rw [el3]]
                    refine ⟨st2.best, st2.few, st2.count, ?_, st2.lower, st2.upper⟩
                    exact st2.total
                · rw [k2] at g
                  rw [BitVec.lt_def, wanna] at k1
                  have hdbl : (v2.target_loops + v2.target_loops).toNat = 2 * v.target_loops.toNat := by
                    rw [BitVec.toNat_add, el3]; omega
                  have hlt : v.target_loops.toNat * p.call < 1042 + 2 * ε := by
                    have := rt.1; have := ro2.2.1; omega
                  refine jitter_loop h ok hb hc hε he fuse inner k (N + 1) _ s2 r s' (by omega) ?_ ?_ ?_ ?_ g
                  · show 1 ≤ (v2.target_loops + v2.target_loops).toNat
                    omega
                  · show (v2.target_loops + v2.target_loops).toNat = 1 ∨
                      (v2.target_loops + v2.target_loops).toNat * p.call < 2 * (1042 + 2 * ε)
                    rw [hdbl, Nat.mul_assoc]; omega
                  · exact ⟨so4.best, so4.few, so4.count, so4.lower, so4.upper⟩
                  · exact SoundT.restart_middle _ _ _ _
                · rw [k2] at g
                  rw [el3] at k1
                  have k1' : 1 < v.target_loops.toNat := by
                    have : (1 : U32) < v.target_loops := k1
                    rw [BitVec.lt_def] at this
                    exact this
                  have hhalf : (v2.target_loops >>> 1).toNat = v.target_loops.toNat / 2 := by
                    rw [BitVec.toNat_ushiftRight, el3, Nat.shiftRight_eq_div_pow, Nat.pow_one]
                  refine jitter_loop h ok hb hc hε he fuse inner k (N + 1) _ s2 r s' (by omega) ?_ ?_ ?_ ?_ g
                  · show 1 ≤ (v2.target_loops >>> 1).toNat
                    omega
                  · show (v2.target_loops >>> 1).toNat = 1 ∨
                      (v2.target_loops >>> 1).toNat * p.call < 2 * (1042 + 2 * ε)
                    rw [hhalf]
                    right
                    have : v.target_loops.toNat / 2 * p.call ≤ v.target_loops.toNat * p.call :=
                      Nat.mul_le_mul_right _ (Nat.div_le_self _ _)
                    omega
                  · exact ⟨so4.best, so4.few, so4.count, so4.lower, so4.upper⟩
                  · exact SoundT.restart_middle _ _ _ _
                · rw [k2] at g
                  simp only [Option.some.injEq, Prod.mk.injEq] at g
                  rw [BitVec.lt_def, wanna] at k1
                  obtain ⟨y, y1, y2, y3⟩ := target_between (v := { v2 with stable := v2.stable + 1 }) h.convert
                    ⟨so4.best, so4.few, so4.count, so4.lower, so4.upper⟩ ro2
                    ⟨st2.best, st2.few, st2.count, st2.total, st2.lower, st2.upper⟩ rt
                    (by show 1 ≤ v2.target_loops.toNat; rw [el3]; exact hL)
                  refine ⟨y, v.target_loops.toNat, ?_, hL, ?_, ?_, ?_⟩
                  · rw [← g.1, k3, y1]
                  · have := rt.2.1; have := ro2.1; omega
                  · have e1 : (BenchVars.target_loops { v2 with stable := v2.stable + 1 }).toNat =
                      v.target_loops.toNat := by show v2.target_loops.toNat = _; rw [el3]
                    rw [e1] at y2
                    push_cast at y2
                    linarith
                  · have e1 : (BenchVars.target_loops { v2 with stable := v2.stable + 1 }).toNat =
                      v.target_loops.toNat := by show v2.target_loops.toNat = _; rw [el3]
                    rw [e1] at y3
                    push_cast at y3
                    linarith

theorem jitter_bench (h : Jitter m ahead τ p ε e unit) (ok : p.Ok) (hb : 0 < p.startBefore) (hc : 0 < p.call)
    (hε : 2 * ε < 1042) (he : e < 2 ^ 28) {fuel : Nat} (hf : fuel ≤ 2 ^ 19) {s s' : σ} {r : BenchResult}
    (g : mera_bench m true fuel s = some (r, s')) :
    ∃ y : ℚ, r.value = some (unit * y) ∧
      (p.call : ℚ) - 2 * ε * (p.call + e) / (1042 - 2 * ε) ≤ y ∧
      y ≤ p.call + e + 2 * ε * (p.call + e) / (1042 - 2 * ε) := by
  unfold mera_bench at g
  obtain ⟨y, L, h1, h2, h3, h4, h5⟩ := jitter_loop h ok hb hc hε he (m.time s) fuel fuel 0 benchStart s r s' (by omega)
    (by decide) (Or.inl rfl)
    ⟨Or.inl ⟨rfl, rfl⟩, Nat.zero_le _, rfl, by show 0 * _ ≤ 0; omega, by show 0 ≤ 0 * _; omega⟩
    (SoundT.restart_middle _ _ _ _) g
  refine ⟨y, h1, ?_⟩
  have hL : (0 : ℚ) < L := by exact_mod_cast h2
  have hJ : (0 : ℚ) < 1042 - 2 * ε := by
    have : ((2 * ε : Nat) : ℚ) < 1042 := by exact_mod_cast hε
    push_cast at this
    linarith
  have h3' : (1042 : ℚ) ≤ 2 * ε + L * (p.call + e) := by exact_mod_cast h3
  -- the error is at most `2 ε / L`
  have key : (2 * ε : ℚ) / L ≤ 2 * ε * (p.call + e) / (1042 - 2 * ε) := by
    rw [div_le_div_iff₀ hL hJ]
    have hε0 : (0 : ℚ) ≤ 2 * ε := by positivity
    nlinarith [mul_le_mul_of_nonneg_left (show (1042 : ℚ) - 2 * ε ≤ L * (p.call + e) by linarith) hε0]
  have l1 : (p.call : ℚ) - 2 * ε / L ≤ y := by
    have : (p.call : ℚ) - 2 * ε / L = (L * p.call - 2 * ε) / L := by field_simp
    rw [this, div_le_iff₀ hL]
    linarith
  have l2 : y ≤ p.call + e + 2 * ε / L := by
    have : (p.call : ℚ) + e + 2 * ε / L = (L * (p.call + e) + 2 * ε) / L := by field_simp
    rw [this, le_div_iff₀ hL]
    linarith
  exact ⟨by linarith, by linarith⟩

end T1ha.Model
