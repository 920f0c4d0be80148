import Verif.Clocks
import Mathlib.Tactic.Linarith
import Mathlib.Tactic.FieldSimp
import Mathlib.Tactic.Ring

/-!
# Lemmas about the measurements of the tool
-/

namespace T1ha.Model

theorem toNat_of {x : Nat} (h : x < 2 ^ 64) : (BitVec.ofNat 64 x).toNat = x := by
  rw [BitVec.toNat_ofNat, Nat.mod_eq_of_lt h]

theorem toNat_of32 {x : Nat} (h : x < 2 ^ 32) : (BitVec.ofNat 32 x).toNat = x := by
  rw [BitVec.toNat_ofNat, Nat.mod_eq_of_lt h]

theorem ofNat_lt {x y : Nat} (hx : x < 2 ^ 64) (hy : y < 2 ^ 64) : BitVec.ofNat 64 x < BitVec.ofNat 64 y ↔ x < y := by
  rw [BitVec.lt_def, toNat_of hx, toNat_of hy]

theorem ofNat_inj {x y : Nat} (hx : x < 2 ^ 64) (hy : y < 2 ^ 64) : BitVec.ofNat 64 x = BitVec.ofNat 64 y ↔ x = y := by
  rw [← BitVec.toNat_inj, toNat_of hx, toNat_of hy]

theorem ofNat_sub {x y : Nat} (h : x ≤ y) : BitVec.ofNat 64 y - BitVec.ofNat 64 x = BitVec.ofNat 64 (y - x) := by
  obtain ⟨z, rfl⟩ := Nat.exists_eq_add_of_le h
  rw [BitVec.ofNat_add, Nat.add_sub_cancel_left, BitVec.add_comm, BitVec.add_sub_cancel]

theorem gate_le (best : U64) {x : Nat} (h : x < 2 ^ 50) : BitVec.ofNat 64 x ≤ gate best (BitVec.ofNat 64 x) := by
  have key : BitVec.ofNat 64 x ≤ BitVec.ofNat 64 x * 1025 / 1024 + 1 := by
    rw [BitVec.le_def]
    have h0 : (BitVec.ofNat 64 x).toNat = x := toNat_of (by omega)
    have h1 : (BitVec.ofNat 64 x * 1025).toNat = x * 1025 := by
      rw [BitVec.toNat_mul, h0]
      exact Nat.mod_eq_of_lt (by show x * 1025 < 2 ^ 64; omega)
    have h2 : (BitVec.ofNat 64 x * 1025 / 1024 + 1).toNat = x * 1025 / 1024 + 1 := by
      rw [BitVec.toNat_add, BitVec.toNat_udiv, h1]
      exact Nat.mod_eq_of_lt (by show x * 1025 / 1024 + 1 < 2 ^ 64; omega)
    rw [h0, h2]
    omega
  unfold gate
  simp only
  generalize (if best + (best - BitVec.ofNat 64 x + 1) / 2 > BitVec.ofNat 64 x * 129 / 128 then
    BitVec.ofNat 64 x * 129 / 128 else best + (best - BitVec.ofNat 64 x + 1) / 2) = g
  by_cases hn : g < BitVec.ofNat 64 x * 1025 / 1024 + 1
  · rw [if_pos hn]; exact key
  · rw [if_neg hn]
    exact BitVec.le_trans key (BitVec.not_lt.1 hn)

variable {p : Pace} {core : U32} {time : Nat → U64} {unit : ℚ} {flags : U32}

theorem steady_callTarget (L : Nat) (hL : 0 < L) (hL' : L < 2 ^ 32) (s : Nat) :
    callTarget (steady p core time unit flags) (BitVec.ofNat 32 L) (2 ^ 32) 0 s = s + L * p.call := by
  have key : ∀ left i s, i < L → L - i ≤ left →
      callTarget (steady p core time unit flags) (BitVec.ofNat 32 L) left (BitVec.ofNat 32 i) s =
        s + (L - i) * p.call := by
    intro left
    induction left with
    | zero => intro i s h1 h2; omega
    | succ left ih =>
      intro i s h1 h2
      unfold callTarget
      have h3 : (BitVec.ofNat 32 i + 1 : U32) = BitVec.ofNat 32 (i + 1) := by
        rw [BitVec.ofNat_add]; rfl
      have h4 : (BitVec.ofNat 32 i + 1 < BitVec.ofNat 32 L) ↔ i + 1 < L := by
        rw [h3, BitVec.lt_def, toNat_of32 (by omega), toNat_of32 hL']
      have h5 : (steady p core time unit flags).target s = s + p.call := rfl
      simp only [h5]
      by_cases h : i + 1 < L
      · rw [if_pos (h4.2 h), h3, ih (i + 1) _ h (by omega)]
        have : L - i = (L - (i + 1)) + 1 := by omega
        rw [this, Nat.add_mul, Nat.one_mul]
        omega
      · rw [if_neg (fun h' => h (h4.1 h'))]
        have : L - i = 1 := by omega
        rw [this, Nat.one_mul]
  have := key (2 ^ 32) 0 s hL (by omega)
  simpa using this

theorem steady_overhead (ok : p.Ok) {fuel s : Nat} (hf : 0 < fuel) (hs : s < 2 ^ 63) :
    measureOverhead (steady p core time unit flags) fuel s =
      some (some (core, 1, BitVec.ofNat 64 p.overhead),
        s + p.startBefore + p.startAfter + p.startBefore + p.startAfter + p.finishBefore + p.finishAfter) := by
  obtain ⟨a1, a2, a3, a4, a5, a6, a7⟩ := ok
  obtain ⟨fuel, rfl⟩ : ∃ f, fuel = f + 1 := ⟨fuel - 1, by omega⟩
  unfold Pace.overhead at a7 ⊢
  unfold measureOverhead
  have e1 : (steady p core time unit flags).start s =
    ((core, BitVec.ofNat 64 (s + p.startBefore)), s + p.startBefore + p.startAfter) := rfl
  have e2 : waitEdge (steady p core time unit flags) core (BitVec.ofNat 64 (s + p.startBefore)) (fuel + 1)
      (s + p.startBefore + p.startAfter) =
      some (some (BitVec.ofNat 64 (s + p.startBefore + p.startAfter + p.startBefore)),
        s + p.startBefore + p.startAfter + p.startBefore + p.startAfter) := by
    unfold waitEdge
    show (if core ≠ core ∨ BitVec.ofNat 64 (s + p.startBefore + p.startAfter + p.startBefore) <
      BitVec.ofNat 64 (s + p.startBefore) then _ else if BitVec.ofNat 64 (s + p.startBefore) =
      BitVec.ofNat 64 (s + p.startBefore + p.startAfter + p.startBefore) then _ else _) = _
    rw [if_neg, if_neg]
    · rfl
    · rw [ofNat_inj (by omega) (by omega)]; omega
    · rw [ofNat_lt (by omega) (by omega)]
      rintro (h | h)
      · exact h rfl
      · omega
  simp only [e1, e2]
  show (if core ≠ core ∨ BitVec.ofNat 64 (s + p.startBefore + p.startAfter + p.startBefore + p.startAfter +
    p.finishBefore) < BitVec.ofNat 64 (s + p.startBefore + p.startAfter + p.startBefore) then _ else _) = _
  rw [if_neg]
  · have e3 : waitTick (steady p core time unit flags) core
        (BitVec.ofNat 64 (s + p.startBefore + p.startAfter + p.startBefore)) (fuel + 1) 1
        (BitVec.ofNat 64 (s + p.startBefore + p.startAfter + p.startBefore + p.startAfter + p.finishBefore))
        (s + p.startBefore + p.startAfter + p.startBefore + p.startAfter + p.finishBefore + p.finishAfter) =
        some (some (1, BitVec.ofNat 64 (s + p.startBefore + p.startAfter + p.startBefore + p.startAfter +
          p.finishBefore)),
          s + p.startBefore + p.startAfter + p.startBefore + p.startAfter + p.finishBefore + p.finishAfter) := by
      unfold waitTick
      rw [if_neg]
      rw [ofNat_inj (by omega) (by omega)]; omega
    have e4 : (steady p core time unit flags).finish
        (s + p.startBefore + p.startAfter + p.startBefore + p.startAfter) =
      ((core, BitVec.ofNat 64 (s + p.startBefore + p.startAfter + p.startBefore + p.startAfter + p.finishBefore)),
        s + p.startBefore + p.startAfter + p.startBefore + p.startAfter + p.finishBefore + p.finishAfter) := rfl
    simp only [e4, e3]
    rw [ofNat_sub (by omega)]
    have : s + p.startBefore + p.startAfter + p.startBefore + p.startAfter + p.finishBefore -
      (s + p.startBefore + p.startAfter + p.startBefore) = p.startAfter + p.finishBefore := by omega
    rw [this]
  · rw [ofNat_lt (by omega) (by omega)]
    rintro (h | h)
    · exact h rfl
    · omega

/-- The end of the measurement of the target, on a steady machine. -/
theorem steady_waitNext (ok : p.Ok) {fuel s : Nat} (hf : 0 < fuel) (hs : s < 2 ^ 63) :
    ∃ s', waitNext (steady p core time unit flags) core (BitVec.ofNat 64 s) fuel 1 (s + p.finishAfter) =
      some (some 1, s') ∧ s' ≤ s + 2 ^ 43 := by
  obtain ⟨a1, a2, a3, a4, a5, a6, a7⟩ := ok
  obtain ⟨fuel, rfl⟩ : ∃ f, fuel = f + 1 := ⟨fuel - 1, by omega⟩
  unfold Pace.overhead at a7
  have e1 : (steady p core time unit flags).start (s + p.finishAfter) =
    ((core, BitVec.ofNat 64 (s + p.finishAfter + p.startBefore)),
      s + p.finishAfter + p.startBefore + p.startAfter) := rfl
  have e2 : (steady p core time unit flags).finish (s + p.finishAfter + p.startBefore + p.startAfter) =
    ((core, BitVec.ofNat 64 (s + p.finishAfter + p.startBefore + p.startAfter + p.finishBefore)),
      s + p.finishAfter + p.startBefore + p.startAfter + p.finishBefore + p.finishAfter) := rfl
  unfold waitNext
  simp only [e1, e2, ne_eq, not_true_eq_false, false_or, gt_iff_lt]
  rw [if_neg (by rw [ofNat_lt (by omega) (by omega)]; omega)]
  by_cases h : 0 < p.finishAfter + p.startBefore
  · rw [if_pos (by rw [ofNat_inj (by omega) (by omega)]; omega)]
    exact ⟨_, rfl, by omega⟩
  · rw [if_neg (by rw [ofNat_inj (by omega) (by omega)]; omega)]
    rw [if_neg (by rw [ofNat_lt (by omega) (by omega)]; omega)]
    rw [if_pos (by rw [ofNat_inj (by omega) (by omega)]; omega)]
    exact ⟨_, rfl, by omega⟩

theorem steady_target (ok : p.Ok) {fuel s L : Nat} (hf : 0 < fuel) (hs : s < 2 ^ 62) (hL : 0 < L) (hL' : L < 2 ^ 32)
    (hLT : L * p.call < 2 ^ 41) :
    ∃ s', measureTarget (steady p core time unit flags) fuel core (BitVec.ofNat 32 L) s =
      some (some (1, BitVec.ofNat 64 (p.overhead + L * p.call)), s') ∧ s' ≤ s + 2 ^ 44 := by
  have ok' := ok
  obtain ⟨a1, a2, a3, a4, a5, a6, a7⟩ := ok
  unfold Pace.overhead at a7 ⊢
  generalize hx : L * p.call = x at hLT ⊢
  have e1 : (steady p core time unit flags).start s =
    ((core, BitVec.ofNat 64 (s + p.startBefore)), s + p.startBefore + p.startAfter) := rfl
  have e2 : waitEdge (steady p core time unit flags) core (BitVec.ofNat 64 (s + p.startBefore)) fuel
      (s + p.startBefore + p.startAfter) =
      some (some (BitVec.ofNat 64 (s + p.startBefore + p.startAfter + p.startBefore)),
        s + p.startBefore + p.startAfter + p.startBefore + p.startAfter) := by
    obtain ⟨fuel, rfl⟩ : ∃ f, fuel = f + 1 := ⟨fuel - 1, by omega⟩
    unfold waitEdge
    show (if core ≠ core ∨ BitVec.ofNat 64 (s + p.startBefore + p.startAfter + p.startBefore) <
      BitVec.ofNat 64 (s + p.startBefore) then _ else if BitVec.ofNat 64 (s + p.startBefore) =
      BitVec.ofNat 64 (s + p.startBefore + p.startAfter + p.startBefore) then _ else _) = _
    rw [if_neg, if_neg]
    · rfl
    · rw [ofNat_inj (by omega) (by omega)]; omega
    · rw [ofNat_lt (by omega) (by omega)]
      rintro (h | h)
      · exact h rfl
      · omega
  have e3 := steady_callTarget (p := p) (core := core) (time := time) (unit := unit) (flags := flags) L hL hL'
    (s + p.startBefore + p.startAfter + p.startBefore + p.startAfter)
  rw [hx] at e3
  generalize ht : s + p.startBefore + p.startAfter + p.startBefore + p.startAfter + x = t at e3
  have e4 : (steady p core time unit flags).finish t =
    ((core, BitVec.ofNat 64 (t + p.finishBefore)), t + p.finishBefore + p.finishAfter) := rfl
  obtain ⟨s', e5, h5⟩ := steady_waitNext (core := core) (time := time) (unit := unit) (flags := flags) ok' hf
    (show t + p.finishBefore < 2 ^ 63 by omega)
  refine ⟨s', ?_, by omega⟩
  unfold measureTarget
  simp only [e1, e2, e3, e4, e5, ne_eq, not_true_eq_false, false_or, gt_iff_lt, if_false]
  rw [if_neg (by rw [ofNat_lt (by omega) (by omega)]; omega), ofNat_sub (by omega)]
  have : t + p.finishBefore - (s + p.startBefore + p.startAfter + p.startBefore) =
    p.startAfter + p.finishBefore + x := by omega
  rw [this]

/-! ## The rounds on a steady machine -/

/-- The overhead is known, the target has not been measured with `L` calls yet; `k` measurements of the overhead. -/
structure Ready (p : Pace) (L k : Nat) (v : BenchVars) : Prop where
  loops : v.target_loops = BitVec.ofNat 32 L
  overhead_best : v.overhead_best = BitVec.ofNat 64 p.overhead
  overhead_gate : BitVec.ofNat 64 p.overhead ≤ v.overhead_gate
  overhead_loops : v.overhead_loops_max = 1
  overhead_count : v.overhead_best_count = BitVec.ofNat 32 (k + 1)
  best : v.target_best = INT64_MAX
  tail : v.tail_loops_max = 0
  stable : v.stable = 0
  count : v.target_best_count = 1

/-- The target has been measured `n` times since the best time was found. -/
structure Running (p : Pace) (L k n : Nat) (v : BenchVars) : Prop where
  loops : v.target_loops = BitVec.ofNat 32 L
  overhead_best : v.overhead_best = BitVec.ofNat 64 p.overhead
  overhead_gate : BitVec.ofNat 64 p.overhead ≤ v.overhead_gate
  overhead_loops : v.overhead_loops_max = 1
  overhead_count : v.overhead_best_count = BitVec.ofNat 32 (k + n + 1)
  best : v.target_best = BitVec.ofNat 64 (p.overhead + L * p.call)
  gate : BitVec.ofNat 64 (p.overhead + L * p.call) ≤ v.target_gate
  tail : v.tail_loops_max = 1
  stable : v.stable = BitVec.ofNat 32 n
  count : v.target_best_count = BitVec.ofNat 32 (n + 1)

theorem int64_max {x : Nat} (h : x < 2 ^ 50) : BitVec.ofNat 64 x < INT64_MAX := by
  rw [BitVec.lt_def, toNat_of (by omega)]
  show x < 0x7FFFFFFFFFFFFFFF
  omega

theorem first_account (h : p.overhead < 2 ^ 50) :
    ∃ v, accountOverhead 1 (BitVec.ofNat 64 p.overhead) benchStart = .inl v ∧ Ready p 1 0 (restart_top v) := by
  have hb : benchStart.overhead_best = INT64_MAX := rfl
  have hc : benchStart.overhead_best > BitVec.ofNat 64 p.overhead := by
    rw [hb]; exact int64_max h
  unfold accountOverhead
  rw [if_pos (Or.inl hc)]
  refine ⟨_, rfl, ?_⟩
  rw [if_pos hc]
  exact ⟨rfl, rfl, gate_le _ h, rfl, rfl, rfl, rfl, rfl, rfl⟩

theorem account_overhead {v : BenchVars} (h1 : v.overhead_best = BitVec.ofNat 64 p.overhead)
    (h2 : BitVec.ofNat 64 p.overhead ≤ v.overhead_gate) (h3 : v.overhead_loops_max = 1) :
    accountOverhead 1 (BitVec.ofNat 64 p.overhead) v = .inr { v with
      overhead_best_count := v.overhead_best_count + 1
      overhead_sum := v.overhead_sum + BitVec.ofNat 64 p.overhead
      overhead_total_count := v.overhead_total_count + 1
      overhead_accounted_loops := v.overhead_accounted_loops + 1 } := by
  unfold accountOverhead
  rw [if_neg, if_pos ⟨h2, by rw [h3]; decide⟩, if_pos ⟨h1.symm, h3.symm⟩]
  rw [h1, h3]
  rintro (h | h)
  · exact BitVec.lt_irrefl _ h
  · exact BitVec.lt_irrefl _ h

theorem count_add (n : Nat) : (BitVec.ofNat 32 n + 1 : U32) = BitVec.ofNat 32 (n + 1) := by
  rw [BitVec.ofNat_add]; rfl

variable {fuse : U64}

/-- The first round. -/
theorem round_first (ok : p.Ok) {fuel s : Nat} (hf : 0 < fuel) (hs : s < 2 ^ 62) (target : Bool) :
    ∃ v s', benchRound (steady p core time unit flags) target fuse fuel benchStart s = some (.again v, s') ∧
      Ready p 1 0 v ∧ s' ≤ s + 2 ^ 45 := by
  have ho : p.overhead < 2 ^ 50 := by unfold Pace.overhead; have := ok.startAfter; have := ok.finishBefore; omega
  obtain ⟨v, h1, h2⟩ := first_account ho
  refine ⟨restart_top v,
    s + p.startBefore + p.startAfter + p.startBefore + p.startAfter + p.finishBefore + p.finishAfter, ?_, h2, ?_⟩
  · unfold benchRound
    rw [steady_overhead ok hf (by omega)]
    simp only [h1]
  · have := ok.startBefore; have := ok.startAfter; have := ok.finishBefore; have := ok.finishAfter
    omega

/-- The first round with a number of calls. -/
theorem round_ready (ok : p.Ok) {fuel s L k : Nat} {v : BenchVars} (hf : 0 < fuel) (hs : s < 2 ^ 61) (hL : 0 < L)
    (hL' : L < 2 ^ 32) (hLT : L * p.call < 2 ^ 41) (h : Ready p L k v) :
    ∃ v' s', benchRound (steady p core time unit flags) true fuse fuel v s = some (.again v', s') ∧
      Running p L (k + 1) 0 v' ∧ s' ≤ s + 2 ^ 45 := by
  have ho : p.overhead < 2 ^ 41 := by unfold Pace.overhead; have := ok.startAfter; have := ok.finishBefore; omega
  have hb : s + p.startBefore + p.startAfter + p.startBefore + p.startAfter + p.finishBefore + p.finishAfter ≤
      s + 2 ^ 43 := by
    have := ok.startBefore; have := ok.startAfter; have := ok.finishBefore; have := ok.finishAfter
    omega
  obtain ⟨s', h1, h2⟩ := steady_target (core := core) (time := time) (unit := unit) (flags := flags) ok hf
    (show s + p.startBefore + p.startAfter + p.startBefore + p.startAfter + p.finishBefore + p.finishAfter < 2 ^ 62 by
      omega) hL hL' hLT
  have e1 := account_overhead h.overhead_best h.overhead_gate h.overhead_loops
  have hx : p.overhead + L * p.call < 2 ^ 50 := by omega
  have hlt := int64_max hx
  refine ⟨restart_bottom { v with
      overhead_best_count := v.overhead_best_count + 1
      overhead_sum := v.overhead_sum + BitVec.ofNat 64 p.overhead
      overhead_total_count := v.overhead_total_count + 1
      overhead_accounted_loops := v.overhead_accounted_loops + 1
      target_gate := gate INT64_MAX (BitVec.ofNat 64 (p.overhead + L * p.call))
      target_best := BitVec.ofNat 64 (p.overhead + L * p.call)
      tail_loops_max := 1 }, s', ?_, ?_, by omega⟩
  · unfold benchRound
    rw [steady_overhead ok hf (by omega)]
    simp only [e1, if_true, h.loops, h1]
    unfold accountTarget
    simp only [h.best, h.tail]
    rw [if_pos (Or.inl hlt), if_pos hlt]
  · refine ⟨h.loops, h.overhead_best, h.overhead_gate, h.overhead_loops, ?_, rfl, gate_le _ hx, rfl, rfl, rfl⟩
    show v.overhead_best_count + 1 = _
    rw [h.overhead_count, count_add]

/-- The variables after the measurements of a later round. -/
theorem round_running (ok : p.Ok) {fuel s L k n : Nat} {v : BenchVars} (hf : 0 < fuel) (hs : s < 2 ^ 61) (hL : 0 < L)
    (hL' : L < 2 ^ 32) (hLT : L * p.call < 2 ^ 41) (h : Running p L k n v) :
    ∃ v' s', benchRound (steady p core time unit flags) true fuse fuel v s =
        some (checkpoint (steady p core time unit flags) true fuse v' s', s') ∧
      Running p L k (n + 1) { v' with stable := v'.stable + 1 } ∧ s' ≤ s + 2 ^ 45 := by
  have ho : p.overhead < 2 ^ 41 := by unfold Pace.overhead; have := ok.startAfter; have := ok.finishBefore; omega
  have hb : s + p.startBefore + p.startAfter + p.startBefore + p.startAfter + p.finishBefore + p.finishAfter ≤
      s + 2 ^ 43 := by
    have := ok.startBefore; have := ok.startAfter; have := ok.finishBefore; have := ok.finishAfter
    omega
  obtain ⟨s', h1, h2⟩ := steady_target (core := core) (time := time) (unit := unit) (flags := flags) ok hf
    (show s + p.startBefore + p.startAfter + p.startBefore + p.startAfter + p.finishBefore + p.finishAfter < 2 ^ 62 by
      omega) hL hL' hLT
  have e1 := account_overhead h.overhead_best h.overhead_gate h.overhead_loops
  refine ⟨{ v with
      overhead_best_count := v.overhead_best_count + 1
      overhead_sum := v.overhead_sum + BitVec.ofNat 64 p.overhead
      overhead_total_count := v.overhead_total_count + 1
      overhead_accounted_loops := v.overhead_accounted_loops + 1
      target_best_count := v.target_best_count + 1
      target_total_count := v.target_total_count + BitVec.ofNat 32 L
      target_brutto_sum := v.target_brutto_sum + BitVec.ofNat 64 (p.overhead + L * p.call)
      target_overhead_count := v.target_overhead_count + 1
      target_accounted_loops := v.target_accounted_loops + 1 }, s', ?_, ?_, by omega⟩
  · unfold benchRound
    rw [steady_overhead ok hf (by omega)]
    simp only [e1, if_true, h.loops, h1]
    unfold accountTarget
    simp only [h.best, h.tail]
    rw [if_neg, if_pos ⟨h.gate, by decide⟩, if_pos ⟨trivial, trivial⟩]
    rintro (h | h)
    · exact BitVec.lt_irrefl _ h
    · exact BitVec.lt_irrefl _ h.2
  · refine ⟨h.loops, h.overhead_best, h.overhead_gate, h.overhead_loops, ?_, h.best, h.gate, h.tail, ?_, ?_⟩
    · show v.overhead_best_count + 1 = _
      rw [h.overhead_count, count_add]
      rfl
    · show v.stable + 1 = _
      rw [h.stable, count_add]
    · show v.target_best_count + 1 = _
      rw [h.count, count_add]

theorem and_1023 {n : Nat} (h : n < 2 ^ 32) : (BitVec.ofNat 32 n &&& 1023 = 0) ↔ n % 1024 = 0 := by
  rw [← BitVec.toNat_inj, BitVec.toNat_and, toNat_of32 h]
  have : n &&& (2 ^ 10 - 1) = n % 2 ^ 10 := Nat.and_two_pow_sub_one_eq_mod n 10
  exact (Iff.of_eq (congrArg (· = 0) this))

/-- No checkpoint yet. -/
theorem checkpoint_between {L k n s : Nat} {v : BenchVars} (target : Bool)
    (h : Running p L k n { v with stable := v.stable + 1 }) (hn : n < 2 ^ 32) (hm : n % 1024 ≠ 0) :
    checkpoint (steady p core time unit flags) target fuse v s = .again { v with stable := v.stable + 1 } := by
  have h1 : v.stable + 1 = BitVec.ofNat 32 n := h.stable
  unfold checkpoint
  simp only [h1]
  rw [if_neg (by rw [and_1023 hn]; exact hm)]

theorem number_of {x : Nat} (h : x < 2 ^ 64) : number (BitVec.ofNat 64 x) = x := by
  unfold number; rw [toNat_of h]

theorem number_of32 {x : Nat} (h : x < 2 ^ 32) : number (BitVec.ofNat 32 x) = x := by
  unfold number; rw [toNat_of32 h]

theorem ofNat_gt32 {x y : Nat} (hx : x < 2 ^ 32) (hy : y < 2 ^ 32) :
    BitVec.ofNat 32 x > BitVec.ofNat 32 y ↔ x > y := by
  show BitVec.ofNat 32 y < BitVec.ofNat 32 x ↔ _
  rw [BitVec.lt_def, toNat_of32 hx, toNat_of32 hy]

theorem running_value {L k n : Nat} {v : BenchVars} (h : Running p L k n v) (ho : p.overhead < 2 ^ 41) (hL : 0 < L)
    (hL' : L < 2 ^ 32) (hLT : L * p.call < 2 ^ 41) (hn : 2 ≤ n) (hk : k + n + 1 < 2 ^ 32) :
    measuredTarget (steady p core time unit flags) v = some (unit * p.call) := by
  have h1 : v.overhead_best_count > 2 := by
    rw [h.overhead_count]
    exact (ofNat_gt32 hk (show 2 < 2 ^ 32 by omega)).2 (by omega)
  have h2 : v.target_best_count > 2 := by
    rw [h.count]
    exact (ofNat_gt32 (by omega) (show 2 < 2 ^ 32 by omega)).2 (by omega)
  have h3 : measuredOverhead (steady p core time unit flags) v = some (unit * p.overhead) := by
    unfold measuredOverhead
    simp only
    rw [if_pos (Or.inl h1), h.overhead_best, h.overhead_loops]
    show divide (some (unit * number (BitVec.ofNat 64 p.overhead))) (number (1 : U32)) = _
    rw [number_of (by omega)]
    have : number (1 : U32) = 1 := by unfold number; rfl
    rw [this]
    unfold divide
    simp
  unfold measuredTarget
  simp only [h3]
  rw [if_pos (Or.inl h2), h.best, h.tail, h.loops]
  show divide (some (unit * number (BitVec.ofNat 64 (p.overhead + L * p.call)) - unit * p.overhead * number (1 : U32)))
    (number (BitVec.ofNat 32 L)) = _
  rw [number_of (by omega), number_of32 hL']
  have h1 : number (1 : U32) = 1 := by unfold number; rfl
  have hL0 : (L : ℚ) ≠ 0 := by
    have : L ≠ 0 := by omega
    exact_mod_cast this
  rw [h1]
  unfold divide
  rw [if_neg hL0]
  simp only [Option.map_some, Option.some.injEq]
  push_cast
  field_simp
  ring

/-- A checkpoint: the function is too fast for the number of calls. -/
theorem checkpoint_double {L k n s : Nat} {v : BenchVars}
    (h : Running p L k n { v with stable := v.stable + 1 }) (ho : p.overhead < 2 ^ 41) (hn : n < 2 ^ 32)
    (hm : n % 1024 = 0) (hlt : L * p.call < 1042) :
    ∃ v', checkpoint (steady p core time unit flags) true fuse v s = .again v' ∧ Ready p (2 * L) (k + n) v' := by
  have h1 : v.stable + 1 = BitVec.ofNat 32 n := h.stable
  have h2 : v.target_best = BitVec.ofNat 64 (p.overhead + L * p.call) := h.best
  have h3 : v.overhead_best = BitVec.ofNat 64 p.overhead := h.overhead_best
  have h4 : v.overhead_loops_max = 1 := h.overhead_loops
  have h5 : v.target_loops = BitVec.ofNat 32 L := h.loops
  have hw : (1042 + BitVec.ofNat 64 p.overhead * BitVec.setWidth 64 (1 : U32) : U64) =
      BitVec.ofNat 64 (1042 + p.overhead) := by
    rw [BitVec.ofNat_add]
    have : BitVec.setWidth 64 (1 : U32) = 1 := by decide
    rw [this]
    have h1 : (BitVec.ofNat 64 p.overhead * 1 : U64) = BitVec.ofNat 64 p.overhead := BitVec.mul_one _
    rw [h1]
    rfl
  have hlt' : BitVec.ofNat 64 (p.overhead + L * p.call) < BitVec.ofNat 64 (1042 + p.overhead) := by
    rw [ofNat_lt (by omega) (by omega)]; omega
  refine ⟨restart_middle { { v with stable := v.stable + 1 } with target_loops := v.target_loops + v.target_loops },
    ?_, ?_⟩
  · unfold checkpoint
    simp only [h1, h2, h3, h4, hw]
    rw [if_pos ((and_1023 hn).2 hm), if_pos ⟨trivial, hlt'⟩]
  · refine ⟨?_, h3, h.overhead_gate, h4, h.overhead_count, rfl, rfl, rfl, rfl⟩
    show v.target_loops + v.target_loops = _
    rw [h5, ← BitVec.ofNat_add, Nat.two_mul]

/-- A checkpoint which does not change the number of calls. -/
theorem checkpoint_settled {σ : Type} (m : Bench σ) (target : Bool) (v : BenchVars) (s : σ)
    (h : (v.stable + 1) &&& 1023 = 0)
    (h1 : ¬ (target = true ∧ v.target_best < 1042 + v.overhead_best * v.overhead_loops_max.setWidth 64))
    (h2 : ¬ (target = true ∧ v.target_loops > 1 ∧
      v.target_best > (1042 + v.overhead_best * v.overhead_loops_max.setWidth 64) * 4)) :
    (∃ r, checkpoint m target fuse v s = .done r ∧
      r.value = if target then measuredTarget m { v with stable := v.stable + 1 }
        else measuredOverhead m { v with stable := v.stable + 1 }) ∨
    (checkpoint m target fuse v s = .again { v with stable := v.stable + 1 } ∧
      ¬ (v.overhead_best_count > 1999 ∧ (target = false ∨ v.target_best_count > 1999))) := by
  unfold checkpoint
  simp only
  rw [if_pos h, if_neg h1, if_neg h2]
  by_cases hc : (v.overhead_best_count > (if (m.flags &&& timestamp_clock_stable != 0) = true then 499 else 1999) ∨
        v.overhead_accounted_loops > (if (m.flags &&& timestamp_clock_stable != 0) = true then 4999 else 29999) ∨
        v.overhead_worthless_loops > (if (m.flags &&& timestamp_clock_cheap != 0) = true then 99999 else 59999) ∨
        (m.time s - fuse).setWidth 32 > (9 : U32)) ∧
      (target = false ∨
        v.target_best_count > (if (m.flags &&& timestamp_clock_stable != 0) = true then 499 else 1999) ∨
        v.target_accounted_loops > (if (m.flags &&& timestamp_clock_stable != 0) = true then 4999 else 29999) ∨
        v.target_worthless_loops > (if (m.flags &&& timestamp_clock_cheap != 0) = true then 99999 else 59999) ∨
        (m.time s - fuse).setWidth 32 > (9 : U32))
  · left
    rw [if_pos hc]
    exact ⟨_, rfl, rfl⟩
  · right
    rw [if_neg hc]
    refine ⟨rfl, fun hn => hc ?_⟩
    have key : ∀ x : U32, x > 1999 → x > (if (m.flags &&& timestamp_clock_stable != 0) = true then 499 else 1999) := by
      intro x hx
      split
      · exact BitVec.lt_trans (show (499 : U32) < 1999 by decide) hx
      · exact hx
    exact ⟨Or.inl (key _ hn.1), hn.2.imp id fun h => Or.inl (key _ h)⟩

/-- A checkpoint: the number of calls is right. -/
theorem checkpoint_right {L k n s : Nat} {v : BenchVars}
    (h : Running p L k n { v with stable := v.stable + 1 }) (ho : p.overhead < 2 ^ 41) (hL : 0 < L) (hL' : L < 2 ^ 32)
    (hLT : L * p.call < 2 ^ 41) (hn : 1024 ≤ n) (hk : k + n + 1 < 2 ^ 32)
    (hm : n % 1024 = 0) (hge : 1042 ≤ L * p.call) (hle : L = 1 ∨ L * p.call < 2084) :
    (∃ r, checkpoint (steady p core time unit flags) true fuse v s = .done r ∧ r.value = some (unit * p.call)) ∨
    (n < 2048 ∧
      checkpoint (steady p core time unit flags) true fuse v s = .again { v with stable := v.stable + 1 }) := by
  have h1 : v.stable + 1 = BitVec.ofNat 32 n := h.stable
  have h2 : v.target_best = BitVec.ofNat 64 (p.overhead + L * p.call) := h.best
  have h3 : v.overhead_best = BitVec.ofNat 64 p.overhead := h.overhead_best
  have h4 : v.overhead_loops_max = 1 := h.overhead_loops
  have h5 : v.target_loops = BitVec.ofNat 32 L := h.loops
  have h6 : v.overhead_best_count = BitVec.ofNat 32 (k + n + 1) := h.overhead_count
  have h7 : v.target_best_count = BitVec.ofNat 32 (n + 1) := h.count
  have hw : (1042 + BitVec.ofNat 64 p.overhead * BitVec.setWidth 64 (1 : U32) : U64) =
      BitVec.ofNat 64 (1042 + p.overhead) := by
    rw [BitVec.ofNat_add]
    have : BitVec.setWidth 64 (1 : U32) = 1 := by decide
    rw [this]
    have h1 : (BitVec.ofNat 64 p.overhead * 1 : U64) = BitVec.ofNat 64 p.overhead := BitVec.mul_one _
    rw [h1]
    rfl
  have hw4 : (BitVec.ofNat 64 (1042 + p.overhead) * 4 : U64) = BitVec.ofNat 64 ((1042 + p.overhead) * 4) := by
    rw [BitVec.ofNat_mul]; rfl
  have n1 : ¬ (true = true ∧ v.target_best < 1042 + v.overhead_best * v.overhead_loops_max.setWidth 64) := by
    rw [h2, h3, h4, hw, ofNat_lt (by omega) (by omega)]; omega
  have n2 : ¬ (true = true ∧ v.target_loops > 1 ∧
      v.target_best > (1042 + v.overhead_best * v.overhead_loops_max.setWidth 64) * 4) := by
    rw [h2, h3, h4, h5, hw, hw4]
    rintro ⟨-, g1, g2⟩
    have g1' := (ofNat_gt32 hL' (show 1 < 2 ^ 32 by omega)).1 g1
    have g2' := (ofNat_lt (show (1042 + p.overhead) * 4 < 2 ^ 64 by omega) (by omega)).1 g2
    omega
  have hv := running_value (core := core) (time := time) (unit := unit) (flags := flags) h ho hL hL' hLT (by omega) hk
  rcases checkpoint_settled (fuse := fuse) (steady p core time unit flags) true v s
    (by rw [h1]; exact (and_1023 (by omega)).2 hm) n1 n2 with ⟨r, g1, g2⟩ | ⟨g1, g2⟩
  · exact Or.inl ⟨r, g1, g2.trans hv⟩
  · refine Or.inr ⟨?_, g1⟩
    by_contra hge'
    refine g2 ⟨?_, Or.inr ?_⟩
    · rw [h6]; exact (ofNat_gt32 hk (show 1999 < 2 ^ 32 by omega)).2 (by omega)
    · rw [h7]; exact (ofNat_gt32 (by omega) (show 1999 < 2 ^ 32 by omega)).2 (by omega)

/-- A round which ends with another one. -/
theorem loop_again {σ : Type} {m : Bench σ} {target : Bool} {inner fuel : Nat} {v v' : BenchVars} {s s' : σ}
    (h : benchRound m target fuse inner v s = some (.again v', s')) :
    benchLoop m target fuse inner (fuel + 1) v s = benchLoop m target fuse inner fuel v' s' := by
  rw [benchLoop, h]

theorem loop_done {σ : Type} {m : Bench σ} {target : Bool} {inner fuel : Nat} {v : BenchVars} {r : BenchResult}
    {s s' : σ} (h : benchRound m target fuse inner v s = some (.done r, s')) :
    benchLoop m target fuse inner (fuel + 1) v s = some (r, s') := by
  rw [benchLoop, h]

/-- The rounds between two checkpoints. -/
theorem rounds_between (ok : p.Ok) {inner L k : Nat} (hf : 0 < inner) (hL : 0 < L) (hL' : L < 2 ^ 32)
    (hLT : L * p.call < 2 ^ 41) : ∀ (i n s : Nat) (v : BenchVars), s + i * 2 ^ 45 < 2 ^ 61 → n + i < 2 ^ 32 →
    n % 1024 + i < 1024 → Running p L k n v →
    ∃ v' s', (∀ fuel, benchLoop (steady p core time unit flags) true fuse inner (fuel + i) v s =
        benchLoop (steady p core time unit flags) true fuse inner fuel v' s') ∧
      Running p L k (n + i) v' ∧ s' ≤ s + i * 2 ^ 45
  | 0, n, s, v, _, _, _, h => ⟨v, s, fun _ => rfl, h, by omega⟩
  | i + 1, n, s, v, hs, hn, hm, h => by
    obtain ⟨v1, s1, h1, h2, h3⟩ := round_running (core := core) (time := time) (unit := unit) (flags := flags)
      (fuse := fuse) (s := s) ok hf (by omega) hL hL' hLT h
    rw [checkpoint_between true h2 (by omega) (by omega)] at h1
    obtain ⟨v2, s2, g1, g2, g3⟩ := rounds_between ok hf hL hL' hLT i (n + 1) s1 _ (by omega) (by omega) (by omega) h2
    refine ⟨v2, s2, fun fuel => ?_, ?_, by omega⟩
    · rw [← Nat.add_assoc, loop_again h1, g1]
    · rw [show n + (i + 1) = n + 1 + i by omega]; exact g2

/-- From a checkpoint to the next one. -/
theorem rounds_to_checkpoint (ok : p.Ok) {inner L k n s : Nat} {v : BenchVars} (hf : 0 < inner) (hL : 0 < L)
    (hL' : L < 2 ^ 32) (hLT : L * p.call < 2 ^ 41) (hs : s + 2 ^ 55 < 2 ^ 61) (hn : n + 1024 < 2 ^ 32)
    (hm : n % 1024 = 0) (h : Running p L k n v) :
    ∃ v' s', (∀ fuel nx, checkpoint (steady p core time unit flags) true fuse v' s' = nx →
        benchLoop (steady p core time unit flags) true fuse inner (fuel + 1024) v s =
          match nx with
          | .again v'' => benchLoop (steady p core time unit flags) true fuse inner fuel v'' s'
          | .done r => some (r, s')) ∧
      Running p L k (n + 1024) { v' with stable := v'.stable + 1 } ∧ s' ≤ s + 2 ^ 55 := by
  obtain ⟨v1, s1, h1, h2, h3⟩ := rounds_between (core := core) (time := time) (unit := unit) (flags := flags)
    (fuse := fuse) ok hf hL hL' hLT 1023 n s v (by omega) (by omega) (by omega) h
  obtain ⟨v2, s2, g1, g2, g3⟩ := round_running (core := core) (time := time) (unit := unit) (flags := flags)
      (fuse := fuse) (s := s1) ok hf (by omega) hL hL' hLT h2
  refine ⟨v2, s2, fun fuel nx e => ?_, ?_, by omega⟩
  · rw [show fuel + 1024 = fuel + 1 + 1023 by omega, h1, benchLoop, g1, e]
    cases nx <;> rfl
  · exact g2

/-- With the right number of calls the benchmark ends. -/
theorem rounds_right (ok : p.Ok) {inner L k s : Nat} {v : BenchVars} (hf : 0 < inner) (hL : 0 < L)
    (hL' : L < 2 ^ 32) (hLT : L * p.call < 2 ^ 41) (hs : s + 2 ^ 56 < 2 ^ 61) (hk : k < 2 ^ 31)
    (hge : 1042 ≤ L * p.call) (hle : L = 1 ∨ L * p.call < 2084) (h : Running p L k 0 v) :
    ∃ N r s', N ≤ 2048 ∧ s' ≤ s + 2 ^ 56 ∧ r.value = some (unit * p.call) ∧
      ∀ fuel, benchLoop (steady p core time unit flags) true fuse inner (fuel + N) v s = some (r, s') := by
  have ho : p.overhead < 2 ^ 41 := by unfold Pace.overhead; have := ok.startAfter; have := ok.finishBefore; omega
  obtain ⟨v1, s1, h1, h2, h3⟩ := rounds_to_checkpoint (core := core) (time := time) (unit := unit) (flags := flags)
    (fuse := fuse) (s := s) ok hf hL hL' hLT (by omega) (by omega) (by omega) h
  rcases checkpoint_right (core := core) (time := time) (unit := unit) (flags := flags)
    (fuse := fuse) (s := s1) h2 ho hL hL' hLT (by omega) (by omega) (by omega) hge hle with ⟨r, e, hr⟩ | ⟨-, e⟩
  · exact ⟨1024, r, s1, by omega, by omega, hr, fun fuel => h1 fuel _ e⟩
  · obtain ⟨v2, s2, g1, g2, g3⟩ := rounds_to_checkpoint (core := core) (time := time) (unit := unit) (flags := flags)
      (fuse := fuse) (s := s1) ok hf hL hL' hLT (by omega) (by omega) (by omega) h2
    rcases checkpoint_right (core := core) (time := time) (unit := unit) (flags := flags)
      (fuse := fuse) (s := s2) g2 ho hL hL' hLT (by omega) (by omega) (by omega) hge hle with ⟨r, e', hr⟩ | ⟨hlt, -⟩
    · exact ⟨2048, r, s2, by omega, by omega, hr, fun fuel => by
        rw [show fuel + 2048 = fuel + 1024 + 1024 by omega, h1 _ _ e]
        exact g1 fuel _ e'⟩
    · omega

/-- The benchmark finds the right number of calls. -/
theorem rounds_all (ok : p.Ok) {inner : Nat} (hf : 0 < inner) (hc : 0 < p.call) (hc' : p.call < 2 ^ 40) :
    ∀ (d L k s : Nat) (v : BenchVars), 0 < L → 2048 ≤ L * 2 ^ d → (L = 1 ∨ L * p.call < 2084) →
    k + d * 1025 < 2 ^ 20 → s + (d + 2) * 2 ^ 56 < 2 ^ 61 → Ready p L k v →
    ∃ N r s', N ≤ d * 1025 + 2049 ∧ s' ≤ s + (d + 2) * 2 ^ 56 ∧ r.value = some (unit * p.call) ∧
      ∀ fuel, benchLoop (steady p core time unit flags) true fuse inner (fuel + N) v s = some (r, s')
  | d, L, k, s, v, hL, hd, hle, hk, hs, h => by
    have ho : p.overhead < 2 ^ 41 := by unfold Pace.overhead; have := ok.startAfter; have := ok.finishBefore; omega
    have hmul : L ≤ L * p.call := Nat.le_mul_of_pos_right L hc
    have hLT : L * p.call < 2 ^ 41 := by
      rcases hle with e | e
      · rw [e]; omega
      · omega
    have hL' : L < 2 ^ 32 := by
      rcases hle with e | e
      · rw [e]; omega
      · omega
    obtain ⟨v1, s1, h1, h2, h3⟩ := round_ready (core := core) (time := time) (unit := unit) (flags := flags)
      (fuse := fuse) (s := s) ok hf (by omega) hL hL' hLT h
    by_cases hge : 1042 ≤ L * p.call
    · obtain ⟨N, r, s2, g1, g2, g3, g4⟩ := rounds_right (core := core) (time := time) (unit := unit) (flags := flags)
        (fuse := fuse) (s := s1) ok hf hL hL' hLT (by omega) (by omega) hge hle h2
      exact ⟨N + 1, r, s2, by omega, by omega, g3, fun fuel => by
        rw [← Nat.add_assoc, loop_again h1, g4]⟩
    · obtain ⟨v2, s2, g1, g2, g3⟩ := rounds_to_checkpoint (core := core) (time := time) (unit := unit)
        (flags := flags) (fuse := fuse) (s := s1) ok hf hL hL' hLT (by omega) (by omega) (by omega) h2
      obtain ⟨v3, e3, e4⟩ := checkpoint_double (core := core) (time := time) (unit := unit) (flags := flags)
        (fuse := fuse) (s := s2) g2 ho (by omega) (by omega) (by omega)
      cases d with
      | zero => exact absurd hmul (by rw [Nat.pow_zero, Nat.mul_one] at hd; omega)
      | succ d =>
        obtain ⟨N, r, s4, k1, k2, k3, k4⟩ := rounds_all ok hf hc hc' d (2 * L) (k + 1 + (0 + 1024)) s2 v3 (by omega)
          (by rw [Nat.mul_comm 2 L, Nat.mul_assoc, ← Nat.pow_succ']; exact hd)
          (Or.inr (by rw [Nat.mul_assoc]; omega)) (by omega) (by omega) e4
        refine ⟨N + 1025, r, s4, by omega, by omega, k3, fun fuel => ?_⟩
        rw [show fuel + (N + 1025) = fuel + N + 1024 + 1 by omega, loop_again h1, g1 _ _ e3]
        exact k4 fuel

/-- On a steady machine the benchmark ends with the time of a call. -/
theorem steady_bench (ok : p.Ok) (hc : 0 < p.call) (hc' : p.call < 2 ^ 40) {s fuel : Nat} (hs : s < 2 ^ 60)
    (hf : 2 ^ 14 ≤ fuel) :
    ∃ r s', mera_bench (steady p core time unit flags) true fuel s = some (r, s') ∧ r.value = some (unit * p.call) := by
  unfold mera_bench
  obtain ⟨v1, s1, h1, h2, h3⟩ := round_first (core := core) (time := time) (unit := unit) (flags := flags)
    (fuse := (steady p core time unit flags).time s) ok (fuel := fuel) (s := s) (by omega) (by omega) true
  obtain ⟨N, r, s2, g1, g2, g3, g4⟩ := rounds_all (core := core) (time := time) (unit := unit) (flags := flags)
    (fuse := (steady p core time unit flags).time s) ok (inner := fuel) (by omega) hc hc' 11 1 0 s1 v1 (by omega)
    (by omega) (Or.inl rfl) (by omega) (by omega) h2
  refine ⟨r, s2, ?_, g3⟩
  have := g4 (fuel - 1 - N)
  rw [show fuel - 1 - N + N = fuel - 1 by omega] at this
  rw [← this, ← loop_again h1, show fuel - 1 + 1 = fuel by omega]

/-! ## The overhead alone -/

/-- The variables of a benchmark without a function, after `n` rounds. -/
structure Idle (p : Pace) (n : Nat) (v : BenchVars) : Prop where
  best : v.overhead_best = BitVec.ofNat 64 p.overhead
  gate : BitVec.ofNat 64 p.overhead ≤ v.overhead_gate
  loops : v.overhead_loops_max = 1
  count : v.overhead_best_count = BitVec.ofNat 32 (n + 1)
  stable : v.stable = BitVec.ofNat 32 n

theorem Ready.idle {L : Nat} {v : BenchVars} (h : Ready p L 0 v) : Idle p 0 v :=
  ⟨h.overhead_best, h.overhead_gate, h.overhead_loops, h.overhead_count, h.stable⟩

theorem round_idle (ok : p.Ok) {fuel s n : Nat} {v : BenchVars} (hf : 0 < fuel) (hs : s < 2 ^ 61)
    (h : Idle p n v) :
    ∃ v' s', benchRound (steady p core time unit flags) false fuse fuel v s =
        some (checkpoint (steady p core time unit flags) false fuse v' s', s') ∧
      Idle p (n + 1) { v' with stable := v'.stable + 1 } ∧ s' ≤ s + 2 ^ 45 := by
  have hb : s + p.startBefore + p.startAfter + p.startBefore + p.startAfter + p.finishBefore + p.finishAfter ≤
      s + 2 ^ 43 := by
    have := ok.startBefore; have := ok.startAfter; have := ok.finishBefore; have := ok.finishAfter
    omega
  have e1 := account_overhead h.best h.gate h.loops
  refine ⟨{ v with
      overhead_best_count := v.overhead_best_count + 1
      overhead_sum := v.overhead_sum + BitVec.ofNat 64 p.overhead
      overhead_total_count := v.overhead_total_count + 1
      overhead_accounted_loops := v.overhead_accounted_loops + 1 },
    s + p.startBefore + p.startAfter + p.startBefore + p.startAfter + p.finishBefore + p.finishAfter, ?_, ?_, by omega⟩
  · unfold benchRound
    rw [steady_overhead ok hf (by omega)]
    simp only [e1]
    rfl
  · refine ⟨h.best, h.gate, h.loops, ?_, ?_⟩
    · show v.overhead_best_count + 1 = _
      rw [h.count, count_add]
    · show v.stable + 1 = _
      rw [h.stable, count_add]

theorem idle_value {n : Nat} {v : BenchVars} (h : Idle p n v) (ho : p.overhead < 2 ^ 41) (hn : 2 ≤ n)
    (hk : n + 1 < 2 ^ 32) :
    measuredOverhead (steady p core time unit flags) v = some (unit * p.overhead) := by
  have h1 : v.overhead_best_count > 2 := by
    rw [h.count]
    exact (ofNat_gt32 hk (show 2 < 2 ^ 32 by omega)).2 (by omega)
  unfold measuredOverhead
  simp only
  rw [if_pos (Or.inl h1), h.best, h.loops]
  show divide (some (unit * number (BitVec.ofNat 64 p.overhead))) (number (1 : U32)) = _
  rw [number_of (by omega)]
  have : number (1 : U32) = 1 := by unfold number; rfl
  rw [this]
  unfold divide
  simp

/-- At most `d` checkpoints more. -/
theorem rounds_idle (ok : p.Ok) {inner : Nat} (hf : 0 < inner) :
    ∀ (i n s : Nat) (v : BenchVars), n + i = 2048 → s + i * 2 ^ 45 < 2 ^ 61 → 0 < i → Idle p n v →
    ∃ r s', s' ≤ s + i * 2 ^ 45 ∧ r.value = some (unit * p.overhead) ∧
      ∀ fuel, benchLoop (steady p core time unit flags) false fuse inner (fuel + i) v s = some (r, s')
  | i, n, s, v, hn, hs, hi, h => by
    have ho : p.overhead < 2 ^ 41 := by unfold Pace.overhead; have := ok.startAfter; have := ok.finishBefore; omega
    obtain ⟨v1, s1, h1, h2, h3⟩ := round_idle (core := core) (time := time) (unit := unit) (flags := flags)
      (fuse := fuse) (s := s) ok hf (by omega) h
    have hst : v1.stable + 1 = BitVec.ofNat 32 (n + 1) := h2.stable
    have hcnt : v1.overhead_best_count = BitVec.ofNat 32 (n + 1 + 1) := h2.count
    cases i with
    | zero => omega
    | succ i =>
      have step : checkpoint (steady p core time unit flags) false fuse v1 s1 = .again { v1 with stable := v1.stable + 1 } →
          ∃ r s', s' ≤ s + (i + 1) * 2 ^ 45 ∧ r.value = some (unit * p.overhead) ∧
            ∀ fuel, benchLoop (steady p core time unit flags) false fuse inner (fuel + (i + 1)) v s = some (r, s') ∨
              i = 0 := by
        intro e
        rw [e] at h1
        rcases Nat.eq_zero_or_pos i with h0 | h0
        · refine ⟨⟨some (unit * p.overhead), 0, v⟩, s, by omega, rfl, fun _ => Or.inr h0⟩
        · obtain ⟨r, s2, g1, g2, g3⟩ := rounds_idle ok hf i (n + 1) s1 _ (by omega) (by omega) h0 h2
          exact ⟨r, s2, by omega, g2, fun fuel => Or.inl (by rw [← Nat.add_assoc, loop_again h1, g3])⟩
      by_cases hm : (n + 1) % 1024 = 0
      · rcases checkpoint_settled (fuse := fuse) (steady p core time unit flags) false v1 s1
          (by rw [hst]; exact (and_1023 (by omega)).2 hm) (by simp) (by simp) with ⟨r, g1, g2⟩ | ⟨g1, g2⟩
        · refine ⟨r, s1, by omega, ?_, fun fuel => ?_⟩
          · rw [g2]
            exact idle_value h2 ho (by omega) (by omega)
          · rw [g1] at h1
            rw [← Nat.add_assoc, loop_done h1]
        · have hi0 : i ≠ 0 := by
            rintro rfl
            apply g2
            refine ⟨?_, Or.inl rfl⟩
            rw [hcnt]
            exact (ofNat_gt32 (by omega) (show 1999 < 2 ^ 32 by omega)).2 (by omega)
          obtain ⟨r, s', k1, k2, k3⟩ := step g1
          exact ⟨r, s', k1, k2, fun fuel => (k3 fuel).resolve_right hi0⟩
      · have hi0 : i ≠ 0 := by rintro rfl; omega
        have e : checkpoint (steady p core time unit flags) false fuse v1 s1 =
            .again { v1 with stable := v1.stable + 1 } := by
          unfold checkpoint
          simp only [hst]
          rw [if_neg (by rw [and_1023 (by omega)]; exact hm)]
        obtain ⟨r, s', k1, k2, k3⟩ := step e
        exact ⟨r, s', k1, k2, fun fuel => (k3 fuel).resolve_right hi0⟩

/-- On a steady machine the overhead is measured exactly. -/
theorem steady_bench_overhead (ok : p.Ok) {s fuel : Nat} (hs : s < 2 ^ 60) (hf : 2 ^ 14 ≤ fuel) :
    ∃ r s', mera_bench (steady p core time unit flags) false fuel s = some (r, s') ∧
      r.value = some (unit * p.overhead) := by
  unfold mera_bench
  obtain ⟨v1, s1, h1, h2, h3⟩ := round_first (core := core) (time := time) (unit := unit) (flags := flags)
    (fuse := (steady p core time unit flags).time s) ok (fuel := fuel) (s := s) (by omega) (by omega) false
  obtain ⟨r, s2, g2, g3, g4⟩ := rounds_idle (core := core) (time := time) (unit := unit) (flags := flags)
    (fuse := (steady p core time unit flags).time s) ok (inner := fuel) (by omega) 2048 0 s1 v1 (by omega) (by omega)
    (by omega) h2.idle
  refine ⟨r, s2, ?_, g3⟩
  have := g4 (fuel - 1 - 2048)
  rw [show fuel - 1 - 2048 + 2048 = fuel - 1 by omega] at this
  rw [← this, ← loop_again h1, show fuel - 1 + 1 = fuel by omega]

/-! ## Any machine -/

section general

variable {σ : Type} {m : Bench σ}

theorem waitEdge_frozen {c : U32} {t : U64} (h : ∀ s, (m.start s).1 = (c, t)) :
    ∀ fuel s, waitEdge m c t fuel s = none
  | 0, _ => rfl
  | fuel + 1, s => by
    rw [waitEdge]
    simp only [h s]
    rw [if_neg (by simp), if_pos trivial]
    exact waitEdge_frozen h fuel _

/-- If the clock stands still, the benchmark does not end. -/
theorem frozen_bench {c : U32} {t : U64} (h : ∀ s, (m.start s).1 = (c, t)) (target : Bool) (fuel : Nat) (s : σ) :
    mera_bench m target fuel s = none := by
  unfold mera_bench
  cases fuel with
  | zero => rfl
  | succ fuel =>
    have : benchRound m target (m.time s) (fuel + 1) benchStart s = none := by
      unfold benchRound measureOverhead
      simp only [h s]
      rw [waitEdge_frozen h]
    rw [benchLoop, this]

/-- If the thread is moved to another processor between two reads of the clock, the benchmark does not end. -/
theorem moving_bench (h : ∀ s, (m.start (m.start s).2).1.1 ≠ (m.start s).1.1) (target : Bool) (fuel : Nat) (s : σ) :
    mera_bench m target fuel s = none := by
  unfold mera_bench
  generalize benchStart = v
  generalize m.time s = fuse
  suffices H : ∀ inner k v s, benchLoop m target fuse inner k v s = none from H _ _ _ _
  intro inner k
  induction k with
  | zero => intros; rfl
  | succ k ih =>
    intro v s
    rw [benchLoop]
    unfold benchRound measureOverhead
    cases inner with
    | zero => rfl
    | succ inner =>
      simp only [waitEdge]
      rw [if_pos (Or.inl (h s).symm)]
      exact ih _ _

variable {t : σ → ℚ} {d : ℚ}

theorem waitEdge_time (h : Slow m t d) (c : U32) (snap : U64) :
    ∀ fuel s r s', waitEdge m c snap fuel s = some (r, s') → t s ≤ t s'
  | 0, _, _, _, e => by simp [waitEdge] at e
  | fuel + 1, s, r, s', e => by
    rw [waitEdge] at e
    have hs := h.start s
    split at e
    · simp only [Option.some.injEq, Prod.mk.injEq] at e
      rw [← e.2]; exact hs
    · split at e
      · exact hs.trans (waitEdge_time h c snap fuel _ _ _ e)
      · simp only [Option.some.injEq, Prod.mk.injEq] at e
        rw [← e.2]; exact hs

theorem waitTick_time (h : Slow m t d) (c : U32) (start : U64) :
    ∀ fuel loops finish s r s', waitTick m c start fuel loops finish s = some (r, s') → t s ≤ t s'
  | 0, _, _, _, _, _, e => by simp [waitTick] at e
  | fuel + 1, loops, finish, s, r, s', e => by
    rw [waitTick] at e
    have hs := h.start s
    have hf := h.finish (m.start s).2
    split at e
    · simp only at e
      split at e
      · simp only [Option.some.injEq, Prod.mk.injEq] at e
        rw [← e.2]; exact hs
      · split at e
        · simp only [Option.some.injEq, Prod.mk.injEq] at e
          rw [← e.2]; exact hs.trans hf
        · exact (hs.trans hf).trans (waitTick_time h c start fuel _ _ _ _ _ e)
    · simp only [Option.some.injEq, Prod.mk.injEq] at e
      rw [← e.2]

theorem waitNext_time (h : Slow m t d) (c : U32) (finish : U64) :
    ∀ fuel loops s r s', waitNext m c finish fuel loops s = some (r, s') → t s ≤ t s'
  | 0, _, _, _, _, e => by simp [waitNext] at e
  | fuel + 1, loops, s, r, s', e => by
    rw [waitNext] at e
    have hs := h.start s
    have hf := h.finish (m.start s).2
    simp only at e
    split at e
    · simp only [Option.some.injEq, Prod.mk.injEq] at e
      rw [← e.2]; exact hs
    · split at e
      · simp only [Option.some.injEq, Prod.mk.injEq] at e
        rw [← e.2]; exact hs
      · split at e
        · simp only [Option.some.injEq, Prod.mk.injEq] at e
          rw [← e.2]; exact hs.trans hf
        · split at e
          · simp only [Option.some.injEq, Prod.mk.injEq] at e
            rw [← e.2]; exact hs.trans hf
          · exact (hs.trans hf).trans (waitNext_time h c finish fuel _ _ _ _ e)

theorem callTarget_time (h : Slow m t d) (tl : U32) :
    ∀ left loops s, t s ≤ t (callTarget m tl left loops s) ∧
      (0 < left → t s + d ≤ t (callTarget m tl left loops s))
  | 0, _, _ => ⟨le_refl _, fun h => absurd h (by omega)⟩
  | left + 1, loops, s => by
    have hd := h.target s
    have h0 := h.nonneg
    rw [callTarget]
    split
    · have := (callTarget_time h tl left (loops + 1) (m.target s)).1
      exact ⟨by linarith, fun _ => by linarith⟩
    · exact ⟨by linarith, fun _ => hd⟩

theorem measureOverhead_time (h : Slow m t d) {fuel : Nat} {s s' : σ} {r} (e : measureOverhead m fuel s = some (r, s')) :
    t s ≤ t s' := by
  unfold measureOverhead at e
  simp only at e
  have h0 := h.start s
  split at e
  · exact absurd e (by simp)
  · rename_i s1 e1
    have := waitEdge_time h _ _ _ _ _ _ e1
    simp only [Option.some.injEq, Prod.mk.injEq] at e
    rw [← e.2]; linarith
  · rename_i st s1 e1
    have h1 := waitEdge_time h _ _ _ _ _ _ e1
    have h2 := h.finish s1
    split at e
    · simp only [Option.some.injEq, Prod.mk.injEq] at e
      rw [← e.2]; linarith
    · split at e
      · exact absurd e (by simp)
      · rename_i s2 e2
        have := waitTick_time h _ _ _ _ _ _ _ _ e2
        simp only [Option.some.injEq, Prod.mk.injEq] at e
        rw [← e.2]; linarith
      · rename_i l f s2 e2
        have := waitTick_time h _ _ _ _ _ _ _ _ e2
        simp only [Option.some.injEq, Prod.mk.injEq] at e
        rw [← e.2]; linarith

theorem measureTarget_time (h : Slow m t d) {fuel : Nat} {c tl : U32} {s s' : σ} {r}
    (e : measureTarget m fuel c tl s = some (r, s')) : t s ≤ t s' ∧ (r ≠ none → t s + d ≤ t s') := by
  unfold measureTarget at e
  simp only at e
  have h0 := h.start s
  have hn := h.nonneg
  split at e
  · simp only [Option.some.injEq, Prod.mk.injEq] at e
    rw [← e.2, ← e.1]; exact ⟨h0, fun h => absurd rfl h⟩
  · split at e
    · exact absurd e (by simp)
    · rename_i s1 e1
      have := waitEdge_time h _ _ _ _ _ _ e1
      simp only [Option.some.injEq, Prod.mk.injEq] at e
      rw [← e.2, ← e.1]; exact ⟨by linarith, fun h => absurd rfl h⟩
    · rename_i st s1 e1
      have h1 := waitEdge_time h _ _ _ _ _ _ e1
      have hc := (callTarget_time h tl (2 ^ 32) 0 s1).2 (by omega)
      generalize callTarget m tl (2 ^ 32) 0 s1 = s2 at e hc
      have h2 := h.finish s2
      split at e
      · simp only [Option.some.injEq, Prod.mk.injEq] at e
        rw [← e.2]; exact ⟨by linarith, fun _ => by linarith⟩
      · split at e
        · exact absurd e (by simp)
        · rename_i s3 e3
          have := waitNext_time h _ _ _ _ _ _ _ e3
          simp only [Option.some.injEq, Prod.mk.injEq] at e
          rw [← e.2]; exact ⟨by linarith, fun _ => by linarith⟩
        · rename_i l s3 e3
          have := waitNext_time h _ _ _ _ _ _ _ e3
          simp only [Option.some.injEq, Prod.mk.injEq] at e
          rw [← e.2]; exact ⟨by linarith, fun _ => by linarith⟩

theorem accountOverhead_stable {l : U32} {e : U64} {v v' : BenchVars} (h : accountOverhead l e v = .inr v') :
    v'.stable = v.stable := by
  unfold accountOverhead at h
  split at h
  · exact absurd h (by simp)
  · split at h
    · rw [← Sum.inr.inj h]
    · rw [← Sum.inr.inj h]

theorem accountTarget_stable {l : U32} {e : U64} {v v' : BenchVars} (h : accountTarget l e v = .inr v') :
    v'.stable = v.stable := by
  unfold accountTarget at h
  split at h
  · exact absurd h (by simp)
  · split at h
    · rw [← Sum.inr.inj h]
    · rw [← Sum.inr.inj h]

/-- What a checkpoint does to the number of the rounds. -/
theorem checkpoint_stable (target : Bool) (v : BenchVars) (s : σ) :
    (∃ v', checkpoint m target fuse v s = .again v' ∧ (v'.stable = 0 ∨ v'.stable = v.stable + 1)) ∨
    (∃ r, checkpoint m target fuse v s = .done r ∧ v.stable + 1 &&& 1023 = 0) := by
  by_cases hz : v.stable + 1 &&& 1023 = 0
  · by_cases h1 : target = true ∧ v.target_best < 1042 + v.overhead_best * v.overhead_loops_max.setWidth 64
    · refine Or.inl ⟨restart_middle { { v with stable := v.stable + 1 } with
        target_loops := v.target_loops + v.target_loops }, ?_, Or.inl rfl⟩
      unfold checkpoint
      simp only
      rw [if_pos hz, if_pos h1]
    · by_cases h2 : target = true ∧ v.target_loops > 1 ∧
        v.target_best > (1042 + v.overhead_best * v.overhead_loops_max.setWidth 64) * 4
      · refine Or.inl ⟨restart_middle { { v with stable := v.stable + 1 } with
          target_loops := v.target_loops >>> 1 }, ?_, Or.inl rfl⟩
        unfold checkpoint
        simp only
        rw [if_pos hz, if_neg h1, if_pos h2]
      · rcases checkpoint_settled (fuse := fuse) m target v s hz h1 h2 with ⟨r, g, -⟩ | ⟨g, -⟩
        · exact Or.inr ⟨r, g, hz⟩
        · exact Or.inl ⟨_, g, Or.inr rfl⟩
  · refine Or.inl ⟨{ v with stable := v.stable + 1 }, ?_, Or.inr rfl⟩
    unfold checkpoint
    simp only
    rw [if_neg hz]

theorem stable_succ (x : U32) : (x + 1).toNat ≤ x.toNat + 1 := by
  rw [BitVec.toNat_add]
  exact Nat.mod_le _ _

/-- The number of the rounds is the number of the calls which have been made. -/
theorem loop_time (h : Slow m t d) (inner : Nat) (t0 : ℚ) :
    ∀ k v s r s', t0 + v.stable.toNat * d ≤ t s → benchLoop m true fuse inner k v s = some (r, s') →
      t0 + 1024 * d ≤ t s'
  | 0, _, _, _, _, _, e => by simp [benchLoop] at e
  | k + 1, v, s, r, s', inv, e => by
    have hn := h.nonneg
    have h0 : ∀ x : U32, (0 : ℚ) ≤ x.toNat * d := fun x => mul_nonneg (Nat.cast_nonneg _) hn
    have ht0 : t0 ≤ t s := by have := h0 v.stable; linarith
    have hz : ((0 : U32).toNat : ℚ) * d = 0 := by
      have : ((0 : U32).toNat : ℚ) = 0 := by norm_cast
      rw [this]; ring
    rw [benchLoop] at e
    unfold benchRound at e
    cases eo : measureOverhead m inner s with
    | none => simp [eo] at e
    | some x =>
      obtain ⟨x, s1⟩ := x
      have g1 := measureOverhead_time h eo
      cases x with
      | none =>
        simp only [eo] at e
        exact loop_time h inner t0 k _ _ _ _ (by show t0 + v.stable.toNat * d ≤ t s1; linarith) e
      | some x =>
        obtain ⟨c, l, el⟩ := x
        simp only [eo] at e
        cases ea : accountOverhead l el v with
        | inl v1 =>
          simp only [ea] at e
          refine loop_time h inner t0 k _ _ _ _ ?_ e
          show t0 + (0 : U32).toNat * d ≤ t s1
          rw [hz]; linarith
        | inr v1 =>
          have hs1 := accountOverhead_stable ea
          simp only [ea, if_true] at e
          cases et : measureTarget m inner c v1.target_loops s1 with
          | none => simp [et] at e
          | some y =>
            obtain ⟨y, s2⟩ := y
            have g2 := measureTarget_time h et
            cases y with
            | none =>
              simp only [et] at e
              refine loop_time h inner t0 k _ _ _ _ ?_ e
              show t0 + v1.stable.toNat * d ≤ t s2
              rw [hs1]
              have := g2.1
              linarith
            | some y =>
              obtain ⟨l', el'⟩ := y
              have g3 := g2.2 (by simp)
              simp only [et] at e
              cases eb : accountTarget l' el' v1 with
              | inl v2 =>
                simp only [eb] at e
                refine loop_time h inner t0 k _ _ _ _ ?_ e
                show t0 + (0 : U32).toNat * d ≤ t s2
                rw [hz]; linarith
              | inr v2 =>
                have hs2 := accountTarget_stable eb
                simp only [eb] at e
                rcases checkpoint_stable (m := m) (fuse := fuse) true v2 s2 with ⟨v3, c1, c2⟩ | ⟨r', c1, c2⟩
                · rw [c1] at e
                  simp only at e
                  refine loop_time h inner t0 k _ _ _ _ ?_ e
                  rcases c2 with c2 | c2
                  · rw [c2, hz]; linarith
                  · rw [c2, hs2, hs1]
                    have : ((v.stable + 1).toNat : ℚ) ≤ v.stable.toNat + 1 := by
                      exact_mod_cast stable_succ v.stable
                    have := mul_le_mul_of_nonneg_right this hn
                    linarith
                · rw [c1] at e
                  simp only [Option.some.injEq, Prod.mk.injEq] at e
                  rw [← e.2]
                  rw [hs2, hs1] at c2
                  have hm : 1024 ≤ v.stable.toNat + 1 := by
                    have c3 := congrArg BitVec.toNat c2
                    rw [BitVec.toNat_and] at c3
                    have c4 : (v.stable + 1).toNat &&& (2 ^ 10 - 1) = (v.stable + 1).toNat % 2 ^ 10 :=
                      Nat.and_two_pow_sub_one_eq_mod _ 10
                    have c5 : (v.stable + 1).toNat % 2 ^ 10 = 0 := c4.symm.trans c3
                    rw [BitVec.toNat_add] at c5
                    have : (1 : U32).toNat = 1 := rfl
                    rw [this] at c5
                    have := v.stable.isLt
                    omega
                  have hm' : (1024 : ℚ) ≤ v.stable.toNat + 1 := by exact_mod_cast hm
                  have := mul_le_mul_of_nonneg_right hm' hn
                  linarith

/-- However long a call takes, it is made 1024 times. -/
theorem bench_time (h : Slow m t d) {fuel : Nat} {s s' : σ} {r : BenchResult}
    (e : mera_bench m true fuel s = some (r, s')) : t s + 1024 * d ≤ t s' := by
  unfold mera_bench at e
  refine loop_time h fuel (t s) fuel _ _ _ _ ?_ e
  have : ((benchStart.stable).toNat : ℚ) = 0 := by
    show (((0 : U32).toNat : Nat) : ℚ) = 0
    norm_cast
  rw [this]; linarith

end general

/-! ## The choice of the clock -/

theorem bv_lt_of_lt_of_le {w : Nat} {a b c : BitVec w} (h1 : a < b) (h2 : b ≤ c) : a < c := by
  rw [BitVec.lt_def] at *; rw [BitVec.le_def] at h2; omega

theorem bv_lt_of_le_of_lt {w : Nat} {a b c : BitVec w} (h1 : a ≤ b) (h2 : b < c) : a < c := by
  rw [BitVec.lt_def] at *; rw [BitVec.le_def] at h1; omega

theorem bv_lt_of_le_of_ne {w : Nat} {a b : BitVec w} (h1 : a ≤ b) (h2 : a ≠ b) : a < b := by
  have : a.toNat ≠ b.toNat := fun h => h2 (BitVec.eq_of_toNat_eq h)
  rw [BitVec.lt_def]; rw [BitVec.le_def] at h1; omega

theorem probeLoop_one (attempt : Nat → Attempt) :
    ∀ left n, probeLoop attempt left n = 1 ↔
      ∃ i < left, Advances (attempt (n + i)) ∧ ∀ k < i, Inconclusive (n + k) (attempt (n + k))
  | 0, n => by simp [probeLoop]
  | left + 1, n => by
    have ih := probeLoop_one attempt left (n + 1)
    -- the case in which the loop goes on
    have go : Inconclusive n (attempt n) → ¬ Advances (attempt n) →
        (probeLoop attempt left (n + 1) = 1 ↔
          ∃ i < left + 1, Advances (attempt (n + i)) ∧ ∀ k < i, Inconclusive (n + k) (attempt (n + k))) := by
      intro hi ha
      rw [ih]
      constructor
      · rintro ⟨i, h1, h2, h3⟩
        refine ⟨i + 1, by omega, by rw [show n + (i + 1) = n + 1 + i by omega]; exact h2, ?_⟩
        intro k hk
        cases k with
        | zero => exact hi
        | succ k =>
          rw [show n + (k + 1) = n + 1 + k by omega]
          exact h3 k (by omega)
      · rintro ⟨i, h1, h2, h3⟩
        cases i with
        | zero => exact absurd h2 ha
        | succ i =>
          refine ⟨i, by omega, by rw [show n + 1 + i = n + (i + 1) by omega]; exact h2, ?_⟩
          intro k hk
          rw [show n + 1 + k = n + (k + 1) by omega]
          exact h3 (k + 1) (by omega)
    -- the case in which it ends
    have stop : ¬ Inconclusive n (attempt n) → ¬ Advances (attempt n) →
        ¬ ∃ i < left + 1, Advances (attempt (n + i)) ∧ ∀ k < i, Inconclusive (n + k) (attempt (n + k)) := by
      rintro hi ha ⟨i, h1, h2, h3⟩
      cases i with
      | zero => exact ha h2
      | succ i => exact hi (h3 0 (by omega))
    rw [probeLoop]
    cases e : attempt n with
    | signal =>
      simp only
      constructor
      · intro h; exact absurd h (by decide)
      · intro h
        refine absurd h (stop ?_ ?_)
        · rw [e]; rintro ⟨c, s, c', f, h, -⟩; cases h
        · rw [e]; rintro ⟨c, s, f, h, -⟩; cases h
    | read c s c' f =>
      simp only
      by_cases hc : c = c'
      · rw [if_neg (by simpa using hc)]
        by_cases hf : f > s
        · rw [if_pos hf]
          refine ⟨fun _ => ⟨0, by omega, ?_, fun k hk => absurd hk (by omega)⟩, fun _ => rfl⟩
          exact ⟨c, s, f, by rw [Nat.add_zero, e, hc], hf⟩
        · rw [if_neg hf]
          have ha : ¬ Advances (attempt n) := by
            rw [e]; rintro ⟨a, b, g, h, hlt⟩; cases h; exact hf hlt
          by_cases hs : f = s ∨ n > 5
          · rw [if_pos hs]
            refine ⟨fun h => absurd h (by decide), fun h => absurd h (stop ?_ ha)⟩
            rw [e]
            rintro ⟨a, b, a', g, h, h' | ⟨h1, h2⟩⟩
            · cases h; exact h' hc
            · cases h
              rcases hs with hs | hs
              · rw [hs] at h1; exact BitVec.lt_irrefl _ h1
              · omega
          · rw [if_neg hs]
            refine go ?_ ha
            rw [e]
            refine ⟨c, s, c', f, rfl, Or.inr ⟨?_, by omega⟩⟩
            have h1 : f ≠ s := fun h => hs (Or.inl h)
            exact bv_lt_of_le_of_ne (BitVec.not_lt.1 hf) h1
      · rw [if_pos hc]
        refine go ?_ ?_
        · rw [e]; exact ⟨c, s, c', f, rfl, Or.inl hc⟩
        · rw [e]; rintro ⟨a, b, g, h, -⟩; cases h; exact hc rfl

theorem usable_iff (attempt : Nat → Attempt) : probeLoop attempt 42 0 = 1 ↔ Usable attempt := by
  rw [probeLoop_one]
  simp only [Nat.zero_add]
  rfl

theorem do_probe_fst (windows : Bool) (attempt : Nat → Attempt) (s : Probing) :
    (do_probe windows attempt s).1 = probeLoop attempt 42 0 := by
  unfold do_probe
  simp only
  split
  · rfl
  · split <;> rfl

theorem do_probe_flags (windows : Bool) (attempt : Nat → Attempt) (s : Probing) :
    (do_probe windows attempt s).2.flags = s.flags ∧ (do_probe windows attempt s).2.source = s.source := by
  unfold do_probe
  simp only
  split
  · exact ⟨rfl, rfl⟩
  · split <;> exact ⟨rfl, rfl⟩

/-- What a call of `probe` does to the choice. -/
theorem probeClock_choice (windows : Bool) (n : Nat) (c : Source) (s : Probing) :
    (s.flags < (c.flags s.flags ||| timestamp_clock_have) ∧ Usable c.attempt ∧
      (probeClock windows n c s).2.flags = (c.flags s.flags ||| timestamp_clock_have) ∧
      (probeClock windows n c s).2.source = some n) ∨
    (((c.flags s.flags ||| timestamp_clock_have) ≤ s.flags ∨ ¬ Usable c.attempt) ∧
      (probeClock windows n c s).2.flags = s.flags ∧ (probeClock windows n c s).2.source = s.source) := by
  unfold probeClock
  simp only
  by_cases h : s.flags ≥ c.flags s.flags ||| timestamp_clock_have
  · rw [if_pos h]
    exact Or.inr ⟨Or.inl h, rfl, rfl⟩
  · rw [if_neg h]
    by_cases hu : Usable c.attempt
    · left
      rw [if_pos (by rw [do_probe_fst]; exact (usable_iff _).2 hu)]
      exact ⟨BitVec.not_le.1 h, hu, rfl, rfl⟩
    · right
      rw [if_neg (by rw [do_probe_fst]; exact fun h => hu ((usable_iff _).1 h))]
      exact ⟨Or.inr hu, do_probe_flags _ _ _⟩

theorem have_and (x : U32) : (x ||| timestamp_clock_have) &&& timestamp_clock_have ≠ 0 := by
  have : (x ||| timestamp_clock_have) &&& timestamp_clock_have = timestamp_clock_have := by
    ext i hi
    simp only [BitVec.getElem_and, BitVec.getElem_or]
    cases x[i] <;> cases timestamp_clock_have[i] <;> rfl
  rw [this]
  decide

theorem have_pos (x : U32) : 0 < (x ||| timestamp_clock_have) := by
  rw [BitVec.lt_def]
  rcases Nat.eq_zero_or_pos (x ||| timestamp_clock_have).toNat with h | h
  · have h0 : (x ||| timestamp_clock_have) = 0 := BitVec.eq_of_toNat_eq h
    exact absurd (by rw [h0]; rfl) (have_and x)
  · exact h

theorem probeAll_found (windows : Bool) : ∀ (cs : List Source) (n : Nat) (s : Probing),
    (s.flags = 0 ∨ s.flags &&& timestamp_clock_have ≠ 0) →
    ((probeAll windows n cs s).flags &&& timestamp_clock_have ≠ 0 ↔
      s.flags &&& timestamp_clock_have ≠ 0 ∨ ∃ c ∈ cs, Usable c.attempt)
  | [], n, s, _ => by simp [probeAll]
  | c :: cs, n, s, h => by
    rw [probeAll]
    rcases probeClock_choice windows n c s with ⟨h1, h2, h3, h4⟩ | ⟨h1, h3, h4⟩
    · have hh : (probeClock windows n c s).2.flags &&& timestamp_clock_have ≠ 0 := by rw [h3]; exact have_and _
      rw [probeAll_found windows cs _ _ (Or.inr hh)]
      exact ⟨fun _ => Or.inr ⟨c, List.mem_cons_self, h2⟩, fun _ => Or.inl hh⟩
    · rw [probeAll_found windows cs _ _ (by rw [h3]; exact h), h3]
      constructor
      · rintro (g | ⟨c', g1, g2⟩)
        · exact Or.inl g
        · exact Or.inr ⟨c', List.mem_cons_of_mem _ g1, g2⟩
      · rintro (g | ⟨c', g1, g2⟩)
        · exact Or.inl g
        · rcases List.mem_cons.1 g1 with e | g1
          · subst e
            rcases h1 with h1 | h1
            · left
              rcases h with h | h
              · rw [h] at h1
                exact absurd (bv_lt_of_lt_of_le (have_pos _) h1) (BitVec.lt_irrefl _)
              · exact h
            · exact absurd g2 h1
          · exact Or.inr ⟨c', g1, g2⟩

/-- The clock which has been chosen among some. -/
def Chosen (clocks : List (U32 × (Nat → Attempt))) (s : Probing) : Prop :=
  (s.flags = 0 ∧ ∀ c ∈ clocks, ¬ Usable c.2) ∨
  ∃ i c, s.source = some i ∧ clocks[i]? = some c ∧ Usable c.2 ∧ s.flags = (c.1 ||| timestamp_clock_have) ∧
    ∀ j c', clocks[j]? = some c' → Usable c'.2 →
      (c'.1 ||| timestamp_clock_have) ≤ s.flags ∧ ((c'.1 ||| timestamp_clock_have) = s.flags → i ≤ j)

theorem probeAll_chosen (windows : Bool) : ∀ (rest pre : List (U32 × (Nat → Attempt))) (s : Probing), Chosen pre s →
    Chosen (pre ++ rest) (probeAll windows pre.length (rest.map fun c => ⟨fun _ => c.1, c.2⟩) s)
  | [], pre, s, h => by simpa [probeAll] using h
  | c :: rest, pre, s, h => by
    rw [List.map_cons, probeAll]
    have key : Chosen (pre ++ [c]) (probeClock windows pre.length ⟨fun _ => c.1, c.2⟩ s).2 := by
      have last : ∀ j c', (pre ++ [c])[j]? = some c' → pre[j]? = some c' ∨ (j = pre.length ∧ c' = c) := by
        intro j c' hj
        rcases Nat.lt_or_ge j pre.length with hl | hl
        · rw [List.getElem?_append_left hl] at hj
          exact Or.inl hj
        · rw [List.getElem?_append_right hl] at hj
          rcases Nat.eq_zero_or_pos (j - pre.length) with e | e
          · rw [e] at hj
            exact Or.inr ⟨by omega, (Option.some.inj hj).symm⟩
          · rw [show j - pre.length = (j - pre.length - 1) + 1 by omega] at hj
            simp at hj
      have mem_lt : ∀ {j : Nat} {c'}, pre[j]? = some c' → j < pre.length := by
        intro j c' hj
        by_contra hl
        rw [List.getElem?_eq_none (by omega)] at hj
        exact absurd hj (by simp)
      rcases probeClock_choice windows pre.length ⟨fun _ => c.1, c.2⟩ s with ⟨h1, h2, h3, h4⟩ | ⟨h1, h3, h4⟩
      · simp only at h1 h2 h3 h4
        refine Or.inr ⟨pre.length, c, h4, ?_, h2, h3, ?_⟩
        · simp
        · intro j c' hj hu
          rw [h3]
          rcases last j c' hj with hj | ⟨e1, e2⟩
          · have hlt : (c'.1 ||| timestamp_clock_have) < (c.1 ||| timestamp_clock_have) := by
              rcases h with ⟨-, h⟩ | ⟨i, d, -, -, -, -, h⟩
              · exact absurd hu (h c' (List.mem_of_getElem? hj))
              · exact bv_lt_of_le_of_lt (h j c' hj hu).1 h1
            refine ⟨BitVec.le_of_lt hlt, fun e => ?_⟩
            rw [e] at hlt
            exact absurd hlt (BitVec.lt_irrefl _)
          · rw [e2, e1]
            exact ⟨BitVec.le_refl _, fun _ => Nat.le_refl _⟩
      · simp only at h1 h3 h4
        rcases h with ⟨g0, g⟩ | ⟨i, d, g1, g2, g3, g4, g5⟩
        · refine Or.inl ⟨by rw [h3, g0], ?_⟩
          intro c' hc'
          rcases List.mem_append.1 hc' with hc' | hc'
          · exact g c' hc'
          · rw [List.mem_singleton.1 hc']
            rcases h1 with h1 | h1
            · rw [g0] at h1
              exact absurd (bv_lt_of_lt_of_le (have_pos _) h1) (BitVec.lt_irrefl _)
            · exact h1
        · refine Or.inr ⟨i, d, by rw [h4, g1], ?_, g3, by rw [h3, g4], ?_⟩
          · rw [List.getElem?_append_left (mem_lt g2)]; exact g2
          · intro j c' hj hu
            rw [h3]
            rcases last j c' hj with hj | ⟨e1, e2⟩
            · exact g5 j c' hj hu
            · rw [e2] at hu ⊢
              refine ⟨h1.resolve_right (fun h => h hu), fun _ => ?_⟩
              have := mem_lt g2
              omega
    have := probeAll_chosen windows rest (pre ++ [c]) _ key
    rw [List.append_assoc, List.singleton_append, List.length_append, List.length_singleton] at this
    exact this

/-! ## The signals -/

/-- All three signals are handled by the program. -/
def Handled (s : Probing) : Prop := s.sigsegv = .handler ∧ s.sigill = .handler ∧ s.sigbus = .handler

theorem probeClock_handled (n : Nat) (c : Source) (s : Probing) :
    ((probeClock false n c s).2.source = s.source ∧ (probeClock false n c s).2.sigsegv = s.sigsegv ∧
      (probeClock false n c s).2.flags = s.flags ∧
      (probeClock false n c s).2.sigill = s.sigill ∧ (probeClock false n c s).2.sigbus = s.sigbus) ∨
    Handled (probeClock false n c s).2 := by
  unfold probeClock do_probe
  simp only [Bool.false_eq_true, if_false]
  by_cases h : s.flags ≥ c.flags s.flags ||| timestamp_clock_have
  · rw [if_pos h]
    exact Or.inl ⟨rfl, rfl, rfl, rfl, rfl⟩
  · rw [if_neg h]
    by_cases h1 : probeLoop c.attempt 42 0 = 1
    · simp only [h1, if_true]
      exact Or.inr ⟨rfl, rfl, rfl⟩
    · left
      simp [h1]

theorem probeAll_handled : ∀ (cs : List Source) (n : Nat) (s : Probing),
    ((probeAll false n cs s).flags = s.flags ∧ (probeAll false n cs s).sigsegv = s.sigsegv ∧
      (probeAll false n cs s).sigill = s.sigill ∧ (probeAll false n cs s).sigbus = s.sigbus) ∨
    Handled (probeAll false n cs s)
  | [], n, s => Or.inl ⟨rfl, rfl, rfl, rfl⟩
  | c :: cs, n, s => by
    rw [probeAll]
    rcases probeAll_handled cs (n + 1) (probeClock false n c s).2 with h | h
    · rcases probeClock_handled n c s with g | g
      · left
        rw [h.1, h.2.1, h.2.2.1, h.2.2.2]
        exact ⟨g.2.2.1, g.2.1, g.2.2.2.1, g.2.2.2.2⟩
      · right
        exact ⟨h.2.1.trans g.1, h.2.2.1.trans g.2.1, h.2.2.2.trans g.2.2⟩
    · exact Or.inr h

theorem probeClock_windows (n : Nat) (c : Source) (s : Probing) :
    (probeClock true n c s).2.sigsegv = s.sigsegv ∧ (probeClock true n c s).2.sigill = s.sigill ∧
      (probeClock true n c s).2.sigbus = s.sigbus := by
  unfold probeClock do_probe
  simp only [if_true]
  split
  · exact ⟨rfl, rfl, rfl⟩
  · split <;> exact ⟨rfl, rfl, rfl⟩

theorem probeAll_windows : ∀ (cs : List Source) (n : Nat) (s : Probing),
    (probeAll true n cs s).sigsegv = s.sigsegv ∧ (probeAll true n cs s).sigill = s.sigill ∧
      (probeAll true n cs s).sigbus = s.sigbus
  | [], n, s => ⟨rfl, rfl, rfl⟩
  | c :: cs, n, s => by
    rw [probeAll]
    have h := probeAll_windows cs (n + 1) (probeClock true n c s).2
    have g := probeClock_windows n c s
    exact ⟨h.1.trans g.1, h.2.1.trans g.2.1, h.2.2.trans g.2.2⟩

/-- If no clock is found, no call of `probe` has changed anything. -/
theorem probeAll_none (w : Bool) : ∀ (cs : List Source) (n : Nat) (s : Probing), (∀ c ∈ cs, ¬ Usable c.attempt) →
    (probeAll w n cs s).sigsegv = s.sigsegv ∧ (probeAll w n cs s).sigill = s.sigill ∧
      (probeAll w n cs s).sigbus = s.sigbus
  | [], n, s, _ => ⟨rfl, rfl, rfl⟩
  | c :: cs, n, s, h => by
    rw [probeAll]
    have g := probeAll_none w cs (n + 1) (probeClock w n c s).2 fun c hc => h c (List.mem_cons_of_mem _ hc)
    have hu : probeLoop c.attempt 42 0 ≠ 1 := fun e => h c List.mem_cons_self ((usable_iff _).1 e)
    have k : (probeClock w n c s).2.sigsegv = s.sigsegv ∧ (probeClock w n c s).2.sigill = s.sigill ∧
        (probeClock w n c s).2.sigbus = s.sigbus := by
      unfold probeClock do_probe
      simp only [hu, if_false]
      split
      · exact ⟨rfl, rfl, rfl⟩
      · split <;> exact ⟨rfl, rfl, rfl⟩
    exact ⟨g.1.trans k.1, g.2.1.trans k.2.1, g.2.2.trans k.2.2⟩

end T1ha.Model
