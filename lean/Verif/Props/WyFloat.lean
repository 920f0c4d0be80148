import Mathlib.Algebra.BigOperators.Intervals
import Mathlib.Algebra.BigOperators.Ring.Finset
import Mathlib.Tactic.Positivity
import Mathlib.Order.Interval.Finset.Nat
import Mathlib.Tactic.Ring
import Mathlib.Tactic.NormNum
import Mathlib.Tactic.Linarith
import Mathlib.Tactic.FieldSimp
import Verif.Model.WyFloat

/-!
# The floating-point numbers of wyhash: C89
-/

namespace T1ha.Props

open Model Finset

theorem isDouble_scaled (z : ℤ) (k : ℕ) (hz : |z| < 2 ^ 53) (hk : k ≤ 1074) : IsDouble ((z : ℚ) / 2 ^ k) :=
  ⟨z, -(k : ℤ), hz, by omega, by omega, by rw [zpow_neg, zpow_natCast, div_eq_mul_inv]⟩

theorem isDouble_nat (n : ℕ) (h : n < 2 ^ 53) : IsDouble (n : ℚ) := by
  have := isDouble_scaled (n : ℤ) 0 (by rw [Nat.abs_cast]; exact_mod_cast h) (by omega)
  simpa using this

theorem fl_norm (f : Fpu) (k : ℕ) (hk : k < 53) : f.fl (1 / f.fl ((2 ^ k : ℕ) : ℚ)) = 1 / 2 ^ k := by
  rw [f.exact _ (isDouble_nat _ (Nat.pow_lt_pow_right (by omega) hk))]
  have h := isDouble_scaled 1 k (by norm_num) (by omega)
  rw [Nat.cast_pow, Nat.cast_ofNat]
  exact f.exact _ (by simpa using h)

/-- The three numbers of 21 bits of which `wy2gau` takes the sum. -/
def gauPart (n i : ℕ) : ℕ := n / 2 ^ (21 * i) % 2 ^ 21

theorem gauPart_lt (n i : ℕ) : gauPart n i < 2 ^ 21 := Nat.mod_lt _ (by norm_num)

theorem wy2u01_eq (f : Fpu) (r : U64) : wy2u01 f r = ((r.toNat / 2 ^ 12 : ℕ) : ℚ) / 2 ^ 52 := by
  have hr : r.toNat / 2 ^ 12 < 2 ^ 52 := by have := r.isLt; omega
  unfold wy2u01
  rw [show (1#64 <<< 52).toNat = 2 ^ 52 from rfl, BitVec.toNat_ushiftRight, Nat.shiftRight_eq_div_pow]
  generalize r.toNat / 2 ^ 12 = n at *
  dsimp only
  rw [fl_norm f 52 (by omega), f.exact _ (isDouble_nat n (by omega)), mul_one_div]
  refine f.exact _ ?_
  have h := isDouble_scaled (n : ℤ) 52 (by rw [Nat.abs_cast]; exact_mod_cast (by omega : n < 2 ^ 53)) (by omega)
  simpa using h

theorem wy2gau_eq (f : Fpu) (r : U64) :
    wy2gau f r = ((gauPart r.toNat 0 + gauPart r.toNat 1 + gauPart r.toNat 2 : ℕ) : ℚ) / 2 ^ 20 - 3 := by
  have h0 := gauPart_lt r.toNat 0
  have h1 := gauPart_lt r.toNat 1
  have h2 := gauPart_lt r.toNat 2
  have hp : ∀ i, i ≤ 2 → ((r >>> (21 * i)) &&& 0x1fffff#64).toNat = gauPart r.toNat i := fun i _ => by
    rw [BitVec.toNat_and, BitVec.toNat_ushiftRight, Nat.shiftRight_eq_div_pow,
      show (0x1fffff#64).toNat = 2 ^ 21 - 1 from rfl, Nat.and_two_pow_sub_one_eq_mod]
    rfl
  have e0 := hp 0 (by omega)
  have e1 := hp 1 (by omega)
  have e2 := hp 2 (by omega)
  rw [show r >>> (21 * 0) = r from BitVec.eq_of_toNat_eq (by simp)] at e0
  unfold wy2gau
  dsimp only
  rw [show (1#64 <<< 20).toNat = 2 ^ 20 from rfl, BitVec.toNat_add, BitVec.toNat_add, e0, e1, e2]
  generalize gauPart r.toNat 0 = a at *
  generalize gauPart r.toNat 1 = b at *
  generalize gauPart r.toNat 2 = c at *
  rw [Nat.mod_eq_of_lt (a := a + b) (by omega), Nat.mod_eq_of_lt (by omega)]
  generalize hn : a + b + c = n
  have hlt : n < 2 ^ 23 := by omega
  rw [fl_norm f 20 (by omega), f.exact _ (isDouble_nat n (by omega)), mul_one_div]
  have hs : IsDouble ((n : ℚ) / 2 ^ 20) := by
    have h := isDouble_scaled (n : ℤ) 20 (by rw [Nat.abs_cast]; exact_mod_cast (by omega : n < 2 ^ 53)) (by omega)
    simpa using h
  have hd : IsDouble ((n : ℚ) / 2 ^ 20 - 3) := by
    have h := isDouble_scaled ((n : ℤ) - 3 * 2 ^ 20) 20 (by rw [abs_lt]; constructor <;> omega) (by omega)
    rw [show (n : ℚ) / 2 ^ 20 - 3 = (((n : ℤ) - 3 * 2 ^ 20 : ℤ) : ℚ) / 2 ^ 20 by push_cast; ring]
    exact h
  rw [f.exact _ hs, f.exact _ hd]
  exact ite_self _

/-- C89: `wy2u01` is computed without any rounding, so that it is the same on every machine: it is the number of which
the 52 upper bits of `r` are the binary places. -/
theorem wy2u01_correct (f : Fpu) (r : U64) :
    wy2u01 f r = ((r.toNat / 2 ^ 12 : ℕ) : ℚ) / 2 ^ 52 ∧ 0 ≤ wy2u01 f r ∧ wy2u01 f r ≤ 1 - 1 / 2 ^ 52 := by
  have hr : r.toNat / 2 ^ 12 ≤ 2 ^ 52 - 1 := by have := r.isLt; omega
  have h : ((r.toNat / 2 ^ 12 : ℕ) : ℚ) ≤ 2 ^ 52 - 1 := by
    have : ((r.toNat / 2 ^ 12 : ℕ) : ℚ) ≤ ((2 ^ 52 - 1 : ℕ) : ℚ) := by exact_mod_cast hr
    refine this.trans (le_of_eq ?_)
    norm_num
  refine ⟨wy2u01_eq f r, ?_, ?_⟩
  · rw [wy2u01_eq]; exact div_nonneg (Nat.cast_nonneg _) (by norm_num)
  · rw [wy2u01_eq, div_le_iff₀ (by positivity)]
    refine h.trans (le_of_eq ?_)
    norm_num

/-- C89: `wy2u01` is uniform: of the 2^64 numbers, the same number, 2^12, gives each multiple of 2^-52 below 1. -/
theorem wy2u01_uniform (f : Fpu) (k : ℕ) (hk : k < 2 ^ 52) :
    #{n ∈ range (2 ^ 64) | wy2u01 f (BitVec.ofNat 64 n) = k / 2 ^ 52} = 2 ^ 12 := by
  have h : {n ∈ range (2 ^ 64) | wy2u01 f (BitVec.ofNat 64 n) = k / 2 ^ 52} =
      Finset.Ico (k * 2 ^ 12) (k * 2 ^ 12 + 2 ^ 12) := by
    ext n
    rw [mem_filter, mem_range, mem_Ico, wy2u01_eq, BitVec.toNat_ofNat]
    have hdiv : ∀ a b : ℕ, (a : ℚ) / 2 ^ 52 = b / 2 ^ 52 ↔ a = b := fun a b => by
      rw [div_left_inj' (by positivity), Nat.cast_inj]
    rw [hdiv]
    constructor
    · rintro ⟨h1, h2⟩
      rw [Nat.mod_eq_of_lt h1] at h2
      omega
    · rintro ⟨h1, h2⟩
      have h3 : n < 2 ^ 64 := by omega
      rw [Nat.mod_eq_of_lt h3]
      exact ⟨h3, by omega⟩
  rw [h, Nat.card_Ico, Nat.add_sub_cancel_left]

/-- C89: `wy2gau` is computed without any rounding, with or without contraction: it is the same on every machine; it is
within 3 of 0, and the upper end of the interval is not reached. -/
theorem wy2gau_correct (f : Fpu) (r : U64) :
    wy2gau f r = ((gauPart r.toNat 0 + gauPart r.toNat 1 + gauPart r.toNat 2 : ℕ) : ℚ) / 2 ^ 20 - 3 ∧
      -3 ≤ wy2gau f r ∧ wy2gau f r ≤ 3 - 3 / 2 ^ 20 := by
  refine ⟨wy2gau_eq f r, ?_, ?_⟩
  · rw [wy2gau_eq]
    have : (0 : ℚ) ≤ ((gauPart r.toNat 0 + gauPart r.toNat 1 + gauPart r.toNat 2 : ℕ) : ℚ) / 2 ^ 20 :=
      div_nonneg (Nat.cast_nonneg _) (by norm_num)
    linarith
  · rw [wy2gau_eq]
    have h0 := gauPart_lt r.toNat 0
    have h1 := gauPart_lt r.toNat 1
    have h2 := gauPart_lt r.toNat 2
    have hn : gauPart r.toNat 0 + gauPart r.toNat 1 + gauPart r.toNat 2 ≤ 6291453 := by omega
    have hq : ((gauPart r.toNat 0 + gauPart r.toNat 1 + gauPart r.toNat 2 : ℕ) : ℚ) ≤ 6291453 := by exact_mod_cast hn
    have : ((gauPart r.toNat 0 + gauPart r.toNat 1 + gauPart r.toNat 2 : ℕ) : ℚ) / 2 ^ 20 ≤ 6291453 / 2 ^ 20 :=
      div_le_div_of_nonneg_right hq (by positivity)
    refine (sub_le_sub_right this 3).trans (le_of_eq ?_)
    norm_num

/-! ## Mean and variance -/

theorem sum_range_mul' (a b : ℕ) (g : ℕ → ℚ) :
    ∑ n ∈ range (a * b), g n = ∑ i ∈ range b, ∑ j ∈ range a, g (a * i + j) := by
  induction b with
  | zero => simp
  | succ b ih => rw [Nat.mul_succ, sum_range_add, ih, sum_range_succ]

/-- Sums over all numbers with three digits in base `N` and a further one in base `T`. -/
theorem sum_digits (N T : ℕ) (hN : 0 < N) (g : ℕ → ℕ → ℕ → ℚ) :
    ∑ n ∈ range (N * (N * (N * T))), g (n % N) (n / N % N) (n / (N * N) % N) =
      T * ∑ k ∈ range N, ∑ j ∈ range N, ∑ i ∈ range N, g i j k := by
  rw [sum_range_mul', sum_range_mul', sum_range_mul']
  have : ∀ t, ∑ k ∈ range N, ∑ j ∈ range N, ∑ i ∈ range N,
      g ((N * (N * (N * t + k) + j) + i) % N) ((N * (N * (N * t + k) + j) + i) / N % N)
        ((N * (N * (N * t + k) + j) + i) / (N * N) % N) =
      ∑ k ∈ range N, ∑ j ∈ range N, ∑ i ∈ range N, g i j k := fun t => by
    refine sum_congr rfl fun k hk => sum_congr rfl fun j hj => sum_congr rfl fun i hi => ?_
    rw [mem_range] at hk hj hi
    rw [← Nat.div_div_eq_div_mul, Nat.mul_add_mod, Nat.mod_eq_of_lt hi, Nat.mul_add_div hN, Nat.div_eq_of_lt hi,
      Nat.add_zero, Nat.mul_add_mod, Nat.mod_eq_of_lt hj, Nat.mul_add_div hN, Nat.div_eq_of_lt hj, Nat.add_zero,
      Nat.mul_add_mod, Nat.mod_eq_of_lt hk]
  rw [sum_congr rfl fun t _ => this t, sum_const, card_range, nsmul_eq_mul]

theorem sum_id (N : ℕ) : ∑ i ∈ range N, (i : ℚ) = N * (N - 1) / 2 := by
  induction N with
  | zero => simp
  | succ n ih => rw [sum_range_succ, ih]; push_cast; ring

theorem sum_sq (N : ℕ) : ∑ i ∈ range N, (i : ℚ) ^ 2 = N * (N - 1) * (2 * N - 1) / 6 := by
  induction N with
  | zero => simp
  | succ n ih => rw [sum_range_succ, ih]; push_cast; ring

theorem triple_mean (N : ℕ) (c d : ℚ) :
    ∑ k ∈ range N, ∑ j ∈ range N, ∑ i ∈ range N, (((i + j + k : ℕ) : ℚ) * c - d) =
      N ^ 3 * (3 * (N - 1) / 2 * c - d) := by
  simp only [Nat.cast_add, add_mul, sum_add_distrib, sum_sub_distrib, sum_const, card_range, nsmul_eq_mul, ← sum_mul,
    ← mul_sum, sum_id]
  ring

theorem triple_var (N : ℕ) (c m : ℚ) :
    ∑ k ∈ range N, ∑ j ∈ range N, ∑ i ∈ range N, (((i + j + k : ℕ) : ℚ) * c - m) ^ 2 =
      N ^ 3 * ((N ^ 2 - 1) / 4 * c ^ 2 + (3 * (N - 1) / 2 * c - m) ^ 2) := by
  have : ∀ i j k : ℕ, (((i + j + k : ℕ) : ℚ) * c - m) ^ 2 =
      c ^ 2 * (i : ℚ) ^ 2 + c ^ 2 * (j : ℚ) ^ 2 + c ^ 2 * (k : ℚ) ^ 2 + 2 * c ^ 2 * ((j : ℚ) * i) +
        2 * c ^ 2 * ((k : ℚ) * i) + 2 * c ^ 2 * ((k : ℚ) * j) - 2 * c * m * i - 2 * c * m * j - 2 * c * m * k + m ^ 2 := by
    intro i j k; push_cast; ring
  simp only [this, sum_add_distrib, sum_sub_distrib, sum_const, card_range, nsmul_eq_mul, ← mul_sum, ← sum_mul, sum_id,
    sum_sq]
  ring

theorem sum_wy2gau (f : Fpu) (h : ℚ → ℚ) :
    ∑ n ∈ range (2 ^ 64), h (wy2gau f (BitVec.ofNat 64 n)) =
      2 * ∑ k ∈ range (2 ^ 21), ∑ j ∈ range (2 ^ 21), ∑ i ∈ range (2 ^ 21),
        h (((i + j + k : ℕ) : ℚ) * (1 / 2 ^ 20) - 3) := by
  have e := sum_digits (2 ^ 21) 2 (by positivity) fun i j k => h (((i + j + k : ℕ) : ℚ) * (1 / 2 ^ 20) - 3)
  rw [show (2 ^ 21 * (2 ^ 21 * (2 ^ 21 * 2)) : ℕ) = 2 ^ 64 by norm_num] at e
  rw [show ((2 : ℕ) : ℚ) = 2 from rfl] at e
  rw [← e]
  refine sum_congr rfl fun n hn => ?_
  rw [mem_range] at hn
  rw [wy2gau_eq, BitVec.toNat_ofNat, Nat.mod_eq_of_lt hn, mul_one_div]
  unfold gauPart
  rw [show 2 ^ (21 * 0) = 1 from rfl, Nat.div_one, show 2 ^ (21 * 1) = 2 ^ 21 from rfl,
    show 2 ^ (21 * 2) = 2 ^ 21 * 2 ^ 21 by norm_num]

/-- C89: the mean of `wy2gau` over all numbers is not 0, but -3/2^21; the variance is 1 - 2^-42. -/
theorem wy2gau_moments (f : Fpu) :
    (∑ n ∈ range (2 ^ 64), wy2gau f (BitVec.ofNat 64 n)) / 2 ^ 64 = -3 / 2 ^ 21 ∧
      (∑ n ∈ range (2 ^ 64), (wy2gau f (BitVec.ofNat 64 n) - -3 / 2 ^ 21) ^ 2) / 2 ^ 64 = 1 - 1 / 2 ^ 42 := by
  constructor
  · have := sum_wy2gau f id
    simp only [id] at this
    rw [this, triple_mean]
    norm_num
  · rw [sum_wy2gau f fun x => (x - -3 / 2 ^ 21) ^ 2]
    simp only [sub_sub]
    rw [triple_var]
    norm_num

/-- C89: the values of `wy2gau` are as frequent as their mirror images, about -3/2^21 and not about 0. -/
theorem wy2gau_symmetric (f : Fpu) (r : U64) : wy2gau f (~~~r) - -3 / 2 ^ 21 = -(wy2gau f r - -3 / 2 ^ 21) := by
  have hr := r.isLt
  have e : ∀ i, i ≤ 2 → gauPart (~~~r).toNat i + gauPart r.toNat i = 2 ^ 21 - 1 := fun i hi => by
    rw [BitVec.toNat_not]
    unfold gauPart
    obtain rfl | rfl | rfl : i = 0 ∨ i = 1 ∨ i = 2 := by omega
    all_goals simp only [Nat.mul_zero, Nat.mul_one, Nat.reduceMul, Nat.reducePow]; omega
  have h0 := e 0 (by omega)
  have h1 := e 1 (by omega)
  have h2 := e 2 (by omega)
  rw [wy2gau_eq, wy2gau_eq]
  have hs : ((gauPart (~~~r).toNat 0 + gauPart (~~~r).toNat 1 + gauPart (~~~r).toNat 2 : ℕ) : ℚ) =
      6291453 - ((gauPart r.toNat 0 + gauPart r.toNat 1 + gauPart r.toNat 2 : ℕ) : ℚ) := by
    rw [eq_sub_iff_add_eq]
    exact_mod_cast (by omega :
      gauPart (~~~r).toNat 0 + gauPart (~~~r).toNat 1 + gauPart (~~~r).toNat 2 +
        (gauPart r.toNat 0 + gauPart r.toNat 1 + gauPart r.toNat 2) = 6291453)
  rw [hs]
  ring

/-! ## Machines and numbers which meet the hypotheses -/

/-- A machine which computes all operations exactly, and contracts. -/
example : Fpu := ⟨id, fun _ _ => rfl, true⟩

open Classical in
/-- A machine which gives 0 for all results which are not numbers of the type, and does not contract. -/
noncomputable example : Fpu := ⟨fun q => if IsDouble q then q else 0, fun _ h => if_pos h, false⟩

/-- 5 · 2^-52 is one of the numbers of `wy2u01_uniform`. -/
example (f : Fpu) : wy2u01 f 0x5abc = ((5 : ℕ) : ℚ) / 2 ^ 52 := wy2u01_eq f _

example (f : Fpu) : wy2u01 f 0xffffffffffffffff = 1 - 1 / 2 ^ 52 := by
  rw [wy2u01_eq, show (0xffffffffffffffff : U64).toNat / 2 ^ 12 = 4503599627370495 from rfl]
  norm_num

example (f : Fpu) : wy2gau f 0 = -3 := by
  rw [wy2gau_eq, show gauPart (0 : U64).toNat 0 + gauPart (0 : U64).toNat 1 + gauPart (0 : U64).toNat 2 = 0 from rfl]
  norm_num

end T1ha.Props
