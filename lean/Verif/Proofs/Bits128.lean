import Verif.Model.Bits128
import Verif.Proofs.Arith
import Mathlib.Tactic.Ring

/-!
# The 128-bit helpers
-/

namespace T1ha.Model

variable {cfg : Cfg} {native : Bool}

theorem bit_v (x : Uint128) (i : Nat) :
    x.v.getLsbD i = if i < 64 then x.l.getLsbD i else x.h.getLsbD (i - 64) :=
  BitVec.getLsbD_append (x := x.h) (y := x.l) (i := i)

theorem ofV_v (x : U128) : (Uint128.ofV x).v = x := by
  apply BitVec.eq_of_getLsbD_eq
  intro i hi
  rw [bit_v]
  simp only [Uint128.ofV, BitVec.getLsbD_setWidth, BitVec.getLsbD_ushiftRight]
  by_cases h : i < 64
  · simp [h]
  · simp [h, show i - 64 < 64 by omega, show 64 + (i - 64) = i by omega]

theorem v_ofV (x : Uint128) : Uint128.ofV x.v = x := by
  have hl : (Uint128.ofV x.v).l = x.l := by
    apply BitVec.eq_of_getLsbD_eq
    intro i hi
    simp only [Uint128.ofV, BitVec.getLsbD_setWidth, bit_v, hi, decide_true, Bool.true_and, if_true]
  have hh : (Uint128.ofV x.v).h = x.h := by
    apply BitVec.eq_of_getLsbD_eq
    intro i hi
    simp only [Uint128.ofV, BitVec.getLsbD_setWidth, BitVec.getLsbD_ushiftRight, bit_v, hi, decide_true,
      Bool.true_and]
    rw [if_neg (by omega), show 64 + i - 64 = i by omega]
  revert hl hh
  cases Uint128.ofV x.v
  cases x
  rintro ⟨⟩ ⟨⟩
  rfl

theorem v_inj {x y : Uint128} (h : x.v = y.v) : x = y := by
  rw [← v_ofV x, ← v_ofV y, h]

theorem toNat_v (x : Uint128) : x.v.toNat = x.h.toNat * 2 ^ 64 + x.l.toNat := toNat_append_add _ _

theorem not128_v (x : Uint128) : (not128 native x).v = ~~~x.v := by
  unfold not128
  cases native
  · apply BitVec.eq_of_getLsbD_eq
    intro i hi
    simp only [Bool.false_eq_true, if_false, bit_v, BitVec.getLsbD_not, hi]
    split
    · simp [*]
    · simp [show i - 64 < 64 by omega]
  · simp [ofV_v]

theorem or128_v (x y : Uint128) : (or128 native x y).v = x.v ||| y.v := by
  unfold or128
  cases native
  · apply BitVec.eq_of_getLsbD_eq
    intro i hi
    simp only [Bool.false_eq_true, if_false, bit_v, BitVec.getLsbD_or]
    split <;> rfl
  · simp [ofV_v]

theorem xor128_v (x y : Uint128) : (xor128 native x y).v = x.v ^^^ y.v := by
  unfold xor128
  cases native
  · apply BitVec.eq_of_getLsbD_eq
    intro i hi
    simp only [Bool.false_eq_true, if_false, bit_v, BitVec.getLsbD_xor]
    split <;> rfl
  · simp [ofV_v]

theorem add128_v (x y : Uint128) : (add128 cfg native x y).v = x.v + y.v := by
  unfold add128
  cases native
  · simp only [Bool.false_eq_true, if_false]
    apply BitVec.eq_of_toNat_eq
    rw [toNat_v, BitVec.toNat_add, toNat_v, toNat_v, add64carry_first_eq, add64carry_last_eq]
    have h1 := x.l.isLt
    have h2 := y.l.isLt
    have h3 := x.h.isLt
    have h4 := y.h.isLt
    simp only [addCarry, BitVec.toNat_add, BitVec.toNat_ofNat, toNat_bool_decide, Bool.toNat_false]
    split <;> omega
  · simp [ofV_v]

theorem mul128_v (x y : Uint128) : (mul128 cfg native x y).v = x.v * y.v := by
  unfold mul128
  cases native
  · simp only [Bool.false_eq_true, if_false]
    apply BitVec.eq_of_toNat_eq
    rw [toNat_v, BitVec.toNat_mul, toNat_v, toNat_v, mul_64x64_128_eq]
    simp only [Spec.product, BitVec.toNat_add, BitVec.toNat_mul, BitVec.toNat_ofNat]
    generalize x.l.toNat = a
    generalize y.l.toNat = b
    generalize x.h.toNat = c
    generalize y.h.toNat = d
    have e : (c * 2 ^ 64 + a) * (d * 2 ^ 64 + b) =
        c * d * 2 ^ 128 + (a * d + b * c) * 2 ^ 64 + a * b := by ring
    rw [e]
    generalize a * d = p
    generalize b * c = q
    generalize a * b = r
    generalize c * d = s
    omega
  · simp [ofV_v]

/-- The model runs without effect on memory and yields `v`. -/
theorem shl_lt {n : Nat} (x : BitVec n) {s : Nat} (h : s < n) : shl x s = pure (x <<< s) := if_pos h

theorem shr_lt {n : Nat} (x : BitVec n) {s : Nat} (h : s < n) : shr x s = pure (x >>> s) := if_pos h

theorem cassert_true {b : Bool} (h : b = true) : cassert cfg b = pure () := by
  unfold cassert
  rw [h]
  split <;> rfl

theorem left128_eq (x : Uint128) {s : Nat} (hs : s < 128) :
    left128 cfg native x s = pure (Uint128.ofV (x.v <<< s)) := by
  unfold left128
  rw [cassert_true (by simp [hs]), pure_bind]
  cases native
  · simp only [Bool.false_eq_true, if_false]
    by_cases h : s < 64
    · by_cases h0 : s = 0
      · subst h0
        simp only [h, if_true, ne_eq, not_true, if_false, shl_lt _ h, pure_bind, BitVec.shiftLeft_zero,
          v_ofV, show ∀ y : U64, y ||| 0 = y from fun y => BitVec.or_zero]
      · simp only [h, if_true, ne_eq, h0, not_false_iff, shl_lt _ h, shr_lt _ (show 64 - s < 64 by omega),
          pure_bind]
        congr 1
        apply v_inj
        rw [ofV_v]
        apply BitVec.eq_of_getLsbD_eq
        intro i hi
        simp only [bit_v, BitVec.getLsbD_shiftLeft, BitVec.getLsbD_or,
          BitVec.getLsbD_ushiftRight]
        by_cases h1 : i < 64
        · by_cases h2 : i < s
          · simp [h1, h2, hi]
          · simp [h1, h2, hi, show i - s < 64 by omega]
        · by_cases h2 : i - 64 < s
          · have : i - s < 64 := by omega
            simp [h1, h2, hi, this, show i - 64 < 64 by omega, show ¬ i < s by omega,
              show 64 - s + (i - 64) = i - s by omega]
          · have : ¬ i - s < 64 := by omega
            simp [h1, h2, hi, this, show i - 64 < 64 by omega, show ¬ i < s by omega,
              show i - 64 - s = i - s - 64 by omega,
              BitVec.getLsbD_of_ge x.l (64 - s + (i - 64)) (by omega)]
    · simp only [h, if_false, shl_lt _ (show s - 64 < 64 by omega), pure_bind]
      congr 1
      apply v_inj
      rw [ofV_v]
      apply BitVec.eq_of_getLsbD_eq
      intro i hi
      simp only [bit_v, BitVec.getLsbD_shiftLeft]
      by_cases h1 : i < 64
      · simp [h1, show i < s by omega]
      · by_cases h2 : i < s
        · simp [h1, h2, show i - 64 < s - 64 by omega]
        · simp [h1, h2, hi, show i - 64 < 64 by omega, show ¬ i - 64 < s - 64 by omega,
            show i - s < 64 by omega, show i - 64 - (s - 64) = i - s by omega]
  · simp only [if_true, shl_lt _ hs, pure_bind]

theorem right128_eq (x : Uint128) {s : Nat} (hs : s < 128) :
    right128 cfg native x s = pure (Uint128.ofV (x.v >>> s)) := by
  unfold right128
  rw [cassert_true (by simp [hs]), pure_bind]
  cases native
  · simp only [Bool.false_eq_true, if_false]
    by_cases h : s < 64
    · by_cases h0 : s = 0
      · subst h0
        simp only [h, if_true, ne_eq, not_true, if_false, shr_lt _ h, pure_bind,
          BitVec.ushiftRight_zero, v_ofV, show ∀ y : U64, 0 ||| y = y from fun y => BitVec.zero_or]
      · simp only [h, if_true, ne_eq, h0, not_false_iff, shr_lt _ h, shl_lt _ (show 64 - s < 64 by omega),
          pure_bind]
        congr 1
        apply v_inj
        rw [ofV_v]
        apply BitVec.eq_of_getLsbD_eq
        intro i hi
        simp only [bit_v, BitVec.getLsbD_shiftLeft, BitVec.getLsbD_or,
          BitVec.getLsbD_ushiftRight]
        by_cases h1 : i < 64
        · by_cases h2 : s + i < 64
          · simp [h1, h2, show i < 64 - s by omega]
          · simp [h1, h2, show ¬ i < 64 - s by omega, show i - (64 - s) = s + i - 64 by omega,
              BitVec.getLsbD_of_ge x.l (s + i) (by omega)]
        · simp [h1, show ¬ s + i < 64 by omega, show s + (i - 64) = s + i - 64 by omega]
    · simp only [h, if_false, shr_lt _ (show s - 64 < 64 by omega), pure_bind]
      congr 1
      apply v_inj
      rw [ofV_v]
      apply BitVec.eq_of_getLsbD_eq
      intro i hi
      simp only [bit_v, BitVec.getLsbD_ushiftRight]
      by_cases h1 : i < 64
      · simp [h1, show ¬ s + i < 64 by omega, show s - 64 + i = s + i - 64 by omega]
      · simp [h1, show ¬ s + i < 64 by omega, BitVec.getLsbD_of_ge x.h (s + i - 64) (by omega)]
  · simp only [if_true, shr_lt _ hs, pure_bind]

theorem and_127 (s : Nat) : s &&& 127 = s % 128 := Nat.and_two_pow_sub_one_eq_mod s 7

theorem rot128_eq (x : Uint128) {s : Nat} (hs : native = true → s % 128 ≠ 0) :
    rot128 cfg native x s = pure (Uint128.ofV (x.v.rotateRight s)) := by
  unfold rot128
  have hlt : s % 128 < 128 := Nat.mod_lt _ (by decide)
  rw [and_127, BitVec.rotateRight_def]
  cases native
  · simp only [Bool.false_eq_true, if_false]
    by_cases h : s % 128 = 0
    · simp [h, v_ofV]
    · rw [if_pos h, left128_eq _ (by omega), right128_eq _ hlt, pure_bind, pure_bind]
      congr 1
      apply v_inj
      rw [or128_v, ofV_v, ofV_v, ofV_v, BitVec.or_comm]
  · have := hs rfl
    simp only [if_true, shl_lt _ (show 128 - s % 128 < 128 by omega), shr_lt _ hlt, pure_bind]
    rw [BitVec.or_comm]

end T1ha.Model
