import Verif.Proofs.Bytes
import Verif.Model.T1ha0
import Verif.Model.T1ha1
import Verif.Model.T1ha2
import Verif.Spec

/-!
# Arithmetic helpers of the model compute what the specification says
-/

namespace T1ha.Model

variable (cfg : Cfg)

theorem rot64_eq (v : U64) (s : Nat) (h : 0 < s ∧ s < 64) : rot64 v s h = v.rotateRight s := by
  rw [rot64, BitVec.rotateRight_def, Nat.mod_eq_of_lt h.2]

theorem rot32_eq (v : U32) (s : Nat) (h : 0 < s ∧ s < 32) : rot32 v s h = v.rotateRight s := by
  rw [rot32, BitVec.rotateRight_def, Nat.mod_eq_of_lt h.2]

/-! ## Addition with carry -/

theorem addCarry_msvc32 (carry : Bool) (x y : U64) :
    msvc32_add64carry_next carry x y = addCarry 64 carry x y := by
  unfold msvc32_add64carry_next addCarry
  have hx := x.isLt
  have hy := y.isLt
  have hc : carry.toNat ≤ 1 := by cases carry <;> simp
  simp only [BitVec.toNat_setWidth, BitVec.toNat_ushiftRight, Nat.shiftRight_eq_div_pow]
  generalize hcn : carry.toNat = cn at *
  generalize hxn : x.toNat = xn at *
  generalize hyn : y.toNat = yn at *
  have hd : ∀ p : Prop, [Decidable p] → (decide p).toNat = if p then 1 else 0 := by
    intro p _; by_cases h : p <;> simp [h]
  simp only [hd, Prod.mk.injEq, decide_eq_decide]
  constructor
  · split <;> omega
  · apply BitVec.eq_of_toNat_eq
    rw [toNat_append_add]
    simp only [BitVec.toNat_add, BitVec.toNat_setWidth, BitVec.toNat_ushiftRight, BitVec.toNat_ofNat,
      Nat.shiftRight_eq_div_pow, hxn, hyn]
    split <;> omega

theorem add64carry_next_eq (carry : Bool) (x y : U64) :
    add64carry_next cfg carry x y = addCarry 64 carry x y := by
  unfold add64carry_next
  split
  · rfl
  · exact addCarry_msvc32 carry x y
  · unfold addCarry
    have hx := x.isLt
    have hy := y.isLt
    simp only [Prod.mk.injEq, and_true]
    have hs : (x + y + BitVec.ofNat 64 carry.toNat).toNat = (x.toNat + y.toNat + carry.toNat) % 2 ^ 64 := by
      simp only [BitVec.toNat_add, BitVec.toNat_ofNat]
      omega
    rw [Bool.eq_iff_iff]
    simp only [Bool.or_eq_true, decide_eq_true_eq, Bool.and_eq_true, BitVec.lt_def, ← BitVec.toNat_inj,
      hs]
    cases carry <;> simp <;> omega

theorem add64carry_first_eq (x y : U64) :
    add64carry_first cfg x y = addCarry 64 false x y := by
  unfold add64carry_first
  split
  · rfl
  · exact addCarry_msvc32 false x y
  · unfold addCarry
    have hx := x.isLt
    have hy := y.isLt
    simp only [Bool.toNat_false, BitVec.add_zero, Prod.mk.injEq, and_true,
      Nat.add_zero, decide_eq_decide, BitVec.lt_def, BitVec.toNat_add]
    omega

theorem add64carry_last_eq (carry : Bool) (x y : U64) :
    add64carry_last cfg carry x y = x + y + BitVec.ofNat 64 carry.toNat := by
  unfold add64carry_last
  split
  · rfl
  · rw [addCarry_msvc32]; rfl
  · rfl

/-! ## Multiplication -/

theorem mul_32x32_64_toNat (a b : U32) : (mul_32x32_64 a b).toNat = a.toNat * b.toNat := by
  have ha := a.isLt
  have hb := b.isLt
  rw [mul_32x32_64, BitVec.toNat_mul, BitVec.toNat_setWidth, BitVec.toNat_setWidth,
    Nat.mod_eq_of_lt (a := a.toNat) (by omega), Nat.mod_eq_of_lt (a := b.toNat) (by omega),
    Nat.mod_eq_of_lt]
  calc a.toNat * b.toNat ≤ (2 ^ 32 - 1) * (2 ^ 32 - 1) := Nat.mul_le_mul (by omega) (by omega)
    _ < 2 ^ 64 := by decide

theorem toNat_bool_decide (p : Prop) [Decidable p] : (decide p).toNat = if p then 1 else 0 := by
  by_cases h : p <;> simp [h]

/-- The portable computation, on numbers. -/
theorem portable_product (a b : Nat) (ha : a < 2 ^ 64) (hb : b < 2 ^ 64) :
    let ll := (a % 2 ^ 32) * (b % 2 ^ 32)
    let lh := (a / 2 ^ 32) * (b % 2 ^ 32)
    let hl := (a % 2 ^ 32) * (b / 2 ^ 32)
    let hh := (a / 2 ^ 32) * (b / 2 ^ 32)
    ll ≤ (2 ^ 32 - 1) * (2 ^ 32 - 1) ∧ lh ≤ (2 ^ 32 - 1) * (2 ^ 32 - 1) ∧
    hl ≤ (2 ^ 32 - 1) * (2 ^ 32 - 1) ∧ hh ≤ (2 ^ 32 - 1) * (2 ^ 32 - 1) ∧
    a * b = ll + 2 ^ 32 * lh + 2 ^ 32 * hl + 2 ^ 64 * hh := by
  intro ll lh hl hh
  refine ⟨Nat.mul_le_mul ?_ ?_, Nat.mul_le_mul ?_ ?_, Nat.mul_le_mul ?_ ?_, Nat.mul_le_mul ?_ ?_, ?_⟩
  iterate 8 omega
  conv => lhs; rw [← Nat.div_add_mod a (2 ^ 32), ← Nat.div_add_mod b (2 ^ 32)]
  simp only [ll, lh, hl, hh]
  generalize a / 2 ^ 32 = a1
  generalize a % 2 ^ 32 = a0
  generalize b / 2 ^ 32 = b1
  generalize b % 2 ^ 32 = b0
  simp only [Nat.add_mul, Nat.mul_add]
  rw [show (2 : Nat) ^ 64 = 2 ^ 32 * 2 ^ 32 by rfl]
  simp only [Nat.mul_assoc, Nat.mul_left_comm a1, Nat.mul_left_comm a0]
  omega

theorem mul_64x64_128_eq (a b : U64) : mul_64x64_128 cfg a b = Spec.product a b := by
  have ha := a.isLt
  have hb := b.isLt
  have hab : a.toNat * b.toNat < 2 ^ 128 := by
    calc a.toNat * b.toNat ≤ (2 ^ 64 - 1) * (2 ^ 64 - 1) := Nat.mul_le_mul (by omega) (by omega)
      _ < 2 ^ 128 := by decide
  have h128 : (a.setWidth 128 * b.setWidth 128 : U128).toNat = a.toNat * b.toNat := by
    rw [BitVec.toNat_mul, BitVec.toNat_setWidth, BitVec.toNat_setWidth,
      Nat.mod_eq_of_lt (a := a.toNat) (by omega), Nat.mod_eq_of_lt (a := b.toNat) (by omega),
      Nat.mod_eq_of_lt hab]
  have hint : ((a.setWidth 128 * b.setWidth 128 : U128).setWidth 64,
      ((a.setWidth 128 * b.setWidth 128 : U128) >>> 64).setWidth 64) = Spec.product a b := by
    unfold Spec.product
    simp only [Prod.mk.injEq]
    constructor
    · apply BitVec.eq_of_toNat_eq
      rw [BitVec.toNat_setWidth, h128, BitVec.toNat_ofNat]
    · apply BitVec.eq_of_toNat_eq
      rw [BitVec.toNat_setWidth, BitVec.toNat_ushiftRight, h128, BitVec.toNat_ofNat,
        Nat.shiftRight_eq_div_pow]
  unfold mul_64x64_128
  split
  · exact hint
  · exact hint
  · unfold Spec.product
    simp only [Prod.mk.injEq, and_true]
    apply BitVec.eq_of_toNat_eq
    rw [BitVec.toNat_mul, BitVec.toNat_ofNat]
  · simp only [add64carry_first_eq, add64carry_last_eq]
    have key := portable_product a.toNat b.toNat ha hb
    generalize hll : mul_32x32_64 (a.setWidth 32) (b.setWidth 32) = ll
    generalize hlh : mul_32x32_64 ((a >>> 32).setWidth 32) (b.setWidth 32) = lh
    generalize hhl : mul_32x32_64 (a.setWidth 32) ((b >>> 32).setWidth 32) = hl
    generalize hhh : mul_32x32_64 ((a >>> 32).setWidth 32) ((b >>> 32).setWidth 32) = hh
    have ell : ll.toNat = a.toNat % 2 ^ 32 * (b.toNat % 2 ^ 32) := by
      rw [← hll, mul_32x32_64_toNat, BitVec.toNat_setWidth, BitVec.toNat_setWidth]
    have elh : lh.toNat = a.toNat / 2 ^ 32 * (b.toNat % 2 ^ 32) := by
      rw [← hlh, mul_32x32_64_toNat, BitVec.toNat_setWidth, BitVec.toNat_setWidth,
        BitVec.toNat_ushiftRight, Nat.shiftRight_eq_div_pow, Nat.mod_eq_of_lt (a := a.toNat / 2 ^ 32)]
      omega
    have ehl : hl.toNat = a.toNat % 2 ^ 32 * (b.toNat / 2 ^ 32) := by
      rw [← hhl, mul_32x32_64_toNat, BitVec.toNat_setWidth, BitVec.toNat_setWidth,
        BitVec.toNat_ushiftRight, Nat.shiftRight_eq_div_pow, Nat.mod_eq_of_lt (a := b.toNat / 2 ^ 32)]
      omega
    have ehh : hh.toNat = a.toNat / 2 ^ 32 * (b.toNat / 2 ^ 32) := by
      rw [← hhh, mul_32x32_64_toNat, BitVec.toNat_setWidth, BitVec.toNat_setWidth,
        BitVec.toNat_ushiftRight, BitVec.toNat_ushiftRight, Nat.shiftRight_eq_div_pow,
        Nat.shiftRight_eq_div_pow, Nat.mod_eq_of_lt (a := a.toNat / 2 ^ 32) (by omega),
        Nat.mod_eq_of_lt (a := b.toNat / 2 ^ 32) (by omega)]
    simp only [← ell, ← elh, ← ehl, ← ehh] at key
    obtain ⟨k1, k2, k3, k4, k5⟩ := key
    clear hll hlh hhl hhh ell elh ehl ehh hint h128
    have s1 : (lh <<< 32).toNat = lh.toNat % 2 ^ 32 * 2 ^ 32 := by
      rw [BitVec.toNat_shiftLeft, Nat.shiftLeft_eq]; omega
    have s2 : (hl <<< 32).toNat = hl.toNat % 2 ^ 32 * 2 ^ 32 := by
      rw [BitVec.toNat_shiftLeft, Nat.shiftLeft_eq]; omega
    have s3 : (lh >>> 32).toNat = lh.toNat / 2 ^ 32 := by
      rw [BitVec.toNat_ushiftRight, Nat.shiftRight_eq_div_pow]
    have s4 : (hl >>> 32).toNat = hl.toNat / 2 ^ 32 := by
      rw [BitVec.toNat_ushiftRight, Nat.shiftRight_eq_div_pow]
    have ac : ∀ x y : U64, (addCarry 64 false x y).1.toNat = (x.toNat + y.toNat) / 2 ^ 64 ∧
        (addCarry 64 false x y).2.toNat = (x.toNat + y.toNat) % 2 ^ 64 := by
      intro x y
      have hx := x.isLt
      have hy := y.isLt
      unfold addCarry
      simp only [Bool.toNat_false, BitVec.add_zero, Nat.add_zero, toNat_bool_decide, BitVec.toNat_add,
        and_true]
      split <;> omega
    obtain ⟨c1, l1⟩ := ac ll (lh <<< 32)
    generalize addCarry 64 false ll (lh <<< 32) = x1 at *
    obtain ⟨c2, l2⟩ := ac x1.2 (hl <<< 32)
    generalize addCarry 64 false x1.2 (hl <<< 32) = x2 at *
    clear ac
    rw [l1] at c2 l2
    rw [s1] at c1 c2 l2
    rw [s2] at c2 l2
    unfold Spec.product
    rw [k5]
    clear k5 hab l1
    generalize ll.toNat = nll at *
    generalize hlh : lh.toNat = nlh at *
    generalize hhl : hl.toNat = nhl at *
    generalize hhh : hh.toNat = nhh at *
    refine Prod.ext (BitVec.eq_of_toNat_eq ?_) (BitVec.eq_of_toNat_eq ?_)
    · rw [BitVec.toNat_ofNat, l2]; omega
    · simp only [BitVec.toNat_add, BitVec.toNat_ofNat, s3, s4, hhh]
      rw [c1, c2]
      omega

/-! ## Mixers -/

theorem primes : prime_0 = Spec.prime0 ∧ prime_1 = Spec.prime1 ∧ prime_2 = Spec.prime2 ∧
    prime_3 = Spec.prime3 ∧ prime_4 = Spec.prime4 ∧ prime_5 = Spec.prime5 ∧ prime_6 = Spec.prime6 :=
  ⟨rfl, rfl, rfl, rfl, rfl, rfl, rfl⟩

theorem mux64_eq (v p : U64) : mux64 cfg v p = Spec.mux v p := by
  rw [mux64, mul_64x64_128_eq]; rfl

theorem mixup64_eq (a b v p : U64) : mixup64 cfg a b v p = Spec.mix a b v p := by
  rw [mixup64, mul_64x64_128_eq]; rfl

theorem final64_eq (a b : U64) : final64 cfg a b = Spec.final64 (a, b) := by
  rw [final64, mux64_eq]; simp only [rot64_eq]; rfl

theorem final_weak_avalanche_eq (a b : U64) : final_weak_avalanche cfg a b = Spec.t1ha1Final (a, b) := by
  rw [final_weak_avalanche, mux64_eq, mix64]; simp only [rot64_eq]; rfl

/-- The state of the specification. -/
def State256.spec (s : State256) : Spec.State := ⟨s.a, s.b, s.c, s.d⟩

theorem final128_eq (a b c d : U64) : final128 cfg a b c d = Spec.final128 ⟨a, b, c, d⟩ := by
  simp only [final128, mixup64_eq, rot64_eq]; rfl

theorem squash_eq (s : State256) : (squash s).spec = Spec.squash s.spec := by
  simp only [squash, rot64_eq]; rfl

theorem init_eq (g : State256) (x y : U64) : (init_cd (init_ab g x y) x y).spec = Spec.init x y := by
  simp only [init_cd, init_ab, rot64_eq]; rfl

theorem mixup32_eq (a b v p : U32) : mixup32 a b v p = Spec.mix32 a b v p := by
  unfold mixup32 Spec.mix32
  have h := mul_32x32_64_toNat (b + v) p
  simp only [Prod.mk.injEq]
  constructor
  · congr 1
    apply BitVec.eq_of_toNat_eq
    rw [BitVec.toNat_setWidth, h, BitVec.toNat_ofNat]
  · congr 1
    apply BitVec.eq_of_toNat_eq
    rw [BitVec.toNat_setWidth, BitVec.toNat_ushiftRight, h, BitVec.toNat_ofNat,
      Nat.shiftRight_eq_div_pow]

theorem final32_eq (a b : U32) : final32 a b = Spec.final32 (a, b) := by
  unfold final32 Spec.final32
  have h : (b ^^^ rot32 a 13).setWidth 64 ||| a.setWidth 64 <<< 32 = a ++ (b ^^^ a.rotateRight 13) := by
    rw [rot32_eq, BitVec.append_def]
    simp only [BitVec.shiftLeftZeroExtend_eq]
    rw [BitVec.or_comm]
    rfl
  rw [h]
  rfl

end T1ha.Model
