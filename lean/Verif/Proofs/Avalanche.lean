import Verif.Spec
import Mathlib.Data.Set.Card
import Mathlib.Data.FinEnum
import Mathlib.Order.Interval.Finset.Nat

/-!
# The lowest bit of `t1ha1` and the highest bit of the seed: proofs about the specification
-/

namespace T1ha

/-- The lowest bit of a sum -/
theorem bit0_add (x y : U64) : (x + y).getLsbD 0 = (x.getLsbD 0 ^^ y.getLsbD 0) := by
  rw [BitVec.getLsbD_add (by decide)]
  simp

theorem and_twoPow (x : U64) (k : Nat) (h : x.getLsbD k = false) : x &&& BitVec.twoPow 64 k = 0#64 := by
  ext i hi
  simp only [BitVec.getElem_and, BitVec.getElem_twoPow, BitVec.getElem_zero]
  by_cases hk : i = k
  · subst hk
    rw [BitVec.getLsbD_eq_getElem hi] at h
    rw [h]; rfl
  · simp [hk]

theorem xor_twoPow (x : U64) (k : Nat) (h : x.getLsbD k = false) :
    x ^^^ BitVec.twoPow 64 k = x + BitVec.twoPow 64 k := by
  rw [BitVec.add_eq_or_of_and_eq_zero _ _ (and_twoPow x k h)]
  apply BitVec.eq_of_getLsbD_eq
  intro i hi
  rw [BitVec.getLsbD_xor, BitVec.getLsbD_or, BitVec.getLsbD_twoPow]
  by_cases hk : k = i
  · subst hk
    rw [h]; simp
  · simp [hk]

/-- Flipping a bit which is not set -/
theorem toNat_xor_twoPow (x : U64) (k : Nat) (hk : k < 64) (h : x.getLsbD k = false) :
    (x ^^^ BitVec.twoPow 64 k).toNat = x.toNat + 2 ^ k := by
  rw [xor_twoPow x k h, BitVec.toNat_add_of_and_eq_zero (and_twoPow x k h), BitVec.toNat_twoPow,
    Nat.mod_eq_of_lt (Nat.pow_lt_pow_right (by decide) hk)]

/-- Flipping a bit which is set -/
theorem toNat_xor_twoPow' (x : U64) (k : Nat) (hk : k < 64) (h : x.getLsbD k = true) :
    (x ^^^ BitVec.twoPow 64 k).toNat + 2 ^ k = x.toNat := by
  have h1 : (x ^^^ BitVec.twoPow 64 k).getLsbD k = false := by
    rw [BitVec.getLsbD_xor, h, BitVec.getLsbD_twoPow]; simp [hk]
  rw [← toNat_xor_twoPow _ k hk h1, BitVec.xor_assoc, BitVec.xor_self, BitVec.xor_zero]

/-- Flipping the highest bit is an addition. -/
theorem xor_twoPow_top (x : U64) : x ^^^ BitVec.twoPow 64 63 = x + BitVec.twoPow 64 63 := by
  rcases h : x.getLsbD 63
  · exact xor_twoPow x 63 h
  · have h1 : (x ^^^ BitVec.twoPow 64 63).getLsbD 63 = false := by
      rw [BitVec.getLsbD_xor, h]; rfl
    have h2 := xor_twoPow _ 63 h1
    rw [BitVec.xor_assoc, BitVec.xor_self, BitVec.xor_zero] at h2
    conv_rhs => rw [h2]
    rw [BitVec.add_assoc, show BitVec.twoPow 64 63 + BitVec.twoPow 64 63 = 0#64 by decide, BitVec.add_zero]

/-- Flipping the highest bit of one operand -/
theorem add_top (a b : U64) :
    ((a ^^^ BitVec.twoPow 64 63) + b).rotateRight 17 = (a + b).rotateRight 17 ^^^ BitVec.twoPow 64 46 := by
  have h : (a ^^^ BitVec.twoPow 64 63) + b = (a + b) ^^^ BitVec.twoPow 64 63 := by
    rw [xor_twoPow_top, xor_twoPow_top, BitVec.add_assoc, BitVec.add_comm _ b, ← BitVec.add_assoc]
  rw [h]
  generalize a + b = x
  ext i hi
  simp only [BitVec.getElem_rotateRight, BitVec.getElem_xor, BitVec.getElem_twoPow]
  split
  · congr 1; simp; omega
  · congr 1; simp; omega

/-- The part of `t1ha1Final` which is a multiplication modulo 2^64: its lowest bit does not depend on the
highest bit. -/
theorem mix_top (x : U64) (p : U64) :
    ((((x ^^^ BitVec.twoPow 64 63) * p) ^^^ ((x ^^^ BitVec.twoPow 64 63) * p).rotateRight 41).getLsbD 0) =
      (x * p ^^^ (x * p).rotateRight 41).getLsbD 0 := by
  have h : (x ^^^ BitVec.twoPow 64 63) * p = x * p + BitVec.twoPow 64 63 * p := by
    rw [xor_twoPow_top, BitVec.add_mul]
  have h2 : ∀ i, i < 63 → ((x ^^^ BitVec.twoPow 64 63) * p).getLsbD i = (x * p).getLsbD i := by
    intro i hi
    rw [h]
    simp only [BitVec.getLsbD, BitVec.toNat_add, BitVec.toNat_mul, BitVec.toNat_twoPow]
    generalize x.toNat * p.toNat % 2 ^ 64 = u
    rw [Nat.testBit_mod_two_pow]
    simp only [show i < 64 by omega, decide_true, Bool.true_and]
    generalize hv : 2 ^ 63 % 2 ^ 64 * p.toNat % 2 ^ 64 = v
    have h3 : (u + v) % 2 ^ 63 = u % 2 ^ 63 := by omega
    have h4 : ∀ n : Nat, n.testBit i = (n % 2 ^ 63).testBit i := by
      intro n; rw [Nat.testBit_mod_two_pow, decide_eq_true hi, Bool.true_and]
    rw [h4, h3, ← h4]
  have r0 : ∀ y : U64, (y.rotateRight 41).getLsbD 0 = y.getLsbD 41 := by
    intro y; rw [BitVec.getLsbD_rotateRight]; rfl
  rw [BitVec.getLsbD_xor, BitVec.getLsbD_xor, r0, r0, h2 0 (by decide), h2 41 (by decide)]

theorem mux_bit0 (x p : U64) :
    (Spec.mux x p).getLsbD 0 = decide ((x.toNat * p.toNat + x.toNat * p.toNat / 2 ^ 64) % 2 = 1) := by
  unfold Spec.mux Spec.product
  dsimp only
  rw [BitVec.getLsbD_xor, BitVec.getLsbD_ofNat, BitVec.getLsbD_ofNat, Nat.testBit_zero, Nat.testBit_zero]
  generalize x.toNat * p.toNat = n
  rcases Nat.mod_two_eq_zero_or_one n with h | h <;>
    rcases Nat.mod_two_eq_zero_or_one (n / 2 ^ 64) with h' | h' <;>
    rw [Nat.add_mod, h, h'] <;> decide

theorem prime4_toNat : Spec.prime4.toNat = 0x9C06FAF4D023E3AB := rfl

/-- A factor which is larger by 2^46: the high half of the product grows by an odd number. -/
theorem high_add (u v d : Nat) (hv : v = u + 2 ^ 64 * (2 * d) + 254891 * 2 ^ 46)
    (h : 2 ^ 64 ≤ u % 2 ^ 64 + 254891 * 2 ^ 46) :
    ((u + u / 2 ^ 64) % 2 = 1) ≠ ((v + v / 2 ^ 64) % 2 = 1) := by
  intro hc
  have h1 := iff_of_eq hc
  have h2 : v / 2 ^ 64 = u / 2 ^ 64 + (2 * d + 1) := by omega
  have h3 : v % 2 = u % 2 := by omega
  omega

theorem mul_prime4 (n : Nat) : (n + 2 ^ 46) * Spec.prime4.toNat =
    n * Spec.prime4.toNat + 2 ^ 64 * (2 * 21444224260612) + 254891 * 2 ^ 46 := by
  rw [Nat.add_mul, Nat.add_assoc]
  rfl

/-- The high half of the product changes its parity for most of the factors when bit 46 is flipped. -/
theorem high_parity (r : U64) (h1 : 7253 * 2 ^ 46 ≤ r.toNat * Spec.prime4.toNat % 2 ^ 64)
    (h2 : r.toNat * Spec.prime4.toNat % 2 ^ 64 < 254891 * 2 ^ 46) :
    (Spec.mux (r ^^^ BitVec.twoPow 64 46) Spec.prime4).getLsbD 0 ≠ (Spec.mux r Spec.prime4).getLsbD 0 := by
  rw [mux_bit0, mux_bit0, ne_eq, decide_eq_decide]
  intro h
  rcases hb : r.getLsbD 46
  · rw [toNat_xor_twoPow r 46 (by decide) hb] at h
    exact high_add _ _ _ (mul_prime4 r.toNat) (by omega) (propext h.symm)
  · have h4 := toNat_xor_twoPow' r 46 (by decide) hb
    rw [← h4] at h1 h2 h
    refine high_add _ _ _ (mul_prime4 _) ?_ (propext h)
    rw [mul_prime4] at h1 h2
    generalize (r ^^^ BitVec.twoPow 64 46).toNat * Spec.prime4.toNat = u at *
    omega

/-- What the lowest bit of the result does when the highest bit of the first operand is flipped. -/
theorem t1ha1Final_top (a b : U64)
    (h1 : 7253 * 2 ^ 46 ≤ ((a + b).rotateRight 17).toNat * Spec.prime4.toNat % 2 ^ 64)
    (h2 : ((a + b).rotateRight 17).toNat * Spec.prime4.toNat % 2 ^ 64 < 254891 * 2 ^ 46) :
    (Spec.t1ha1Final (a ^^^ BitVec.twoPow 64 63, b)).getLsbD 0 ≠ (Spec.t1ha1Final (a, b)).getLsbD 0 := by
  unfold Spec.t1ha1Final
  dsimp only
  rw [bit0_add, bit0_add, add_top,
    show a ^^^ BitVec.twoPow 64 63 ^^^ b = (a ^^^ b) ^^^ BitVec.twoPow 64 63 by
      rw [BitVec.xor_assoc, BitVec.xor_comm _ b, ← BitVec.xor_assoc], mix_top]
  intro h
  exact high_parity _ h1 h2 (by simpa using h)

/-- The words of the message are added to the operands, whatever these are. -/
theorem t1ha1Tail_add (ws : List U64) : ∃ x y : U64, ∀ a b, Spec.t1ha1Tail ws (a, b) = (a + x, b + y) := by
  induction ws with
  | nil => exact ⟨0, 0, fun a b => by simp [Spec.t1ha1Tail]⟩
  | cons w ws ih =>
    obtain ⟨x, y, h⟩ := ih
    by_cases hl : ws.length % 2 = 1
    · refine ⟨x, Spec.mux w (Spec.tailPrime ws.length) + y, fun a b => ?_⟩
      simp only [Spec.t1ha1Tail, if_pos hl, h, BitVec.add_assoc]
    · refine ⟨Spec.mux w (Spec.tailPrime ws.length) + x, y, fun a b => ?_⟩
      simp only [Spec.t1ha1Tail, if_neg hl, h, BitVec.add_assoc]

/-- The inverse of `prime4` modulo 2^64 -/
def prime4Inv : Nat := 7847789401599377155

/-- The seed for which the low half of the product is `l`. -/
def seedOf (x y : U64) (l : Nat) : U64 := (BitVec.ofNat 64 (l * prime4Inv)).rotateLeft 17 - y - x

theorem seedOf_low (x y : U64) (l : Nat) (hl : l < 2 ^ 64) :
    ((seedOf x y l + x + y).rotateRight 17).toNat * Spec.prime4.toNat % 2 ^ 64 = l := by
  have h : seedOf x y l + x + y = (BitVec.ofNat 64 (l * prime4Inv)).rotateLeft 17 := by
    unfold seedOf
    rw [BitVec.sub_add_cancel, BitVec.sub_add_cancel]
  have h2 : ∀ z : U64, (z.rotateLeft 17).rotateRight 17 = z := by
    intro z
    apply BitVec.eq_of_getLsbD_eq
    intro i hi
    rw [BitVec.getLsbD_rotateRight]
    by_cases h3 : i < 64 - 17 % 64
    · rw [decide_eq_true h3, cond_true, BitVec.getLsbD_rotateLeft, decide_eq_false (by omega), cond_false,
        decide_eq_true (by omega), Bool.true_and]
      congr 1; omega
    · rw [decide_eq_false h3, cond_false, decide_eq_true hi, Bool.true_and, BitVec.getLsbD_rotateLeft,
        decide_eq_true (by omega), cond_true]
      congr 1; omega
  rw [h, h2, BitVec.toNat_ofNat, prime4_toNat, Nat.mod_mul_mod, Nat.mul_assoc, Nat.mul_mod,
    show prime4Inv * 0x9C06FAF4D023E3AB % 2 ^ 64 = 1 by decide +kernel, Nat.mul_one, Nat.mod_mod,
    Nat.mod_eq_of_lt hl]

/-- For most of the seeds the lowest bit of the hash of a short message is flipped with the highest bit of the
seed. -/
theorem t1ha1_flips (e : Endian) (m : List Byte) (h : m.length ≤ 32) :
    247638 * 2 ^ 46 ≤ {seed : U64 | (Spec.t1ha1 e m (seed ^^^ BitVec.twoPow 64 63)).getLsbD 0 ≠
      (Spec.t1ha1 e m seed).getLsbD 0}.ncard := by
  obtain ⟨x, y, hxy⟩ := t1ha1Tail_add (Spec.words64 e m)
  have hv : ∀ seed, Spec.t1ha1 e m seed = Spec.t1ha1Final (seed + x, Spec.len64 m + y) := by
    intro seed
    rw [Spec.t1ha1, if_neg (by omega), hxy]
  let f := seedOf x (Spec.len64 m + y)
  have hlow : ∀ l, l < 2 ^ 64 →
      ((f l + x + (Spec.len64 m + y)).rotateRight 17).toNat * Spec.prime4.toNat % 2 ^ 64 = l :=
    fun l hl => seedOf_low x (Spec.len64 m + y) l hl
  have hsub : f '' (Finset.Ico (7253 * 2 ^ 46) (254891 * 2 ^ 46) : Finset Nat) ⊆
      {seed : U64 | (Spec.t1ha1 e m (seed ^^^ BitVec.twoPow 64 63)).getLsbD 0 ≠
        (Spec.t1ha1 e m seed).getLsbD 0} := by
    rintro _ ⟨l, hl, rfl⟩
    rw [Finset.mem_coe, Finset.mem_Ico] at hl
    have h3 := hlow l (by omega)
    have h4 : (f l ^^^ BitVec.twoPow 64 63) + x = (f l + x) ^^^ BitVec.twoPow 64 63 := by
      rw [xor_twoPow_top, xor_twoPow_top, BitVec.add_assoc, BitVec.add_comm _ x, ← BitVec.add_assoc]
    rw [Set.mem_ofPred_eq, hv, hv, h4]
    exact t1ha1Final_top _ _ (by omega) (by omega)
  have hinj : Set.InjOn f (Finset.Ico (7253 * 2 ^ 46) (254891 * 2 ^ 46) : Finset Nat) := by
    intro l hl l' hl' he
    rw [Finset.mem_coe, Finset.mem_Ico] at hl hl'
    have h3 := hlow l (by omega)
    have h4 := hlow l' (by omega)
    rw [he] at h3
    omega
  have hc := Set.ncard_le_ncard hsub (Set.toFinite _)
  rw [hinj.ncard_image, Set.ncard_coe_finset, Nat.card_Ico] at hc
  omega

end T1ha
