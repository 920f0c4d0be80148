import Verif.Proofs.Bytes
import Verif.Proofs.Steps

/-!
# Operations which lose nothing
-/

namespace T1ha

open Model

theorem mul_left_cancel_of_inv {n : Nat} {p q x y : BitVec n} (hq : q * p = 1#n) (h : p * x = p * y) :
    x = y := by
  have := congrArg (q * ·) h
  simp only [← BitVec.mul_assoc, hq] at this
  rwa [BitVec.one_mul, BitVec.one_mul] at this

theorem mul_right_cancel_of_inv {n : Nat} {p q x y : BitVec n} (hq : q * p = 1#n)
    (h : x * p = y * p) : x = y := by
  rw [BitVec.mul_comm x, BitVec.mul_comm y] at h
  exact mul_left_cancel_of_inv hq h

theorem prime0_inv : (0x7efcf20cccf6e003 : U64) * Spec.prime0 = 1#64 := by decide
theorem prime4_inv : (0x6ce8f2e1a267ff03 : U64) * Spec.prime4 = 1#64 := by decide
theorem prime5_inv : (0xc709fb901e64a78d : U64) * Spec.prime5 = 1#64 := by decide
theorem prime6_inv : (0xb3704b9485e12cd1 : U64) * Spec.prime6 = 1#64 := by decide
theorem prime32_1_inv : (0x91a0131d : U32) * Spec.prime32_1 = 1#32 := by decide

theorem rotateRight_inj {n : Nat} {x y : BitVec n} {r : Nat} (h : x.rotateRight r = y.rotateRight r) :
    x = y := by
  rcases Nat.eq_zero_or_pos n with h0 | h0
  · subst h0
    exact BitVec.eq_of_zero_length rfl
  · have hr : r % n < n := Nat.mod_lt _ h0
    apply BitVec.eq_of_getLsbD_eq
    intro i hi
    rw [← BitVec.rotateRight_mod_eq_rotateRight, ← BitVec.rotateRight_mod_eq_rotateRight (x := y)] at h
    have hb := fun j => congrArg (fun z => BitVec.getLsbD z j) h
    simp only [BitVec.getLsbD_rotateRight, Nat.mod_mod] at hb
    by_cases hc : r % n ≤ i
    · have := hb (i - r % n)
      have hd : i - r % n < n - r % n := by omega
      simp only [hd, decide_true, cond_true] at this
      rwa [show r % n + (i - r % n) = i by omega] at this
    · have := hb (n - r % n + i)
      have hd : ¬ n - r % n + i < n - r % n := by omega
      have hlt : n - r % n + i < n := by omega
      simp only [hd, decide_false, cond_false, hlt, decide_true, Bool.true_and] at this
      rwa [show n - r % n + i - (n - r % n) = i by omega] at this

theorem xor_left_cancel {n : Nat} {a x y : BitVec n} (h : a ^^^ x = a ^^^ y) : x = y := by
  have := congrArg (a ^^^ ·) h
  simpa [← BitVec.xor_assoc] using this

theorem add_left_cancel' {n : Nat} {a x y : BitVec n} (h : a + x = a + y) : x = y := by
  have := congrArg (· - a) h
  simp only [BitVec.add_comm a] at this
  simpa [BitVec.add_sub_cancel] using this

theorem add_right_cancel' {n : Nat} {a x y : BitVec n} (h : x + a = y + a) : x = y := by
  rw [BitVec.add_comm x, BitVec.add_comm y] at h
  exact add_left_cancel' h

/-- `x ^ (x >> k)` can be undone. -/
theorem xorshift_inj {n k : Nat} {x y : BitVec n} (hk : n ≤ k + k)
    (h : x ^^^ x >>> k = y ^^^ y >>> k) : x = y := by
  have hinv : ∀ z : BitVec n, (z ^^^ z >>> k) ^^^ (z ^^^ z >>> k) >>> k = z := by
    intro z
    apply BitVec.eq_of_getLsbD_eq
    intro i hi
    simp only [BitVec.getLsbD_xor, BitVec.getLsbD_ushiftRight]
    rw [BitVec.getLsbD_of_ge z (k + (k + i)) (by omega)]
    simp
  rw [← hinv x, ← hinv y, h]

/-! ## Words determine bytes -/

theorem Endian.val_inj (e : Endian) {xs ys : List Byte} (hl : xs.length = ys.length)
    (h : e.val xs = e.val ys) : xs = ys := by
  rw [← e.bytes_val xs, ← e.bytes_val ys, h, hl]

theorem ofNat_val_inj (e : Endian) {W : Nat} {xs ys : List Byte} (hl : xs.length = ys.length)
    (hw : 8 * xs.length ≤ W) (h : BitVec.ofNat W (e.val xs) = BitVec.ofNat W (e.val ys)) : xs = ys := by
  have hlt : ∀ zs : List Byte, zs.length = xs.length → e.val zs < 2 ^ W := by
    intro zs hz
    have := e.val_lt zs
    refine Nat.lt_of_lt_of_le this ?_
    rw [show (256 : Nat) = 2 ^ 8 from rfl, ← Nat.pow_mul, hz]
    exact Nat.pow_le_pow_right (by decide) hw
  apply e.val_inj hl
  have := congrArg BitVec.toNat h
  rwa [BitVec.toNat_ofNat, BitVec.toNat_ofNat, Nat.mod_eq_of_lt (hlt xs rfl),
    Nat.mod_eq_of_lt (hlt ys hl.symm)] at this

end T1ha
