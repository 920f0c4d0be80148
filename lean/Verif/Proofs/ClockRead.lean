import Verif.Model.Clock
import Mathlib.Tactic.Linarith

/-!
# Lemmas about reading the clocks of the tool
-/

namespace T1ha.Model

theorem union_timestamp_same (order : Bool) (h l : U32) :
    (union_timestamp order order h l).toNat = h.toNat * 2 ^ 32 + l.toNat := by
  have e : union_timestamp order order h l = h ++ l := by cases order <;> rfl
  rw [e, BitVec.toNat_append, Nat.shiftLeft_eq, Nat.mul_comm, Nat.two_pow_add_eq_or_of_lt l.isLt]

theorem high_half (x : U64) : ((x >>> 32).truncate 32 : U32).toNat = x.toNat / 2 ^ 32 := by
  have := x.isLt
  simp only [BitVec.truncate_eq_setWidth, BitVec.toNat_setWidth, BitVec.toNat_ushiftRight, Nat.shiftRight_eq_div_pow]
  omega

theorem low_half (x : U64) : (x.truncate 32 : U32).toNat = x.toNat % 2 ^ 32 := by
  simp only [BitVec.truncate_eq_setWidth, BitVec.toNat_setWidth]

/-- The number which is read on a 32-bit PowerPC. -/
theorem mftb_value (order : Bool) (a b c : U64) (hac : a ≤ c) :
    (clock_powerpc_mftb order order a b c).toNat =
      c.toNat / 2 ^ 32 * 2 ^ 32 +
        (if a.toNat / 2 ^ 32 = c.toNat / 2 ^ 32 then b.toNat % 2 ^ 32
        else b.toNat % 2 ^ 32 &&& (c.toNat / 2 ^ 32 - a.toNat / 2 ^ 32 - 1)) := by
  have hac' : a.toNat ≤ c.toNat := hac
  unfold clock_powerpc_mftb
  rw [union_timestamp_same, high_half]
  congr 1
  rw [BitVec.toNat_and, low_half, BitVec.toNat_not, BitVec.toNat_sub, high_half, high_half]
  have hc := c.isLt
  have ha := a.isLt
  generalize hA : a.toNat / 2 ^ 32 = A
  generalize hC : c.toNat / 2 ^ 32 = C
  have h1 : A ≤ C := by rw [← hA, ← hC]; exact Nat.div_le_div_right hac'
  have h2 : C < 2 ^ 32 := by rw [← hC]; omega
  by_cases e : A = C
  · rw [if_pos e]
    have e1 : 2 ^ 32 - 1 - (2 ^ 32 - C + A) % 2 ^ 32 = 2 ^ 32 - 1 := by
      rw [e]
      have : 2 ^ 32 - C + C = 2 ^ 32 := by omega
      rw [this, Nat.mod_self, Nat.sub_zero]
    rw [e1, Nat.and_two_pow_sub_one_eq_mod]
    omega
  · rw [if_neg e]
    have e1 : 2 ^ 32 - 1 - (2 ^ 32 - C + A) % 2 ^ 32 = C - A - 1 := by
      rw [Nat.mod_eq_of_lt (by omega)]
      omega
    rw [e1]

theorem ofInt_toNat {x : Int} (h0 : 0 ≤ x) (h : x < 2 ^ 64) : ((BitVec.ofInt 64 x).toNat : Int) = x := by
  rw [BitVec.toNat_ofInt]
  omega

/-- The time in a unit of which there are `k` in a second. -/
theorem seconds_and_parts (k : Nat) (s n : Int) :
    BitVec.ofInt 64 s * BitVec.ofNat 64 k + BitVec.ofInt 64 n = BitVec.ofInt 64 (s * k + n) := by
  rw [BitVec.ofInt_add, BitVec.ofInt_mul, BitVec.ofInt_natCast]

theorem clock_32bit_value (n : Nat) : (clock_32bit n).toNat = n % 2 ^ 32 := by
  unfold clock_32bit
  rw [BitVec.toNat_and, BitVec.toNat_ofNat, show (0xFFFFFFFF : U64).toNat = 2 ^ 32 - 1 from rfl,
    Nat.and_two_pow_sub_one_eq_mod]
  omega

end T1ha.Model
