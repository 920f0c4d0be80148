import Verif.Proofs.Differ
import Mathlib.Data.BitVec
import Mathlib.Tactic.Ring

/-!
# Messages which collide under a fifth of all seeds of t1ha2: proofs about the specification
-/

namespace T1ha

open Model

/-! ## Rotations as arithmetic -/

theorem rot_toNat (x : U64) (s : Nat) (hs : 0 < s) (hs' : s < 64) :
    (x.rotateRight s).toNat = x.toNat % 2 ^ s * 2 ^ (64 - s) + x.toNat / 2 ^ s := by
  rw [BitVec.toNat_rotateRight, Nat.mod_eq_of_lt hs', Nat.or_comm, Nat.shiftLeft_eq, Nat.shiftRight_eq_div_pow]
  have h1 : x.toNat * 2 ^ (64 - s) % 2 ^ 64 = x.toNat % 2 ^ s * 2 ^ (64 - s) := by
    rw [show 2 ^ 64 = 2 ^ s * 2 ^ (64 - s) by rw [← Nat.pow_add]; congr 1; omega, Nat.mul_mod_mul_right]
  have h2 : x.toNat / 2 ^ s < 2 ^ (64 - s) := by
    rw [Nat.div_lt_iff_lt_mul (Nat.two_pow_pos s), ← Nat.pow_add, show 64 - s + s = 64 by omega]
    exact x.isLt
  rw [h1, ← Nat.shiftLeft_eq, ← Nat.shiftLeft_add_eq_or_of_lt h2]

theorem split56 (z k : Nat) (hz : z < 18446744073709551616) (hk : k < 562949953421312)
    (h : z % 72057594037927936 * 256 + z / 72057594037927936 < 18302628885633695744) :
    (z + k) % 18446744073709551616 % 72057594037927936 * 256 + (z + k) % 18446744073709551616 / 72057594037927936 =
      (z % 72057594037927936 * 256 + z / 72057594037927936 + 256 * k) % 18446744073709551616 := by
  have h1 : z = 72057594037927936 * (z / 72057594037927936) + z % 72057594037927936 := by omega
  have h2 : z / 72057594037927936 < 256 := by omega
  generalize z / 72057594037927936 = hi at *
  generalize z % 72057594037927936 = lo at *
  have h3 : lo < 71494644084506624 := by omega
  subst h1
  have e1 : (72057594037927936 * hi + lo + k) % 18446744073709551616 = 72057594037927936 * hi + (lo + k) := by omega
  have e2 : (lo * 256 + hi + 256 * k) % 18446744073709551616 = (lo + k) * 256 + hi := by omega
  rw [e1, e2, Nat.mul_add_mod, Nat.mul_add_div (by decide), Nat.mod_eq_of_lt (a := lo + k) (by omega),
    Nat.div_eq_of_lt (a := lo + k) (by omega), Nat.add_zero]

theorem split19 (z : Nat) (hz : z < 18446744073709551616) (h : 72057594037927936 ≤ z) :
    (18446744073709551616 - 72057594037927936 + z) % 18446744073709551616 % 524288 * 35184372088832 +
      (18446744073709551616 - 72057594037927936 + z) % 18446744073709551616 / 524288 =
      (18446744073709551616 - 137438953472 + (z % 524288 * 35184372088832 + z / 524288)) %
        18446744073709551616 := by
  have h1 : z = 524288 * (z / 524288) + z % 524288 := by omega
  have h2 : z % 524288 < 524288 := by omega
  generalize z / 524288 = hi at *
  generalize z % 524288 = lo at *
  subst h1
  have h3 : 137438953472 ≤ hi := by omega
  have h4 : hi < 35184372088832 := by omega
  obtain ⟨k, rfl⟩ := Nat.exists_eq_add_of_le h3
  rw [show 18446744073709551616 - 72057594037927936 + (524288 * (137438953472 + k) + lo) =
      18446744073709551616 + (524288 * k + lo) by omega, Nat.add_mod_left,
    show 18446744073709551616 - 137438953472 + (lo * 35184372088832 + (137438953472 + k)) =
      18446744073709551616 + (lo * 35184372088832 + k) by omega, Nat.add_mod_left,
    Nat.mod_eq_of_lt (a := 524288 * k + lo) (by omega),
    Nat.mod_eq_of_lt (a := lo * 35184372088832 + k) (by omega), Nat.mul_add_mod, Nat.mul_add_div (by decide),
    Nat.mod_eq_of_lt (a := lo) (by omega), Nat.div_eq_of_lt (a := lo) (by omega), Nat.add_zero]

theorem add56 (z : U64) (k : Nat) (hk : k < 562949953421312)
    (h : (z.rotateRight 56).toNat < 18302628885633695744) :
    (z + BitVec.ofNat 64 k).rotateRight 56 = z.rotateRight 56 + BitVec.ofNat 64 (256 * k) := by
  apply BitVec.eq_of_toNat_eq
  rw [rot_toNat _ _ (by decide) (by decide)] at h ⊢
  rw [BitVec.toNat_add, BitVec.toNat_add, rot_toNat _ _ (by decide) (by decide), BitVec.toNat_ofNat, BitVec.toNat_ofNat,
    Nat.mod_eq_of_lt (a := k) (by omega), Nat.mod_eq_of_lt (a := 256 * k) (by omega)]
  exact split56 z.toNat k z.isLt hk h

theorem sub19 (z : U64) (h : 72057594037927936 ≤ z.toNat) :
    (z - BitVec.ofNat 64 72057594037927936).rotateRight 19 =
      z.rotateRight 19 - BitVec.ofNat 64 137438953472 := by
  apply BitVec.eq_of_toNat_eq
  rw [rot_toNat _ _ (by decide) (by decide), BitVec.toNat_sub, BitVec.toNat_sub, rot_toNat _ _ (by decide) (by decide),
    BitVec.toNat_ofNat, BitVec.toNat_ofNat]
  exact split19 z.toNat z.isLt h

/-! ## Bits of 64-bit words -/

def bit64 (k : Nat) : U64 := BitVec.twoPow 64 k

theorem getLsbD_bit64 (k i : Nat) : (bit64 k).getLsbD i = decide (i < 64 ∧ k = i) := by
  rw [bit64, BitVec.getLsbD_twoPow]
  by_cases h : k = i
  · subst h
    by_cases h' : k < 64 <;> simp [h']
  · simp [h]

theorem xor_bit64 (x : U64) (k : Nat) (h : x.getLsbD k = false) : x ^^^ bit64 k = x + bit64 k := by
  have h0 : x &&& bit64 k = 0#64 := by
    apply BitVec.eq_of_getLsbD_eq
    intro i hi
    rw [BitVec.getLsbD_and, getLsbD_bit64, BitVec.getLsbD_zero]
    by_cases hk : k = i
    · subst hk; simp [h]
    · simp [hk]
  rw [BitVec.add_eq_or_of_and_eq_zero _ _ h0]
  apply BitVec.eq_of_getLsbD_eq
  intro i hi
  rw [BitVec.getLsbD_xor, BitVec.getLsbD_or, getLsbD_bit64]
  by_cases hk : k = i
  · subst hk; simp [h]
  · simp [hk]

theorem xor_bit64_set (x : U64) (k : Nat) (hk : k < 64) (h : x.getLsbD k = true) : x ^^^ bit64 k = x - bit64 k := by
  have h1 : (x ^^^ bit64 k) + bit64 k = x := by
    rw [← xor_bit64, BitVec.xor_assoc, BitVec.xor_self, BitVec.xor_zero]
    rw [BitVec.getLsbD_xor, getLsbD_bit64, h]; simp [hk]
  conv_rhs => rw [← h1]
  rw [BitVec.add_sub_cancel]

theorem xor_bit64_top (x : U64) : x ^^^ bit64 63 = x + bit64 63 := by
  rcases h : x.getLsbD 63
  · exact xor_bit64 x 63 h
  · rw [xor_bit64_set x 63 (by decide) h, BitVec.sub_eq_add_neg]
    congr 1

/-! ## The two blocks -/

theorem bit64_37 : (bit64 37).rotateRight 38 = bit64 63 := by decide
theorem bit64_48 : (bit64 48).rotateRight 38 = bit64 10 := by decide
theorem ofNat_48 : BitVec.ofNat 64 281474976710656 = bit64 48 := by decide
theorem ofNat_56 : BitVec.ofNat 64 72057594037927936 = bit64 56 := by decide
theorem ofNat_56' : BitVec.ofNat 64 (256 * 281474976710656) = bit64 56 := by decide
theorem ofNat_37 : BitVec.ofNat 64 137438953472 = bit64 37 := by decide
theorem ofNat_48_10 : BitVec.ofNat 64 281474976711680 = bit64 48 + bit64 10 := by decide
theorem ofNat_56_18 : BitVec.ofNat 64 (256 * 281474976711680) = bit64 56 + bit64 18 := by decide
theorem bit64_63 : bit64 63 + bit64 63 = 0 := by decide
theorem allOnes_rot : bit64 37 + (-bit64 56 - bit64 18 + BitVec.allOnes 64).rotateRight 19 + (bit64 48 + bit64 63) =
    bit64 48 + (BitVec.allOnes 64).rotateRight 19 := by decide

attribute [local irreducible] bit64

/-- `Spec.absorb` on words -/
def absorbTwo (s : Spec.State) (w0 w1 w2 w3 : U64) : Spec.State :=
  { a := s.a ^^^ Spec.prime5 * (w0 + (w2 + s.d).rotateRight 56 + w3)
    b := s.b ^^^ Spec.prime6 * (w1 + (w3 + s.c).rotateRight 19 + w2)
    c := s.c ^^^ (s.a + w0.rotateRight 57)
    d := s.d ^^^ (s.b + w1.rotateRight 38) }

/-- After the first block, the states differ in two bits. -/
theorem first_two (s : Spec.State) (w0 w1 w1' w3 : U64) (hw : w1' + bit64 48 = w1 + bit64 37)
    (hr : w1'.rotateRight 38 + bit64 10 = w1.rotateRight 38 + bit64 63)
    (hd : (s.d.rotateRight 56).toNat < 18302628885633695744) (hc : 72057594037927936 ≤ (w3 + s.c).toNat)
    (hu : (s.b + w1.rotateRight 38).getLsbD 10 = true) :
    absorbTwo s w0 w1' (bit64 48) (w3 - bit64 56) =
      { absorbTwo s w0 w1 0 w3 with d := (absorbTwo s w0 w1 0 w3).d ^^^ bit64 10 ^^^ bit64 63 } := by
  have z : ∀ x : U64, 0 + x = x := fun x => BitVec.zero_add x
  have z' : ∀ x : U64, x + 0 = x := fun x => BitVec.add_zero x
  unfold absorbTwo
  simp only [z, z']
  rw [Spec.State.mk.injEq]
  refine ⟨?_, ?_, rfl, ?_⟩
  · congr 2
    rw [BitVec.add_comm (bit64 48), ← ofNat_48,
      add56 _ _ (by decide) hd, ofNat_56']
    ring
  · congr 2
    rw [show w3 - bit64 56 + s.c = w3 + s.c - BitVec.ofNat 64 72057594037927936 by
      rw [ofNat_56]; ring, sub19 _ hc,
      ofNat_37]
    have : w1' = w1 + bit64 37 - bit64 48 := by rw [← hw]; ring
    rw [this]; ring
  · rw [BitVec.xor_assoc, BitVec.xor_assoc]
    congr 1
    rw [← BitVec.xor_assoc, xor_bit64_set _ _ (by decide) hu, xor_bit64_top]
    have : w1'.rotateRight 38 = w1.rotateRight 38 + bit64 63 - bit64 10 := by rw [← hr]; ring
    rw [this]; ring

theorem cancel_bits (d b m n : U64) : d ^^^ m ^^^ n ^^^ (b ^^^ n) = d ^^^ (b ^^^ m) := by
  apply BitVec.eq_of_getLsbD_eq
  intro i hi
  simp only [BitVec.getLsbD_xor]
  cases d.getLsbD i <;> cases b.getLsbD i <;> cases m.getLsbD i <;> cases n.getLsbD i <;> rfl

/-- The second block makes them equal again. -/
theorem second_two (s : Spec.State) (hc : s.c = BitVec.allOnes 64)
    (hd : (s.d.rotateRight 56).toNat < 18302628885633695744) (hd10 : s.d.getLsbD 10 = false)
    (hb : s.b.getLsbD 10 = false) :
    absorbTwo { s with d := s.d ^^^ bit64 10 ^^^ bit64 63 } 0 (bit64 37) (bit64 48 + bit64 63)
      (- bit64 56 - bit64 18) = absorbTwo s 0 (bit64 48) 0 0 := by
  have z : ∀ x : U64, 0 + x = x := fun x => BitVec.zero_add x
  have z' : ∀ x : U64, x + 0 = x := fun x => BitVec.add_zero x
  unfold absorbTwo
  simp only [z, z', hc]
  rw [Spec.State.mk.injEq]
  refine ⟨?_, ?_, rfl, ?_⟩
  · congr 2
    rw [xor_bit64_top, xor_bit64 _ _ hd10,
      show bit64 48 + bit64 63 + (s.d + bit64 10 + bit64 63) = s.d + BitVec.ofNat 64 281474976711680 + (bit64 63 + bit64 63) by
        rw [ofNat_48_10]; ring, bit64_63, z',
      add56 _ _ (by decide) hd, ofNat_56_18]
    ring
  · rw [allOnes_rot]
  · rw [bit64_37, bit64_48,
      ← xor_bit64_top, ← xor_bit64 _ _ hb]
    exact cancel_bits _ _ _ _

/-! ## Counting the seeds -/

theorem bit_rot64 (x : U64) (r i : Nat) (hr : r < 64) (hi : i < 64) :
    (x.rotateRight r).getLsbD i = x.getLsbD ((i + r) % 64) := by
  rw [BitVec.getLsbD_rotateRight, Nat.mod_eq_of_lt hr, Bool.cond_decide]
  split
  · rw [Nat.mod_eq_of_lt (by omega), Nat.add_comm]
  · rw [show (i + r) % 64 = i - (64 - r) by omega]; simp [hi]

theorem rot_back (x : U64) (r r' : Nat) (hr : r < 64) (hr' : r' < 64) (h : r + r' = 64) :
    (x.rotateRight r).rotateRight r' = x := by
  apply BitVec.eq_of_getLsbD_eq
  intro i hi
  rw [bit_rot64 _ _ _ hr' hi, bit_rot64 _ _ _ hr (Nat.mod_lt _ (by decide))]
  congr 1
  omega

theorem rot_not (x : U64) (r : Nat) (hr : r < 64) : (~~~x).rotateRight r = ~~~(x.rotateRight r) := by
  apply BitVec.eq_of_getLsbD_eq
  intro i hi
  rw [bit_rot64 _ _ _ hr hi, BitVec.getLsbD_not, BitVec.getLsbD_not, bit_rot64 _ _ _ hr hi]
  simp [hi, Nat.mod_lt]

/-- The seed for which the fourth word of the initial state is `d` -/
def seedTwo (y d : U64) : U64 := (d + y + 1).rotateRight 45

theorem seedTwo_rot (y d : U64) : (seedTwo y d).rotateRight 19 = d + y + 1 := by
  rw [seedTwo, rot_back _ _ _ (by decide) (by decide) (by decide)]

theorem not_eq (x : U64) : ~~~x = - x - 1 := BitVec.not_eq_neg_add x

theorem rot_inj (r : Nat) (hr : 0 < r) (hr' : r < 64) : Function.Injective fun x : U64 => x.rotateRight r := by
  intro x x' h
  have h1 := congrArg (·.rotateRight (64 - r)) h
  simpa only [rot_back _ r (64 - r) hr' (by omega) (by omega)] using h1

theorem seedTwo_inj (y : U64) : Function.Injective (seedTwo y) := by
  intro d d' h
  have h1 := seedTwo_rot y d
  rw [h, seedTwo_rot] at h1
  have h2 : d + y + 1 - y - 1 = d' + y + 1 - y - 1 := by rw [h1]
  have e : ∀ t : U64, t + y + 1 - y - 1 = t := fun t => by ring
  rwa [e, e] at h2

/-- What is added to the second word of the first block so that its eleventh bit behaves -/
def carryTwo (y : Nat) : Nat := if y % 2048 < 1024 then 0 else 2048 - y % 2048

/-- The second word of the first block of the first message -/
def wordTwo (y : U64) : U64 :=
  BitVec.ofNat 64 (281474976710656 + 274877906944 * carryTwo y.toNat + (y.toNat + 921) % 2048)

/-- and of the second one -/
def wordTwo' (y : U64) : U64 :=
  BitVec.ofNat 64 (137438953472 + 274877906944 * carryTwo y.toNat + (y.toNat + 921) % 2048)

theorem carry_lt {y : Nat} (h : y % 2048 ≠ 1024) : carryTwo y < 1024 := by
  unfold carryTwo; split <;> omega

theorem wordTwo_nat {y : U64} (h : y.toNat % 2048 ≠ 1024) :
    (wordTwo y).toNat = 281474976710656 + 274877906944 * carryTwo y.toNat + (y.toNat + 921) % 2048 := by
  have := carry_lt h
  rw [wordTwo, BitVec.toNat_ofNat, Nat.mod_eq_of_lt (by omega)]

theorem wordTwo'_nat {y : U64} (h : y.toNat % 2048 ≠ 1024) :
    (wordTwo' y).toNat = 137438953472 + 274877906944 * carryTwo y.toNat + (y.toNat + 921) % 2048 := by
  have := carry_lt h
  rw [wordTwo', BitVec.toNat_ofNat, Nat.mod_eq_of_lt (by omega)]

theorem wordTwo_sum {y : U64} (h : y.toNat % 2048 ≠ 1024) : wordTwo' y + bit64 48 = wordTwo y + bit64 37 := by
  have := carry_lt h
  apply BitVec.eq_of_toNat_eq
  rw [BitVec.toNat_add, BitVec.toNat_add, wordTwo_nat h, wordTwo'_nat h, ← ofNat_48, ← ofNat_37, BitVec.toNat_ofNat,
    BitVec.toNat_ofNat]
  omega

theorem wordTwo_rot {y : U64} (h : y.toNat % 2048 ≠ 1024) :
    ((wordTwo y).rotateRight 38).toNat = (y.toNat + 921) % 2048 * 67108864 + (1024 + carryTwo y.toNat) := by
  rw [rot_toNat _ _ (by decide) (by decide), wordTwo_nat h]
  have := carry_lt h
  omega

theorem wordTwo'_rot {y : U64} (h : y.toNat % 2048 ≠ 1024) : ((wordTwo' y).rotateRight 38).toNat =
    9223372036854775808 + (y.toNat + 921) % 2048 * 67108864 + carryTwo y.toNat := by
  rw [rot_toNat _ _ (by decide) (by decide), wordTwo'_nat h]
  have := carry_lt h
  omega

theorem wordTwo_rotsum {y : U64} (h : y.toNat % 2048 ≠ 1024) :
    (wordTwo' y).rotateRight 38 + bit64 10 = (wordTwo y).rotateRight 38 + bit64 63 := by
  apply BitVec.eq_of_toNat_eq
  rw [BitVec.toNat_add, BitVec.toNat_add, wordTwo_rot h, wordTwo'_rot h,
    show (bit64 10).toNat = 1024 by unfold bit64; decide,
    show (bit64 63).toNat = 9223372036854775808 by unfold bit64; decide]
  omega

theorem bit_of_mod (n : Nat) (h : 1024 ≤ n % 2048) : n / 1024 % 2 = 1 := by
  omega

theorem wordTwo_bit {y : U64} (h : y.toNat % 2048 ≠ 1024) :
    (y + (wordTwo y).rotateRight 38).getLsbD 10 = true := by
  rw [BitVec.getLsbD, BitVec.toNat_add, wordTwo_rot h, Nat.testBit_eq_decide_div_mod_eq, decide_eq_true_eq]
  refine bit_of_mod _ ?_
  generalize (y.toNat + 921) % 2048 = q
  unfold carryTwo
  split <;> omega

/-- The lowest 11 bits of the product in the first block, in terms of the fourth word of the initial state -/
def prodTwo (d : Nat) : Nat := 1073 * (2967 - d % 2048) % 2048

theorem low_bits (d y c : Nat) : (281474976710656 + 274877906944 * c + (y + 921) % 2048 +
    (18446744073709551616 - 1 - ((d + y) % 18446744073709551616 + 1) % 18446744073709551616)) % 2048 =
    (2967 - d % 2048) % 2048 := by
  generalize ht : ((d + y) % 18446744073709551616 + 1) % 18446744073709551616 = t
  have h1 : t % 2048 = (d + y + 1) % 2048 := by omega
  have h2 : t < 18446744073709551616 := by omega
  clear ht
  omega

theorem prodTwo_eq {y : U64} (h : y.toNat % 2048 ≠ 1024) (d : U64) :
    (Spec.prime6 * (wordTwo y + (~~~(seedTwo y d)).rotateRight 19)).toNat % 2048 = prodTwo d.toNat := by
  rw [rot_not _ _ (by decide), seedTwo_rot, BitVec.toNat_mul, BitVec.toNat_add, BitVec.toNat_not, BitVec.toNat_add,
    BitVec.toNat_add, wordTwo_nat h, prodTwo, Nat.mod_mod_of_dvd _ (by decide), Nat.mul_mod,
    Nat.mod_mod_of_dvd _ (by decide), show Spec.prime6.toNat % 2048 = 1073 by decide, Nat.mul_mod 1073 (2967 - _),
    show 1073 % 2048 = 1073 from rfl]
  congr 2
  exact low_bits _ _ _

theorem prodTwo_add (d d' : Nat) (h : d' % 2048 = (d + 1024) % 2048) :
    decide (1024 ≤ prodTwo d') = !decide (1024 ≤ prodTwo d) := by
  have key : ∀ t < 2048, decide (1024 ≤ 1073 * (2967 - (t + 1024) % 2048) % 2048) =
      !decide (1024 ≤ 1073 * (2967 - t) % 2048) := by decide +kernel
  unfold prodTwo
  rw [← key _ (Nat.mod_lt d (by decide)), h, Nat.mod_add_mod]

theorem prodTwo_not (d d' : Nat) (h : d' % 2048 = 2047 - d % 2048) :
    decide (1024 ≤ prodTwo d') = decide (1024 ≤ prodTwo d) := by
  have key : ∀ t < 2048, decide (1024 ≤ 1073 * (2967 - (2047 - t)) % 2048) =
      decide (1024 ≤ 1073 * (2967 - t) % 2048) := by decide +kernel
  unfold prodTwo
  rw [← key _ (Nat.mod_lt d (by decide)), h]

/-- The seeds for which the messages collide, in terms of the fourth word of the initial state -/
structure GoodTwo (y d : U64) : Prop where
  first : (d.rotateRight 56).toNat < 18302628885633695744
  seed : (seedTwo y d).toNat < 18302628885633695744
  second : ((d ^^^ (y + (wordTwo y).rotateRight 38)).rotateRight 56).toNat < 18302628885633695744
  bit : d.getLsbD 10 = true
  prod : decide (1024 ≤ prodTwo d.toNat) = y.getLsbD 10

theorem top_few (g : U64 → U64) (hg : Function.Injective g) :
    {d | 18302628885633695744 ≤ (g d).toNat}.ncard ≤ 144115188075855872 := by
  have h := Set.ncard_le_ncard_of_injOn (s := {d | 18302628885633695744 ≤ (g d).toNat})
    (t := ((Finset.range 144115188075855872 : Finset Nat) : Set Nat)) (fun d => (g d).toNat - 18302628885633695744)
    (by
      intro d hd
      rw [Set.mem_ofPred_eq] at hd
      rw [Finset.mem_coe, Finset.mem_range]
      have := (g d).isLt
      omega)
    (by
      intro d hd d' hd' he
      rw [Set.mem_ofPred_eq] at hd hd'
      refine hg (BitVec.eq_of_toNat_eq ?_)
      simp only at he
      omega)
    (Finset.finite_toSet _)
  rwa [Set.ncard_coe_finset, Finset.card_range] at h

theorem good_two_many (y : U64) : 2 ^ 64 ≤ 5 * {d : U64 | GoodTwo y d}.ncard := by
  let T1 : Set U64 := {d | decide (1024 ≤ prodTwo d.toNat) = y.getLsbD 10}
  let T2 : Set U64 := {d | decide (1024 ≤ prodTwo d.toNat) = y.getLsbD 10 ∧ d.getLsbD 10 = true}
  let B1 : Set U64 := {d | 18302628885633695744 ≤ (d.rotateRight 56).toNat}
  let B2 : Set U64 := {d | 18302628885633695744 ≤ (seedTwo y d).toNat}
  let B3 : Set U64 := {d | 18302628885633695744 ≤
    ((d ^^^ (y + (wordTwo y).rotateRight 38)).rotateRight 56).toNat}
  let G : Set U64 := {d | GoodTwo y d}
  have dich : ∀ x y : Bool, x = y ∨ (!x) = y := by decide
  have h1 : Set.univ.ncard ≤ 2 * T1.ncard := half_le (fun d => d + 1024) (by
      intro d d' h
      have h' : d + 1024 = d' + 1024 := h
      exact add_right_cancel h') _ _ (by
    intro d _
    have e : decide (1024 ≤ prodTwo (d + 1024).toNat) = !decide (1024 ≤ prodTwo d.toNat) := by
      refine prodTwo_add _ _ ?_
      rw [BitVec.toNat_add, show (1024 : U64).toNat = 1024 from rfl, Nat.mod_mod_of_dvd _ (by decide)]
    have := dich (decide (1024 ≤ prodTwo d.toNat)) (y.getLsbD 10)
    rw [← e] at this
    exact this)
  have h2 : T1.ncard ≤ 2 * T2.ncard := half_le (fun d => ~~~d) (by
      intro d d' h
      have h' : ~~~d = ~~~d' := h
      rw [← BitVec.not_not (b := d), h', BitVec.not_not]) _ _ (by
    intro d hd
    have e : decide (1024 ≤ prodTwo (~~~d).toNat) = decide (1024 ≤ prodTwo d.toNat) := by
      refine prodTwo_not _ _ ?_
      rw [BitVec.toNat_not]
      have := d.isLt
      omega
    rcases hb : d.getLsbD 10
    · refine Or.inr ⟨e.trans hd, ?_⟩
      rw [BitVec.getLsbD_not, hb]; rfl
    · exact Or.inl ⟨hd, hb⟩)
  have h3 : T2 ⊆ G ∪ (B1 ∪ (B2 ∪ B3)) := by
    rintro d ⟨hd1, hd2⟩
    by_cases i1 : d ∈ B1
    · exact Or.inr (Or.inl i1)
    by_cases i2 : d ∈ B2
    · exact Or.inr (Or.inr (Or.inl i2))
    by_cases i3 : d ∈ B3
    · exact Or.inr (Or.inr (Or.inr i3))
    exact Or.inl ⟨Nat.lt_of_not_le i1, Nat.lt_of_not_le i2, Nat.lt_of_not_le i3, hd2, hd1⟩
  have h4 := Set.ncard_le_ncard h3 (Set.toFinite _)
  have h5 := Set.ncard_union_le G (B1 ∪ (B2 ∪ B3))
  have h6 := Set.ncard_union_le B1 (B2 ∪ B3)
  have h7 := Set.ncard_union_le B2 B3
  have b1 : B1.ncard ≤ 144115188075855872 := top_few _ (rot_inj 56 (by decide) (by decide))
  have b2 : B2.ncard ≤ 144115188075855872 := top_few _ (seedTwo_inj y)
  have b3 : B3.ncard ≤ 144115188075855872 := top_few (fun d => (d ^^^ (y + (wordTwo y).rotateRight 38)).rotateRight 56) (by
    intro d d' h
    have := rot_inj 56 (by decide) (by decide) h
    have := congrArg (· ^^^ (y + (wordTwo y).rotateRight 38)) this
    simpa only [BitVec.xor_assoc, BitVec.xor_self, BitVec.xor_zero] using this)
  have h0 : (Set.univ : Set U64).ncard = 2 ^ 64 := by
    rw [Set.ncard_univ, Nat.card_congr (Equiv.ofBijective BitVec.toFin
      ⟨fun _ _ h => BitVec.eq_of_toFin_eq h, fun x => ⟨⟨x⟩, rfl⟩⟩), Nat.card_fin]
  rw [h0] at h1
  show 2 ^ 64 ≤ 5 * G.ncard
  omega

/-! ## The messages -/

theorem sub_not (x k : U64) : (k + ~~~x) ^^^ (x + - k) = BitVec.allOnes 64 := by
  have h : k + ~~~x = ~~~(x + - k) := by rw [not_eq, not_eq]; ring
  rw [h]
  apply BitVec.eq_of_getLsbD_eq
  intro i hi
  rw [BitVec.getLsbD_xor, BitVec.getLsbD_not, BitVec.getLsbD_allOnes]
  simp [hi]

theorem not_top (n : Nat) (h : n < 18302628885633695744) : 72057594037927936 ≤ 2 ^ 64 - 1 - n := by
  omega

theorem GoodTwo.collide {y d : U64} (h : y.toNat % 2048 ≠ 1024) (g : GoodTwo y d) :
    absorbTwo (absorbTwo (Spec.init (seedTwo y d) y) ((- y.rotateRight 23).rotateRight 7) (wordTwo' y) (bit64 48)
      (- y.rotateRight 23 - bit64 56)) 0 (bit64 37) (bit64 48 + bit64 63) (- bit64 56 - bit64 18) =
    absorbTwo (absorbTwo (Spec.init (seedTwo y d) y) ((- y.rotateRight 23).rotateRight 7) (wordTwo y) 0
      (- y.rotateRight 23)) 0 (bit64 48) 0 0 := by
  have z : ∀ x : U64, 0 + x = x := fun x => BitVec.zero_add x
  have z' : ∀ x : U64, x + 0 = x := fun x => BitVec.add_zero x
  have hd : (Spec.init (seedTwo y d) y).d = d := by
    show ~~~y + (seedTwo y d).rotateRight 19 = d
    rw [seedTwo_rot, not_eq]; ring
  have hc : - y.rotateRight 23 + (Spec.init (seedTwo y d) y).c = ~~~(seedTwo y d) := by
    show - y.rotateRight 23 + (y.rotateRight 23 + ~~~(seedTwo y d)) = _
    ring
  have hu : ((Spec.init (seedTwo y d) y).b + (wordTwo y).rotateRight 38).getLsbD 10 = true := wordTwo_bit h
  rw [first_two (Spec.init (seedTwo y d) y) _ (wordTwo y) (wordTwo' y) _ (wordTwo_sum h) (wordTwo_rotsum h)
    (by rw [hd]; exact g.first) (by rw [hc, BitVec.toNat_not]; exact not_top _ g.seed) hu]
  refine second_two _ ?_ ?_ ?_ ?_
  · show (y.rotateRight 23 + ~~~(seedTwo y d)) ^^^
      (seedTwo y d + ((- y.rotateRight 23).rotateRight 7).rotateRight 57) = _
    rw [rot_back _ _ _ (by decide) (by decide) (by decide), sub_not]
  · show (((Spec.init (seedTwo y d) y).d ^^^ (y + (wordTwo y).rotateRight 38)).rotateRight 56).toNat < _
    rw [hd]; exact g.second
  · show ((Spec.init (seedTwo y d) y).d ^^^ (y + (wordTwo y).rotateRight 38)).getLsbD 10 = false
    rw [hd, BitVec.getLsbD_xor, wordTwo_bit h, g.bit]; rfl
  · show (y ^^^ Spec.prime6 * (wordTwo y + (- y.rotateRight 23 + (Spec.init (seedTwo y d) y).c).rotateRight 19 +
      0)).getLsbD 10 = false
    rw [hc, z', BitVec.getLsbD_xor, ← g.prod, BitVec.getLsbD, Nat.testBit_eq_decide_div_mod_eq, ← prodTwo_eq h]
    generalize (Spec.prime6 * (wordTwo y + BitVec.rotateRight (~~~seedTwo y d) 19)).toNat = n
    rw [show decide (n / 2 ^ 10 % 2 = 1) = decide (1024 ≤ n % 2048) from decide_eq_decide.mpr (by omega),
      Bool.xor_self]

/-- A message made of 64-bit words -/
def ofWords64 (ws : List U64) : List Byte := (ws.map fun w => leBytes 8 w.toNat).flatten

theorem length_ofWords64 (ws : List U64) : (ofWords64 ws).length = 8 * ws.length := by
  induction ws with
  | nil => rfl
  | cons w ws ih =>
    rw [ofWords64, List.map_cons, List.flatten_cons, List.length_append, length_leBytes, List.length_cons]
    rw [ofWords64] at ih
    omega

theorem word_ofWords64 (ws : List U64) (i : Nat) (hi : i < ws.length) :
    Spec.word64 .little (ofWords64 ws) i = ws[i] := by
  induction ws generalizing i with
  | nil => simp at hi
  | cons w ws ih =>
    rw [Spec.word64, ofWords64, List.map_cons, List.flatten_cons]
    cases i with
    | zero =>
      rw [Nat.mul_zero, List.drop_zero, List.take_left' (length_leBytes _ _)]
      show BitVec.ofNat 64 (leVal (leBytes 8 w.toNat)) = w
      rw [leVal_leBytes]
      apply BitVec.eq_of_toNat_eq
      rw [BitVec.toNat_ofNat]
      have := w.isLt
      omega
    | succ i =>
      rw [Nat.mul_add, Nat.mul_one, Nat.add_comm, ← List.drop_drop, List.drop_left' (length_leBytes _ _)]
      exact ih i (by simpa using hi)

theorem absorb_ofWords (s : Spec.State) (w0 w1 w2 w3 : U64) :
    Spec.absorb s (ofWords64 [w0, w1, w2, w3]) = absorbTwo s w0 w1 w2 w3 := by
  have h0 := word_ofWords64 [w0, w1, w2, w3] 0 (Nat.lt_of_lt_of_eq (by decide) (rfl : 4 = _))
  have h1 := word_ofWords64 [w0, w1, w2, w3] 1 (Nat.lt_of_lt_of_eq (by decide) (rfl : 4 = _))
  have h2 := word_ofWords64 [w0, w1, w2, w3] 2 (Nat.lt_of_lt_of_eq (by decide) (rfl : 4 = _))
  have h3 := word_ofWords64 [w0, w1, w2, w3] 3 (Nat.lt_of_lt_of_eq (by decide) (rfl : 4 = _))
  simp only [List.getElem_cons_zero, List.getElem_cons_succ] at h0 h1 h2 h3
  unfold Spec.absorb absorbTwo
  simp only [h0, h1, h2, h3]

/-- The first message for a given second word of the initial state -/
def pairTwo (y : U64) : List Byte :=
  ofWords64 [(- y.rotateRight 23).rotateRight 7, wordTwo y, 0, - y.rotateRight 23] ++ ofWords64 [0, bit64 48, 0, 0]

/-- and the second one -/
def pairTwo' (y : U64) : List Byte :=
  ofWords64 [(- y.rotateRight 23).rotateRight 7, wordTwo' y, bit64 48, - y.rotateRight 23 - bit64 56] ++
    ofWords64 [0, bit64 37, bit64 48 + bit64 63, - bit64 56 - bit64 18]

theorem pairTwo_length (y : U64) : (pairTwo y).length = 64 ∧ (pairTwo' y).length = 64 := by
  simp only [pairTwo, pairTwo', List.length_append, length_ofWords64, List.length_cons, List.length_nil]
  exact ⟨trivial, trivial⟩

theorem pairTwo_ne (y : U64) : pairTwo y ≠ pairTwo' y := by
  intro h
  have h1 := List.append_inj_right h (by simp only [length_ofWords64, List.length_cons])
  have h2 := word_ofWords64 [0, bit64 48, 0, 0] 1 (by decide)
  rw [h1, word_ofWords64 _ 1 (by decide)] at h2
  simp only [List.getElem_cons_zero, List.getElem_cons_succ] at h2
  rw [← ofNat_48, ← ofNat_37] at h2
  exact absurd h2 (by decide)

/-- After these messages, and whatever follows, the states are equal for a fifth of all seeds. -/
theorem two_states (y : U64) (h : y.toNat % 2048 ≠ 1024) : 2 ^ 64 ≤ 5 * {x : U64 | ∀ q : List Byte,
    Spec.absorbAll (Spec.init x y) (Spec.blocks 32 (pairTwo y ++ q)) =
      Spec.absorbAll (Spec.init x y) (Spec.blocks 32 (pairTwo' y ++ q))}.ncard := by
  have hb : ∀ (s : Spec.State) (u v q : List Byte), u.length = 32 → v.length = 32 →
      Spec.absorbAll s (Spec.blocks 32 (u ++ v ++ q)) =
        Spec.absorbAll (Spec.absorb (Spec.absorb s u) v) (Spec.blocks 32 q) := by
    intro s u v q hu hv
    rw [blocks_skip (by decide) _ _ (by simp [hu, hv]), blocks_skip (by decide) _ _ (by simp [hu]),
      blocks_one (by decide) u hu, blocks_one (by decide) v hv]
    rfl
  have hsub : seedTwo y '' {d | GoodTwo y d} ⊆ {x : U64 | ∀ q : List Byte,
      Spec.absorbAll (Spec.init x y) (Spec.blocks 32 (pairTwo y ++ q)) =
        Spec.absorbAll (Spec.init x y) (Spec.blocks 32 (pairTwo' y ++ q))} := by
    rintro _ ⟨d, g, rfl⟩
    rw [Set.mem_ofPred_eq]
    intro q
    rw [pairTwo, pairTwo', hb _ _ _ _ (length_ofWords64 _) (length_ofWords64 _),
      hb _ _ _ _ (length_ofWords64 _) (length_ofWords64 _), absorb_ofWords, absorb_ofWords, absorb_ofWords,
      absorb_ofWords, GoodTwo.collide h g]
  have h1 := Set.ncard_le_ncard hsub (Set.toFinite _)
  rw [(seedTwo_inj _).injOn.ncard_image] at h1
  exact le_trans (good_two_many y) (Nat.mul_le_mul_left _ h1)

/-- The messages collide under a fifth of all seeds, whatever follows. -/
theorem t1ha2_differential (n : Nat) (hn : (64 + n) % 2048 ≠ 1024) (q : List Byte) (hq : q.length = n) :
    2 ^ 64 ≤ 5 * {seed : U64 |
      Spec.t1ha2_atonce (pairTwo (BitVec.ofNat 64 (64 + n)) ++ q) seed =
        Spec.t1ha2_atonce (pairTwo' (BitVec.ofNat 64 (64 + n)) ++ q) seed ∧
      Spec.t1ha2_atonce128 (pairTwo (BitVec.ofNat 64 (64 + n)) ++ q) seed =
        Spec.t1ha2_atonce128 (pairTwo' (BitVec.ofNat 64 (64 + n)) ++ q) seed}.ncard := by
  have h := two_states (BitVec.ofNat 64 (64 + n)) (by
    rw [BitVec.toNat_ofNat, Nat.mod_mod_of_dvd _ (by decide)]; exact hn)
  refine le_trans h (Nat.mul_le_mul_left _ (Set.ncard_le_ncard ?_ (Set.toFinite _)))
  intro x hx
  rw [Set.mem_ofPred_eq] at hx ⊢
  obtain ⟨l1, l2⟩ := pairTwo_length (BitVec.ofNat 64 (64 + n))
  have e1 : (pairTwo (BitVec.ofNat 64 (64 + n)) ++ q).length = 64 + n := by rw [List.length_append, l1, hq]
  have e2 : (pairTwo' (BitVec.ofNat 64 (64 + n)) ++ q).length = 64 + n := by rw [List.length_append, l2, hq]
  have r1 := rest_skip (k := 32) (by decide) (pairTwo (BitVec.ofNat 64 (64 + n))) q (by rw [l1])
  have r2 := rest_skip (k := 32) (by decide) (pairTwo' (BitVec.ofNat 64 (64 + n))) q (by rw [l2])
  unfold Spec.t1ha2_atonce Spec.t1ha2_atonce128 Spec.len64
  rw [e1, e2, if_pos (by omega), if_pos (by omega), if_pos (by omega), if_pos (by omega), r1, r2, hx q]
  exact ⟨rfl, rfl⟩

/-- And in streams, for every second seed but one of 2048. -/
theorem t1ha2_stream_differential (y : U64) (hy : y.toNat % 2048 ≠ 1024) : 2 ^ 64 ≤ 5 * {x : U64 | ∀ q : List Byte,
      Spec.t1ha2_stream (pairTwo y ++ q) x y = Spec.t1ha2_stream (pairTwo' y ++ q) x y ∧
      Spec.t1ha2_stream128 (pairTwo y ++ q) x y = Spec.t1ha2_stream128 (pairTwo' y ++ q) x y}.ncard := by
  have h := two_states y hy
  refine le_trans h (Nat.mul_le_mul_left _ (Set.ncard_le_ncard ?_ (Set.toFinite _)))
  intro x hx
  rw [Set.mem_ofPred_eq] at hx ⊢
  intro q
  obtain ⟨l1, l2⟩ := pairTwo_length y
  obtain ⟨q', e1, e2⟩ : ∃ q', Spec.padded (pairTwo y ++ q) = pairTwo y ++ q' ∧
      Spec.padded (pairTwo' y ++ q) = pairTwo' y ++ q' := by
    unfold Spec.padded
    rw [List.append_assoc, List.append_assoc, List.length_append, List.length_append, l1, l2]
    exact ⟨_, rfl, rfl⟩
  have r1 := rest_skip (k := 32) (by decide) (pairTwo y) q' (by rw [l1])
  have r2 := rest_skip (k := 32) (by decide) (pairTwo' y) q' (by rw [l2])
  unfold Spec.t1ha2_stream Spec.t1ha2_stream128
  rw [e1, e2, r1, r2, hx q']
  exact ⟨rfl, rfl⟩

end T1ha
