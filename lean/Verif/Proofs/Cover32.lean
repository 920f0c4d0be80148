import Verif.Proofs.Differ
import Mathlib.Data.BitVec
import Mathlib.Tactic.Ring

/-!
# Messages of t1ha0_32 among which every seed has a collision: proofs about the specification
-/

namespace T1ha

open Model

attribute [local irreducible] bit32

/-! ## Bits -/

/-- A bit if a condition holds -/
def sel32 (k : Nat) (c : Bool) : U32 := if c then bit32 k else 0

theorem sel32_not (k : Nat) (c : Bool) : sel32 k (!c) = sel32 k c ^^^ bit32 k := by
  cases c
  · exact BitVec.zero_xor.symm
  · exact BitVec.xor_self.symm

theorem xor_sign32 (x : U32) (k : Nat) (hk : k < 32) :
    x ^^^ bit32 k = x + if x.getLsbD k then - bit32 k else bit32 k := by
  rcases h : x.getLsbD k
  · rw [if_neg (by decide), xor_bit32 _ _ h]
  · have := xor_bit32_set x k hk h
    rw [if_pos rfl, ← BitVec.sub_eq_add_neg, eq_comm, BitVec.sub_eq_iff_eq_add, this]

/-- Adding something smaller than bit 20 clears this bit, except for one value in two million. -/
theorem carry20 (a : U32) (h : a.toNat % 2097152 ≠ 1048576) : ∃ c : Bool,
    (a + if c then 1048575 else 0).getLsbD 20 = false := by
  by_cases h1 : a.toNat % 2097152 < 1048576
  · refine ⟨false, ?_⟩
    rw [if_neg (by decide), BitVec.getLsbD, BitVec.toNat_add, show ((0 : U32).toNat) = 0 from rfl,
      Nat.testBit_eq_decide_div_mod_eq, decide_eq_false_iff_not]
    omega
  · refine ⟨true, ?_⟩
    rw [if_pos rfl, BitVec.getLsbD, BitVec.toNat_add, show ((1048575 : U32).toNat) = 1048575 from rfl,
      Nat.testBit_eq_decide_div_mod_eq, decide_eq_false_iff_not]
    omega

/-- The words which are added for this -/
def low20 (c : Bool) : U32 := if c then 1048575 else 0

theorem low20_bit (a : U32) (c : Bool) (h : (a + low20 c).getLsbD 20 = false) :
    a + (low20 c ^^^ bit32 20) = (a + low20 c) ^^^ bit32 20 := by
  have e : (low20 c).getLsbD 20 = false := by clear h; revert c; decide
  rw [← xor_bit32 _ _ e, ← xor_bit32 _ _ h]
  ring

theorem low20_sel (a : U32) (c h : Bool) (hc : (a + low20 c).getLsbD 20 = false) :
    a + (low20 c ^^^ sel32 20 h) = (a + low20 c) ^^^ sel32 20 h := by
  cases h
  · rw [show sel32 20 false = 0#32 from rfl, BitVec.xor_zero, BitVec.xor_zero]
  · exact low20_bit a c hc

theorem odd_avoids (p x : U32) (hp : p.toNat % 2 = 1) (hx : x.toNat % 2 = 1) :
    (p * x).toNat % 2097152 ≠ 1048576 := by
  rw [BitVec.toNat_mul]
  have : p.toNat * x.toNat % 2 = 1 := by rw [Nat.mul_mod, hp, hx]
  generalize p.toNat * x.toNat = n at this ⊢
  omega

theorem odd_xor (x : U32) : ∃ c : Bool, (x ^^^ if c then 1 else 0).toNat % 2 = 1 := by
  by_cases h : x.toNat % 2 = 1
  · exact ⟨false, by rw [if_neg (by decide)]; rwa [show x ^^^ 0 = x from BitVec.xor_zero]⟩
  · refine ⟨true, ?_⟩
    rw [if_pos rfl, BitVec.toNat_xor, show ((1 : U32).toNat) = 1 from rfl, show (2 : Nat) = 2 ^ 1 from rfl,
      Nat.xor_mod_two_pow]
    rw [show x.toNat % 2 ^ 1 = 0 by omega]
    rfl

theorem bit_add_one (x : U32) (v : Bool) : ∃ c : Bool, (x + if c then 1 else 0).getLsbD 0 = v := by
  by_cases h : x.getLsbD 0 = v
  · exact ⟨false, by rw [if_neg (by decide)]; rwa [show x + 0 = x from BitVec.add_zero x]⟩
  · refine ⟨true, ?_⟩
    rw [if_pos rfl]
    revert h
    rw [BitVec.getLsbD, BitVec.getLsbD, BitVec.toNat_add, show ((1 : U32).toNat) = 1 from rfl,
      Nat.testBit_eq_decide_div_mod_eq, Nat.testBit_eq_decide_div_mod_eq]
    intro h
    have h1 : v = decide (¬ x.toNat / 2 ^ 0 % 2 = 1) := by
      rw [decide_not]
      revert h
      cases v <;> cases decide (x.toNat / 2 ^ 0 % 2 = 1) <;> decide
    rw [h1, decide_eq_decide]
    omega

/-- Adding something between bits 25 and 28 clears bit 28, if bit 25 is set. -/
def mid28 (c : Bool) : U32 := if c then 234881024 else 0

theorem carry28 (x : U32) (h : x.getLsbD 25 = true) : ∃ c : Bool, (mid28 c + x).getLsbD 28 = false := by
  rw [BitVec.getLsbD, Nat.testBit_eq_decide_div_mod_eq, decide_eq_true_eq] at h
  by_cases h1 : x.toNat / 268435456 % 2 = 0
  · refine ⟨false, ?_⟩
    rw [mid28, if_neg (by decide), BitVec.getLsbD, BitVec.toNat_add, show ((0 : U32).toNat) = 0 from rfl,
      Nat.testBit_eq_decide_div_mod_eq, decide_eq_false_iff_not]
    omega
  · refine ⟨true, ?_⟩
    rw [mid28, if_pos rfl, BitVec.getLsbD, BitVec.toNat_add, show ((234881024 : U32).toNat) = 234881024 from rfl,
      Nat.testBit_eq_decide_div_mod_eq, decide_eq_false_iff_not]
    omega

theorem mid28_bit (x : U32) (c : Bool) : (mid28 c + x).getLsbD 24 = x.getLsbD 24 := by
  rw [BitVec.getLsbD, BitVec.getLsbD, BitVec.toNat_add, Nat.testBit_eq_decide_div_mod_eq,
    Nat.testBit_eq_decide_div_mod_eq, decide_eq_decide]
  have h : (mid28 c).toNat % 33554432 = 0 := by revert c; decide
  generalize (mid28 c).toNat = n at h ⊢
  omega

theorem mid28_xor (x : U32) (c : Bool) : mid28 c + (x ^^^ bit32 24) = (mid28 c + x) ^^^ bit32 24 := by
  rw [xor_sign32 _ 24 (by decide), xor_sign32 (mid28 c + x) 24 (by decide), mid28_bit, BitVec.add_assoc]

theorem choose13 (z : U32) (v : Bool) : ∃ c : Bool, (sel32 13 c + z).getLsbD 13 = v := by
  by_cases h : z.getLsbD 13 = v
  · refine ⟨false, ?_⟩
    rw [show sel32 13 false = 0#32 from rfl, BitVec.zero_add, h]
  · refine ⟨true, ?_⟩
    rw [show sel32 13 true = bit32 13 from rfl]
    have e : (bit32 13).toNat = 8192 := by unfold bit32; decide
    revert h
    rw [BitVec.getLsbD, BitVec.getLsbD, BitVec.toNat_add, e, Nat.testBit_eq_decide_div_mod_eq,
      Nat.testBit_eq_decide_div_mod_eq]
    intro h
    have h1 : v = decide (¬ z.toNat / 2 ^ 13 % 2 = 1) := by
      rw [decide_not]
      revert h
      cases v <;> cases decide (z.toNat / 2 ^ 13 % 2 = 1) <;> decide
    rw [h1, decide_eq_decide]
    omega

/-! ## The two blocks -/

/-- After the first block, the states differ in two bits. -/
theorem first_any32 (s : Spec.State32) (w1 w2 : U32) (c h : Bool) (hc : (s.a + low20 c).getLsbD 20 = false) :
    absorbWords s (low20 c ^^^ sel32 20 (!h)) (w1 + bit32 31) (w2 ^^^ bit32 31) 0 =
      { absorbWords s (low20 c ^^^ sel32 20 h) w1 w2 0 with
        c := (absorbWords s (low20 c ^^^ sel32 20 h) w1 w2 0).c ^^^ bit32 24
        d := (absorbWords s (low20 c ^^^ sel32 20 h) w1 w2 0).d ^^^ bit32 17 } := by
  unfold absorbWords
  rw [Spec.State32.mk.injEq]
  refine ⟨?_, ?_, ?_, ?_⟩
  · congr 1
    rw [show ∀ r : U32, w1 + bit32 31 + r = w1 + r + bit32 31 from fun r => by ring, xor_bit32_top]
    generalize w1 + _ = x
    rw [BitVec.xor_assoc, BitVec.xor_comm (bit32 31), BitVec.xor_assoc w2, BitVec.xor_self, BitVec.xor_zero]
  · congr 2
    rw [← xor_bit32_top w2, show w2 + bit32 31 + s.c = w2 + s.c + bit32 31 by ring, xor_bit32_top,
      rot_bit32 _ 31 11 20 (by decide) (by decide) rfl, sel32_not]
    generalize (w2 + s.c).rotateRight 11 = x
    generalize low20 c = l
    generalize sel32 20 h = m
    generalize bit32 20 = n
    rw [← BitVec.xor_assoc l, BitVec.xor_assoc _ n, BitVec.xor_comm x, ← BitVec.xor_assoc n, BitVec.xor_self,
      BitVec.zero_xor]
  · rw [show s.b + (w1 + bit32 31) = s.b + w1 + bit32 31 by ring, xor_bit32_top,
      rot_bit32 _ 31 7 24 (by decide) (by decide) rfl, BitVec.xor_assoc]
  · rw [low20_sel _ _ _ hc, low20_sel _ _ _ hc, sel32_not, ← BitVec.xor_assoc,
      rot_bit32 _ 20 3 17 (by decide) (by decide) rfl, BitVec.xor_assoc]

/-- The change of the last word -/
def change32 (v3 : U32) (k x : Bool) : U32 :=
  v3 + (if k then bit32 17 else - bit32 17) + if x then - bit32 13 else bit32 13

/-- The second block makes them equal again. -/
theorem second_any32 (s : Spec.State32) (v3 : U32) (k j x : Bool) (ha : (s.a + low20 k).getLsbD 20 = false)
    (h28 : (mid28 j + s.c).getLsbD 28 = false) (h17 : s.d.getLsbD 17 = k) (h13 : (v3 + s.d).getLsbD 13 = x)
    (hs : ((low20 k).getLsbD 13 ^^ s.c.getLsbD 24) = !x) :
    absorbWords { s with c := s.c ^^^ bit32 24, d := s.d ^^^ bit32 17 } (low20 k ^^^ bit32 20) (bit32 31)
      (mid28 j + bit32 28 + bit32 31) (change32 v3 k x) = absorbWords s (low20 k) 0 (mid28 j) v3 := by
  have z : ∀ x : U32, 0 + x = x := fun x => BitVec.zero_add x
  have z' : ∀ x : U32, x + 0 = x := fun x => BitVec.add_zero x
  unfold absorbWords
  simp only [z, z']
  rw [Spec.State32.mk.injEq]
  refine ⟨?_, ?_, ?_, ?_⟩
  · congr 1
    have h1 : change32 v3 k x + (s.d ^^^ bit32 17) = (v3 + s.d) ^^^ bit32 13 := by
      rw [xor_sign32 s.d 17 (by decide), xor_sign32 _ 13 (by decide), h17, h13, change32]
      cases k
      · simp only [Bool.false_eq_true, if_false]; ring
      · simp only [if_true]; ring
    have h2 : mid28 j + bit32 28 + bit32 31 = mid28 j ^^^ bit32 28 ^^^ bit32 31 := by
      clear * -
      unfold mid28 bit32; revert j; decide
    rw [h1, rot_bit32 _ 13 17 28 (by decide) (by decide) rfl, BitVec.add_comm (bit32 31), xor_bit32_top, h2]
    generalize (v3 + s.d).rotateRight 17 = r
    generalize mid28 j = m
    rw [BitVec.xor_assoc r, BitVec.xor_assoc m, BitVec.xor_comm m, BitVec.xor_assoc r, ← BitVec.xor_assoc _ _ m,
      BitVec.xor_self, BitVec.zero_xor]
  · congr 1
    have h1 : mid28 j + bit32 28 + bit32 31 + (s.c ^^^ bit32 24) =
        (mid28 j + s.c) ^^^ bit32 24 ^^^ bit32 28 ^^^ bit32 31 := by
      rw [show ∀ t : U32, mid28 j + bit32 28 + bit32 31 + t = mid28 j + t + bit32 28 + bit32 31 from
        fun t => by ring, mid28_xor, xor_bit32_top, xor_bit32]
      rw [bit_xor _ _ _ (by decide), h28]
    rw [h1, rot_bit32 _ 31 11 20 (by decide) (by decide) rfl, rot_bit32 _ 28 11 17 (by decide) (by decide) rfl,
      rot_bit32 _ 24 11 13 (by decide) (by decide) rfl]
    have e17 : (low20 k ^^^ (mid28 j + s.c).rotateRight 11).getLsbD 17 = k := by
      rw [BitVec.getLsbD_xor, bit_rot _ _ _ (by decide) (by decide)]
      show ((low20 k).getLsbD 17 ^^ (mid28 j + s.c).getLsbD 28) = k
      rw [h28]
      clear * -
      revert k; decide
    have e13 : (low20 k ^^^ (mid28 j + s.c).rotateRight 11).getLsbD 13 = !x := by
      rw [BitVec.getLsbD_xor, bit_rot _ _ _ (by decide) (by decide)]
      show ((low20 k).getLsbD 13 ^^ (mid28 j + s.c).getLsbD 24) = !x
      rw [mid28_bit, hs]
    have e : low20 k ^^^ bit32 20 ^^^ ((mid28 j + s.c).rotateRight 11 ^^^ bit32 13 ^^^ bit32 17 ^^^ bit32 20) =
        low20 k ^^^ (mid28 j + s.c).rotateRight 11 ^^^ bit32 13 ^^^ bit32 17 := by
      generalize (mid28 j + s.c).rotateRight 11 = r
      generalize low20 k = l
      generalize bit32 20 = n
      rw [BitVec.xor_assoc l, BitVec.xor_comm n, BitVec.xor_assoc _ n n, BitVec.xor_self, BitVec.xor_zero,
        ← BitVec.xor_assoc, ← BitVec.xor_assoc]
    rw [e]
    generalize low20 k ^^^ (mid28 j + s.c).rotateRight 11 = t at e17 e13 ⊢
    have k17 : (t ^^^ bit32 13).getLsbD 17 = k := by rw [bit_xor _ _ _ (by decide), e17]
    rw [xor_sign32 (t ^^^ bit32 13) 17 (by decide), k17, xor_sign32 t 13 (by decide), e13, change32]
    cases k <;> cases x <;> simp only [Bool.false_eq_true, Bool.not_true, Bool.not_false, if_false, if_true] <;> ring
  · rw [show s.b + bit32 31 = s.b ^^^ bit32 31 from xor_bit32_top _, rot_bit32 _ 31 7 24 (by decide) (by decide) rfl,
      BitVec.xor_assoc, BitVec.xor_comm _ (bit32 24), ← BitVec.xor_assoc (bit32 24), BitVec.xor_self, BitVec.zero_xor]
  · rw [low20_bit _ _ ha, rot_bit32 _ 20 3 17 (by decide) (by decide) rfl, BitVec.xor_assoc,
      BitVec.xor_comm _ (bit32 17), ← BitVec.xor_assoc (bit32 17), BitVec.xor_self, BitVec.zero_xor]

/-! ## The messages -/

/-- What chooses one of the pairs: bits of the words -/
structure Choice32 where
  before : Bool
  low : Bool
  flip : Bool
  one : Bool
  two : Bool
  first : Bool
  mid : Bool
  last : Bool
  sign : Bool

theorem collide_any32 (s : Spec.State32) (h : s.a.toNat % 2097152 ≠ 1048576) (before : Bool) :
    ∃ k : Choice32, k.before = before ∧
    absorbWords (absorbWords s (low20 k.low ^^^ sel32 20 (!k.flip)) ((if k.one then 1 else 0) + bit32 31)
      ((if k.two then 1 else 0) ^^^ bit32 31) 0) (low20 k.first ^^^ bit32 20) (bit32 31)
      (mid28 k.mid + bit32 28 + bit32 31) (change32 (sel32 13 k.last) k.first k.sign) =
    absorbWords (absorbWords s (low20 k.low ^^^ sel32 20 k.flip) (if k.one then 1 else 0)
      (if k.two then 1 else 0) 0) (low20 k.first) 0 (mid28 k.mid) (sel32 13 k.last) := by
  obtain ⟨low, hlow⟩ := carry20 s.a h
  obtain ⟨one, hone⟩ := bit_add_one s.b (!s.c.getLsbD 25)
  obtain ⟨two, htwo⟩ := odd_xor ((if one then 1 else 0) + ((0 : U32) + s.d).rotateRight 17)
  have h25 : (s.c ^^^ (s.b + if one then 1 else 0).rotateRight 7).getLsbD 25 = true := by
    rw [BitVec.getLsbD_xor, bit_rot _ _ _ (by decide) (by decide)]
    show (s.c.getLsbD 25 ^^ (s.b + if one then 1 else 0).getLsbD 0) = true
    rw [hone]; cases s.c.getLsbD 25 <;> rfl
  obtain ⟨mid, hmid⟩ := carry28 _ h25
  obtain ⟨first, hfirst⟩ := carry20 _ (odd_avoids Spec.prime32_0 _ (by decide) htwo)
  generalize hflip : (s.d.getLsbD 17 ^^ first) = flip
  have h17 : (s.d ^^^ (s.a + (low20 low ^^^ sel32 20 flip)).rotateRight 3).getLsbD 17 = first := by
    rw [BitVec.getLsbD_xor, bit_rot _ _ _ (by decide) (by decide), low20_sel _ _ _ hlow]
    show (s.d.getLsbD 17 ^^ ((s.a + low20 low) ^^^ sel32 20 flip).getLsbD 20) = first
    have e : (sel32 20 flip).getLsbD 20 = flip := by
      unfold sel32 bit32
      clear * -
      revert flip; decide
    rw [BitVec.getLsbD_xor, show (s.a + low20 low).getLsbD 20 = false from hlow, e, ← hflip]
    cases s.d.getLsbD 17 <;> cases first <;> rfl
  obtain ⟨last, hlast⟩ := choose13 (s.d ^^^ (s.a + (low20 low ^^^ sel32 20 flip)).rotateRight 3)
    (!((low20 first).getLsbD 13 ^^ (s.c ^^^ (s.b + if one then 1 else 0).rotateRight 7).getLsbD 24))
  refine ⟨⟨before, low, flip, one, two, first, mid, last,
    !((low20 first).getLsbD 13 ^^ (s.c ^^^ (s.b + if one then 1 else 0).rotateRight 7).getLsbD 24)⟩, rfl, ?_⟩
  dsimp only
  rw [first_any32 s _ _ low flip hlow]
  exact second_any32 _ _ first mid _ hfirst hmid h17 hlast (Bool.not_not _).symm

/-- The block before the others: it avoids the few states for which no pair collides. -/
theorem avoid32 (s : Spec.State32) : ∃ c : Bool,
    (absorbWords s 0 0 (if c then 1 else 0) 0).a.toNat % 2097152 ≠ 1048576 := by
  obtain ⟨c, hc⟩ := odd_xor (0 + ((0 : U32) + s.d).rotateRight 17)
  exact ⟨c, odd_avoids _ _ (by decide) hc⟩

/-- A message made of 32-bit words -/
def ofVecs32 (e : Endian) (ws : List U32) : List Byte := (ws.map fun w => e.bytes 4 w.toNat).flatten

theorem length_bytes32 (e : Endian) (n v : Nat) : (e.bytes n v).length = n := by
  cases e
  · exact length_leBytes _ _
  · exact (List.length_reverse).trans (length_leBytes _ _)

theorem length_ofVecs32 (e : Endian) (ws : List U32) : (ofVecs32 e ws).length = 4 * ws.length := by
  induction ws with
  | nil => rfl
  | cons w ws ih =>
    rw [ofVecs32, List.map_cons, List.flatten_cons, List.length_append, length_bytes32, List.length_cons]
    rw [ofVecs32] at ih
    omega

theorem word_ofVecs32 (e : Endian) (ws : List U32) (i : Nat) (hi : i < ws.length) :
    Spec.word32 e (ofVecs32 e ws) i = ws[i] := by
  induction ws generalizing i with
  | nil => simp at hi
  | cons w ws ih =>
    rw [Spec.word32, ofVecs32, List.map_cons, List.flatten_cons]
    cases i with
    | zero =>
      rw [Nat.mul_zero, List.drop_zero, List.take_left' (length_bytes32 _ _ _), Endian.val_bytes]
      apply BitVec.eq_of_toNat_eq
      rw [BitVec.toNat_ofNat, List.getElem_cons_zero]
      have := w.isLt
      omega
    | succ i =>
      rw [Nat.mul_add, Nat.mul_one, Nat.add_comm, ← List.drop_drop, List.drop_left' (length_bytes32 _ _ _)]
      exact ih i (by simpa using hi)

theorem absorb_ofVecs (e : Endian) (s : Spec.State32) (w0 w1 w2 w3 : U32) :
    Spec.absorb32 e s (ofVecs32 e [w0, w1, w2, w3]) = absorbWords s w0 w1 w2 w3 :=
  absorb32_words e s _ (word_ofVecs32 e [w0, w1, w2, w3] 0 (Nat.lt_of_lt_of_eq (by decide) (rfl : 4 = _)))
    (word_ofVecs32 e [w0, w1, w2, w3] 1 (Nat.lt_of_lt_of_eq (by decide) (rfl : 4 = _)))
    (word_ofVecs32 e [w0, w1, w2, w3] 2 (Nat.lt_of_lt_of_eq (by decide) (rfl : 4 = _)))
    (word_ofVecs32 e [w0, w1, w2, w3] 3 (Nat.lt_of_lt_of_eq (by decide) (rfl : 4 = _)))

/-- The first block -/
def before32 (e : Endian) (c : Bool) : List Byte := ofVecs32 e [0, 0, if c then 1 else 0, 0]

/-- The first message of a pair -/
def pairAny32 (e : Endian) (k : Choice32) : List Byte :=
  before32 e k.before ++
  (ofVecs32 e [low20 k.low ^^^ sel32 20 k.flip, if k.one then 1 else 0, if k.two then 1 else 0, 0] ++
    ofVecs32 e [low20 k.first, 0, mid28 k.mid, sel32 13 k.last])

/-- The second one -/
def pairAny32' (e : Endian) (k : Choice32) : List Byte :=
  before32 e k.before ++
  (ofVecs32 e [low20 k.low ^^^ sel32 20 (!k.flip), (if k.one then 1 else 0) + bit32 31,
      (if k.two then 1 else 0) ^^^ bit32 31, 0] ++
    ofVecs32 e [low20 k.first ^^^ bit32 20, bit32 31, mid28 k.mid + bit32 28 + bit32 31,
      change32 (sel32 13 k.last) k.first k.sign])

theorem pairAny32_length (e : Endian) (k : Choice32) : (pairAny32 e k).length = 48 ∧ (pairAny32' e k).length = 48 := by
  rw [pairAny32, pairAny32', before32, List.length_append, List.length_append, List.length_append, List.length_append,
    length_ofVecs32, length_ofVecs32, length_ofVecs32, length_ofVecs32, length_ofVecs32]
  exact ⟨rfl, rfl⟩

theorem pairAny32_ne (e : Endian) (k k' : Choice32) : pairAny32 e k ≠ pairAny32' e k' := by
  intro h
  unfold pairAny32 pairAny32' before32 at h
  have h1 := (List.append_inj h (by rw [length_ofVecs32, length_ofVecs32]; rfl)).2
  have h2 := (List.append_inj h1 (by rw [length_ofVecs32, length_ofVecs32]; rfl)).2
  have h3 := congrArg (fun m => Spec.word32 e m 1) h2
  have e1 : ∀ a b c d : U32, Spec.word32 e (ofVecs32 e [a, b, c, d]) 1 = b := fun a b c d =>
    word_ofVecs32 e [a, b, c, d] 1 (Nat.lt_of_lt_of_eq (by decide) (rfl : 4 = _))
  simp only [e1] at h3
  revert h3
  unfold bit32
  decide

/-- All the messages -/
def messagesAny32 (e : Endian) : List (List Byte) :=
  [false, true].flatMap fun k1 => [false, true].flatMap fun k2 => [false, true].flatMap fun k3 =>
  [false, true].flatMap fun k4 => [false, true].flatMap fun k5 => [false, true].flatMap fun k6 =>
  [false, true].flatMap fun k7 => [false, true].flatMap fun k8 => [false, true].flatMap fun k9 =>
    [pairAny32 e ⟨k1, k2, k3, k4, k5, k6, k7, k8, k9⟩, pairAny32' e ⟨k1, k2, k3, k4, k5, k6, k7, k8, k9⟩]

theorem mem_messagesAny32 (e : Endian) (k : Choice32) :
    pairAny32 e k ∈ messagesAny32 e ∧ pairAny32' e k ∈ messagesAny32 e := by
  obtain ⟨k1, k2, k3, k4, k5, k6, k7, k8, k9⟩ := k
  have hk : ∀ b : Bool, b ∈ [false, true] := by decide
  unfold messagesAny32
  simp only [List.mem_flatMap]
  exact ⟨⟨k1, hk _, k2, hk _, k3, hk _, k4, hk _, k5, hk _, k6, hk _, k7, hk _, k8, hk _, k9, hk _, by simp⟩,
    ⟨k1, hk _, k2, hk _, k3, hk _, k4, hk _, k5, hk _, k6, hk _, k7, hk _, k8, hk _, k9, hk _, by simp⟩⟩

theorem length_both32 {α : Type} (f : Bool → List α) (n : Nat) (h : ∀ b, (f b).length = n) :
    ([false, true].flatMap f).length = 2 * n := by
  rw [List.flatMap_cons, List.flatMap_cons, List.flatMap_nil, List.length_append, List.length_append, h, h,
    List.length_nil]
  omega

theorem length_messagesAny32 (e : Endian) : (messagesAny32 e).length = 1024 := by
  unfold messagesAny32
  rw [length_both32 _ 512]
  intro _; rw [length_both32 _ 256]
  intro _; rw [length_both32 _ 128]
  intro _; rw [length_both32 _ 64]
  intro _; rw [length_both32 _ 32]
  intro _; rw [length_both32 _ 16]
  intro _; rw [length_both32 _ 8]
  intro _; rw [length_both32 _ 4]
  intro _; rw [length_both32 _ 2]
  intro _; rfl

theorem messagesAny32_length (e : Endian) : ∀ m ∈ messagesAny32 e, m.length = 48 := by
  intro m hm
  unfold messagesAny32 at hm
  simp only [List.mem_flatMap] at hm
  obtain ⟨k1, _, k2, _, k3, _, k4, _, k5, _, k6, _, k7, _, k8, _, k9, _, h⟩ := hm
  simp only [List.mem_cons, List.not_mem_nil, or_false] at h
  rcases h with rfl | rfl
  · exact (pairAny32_length _ _).1
  · exact (pairAny32_length _ _).2

/-- Whatever the state, two of them lead to the same state. -/
theorem any_states32 (e : Endian) (s : Spec.State32) : ∃ m ∈ messagesAny32 e, ∃ m' ∈ messagesAny32 e, m ≠ m' ∧
    ∀ q : List Byte, (Spec.blocks 16 (m ++ q)).foldl (Spec.absorb32 e) s =
      (Spec.blocks 16 (m' ++ q)).foldl (Spec.absorb32 e) s := by
  have hb : ∀ (u v q : List Byte) (s : Spec.State32) (b : Bool), u.length = 16 → v.length = 16 →
      (Spec.blocks 16 (before32 e b ++ (u ++ v) ++ q)).foldl (Spec.absorb32 e) s =
        (Spec.blocks 16 q).foldl (Spec.absorb32 e)
          (Spec.absorb32 e (Spec.absorb32 e (Spec.absorb32 e s (before32 e b)) u) v) := by
    intro u v q s b hu hv
    have hl : (before32 e b).length = 16 := length_ofVecs32 _ _
    rw [List.append_assoc, blocks_skip (by decide) _ _ (by simp [hl]), List.append_assoc,
      blocks_skip (by decide) _ _ (by simp [hu]), blocks_skip (by decide) _ _ (by simp [hv]),
      blocks_one (by decide) _ hl, blocks_one (by decide) u hu, blocks_one (by decide) v hv]
    rfl
  obtain ⟨c, hc⟩ := avoid32 s
  obtain ⟨k, rfl, hk⟩ := collide_any32 (absorbWords s 0 0 (if c then 1 else 0) 0) hc c
  refine ⟨_, (mem_messagesAny32 e k).1, _, (mem_messagesAny32 e k).2, pairAny32_ne e k k, ?_⟩
  intro q
  rw [pairAny32, pairAny32', hb _ _ _ _ _ (length_ofVecs32 _ _) (length_ofVecs32 _ _),
    hb _ _ _ _ _ (length_ofVecs32 _ _) (length_ofVecs32 _ _), before32, absorb_ofVecs, absorb_ofVecs, absorb_ofVecs,
    absorb_ofVecs, absorb_ofVecs, hk]

theorem t1ha0_32_cover (e : Endian) (seed : U64) (r : List Byte) (hr : r.length % 16 = 0) (n : Nat) :
    ∃ m ∈ messagesAny32 e, ∃ m' ∈ messagesAny32 e, m ≠ m' ∧ ∀ q : List Byte, q.length = n →
      Spec.t1ha0_32 e (r ++ (m ++ q)) seed = Spec.t1ha0_32 e (r ++ (m' ++ q)) seed := by
  obtain ⟨m, hm, m', hm', hne, h⟩ := any_states32 e ((Spec.blocks 16 r).foldl (Spec.absorb32 e)
    (start32 ((BitVec.ofNat 32 (r.length + (48 + n))).rotateRight 17 + BitVec.ofNat 32 seed.toNat)
      (BitVec.ofNat 32 (r.length + (48 + n)) ^^^ BitVec.ofNat 32 (seed.toNat / 2 ^ 32))))
  refine ⟨m, hm, m', hm', hne, ?_⟩
  intro q hq
  have l1 := messagesAny32_length e m hm
  have l2 := messagesAny32_length e m' hm'
  have e1 : (r ++ (m ++ q)).length = r.length + (48 + n) := by rw [List.length_append, List.length_append, l1, hq]
  have e2 : (r ++ (m' ++ q)).length = r.length + (48 + n) := by rw [List.length_append, List.length_append, l2, hq]
  have hq' := h q
  rw [← List.foldl_append, ← List.foldl_append, ← blocks_skip (by decide) _ _ hr, ← blocks_skip (by decide) _ _ hr,
    start32] at hq'
  have r1 : Spec.rest 16 (r ++ (m ++ q)) = Spec.rest 16 q := by
    rw [rest_skip (by decide) _ _ hr, rest_skip (by decide) _ _ (by rw [l1])]
  have r2 : Spec.rest 16 (r ++ (m' ++ q)) = Spec.rest 16 q := by
    rw [rest_skip (by decide) _ _ hr, rest_skip (by decide) _ _ (by rw [l2])]
  unfold Spec.t1ha0_32
  rw [e1, e2, r1, r2]
  simp only [hq']
  rw [if_pos (by omega), if_pos (by omega)]

end T1ha
