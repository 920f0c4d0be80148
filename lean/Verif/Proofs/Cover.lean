import Verif.Proofs.DifferTwo

/-!
# Messages of t1ha2 among which every seed has a collision: proofs about the specification
-/

namespace T1ha

open Model

attribute [local irreducible] bit64

/-! ## Rotations as arithmetic -/

theorem split56_low (z k : Nat) (hz : z < 18446744073709551616)
    (h : z % 72057594037927936 + k < 72057594037927936) :
    (z + k) % 18446744073709551616 % 72057594037927936 * 256 + (z + k) % 18446744073709551616 / 72057594037927936 =
      (z % 72057594037927936 * 256 + z / 72057594037927936 + 256 * k) % 18446744073709551616 := by
  have h1 : z = 72057594037927936 * (z / 72057594037927936) + z % 72057594037927936 := by omega
  have h2 : z / 72057594037927936 < 256 := by omega
  generalize z / 72057594037927936 = hi at *
  generalize z % 72057594037927936 = lo at *
  subst h1
  have e1 : (72057594037927936 * hi + lo + k) % 18446744073709551616 = 72057594037927936 * hi + (lo + k) := by omega
  have e2 : (lo * 256 + hi + 256 * k) % 18446744073709551616 = (lo + k) * 256 + hi := by omega
  rw [e1, e2, Nat.mul_add_mod, Nat.mul_add_div (by decide), Nat.mod_eq_of_lt (a := lo + k) (by omega),
    Nat.div_eq_of_lt (a := lo + k) (by omega), Nat.add_zero]

theorem add56_low (z : U64) (k : Nat) (h : z.toNat % 72057594037927936 + k < 72057594037927936) :
    (z + BitVec.ofNat 64 k).rotateRight 56 = z.rotateRight 56 + BitVec.ofNat 64 (256 * k) := by
  apply BitVec.eq_of_toNat_eq
  rw [rot_toNat _ _ (by decide) (by decide), BitVec.toNat_add, BitVec.toNat_add, rot_toNat _ _ (by decide) (by decide),
    BitVec.toNat_ofNat, BitVec.toNat_ofNat, Nat.mod_eq_of_lt (a := k) (by omega),
    Nat.mod_eq_of_lt (a := 256 * k) (by omega)]
  exact split56_low z.toNat k z.isLt h

/-- Of a word and the word with bit 55 flipped, one leaves space in its lowest 56 bits. -/
theorem space55 (z : U64) (k : Nat) (hk : k ≤ 36028797018963968) : ∃ c : Bool,
    ((if c then bit64 55 else 0) + z).toNat % 72057594037927936 + k < 72057594037927936 := by
  have e : (bit64 55).toNat = 36028797018963968 := by unfold bit64; decide
  by_cases h : z.toNat % 72057594037927936 < 36028797018963968
  · refine ⟨false, ?_⟩
    rw [if_neg (by decide), show (0 : U64) + z = z from BitVec.zero_add z]
    omega
  · refine ⟨true, ?_⟩
    rw [if_pos rfl, BitVec.toNat_add, e]
    have := z.isLt
    omega

/-- Of a word and the word with its highest bit flipped, one has this bit set; the other bits are the same. -/
theorem space63 (z : U64) : ∃ c : Bool, ((if c then bit64 63 else 0) + z).getLsbD 63 = true ∧
    ((if c then bit64 63 else 0) + z).getLsbD 18 = z.getLsbD 18 := by
  have e : bit64 63 + z = z ^^^ bit64 63 := by rw [BitVec.add_comm, xor_bit64_top]
  rcases h : z.getLsbD 63
  · refine ⟨true, ?_⟩
    rw [if_pos rfl, e, BitVec.getLsbD_xor, BitVec.getLsbD_xor, getLsbD_bit64, getLsbD_bit64, h]
    exact ⟨rfl, by rw [decide_eq_false (by decide), Bool.xor_false]⟩
  · refine ⟨false, ?_⟩
    rw [if_neg (by decide), show (0 : U64) + z = z from BitVec.zero_add z]
    exact ⟨h, rfl⟩

/-- Any value of bit 18 can be reached. -/
theorem choose18 (z : U64) (v : Bool) : ∃ c : Bool, ((if c then bit64 18 else 0) + z).getLsbD 18 = v := by
  by_cases h : z.getLsbD 18 = v
  · refine ⟨false, ?_⟩
    rw [if_neg (by decide), show (0 : U64) + z = z from BitVec.zero_add z, h]
  · refine ⟨true, ?_⟩
    rw [if_pos rfl]
    have e : (bit64 18).toNat = 262144 := by unfold bit64; decide
    revert h
    rw [BitVec.getLsbD, BitVec.getLsbD, BitVec.toNat_add, e, Nat.testBit_eq_decide_div_mod_eq,
      Nat.testBit_eq_decide_div_mod_eq]
    intro h
    have h1 : v = decide (¬ z.toNat / 2 ^ 18 % 2 = 1) := by
      rw [decide_not]
      revert h
      cases v <;> cases decide (z.toNat / 2 ^ 18 % 2 = 1) <;> decide
    rw [h1, decide_eq_decide]
    omega

theorem large63 (z : U64) (h : z.getLsbD 63 = true) : 72057594037927936 ≤ z.toNat := by
  rw [BitVec.getLsbD, Nat.testBit_eq_decide_div_mod_eq, decide_eq_true_eq] at h
  have := z.isLt
  omega

theorem rot_bit18 (z : U64) : (z ^^^ bit64 18).rotateRight 19 = z.rotateRight 19 + bit64 63 := by
  rw [← xor_bit64_top]
  apply BitVec.eq_of_getLsbD_eq
  intro i hi
  rw [bit_rot64 _ _ _ (by decide) hi, BitVec.getLsbD_xor, BitVec.getLsbD_xor, bit_rot64 _ _ _ (by decide) hi,
    getLsbD_bit64, getLsbD_bit64]
  congr 1
  rw [decide_eq_decide]
  omega

/-- The rotation in the second block. -/
theorem sub19_any (z : U64) (i : Bool) (h : z.getLsbD 63 = true) (h' : z.getLsbD 18 = !i) :
    (z - bit64 56 + if i then bit64 18 else - bit64 18).rotateRight 19 = z.rotateRight 19 - bit64 37 + bit64 63 := by
  have e : z - bit64 56 + (if i then bit64 18 else - bit64 18) =
      (z ^^^ bit64 18) - BitVec.ofNat 64 72057594037927936 := by
    rw [ofNat_56]
    cases i
    · rw [if_neg (by decide), xor_bit64_set _ _ (by decide) h']; ring
    · rw [if_pos rfl, xor_bit64 _ _ h']; ring
  rw [e, sub19 _ (large63 _ ?_), ofNat_37, rot_bit18]
  · ring
  · rw [BitVec.getLsbD_xor, h, getLsbD_bit64]; rfl

/-! ## The two blocks -/

/-- After the first block, the states differ in two bits. -/
theorem first_any (s : Spec.State) (w0 w1 w1' w2 w3 : U64) (hw : w1' + bit64 48 = w1 + bit64 37)
    (hr : w1'.rotateRight 38 + bit64 10 = w1.rotateRight 38 + bit64 63)
    (hd : (w2 + s.d).toNat % 72057594037927936 + 281474976710656 < 72057594037927936)
    (hc : 72057594037927936 ≤ (w3 + s.c).toNat)
    (hu : (s.b + w1.rotateRight 38).getLsbD 10 = true) :
    absorbTwo s w0 w1' (w2 + bit64 48) (w3 - bit64 56) =
      { absorbTwo s w0 w1 w2 w3 with d := (absorbTwo s w0 w1 w2 w3).d ^^^ bit64 10 ^^^ bit64 63 } := by
  unfold absorbTwo
  rw [Spec.State.mk.injEq]
  refine ⟨?_, ?_, rfl, ?_⟩
  · congr 2
    rw [show w2 + bit64 48 + s.d = w2 + s.d + bit64 48 by ring, ← ofNat_48, add56_low _ _ hd, ofNat_56']
    ring
  · congr 2
    rw [show w3 - bit64 56 + s.c = w3 + s.c - BitVec.ofNat 64 72057594037927936 by rw [ofNat_56]; ring, sub19 _ hc,
      ofNat_37]
    have : w1' = w1 + bit64 37 - bit64 48 := by rw [← hw]; ring
    rw [this]; ring
  · rw [BitVec.xor_assoc, BitVec.xor_assoc]
    congr 1
    rw [← BitVec.xor_assoc, xor_bit64_set _ _ (by decide) hu, xor_bit64_top]
    have : w1'.rotateRight 38 = w1.rotateRight 38 + bit64 63 - bit64 10 := by rw [← hr]; ring
    rw [this]; ring

theorem ofNat_48_10' : BitVec.ofNat 64 281474976709632 = bit64 48 - bit64 10 := by unfold bit64; decide
theorem ofNat_56_18' : BitVec.ofNat 64 (256 * 281474976709632) = bit64 56 - bit64 18 := by unfold bit64; decide

/-- The second block makes them equal again. -/
theorem second_any (s : Spec.State) (v2 v3 : U64)
    (hd : (v2 + s.d).toNat % 72057594037927936 + 281474976711680 < 72057594037927936)
    (hb : s.b.getLsbD 10 = false) (hc : (v3 + s.c).getLsbD 63 = true)
    (hc' : (v3 + s.c).getLsbD 18 = !s.d.getLsbD 10) :
    absorbTwo { s with d := s.d ^^^ bit64 10 ^^^ bit64 63 } 0 (bit64 37) (v2 + bit64 48 + bit64 63)
      (v3 - bit64 56 + if s.d.getLsbD 10 then bit64 18 else - bit64 18) = absorbTwo s 0 (bit64 48) v2 v3 := by
  have z' : ∀ x : U64, x + 0 = x := fun x => BitVec.add_zero x
  unfold absorbTwo
  simp only []
  rw [Spec.State.mk.injEq]
  refine ⟨?_, ?_, rfl, ?_⟩
  · congr 2
    clear hc'
    rcases h : s.d.getLsbD 10
    · rw [xor_bit64_top, xor_bit64 _ _ h,
        show v2 + bit64 48 + bit64 63 + (s.d + bit64 10 + bit64 63) =
          v2 + s.d + BitVec.ofNat 64 281474976711680 + (bit64 63 + bit64 63) by rw [ofNat_48_10]; ring, bit64_63, z',
        add56_low _ _ hd, ofNat_56_18, if_neg (by decide)]
      ring
    · rw [xor_bit64_top, xor_bit64_set _ _ (by decide) h,
        show v2 + bit64 48 + bit64 63 + (s.d - bit64 10 + bit64 63) =
          v2 + s.d + BitVec.ofNat 64 281474976709632 + (bit64 63 + bit64 63) by rw [ofNat_48_10']; ring, bit64_63, z',
        add56_low _ _ (by omega), ofNat_56_18', if_pos rfl]
      ring
  · congr 2
    rw [show ∀ t : U64, v3 - bit64 56 + t + s.c = v3 + s.c - bit64 56 + t from fun t => by ring, sub19_any _ _ hc hc',
      show ∀ r : U64, bit64 37 + (r - bit64 37 + bit64 63) + (v2 + bit64 48 + bit64 63) =
        bit64 48 + r + v2 + (bit64 63 + bit64 63) from fun r => by ring, bit64_63, z']
  · rw [bit64_37, bit64_48, ← xor_bit64_top, ← xor_bit64 _ _ hb]
    exact cancel_bits _ _ _ _

/-! ## The words -/

/-- The second word of the first block of the first message -/
def wordAny (g c : Bool) : U64 := (if g then 562675075514368 else 281474976710656) + if c then 1024 else 0

/-- and of the second one -/
def wordAny' (g c : Bool) : U64 := (if g then 281337537757184 else 137438953472) + if c then 1024 else 0

theorem wordAny_sum (g c : Bool) : wordAny' g c + bit64 48 = wordAny g c + bit64 37 := by
  unfold bit64; revert g c; decide

theorem wordAny_rotsum (g c : Bool) :
    (wordAny' g c).rotateRight 38 + bit64 10 = (wordAny g c).rotateRight 38 + bit64 63 := by
  unfold bit64; revert g c; decide

theorem wordAny_rot (g c : Bool) : ((wordAny g c).rotateRight 38).toNat % 2048 = if g then 2047 else 1024 := by
  revert g c; decide

theorem wordAny_bit (b : U64) (h : b.toNat % 2048 ≠ 1024) : ∃ g : Bool, ∀ c : Bool,
    (b + (wordAny g c).rotateRight 38).getLsbD 10 = true := by
  have e : ∀ g c : Bool, 1024 ≤ (b.toNat + if g then 2047 else 1024) % 2048 →
      (b + (wordAny g c).rotateRight 38).getLsbD 10 = true := by
    intro g c hg
    have hr := wordAny_rot g c
    rw [BitVec.getLsbD, BitVec.toNat_add, Nat.testBit_eq_decide_div_mod_eq, decide_eq_true_eq]
    refine bit_of_mod _ ?_
    generalize ((wordAny g c).rotateRight 38).toNat = r at hr ⊢
    generalize (if g then 2047 else 1024) = k at hr hg
    omega
  by_cases h1 : b.toNat % 2048 < 1024
  · refine ⟨false, fun c => e _ c ?_⟩
    rw [if_neg (by decide)]; omega
  · refine ⟨true, fun c => e _ c ?_⟩
    rw [if_pos rfl]; omega

/-- Adding 1024 flips the eleventh bit of the product. -/
theorem wordAny_flip (b t : U64) (g : Bool) : ∃ c : Bool,
    (b ^^^ Spec.prime6 * (wordAny g c + t)).getLsbD 10 = false := by
  have e : wordAny g true = wordAny g false + 1024 := by revert g; decide
  rcases h1 : (b ^^^ Spec.prime6 * (wordAny g false + t)).getLsbD 10
  · exact ⟨false, h1⟩
  · refine ⟨true, ?_⟩
    rw [e, show wordAny g false + 1024 + t = wordAny g false + t + 1024 by ring, BitVec.mul_add]
    rw [BitVec.getLsbD_xor] at h1 ⊢
    have h2 : (Spec.prime6 * (wordAny g false + t) + Spec.prime6 * 1024).getLsbD 10 =
        !(Spec.prime6 * (wordAny g false + t)).getLsbD 10 := by
      generalize Spec.prime6 * (wordAny g false + t) = n
      have h3 : (Spec.prime6 * 1024).toNat % 2048 = 1024 := by decide
      rw [BitVec.getLsbD, BitVec.getLsbD, BitVec.toNat_add, Nat.testBit_eq_decide_div_mod_eq,
        Nat.testBit_eq_decide_div_mod_eq, ← decide_not, decide_eq_decide]
      generalize (Spec.prime6 * 1024).toNat = k at h3 ⊢
      omega
    rw [h2]
    revert h1
    cases b.getLsbD 10 <;> cases (Spec.prime6 * (wordAny g false + t)).getLsbD 10 <;> decide

/-- A block before the others avoids the few states for which no pair collides. -/
theorem avoid (s : Spec.State) : ∃ c : Bool, (absorbTwo s 0 0 (if c then 1 else 0) 0).b.toNat % 2048 ≠ 1024 := by
  by_cases h : (absorbTwo s 0 0 0 0).b.toNat % 2048 = 1024
  · refine ⟨true, fun h' => ?_⟩
    rw [if_pos rfl] at h'
    unfold absorbTwo at h h'
    simp only [] at h h'
    rw [BitVec.mul_add, show Spec.prime6 * (1 : U64) = Spec.prime6 from BitVec.mul_one _] at h'
    rw [show ∀ t : U64, t + 0 = t from fun t => BitVec.add_zero t] at h
    generalize Spec.prime6 * (0 + (0 + s.c).rotateRight 19) = n at h h'
    have h1 : ∀ t : U64, (s.b ^^^ t).toNat % 2048 = 1024 → t.toNat % 2048 = s.b.toNat % 2048 ^^^ 1024 := by
      intro t ht
      rw [BitVec.toNat_xor, show (2048 : Nat) = 2 ^ 11 from rfl, Nat.xor_mod_two_pow] at ht
      rw [← ht, show (2048 : Nat) = 2 ^ 11 from rfl, ← Nat.xor_assoc, Nat.xor_self, Nat.zero_xor]
    have h2 := h1 _ h
    have h3 := h1 _ h'
    rw [← h2, BitVec.toNat_add] at h3
    have h4 : Spec.prime6.toNat % 2048 = 1073 := by decide
    generalize Spec.prime6.toNat = k at h3 h4
    omega
  · exact ⟨false, h⟩

/-! ## The messages -/

/-- What chooses one of the pairs: bits of the words -/
structure Choice where
  before : Bool
  carry : Bool
  word : Bool
  second : Bool
  third : Bool
  fourth : Bool
  top : Bool
  eighteen : Bool
  last : Bool

theorem collide_any (s : Spec.State) (h : s.b.toNat % 2048 ≠ 1024) (before : Bool) : ∃ k : Choice, k.before = before ∧
    absorbTwo (absorbTwo s 0 (wordAny' k.carry k.word)
      ((if k.second then bit64 55 else 0) + bit64 48) ((if k.third then bit64 63 else 0) - bit64 56))
      0 (bit64 37) ((if k.fourth then bit64 55 else 0) + bit64 48 + bit64 63)
      ((if k.top then bit64 63 else 0) + (if k.eighteen then bit64 18 else 0) - bit64 56 +
        if k.last then bit64 18 else - bit64 18) =
    absorbTwo (absorbTwo s 0 (wordAny k.carry k.word) (if k.second then bit64 55 else 0)
      (if k.third then bit64 63 else 0))
      0 (bit64 48) (if k.fourth then bit64 55 else 0)
      ((if k.top then bit64 63 else 0) + (if k.eighteen then bit64 18 else 0)) := by
  obtain ⟨g, hg⟩ := wordAny_bit s.b h
  obtain ⟨k2, h2⟩ := space55 s.d 281474976710656 (by decide)
  obtain ⟨k3, h3, _⟩ := space63 s.c
  obtain ⟨k1, h1⟩ := wordAny_flip s.b (((if k3 then bit64 63 else 0) + s.c).rotateRight 19 +
    (if k2 then bit64 55 else 0)) g
  obtain ⟨k4, h4⟩ := space55 (s.d ^^^ (s.b + (wordAny g k1).rotateRight 38)) 281474976711680 (by decide)
  obtain ⟨k6, h6⟩ := choose18 (s.c ^^^ (s.a + (0 : U64).rotateRight 57))
    (!(s.d ^^^ (s.b + (wordAny g k1).rotateRight 38)).getLsbD 10)
  obtain ⟨k5, h5, h5'⟩ := space63 ((if k6 then bit64 18 else 0) + (s.c ^^^ (s.a + (0 : U64).rotateRight 57)))
  refine ⟨⟨before, g, k1, k2, k3, k4, k5, k6, (s.d ^^^ (s.b + (wordAny g k1).rotateRight 38)).getLsbD 10⟩, rfl, ?_⟩
  show absorbTwo (absorbTwo s 0 (wordAny' g k1)
      ((if k2 then bit64 55 else 0) + bit64 48) ((if k3 then bit64 63 else 0) - bit64 56))
      0 (bit64 37) ((if k4 then bit64 55 else 0) + bit64 48 + bit64 63)
      ((if k5 then bit64 63 else 0) + (if k6 then bit64 18 else 0) - bit64 56 +
        if (s.d ^^^ (s.b + (wordAny g k1).rotateRight 38)).getLsbD 10 then bit64 18 else - bit64 18) =
    absorbTwo (absorbTwo s 0 (wordAny g k1) (if k2 then bit64 55 else 0) (if k3 then bit64 63 else 0))
      0 (bit64 48) (if k4 then bit64 55 else 0)
      ((if k5 then bit64 63 else 0) + (if k6 then bit64 18 else 0))
  rw [first_any s _ (wordAny g k1) (wordAny' g k1) _ _ (wordAny_sum g k1) (wordAny_rotsum g k1) h2
    (large63 _ h3) (hg k1)]
  refine second_any _ _ _ h4 ?_ ?_ ?_
  · rw [← h1, ← BitVec.add_assoc]
    rfl
  · rw [BitVec.add_assoc]
    exact h5
  · rw [BitVec.add_assoc]
    exact h5'.trans h6

/-- The block before the others -/
def beforeAny (c : Bool) : List Byte := ofWords64 [0, 0, if c then 1 else 0, 0]

/-- The first message of a pair -/
def pairAny (k : Choice) : List Byte :=
  beforeAny k.before ++
  (ofWords64 [0, wordAny k.carry k.word, if k.second then bit64 55 else 0, if k.third then bit64 63 else 0] ++
    ofWords64 [0, bit64 48, if k.fourth then bit64 55 else 0,
      (if k.top then bit64 63 else 0) + (if k.eighteen then bit64 18 else 0)])

/-- The second one -/
def pairAny' (k : Choice) : List Byte :=
  beforeAny k.before ++
  (ofWords64 [0, wordAny' k.carry k.word, (if k.second then bit64 55 else 0) + bit64 48,
      (if k.third then bit64 63 else 0) - bit64 56] ++
    ofWords64 [0, bit64 37, (if k.fourth then bit64 55 else 0) + bit64 48 + bit64 63,
      (if k.top then bit64 63 else 0) + (if k.eighteen then bit64 18 else 0) - bit64 56 +
        if k.last then bit64 18 else - bit64 18])

theorem pairAny_length (k : Choice) : (pairAny k).length = 96 ∧ (pairAny' k).length = 96 := by
  rw [pairAny, pairAny', beforeAny, List.length_append, List.length_append, List.length_append, List.length_append,
    length_ofWords64, length_ofWords64, length_ofWords64, length_ofWords64, length_ofWords64]
  exact ⟨rfl, rfl⟩

theorem pairAny_ne (k k' : Choice) : pairAny k ≠ pairAny' k' := by
  intro h
  unfold pairAny pairAny' beforeAny at h
  have h1 := (List.append_inj h (by rw [length_ofWords64, length_ofWords64]; rfl)).2
  have h2 := (List.append_inj h1 (by rw [length_ofWords64, length_ofWords64]; rfl)).2
  have h3 := congrArg (fun m => Spec.word64 .little m 1) h2
  have e : ∀ a b c d : U64, Spec.word64 .little (ofWords64 [a, b, c, d]) 1 = b := fun a b c d =>
    word_ofWords64 [a, b, c, d] 1 (Nat.lt_of_lt_of_eq (by decide) (rfl : 4 = _))
  simp only [e] at h3
  revert h3
  unfold bit64
  decide

/-- Both values -/
def both : List Bool := [false, true]

/-- All the messages -/
def messagesAny : List (List Byte) :=
  both.flatMap fun k1 => both.flatMap fun k2 => both.flatMap fun k3 => both.flatMap fun k4 => both.flatMap fun k5 =>
    both.flatMap fun k6 => both.flatMap fun k7 => both.flatMap fun k8 => both.flatMap fun k9 =>
      [pairAny ⟨k1, k2, k3, k4, k5, k6, k7, k8, k9⟩, pairAny' ⟨k1, k2, k3, k4, k5, k6, k7, k8, k9⟩]

theorem mem_messagesAny (k : Choice) : pairAny k ∈ messagesAny ∧ pairAny' k ∈ messagesAny := by
  obtain ⟨k1, k2, k3, k4, k5, k6, k7, k8, k9⟩ := k
  have hk : ∀ b : Bool, b ∈ both := by decide
  unfold messagesAny
  simp only [List.mem_flatMap]
  exact ⟨⟨k1, hk _, k2, hk _, k3, hk _, k4, hk _, k5, hk _, k6, hk _, k7, hk _, k8, hk _, k9, hk _, by simp⟩,
    ⟨k1, hk _, k2, hk _, k3, hk _, k4, hk _, k5, hk _, k6, hk _, k7, hk _, k8, hk _, k9, hk _, by simp⟩⟩

theorem length_both {α : Type} (f : Bool → List α) (n : Nat) (h : ∀ b, (f b).length = n) :
    (both.flatMap f).length = 2 * n := by
  rw [both, List.flatMap_cons, List.flatMap_cons, List.flatMap_nil, List.length_append, List.length_append, h, h,
    List.length_nil]
  omega

theorem length_messagesAny : messagesAny.length = 1024 := by
  unfold messagesAny
  rw [length_both _ 512]
  intro _; rw [length_both _ 256]
  intro _; rw [length_both _ 128]
  intro _; rw [length_both _ 64]
  intro _; rw [length_both _ 32]
  intro _; rw [length_both _ 16]
  intro _; rw [length_both _ 8]
  intro _; rw [length_both _ 4]
  intro _; rw [length_both _ 2]
  intro _; rfl

theorem messagesAny_length : ∀ m ∈ messagesAny, m.length = 96 := by
  intro m hm
  unfold messagesAny at hm
  simp only [List.mem_flatMap] at hm
  obtain ⟨k1, _, k2, _, k3, _, k4, _, k5, _, k6, _, k7, _, k8, _, k9, _, h⟩ := hm
  simp only [List.mem_cons, List.not_mem_nil, or_false] at h
  rcases h with rfl | rfl
  · exact (pairAny_length _).1
  · exact (pairAny_length _).2

/-- Whatever the state, two of them lead to the same state. -/
theorem any_states (s : Spec.State) : ∃ m ∈ messagesAny, ∃ m' ∈ messagesAny, m ≠ m' ∧
    ∀ q : List Byte, Spec.absorbAll s (Spec.blocks 32 (m ++ q)) = Spec.absorbAll s (Spec.blocks 32 (m' ++ q)) := by
  have hb : ∀ (u v q : List Byte) (s : Spec.State) (b : Bool), u.length = 32 → v.length = 32 →
      Spec.absorbAll s (Spec.blocks 32 (beforeAny b ++ (u ++ v) ++ q)) =
        Spec.absorbAll (Spec.absorb (Spec.absorb (Spec.absorb s (beforeAny b)) u) v) (Spec.blocks 32 q) := by
    intro u v q s b hu hv
    have hl : (beforeAny b).length = 32 := length_ofWords64 _
    rw [List.append_assoc, blocks_skip (by decide) _ _ (by simp [hl]), List.append_assoc,
      blocks_skip (by decide) _ _ (by simp [hu]), blocks_skip (by decide) _ _ (by simp [hv]),
      blocks_one (by decide) _ hl, blocks_one (by decide) u hu, blocks_one (by decide) v hv]
    rfl
  obtain ⟨c, hc⟩ := avoid s
  obtain ⟨k, rfl, hk⟩ := collide_any (absorbTwo s 0 0 (if c then 1 else 0) 0) hc c
  refine ⟨_, (mem_messagesAny k).1, _, (mem_messagesAny k).2, pairAny_ne k k, ?_⟩
  intro q
  rw [pairAny, pairAny', hb _ _ _ _ _ (length_ofWords64 _) (length_ofWords64 _),
    hb _ _ _ _ _ (length_ofWords64 _) (length_ofWords64 _), beforeAny, absorb_ofWords, absorb_ofWords, absorb_ofWords,
    absorb_ofWords, absorb_ofWords, hk]

/-- The same after a beginning of whole blocks. -/
theorem any_states_after (s : Spec.State) (r : List Byte) (hr : r.length % 32 = 0) :
    ∃ m ∈ messagesAny, ∃ m' ∈ messagesAny, m ≠ m' ∧ ∀ q : List Byte,
      Spec.absorbAll s (Spec.blocks 32 (r ++ (m ++ q))) = Spec.absorbAll s (Spec.blocks 32 (r ++ (m' ++ q))) ∧
      Spec.rest 32 (r ++ (m ++ q)) = Spec.rest 32 (r ++ (m' ++ q)) := by
  obtain ⟨m, hm, m', hm', hne, h⟩ := any_states (Spec.absorbAll s (Spec.blocks 32 r))
  refine ⟨m, hm, m', hm', hne, ?_⟩
  intro q
  have l1 := messagesAny_length m hm
  have l2 := messagesAny_length m' hm'
  have e : ∀ t : List Byte, Spec.absorbAll s (Spec.blocks 32 (r ++ t)) =
      Spec.absorbAll (Spec.absorbAll s (Spec.blocks 32 r)) (Spec.blocks 32 t) := by
    intro t
    rw [blocks_skip (by decide) _ _ hr]
    exact List.foldl_append
  rw [e, e, h q, rest_skip (by decide) _ _ hr, rest_skip (by decide) _ _ hr, rest_skip (by decide) _ _ (by rw [l1]),
    rest_skip (by decide) _ _ (by rw [l2])]
  exact ⟨rfl, rfl⟩

theorem t1ha2_cover (seed : U64) (r : List Byte) (hr : r.length % 32 = 0) (n : Nat) :
    ∃ m ∈ messagesAny, ∃ m' ∈ messagesAny, m ≠ m' ∧ ∀ q : List Byte, q.length = n →
      Spec.t1ha2_atonce (r ++ (m ++ q)) seed = Spec.t1ha2_atonce (r ++ (m' ++ q)) seed ∧
      Spec.t1ha2_atonce128 (r ++ (m ++ q)) seed = Spec.t1ha2_atonce128 (r ++ (m' ++ q)) seed := by
  obtain ⟨m, hm, m', hm', hne, h⟩ :=
    any_states_after (Spec.init seed (BitVec.ofNat 64 (r.length + (96 + n)))) r hr
  refine ⟨m, hm, m', hm', hne, ?_⟩
  intro q hq
  have l1 := messagesAny_length m hm
  have l2 := messagesAny_length m' hm'
  have e1 : (r ++ (m ++ q)).length = r.length + (96 + n) := by rw [List.length_append, List.length_append, l1, hq]
  have e2 : (r ++ (m' ++ q)).length = r.length + (96 + n) := by rw [List.length_append, List.length_append, l2, hq]
  unfold Spec.t1ha2_atonce Spec.t1ha2_atonce128 Spec.len64
  rw [e1, e2, if_pos (by omega), if_pos (by omega), if_pos (by omega), if_pos (by omega), (h q).1, (h q).2]
  exact ⟨rfl, rfl⟩

theorem t1ha2_stream_cover (x y : U64) (r : List Byte) (hr : r.length % 32 = 0) :
    ∃ m ∈ messagesAny, ∃ m' ∈ messagesAny, m ≠ m' ∧ ∀ q : List Byte,
      Spec.t1ha2_stream (r ++ (m ++ q)) x y = Spec.t1ha2_stream (r ++ (m' ++ q)) x y ∧
      Spec.t1ha2_stream128 (r ++ (m ++ q)) x y = Spec.t1ha2_stream128 (r ++ (m' ++ q)) x y := by
  obtain ⟨m, hm, m', hm', hne, h⟩ := any_states_after (Spec.init x y) r hr
  refine ⟨m, hm, m', hm', hne, ?_⟩
  intro q
  have l1 := messagesAny_length m hm
  have l2 := messagesAny_length m' hm'
  obtain ⟨q', e1, e2⟩ : ∃ q', Spec.padded (r ++ (m ++ q)) = r ++ (m ++ q') ∧
      Spec.padded (r ++ (m' ++ q)) = r ++ (m' ++ q') := by
    unfold Spec.padded
    rw [List.append_assoc, List.append_assoc, List.append_assoc, List.append_assoc, List.length_append,
      List.length_append, List.length_append, List.length_append, l1, l2]
    exact ⟨_, rfl, rfl⟩
  unfold Spec.t1ha2_stream Spec.t1ha2_stream128
  rw [e1, e2, (h q').1, (h q').2]
  exact ⟨rfl, rfl⟩

end T1ha
