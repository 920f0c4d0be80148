import Verif.Proofs.Collide
import Mathlib.Data.Set.Card
import Mathlib.Data.FinEnum

/-!
# Messages which collide under many seeds: proofs about the specification
-/

namespace T1ha

open Model

/-! ## Counting -/

/-- If a map turns every element of `T` into one of `S` which is not in `S` already, then `S` is at least half of `T`. -/
theorem half_le {α : Type} [Finite α] (f : α → α) (hf : Function.Injective f) (S T : Set α)
    (h : ∀ x ∈ T, x ∈ S ∨ f x ∈ S) : T.ncard ≤ 2 * S.ncard := by
  have h1 : T ⊆ S ∪ f ⁻¹' S := fun x hx => h x hx
  have h2 := Set.ncard_le_ncard h1 (Set.toFinite _)
  have h3 := Set.ncard_union_le S (f ⁻¹' S)
  have h4 : (f ⁻¹' S).ncard ≤ S.ncard := by
    rw [← hf.injOn.ncard_image]
    exact Set.ncard_le_ncard (Set.image_preimage_subset _ _) (Set.toFinite _)
  omega

/-! ## Bits of 32-bit words -/

def bit32 (k : Nat) : U32 := BitVec.twoPow 32 k

theorem getLsbD_bit32 (k i : Nat) : (bit32 k).getLsbD i = decide (i < 32 ∧ k = i) := by
  rw [bit32, BitVec.getLsbD_twoPow]
  by_cases h : k = i
  · subst h
    by_cases h' : k < 32 <;> simp [h']
  · simp [h]

theorem xor_bit32 (x : U32) (k : Nat) (h : x.getLsbD k = false) : x + bit32 k = x ^^^ bit32 k := by
  have h0 : x &&& bit32 k = 0#32 := by
    apply BitVec.eq_of_getLsbD_eq
    intro i hi
    rw [BitVec.getLsbD_and, getLsbD_bit32, BitVec.getLsbD_zero]
    by_cases hk : k = i
    · subst hk; simp [h]
    · simp [hk]
  rw [BitVec.add_eq_or_of_and_eq_zero _ _ h0]
  apply BitVec.eq_of_getLsbD_eq
  intro i hi
  rw [BitVec.getLsbD_xor, BitVec.getLsbD_or, getLsbD_bit32]
  by_cases hk : k = i
  · subst hk; simp [h]
  · simp [hk]

theorem xor_bit32_set (x : U32) (k : Nat) (hk : k < 32) (h : x.getLsbD k = true) : (x ^^^ bit32 k) + bit32 k = x := by
  rw [xor_bit32, BitVec.xor_assoc, BitVec.xor_self, BitVec.xor_zero]
  rw [BitVec.getLsbD_xor, getLsbD_bit32, h]; simp [hk]

theorem xor_bit32_top (x : U32) : x + bit32 31 = x ^^^ bit32 31 := by
  rcases h : x.getLsbD 31
  · exact xor_bit32 x 31 h
  · have h1 := xor_bit32_set x 31 (by decide) h
    conv_lhs => rw [← h1]
    rw [BitVec.add_assoc, show bit32 31 + bit32 31 = 0#32 by decide, BitVec.add_zero]

theorem rot_bit32 (x : U32) (k r i : Nat) (hr : r < 32) (hk : k < 32) (hi : i = (k + 32 - r) % 32) :
    (x ^^^ bit32 k).rotateRight r = x.rotateRight r ^^^ bit32 i := by
  apply BitVec.eq_of_getLsbD_eq
  intro j hj
  rw [BitVec.getLsbD_xor, BitVec.getLsbD_rotateRight, BitVec.getLsbD_rotateRight, getLsbD_bit32, Nat.mod_eq_of_lt hr]
  simp only [hj, decide_true, Bool.true_and, true_and, Bool.cond_decide]
  split
  · rw [BitVec.getLsbD_xor, getLsbD_bit32]
    congr 1
    exact decide_eq_decide.mpr (by omega)
  · rw [BitVec.getLsbD_xor, getLsbD_bit32]
    congr 1
    exact decide_eq_decide.mpr (by omega)

/-- A bit of a rotated word -/
theorem bit_rot (x : U32) (r i : Nat) (hr : r < 32) (hi : i < 32) :
    (x.rotateRight r).getLsbD i = x.getLsbD ((i + r) % 32) := by
  rw [BitVec.getLsbD_rotateRight, Nat.mod_eq_of_lt hr, Bool.cond_decide]
  split
  · rw [Nat.mod_eq_of_lt (by omega), Nat.add_comm]
  · rw [show (i + r) % 32 = i - (32 - r) by omega]; simp [hi]

theorem bit_xor (x : U32) (k i : Nat) (h : k ≠ i) : (x ^^^ bit32 k).getLsbD i = x.getLsbD i := by
  rw [BitVec.getLsbD_xor, getLsbD_bit32]; simp [h]

theorem bit_xor_self (x : U32) (k : Nat) (h : k < 32) : (x ^^^ bit32 k).getLsbD k = !x.getLsbD k := by
  rw [BitVec.getLsbD_xor, getLsbD_bit32]; simp [h]

attribute [local irreducible] bit32

/-! ## The two blocks -/

/-- `Spec.absorb32` on words -/
def absorbWords (s : Spec.State32) (w0 w1 w2 w3 : U32) : Spec.State32 :=
  { a := Spec.prime32_0 * ((w1 + (w3 + s.d).rotateRight 17) ^^^ w2)
    b := Spec.prime32_1 * ((w0 ^^^ (w2 + s.c).rotateRight 11) + w3)
    c := s.c ^^^ (s.b + w1).rotateRight 7
    d := s.d ^^^ (s.a + w0).rotateRight 3 }

def start32 (a b : U32) : Spec.State32 := { a := a, b := b, c := ~~~a, d := b.rotateRight 5 }

/-- After the first block, the states differ in two bits. -/
theorem first_block (a b : U32) (h : a.getLsbD 20 = false) :
    absorbWords (start32 a b) (bit32 20) (bit32 31) (bit32 31) 0 =
      { absorbWords (start32 a b) 0 0 0 0 with
        c := (absorbWords (start32 a b) 0 0 0 0).c ^^^ bit32 24
        d := (absorbWords (start32 a b) 0 0 0 0).d ^^^ bit32 17 } := by
  have z : ∀ x : U32, 0 + x = x := fun x => BitVec.zero_add x
  have z' : ∀ x : U32, x + 0 = x := fun x => BitVec.add_zero x
  have z'' : ∀ x : U32, x ^^^ 0 = x := fun x => BitVec.xor_zero
  have zx : ∀ x : U32, 0 ^^^ x = x := fun x => BitVec.zero_xor
  unfold absorbWords start32
  simp only [z, z', z'', zx]
  rw [Spec.State32.mk.injEq]
  refine ⟨?_, ?_, ?_, ?_⟩
  · rw [BitVec.add_comm, xor_bit32_top, BitVec.xor_assoc, BitVec.xor_self, BitVec.xor_zero]
  · rw [BitVec.add_comm, xor_bit32_top, rot_bit32 _ 31 11 20 (by decide) (by decide) rfl, BitVec.xor_comm,
      BitVec.xor_assoc, BitVec.xor_self, BitVec.xor_zero]
  · rw [xor_bit32_top, rot_bit32 _ 31 7 24 (by decide) (by decide) rfl, BitVec.xor_assoc]
  · rw [xor_bit32 _ _ h, rot_bit32 _ 20 3 17 (by decide) (by decide) rfl, BitVec.xor_assoc]

/-- The second block makes them equal again. -/
theorem second_block (s : Spec.State32) (ha : s.a.getLsbD 20 = false) (h28 : s.c.getLsbD 28 = false)
    (h24 : s.c.getLsbD 24 = true) (h17 : s.d.getLsbD 17 = false) (h13 : s.d.getLsbD 13 = false) :
    absorbWords { s with c := s.c ^^^ bit32 24, d := s.d ^^^ bit32 17 } (bit32 20) (bit32 31)
      (bit32 28 + bit32 31) (bit32 13) = absorbWords s 0 0 0 (bit32 17) := by
  have z : ∀ x : U32, 0 + x = x := fun x => BitVec.zero_add x
  have z' : ∀ x : U32, x + 0 = x := fun x => BitVec.add_zero x
  have z'' : ∀ x : U32, x ^^^ 0 = x := fun x => BitVec.xor_zero
  have zx : ∀ x : U32, 0 ^^^ x = x := fun x => BitVec.zero_xor
  unfold absorbWords
  simp only [z, z', z'', zx]
  rw [Spec.State32.mk.injEq]
  refine ⟨?_, ?_, ?_, ?_⟩
  · have h1 : bit32 13 + (s.d ^^^ bit32 17) = (bit32 17 + s.d) ^^^ bit32 13 := by
      rw [BitVec.add_comm, BitVec.add_comm (bit32 17), xor_bit32 _ _ h17, xor_bit32]
      rw [bit_xor _ _ _ (by decide), h13]
    rw [h1, rot_bit32 _ 13 17 28 (by decide) (by decide) rfl, BitVec.add_comm (bit32 31), xor_bit32_top,
      xor_bit32_top, BitVec.xor_assoc, BitVec.xor_assoc, ← BitVec.xor_assoc (bit32 31), BitVec.xor_comm (bit32 31),
      BitVec.xor_assoc (bit32 28), BitVec.xor_self, BitVec.xor_zero, BitVec.xor_self, BitVec.xor_zero]
  · have h1 : bit32 28 + bit32 31 + (s.c ^^^ bit32 24) = s.c ^^^ bit32 24 ^^^ bit32 28 ^^^ bit32 31 := by
      rw [BitVec.add_comm, ← BitVec.add_assoc, xor_bit32_top, xor_bit32]
      rw [bit_xor _ _ _ (by decide), h28]
    rw [h1, rot_bit32 _ 31 11 20 (by decide) (by decide) rfl, rot_bit32 _ 28 11 17 (by decide) (by decide) rfl,
      rot_bit32 _ 24 11 13 (by decide) (by decide) rfl, BitVec.xor_comm (bit32 20), BitVec.xor_assoc _ (bit32 20),
      BitVec.xor_self, BitVec.xor_zero]
    have k17 : (s.c.rotateRight 11).getLsbD 17 = false := by
      rw [bit_rot _ _ _ (by decide) (by decide)]; exact h28
    have k13 : (s.c.rotateRight 11).getLsbD 13 = true := by
      rw [bit_rot _ _ _ (by decide) (by decide)]; exact h24
    rw [xor_bit32 _ _ k17, BitVec.xor_assoc, BitVec.xor_comm (bit32 13), ← BitVec.xor_assoc, xor_bit32_set _ _ (by decide)]
    rw [bit_xor _ _ _ (by decide), k13]
  · rw [xor_bit32_top, rot_bit32 _ 31 7 24 (by decide) (by decide) rfl, BitVec.xor_assoc,
      BitVec.xor_comm _ (bit32 24), ← BitVec.xor_assoc (bit32 24), BitVec.xor_self, BitVec.zero_xor]
  · rw [xor_bit32 _ _ ha, rot_bit32 _ 20 3 17 (by decide) (by decide) rfl, BitVec.xor_assoc,
      BitVec.xor_comm _ (bit32 17), ← BitVec.xor_assoc (bit32 17), BitVec.xor_self, BitVec.zero_xor]

/-- The seeds for which this works, in terms of the initial state -/
structure Good (a b : U32) : Prop where
  b22 : b.getLsbD 22 = false
  mul : (Spec.prime32_0 * (b.rotateRight 5).rotateRight 17).getLsbD 20 = false
  a20 : a.getLsbD 20 = false
  a28 : a.getLsbD 28 = !b.getLsbD 3
  a24 : a.getLsbD 24 = b.getLsbD 31
  a16 : a.getLsbD 16 = b.getLsbD 18

theorem Good.collide {a b : U32} (g : Good a b) :
    absorbWords (absorbWords (start32 a b) (bit32 20) (bit32 31) (bit32 31) 0) (bit32 20) (bit32 31)
      (bit32 28 + bit32 31) (bit32 13) = absorbWords (absorbWords (start32 a b) 0 0 0 0) 0 0 0 (bit32 17) := by
  rw [first_block a b g.a20]
  have z : ∀ x : U32, 0 + x = x := fun x => BitVec.zero_add x
  have z' : ∀ x : U32, x + 0 = x := fun x => BitVec.add_zero x
  have z'' : ∀ x : U32, x ^^^ 0 = x := fun x => BitVec.xor_zero
  refine second_block (absorbWords (start32 a b) 0 0 0 0) ?_ ?_ ?_ ?_ ?_ <;>
    simp only [absorbWords, start32, z, z', z'']
  · exact g.mul
  · rw [BitVec.getLsbD_xor, BitVec.getLsbD_not, bit_rot _ _ _ (by decide) (by decide), g.a28]
    simp
  · rw [BitVec.getLsbD_xor, BitVec.getLsbD_not, bit_rot _ _ _ (by decide) (by decide), g.a24]
    simp
  · rw [BitVec.getLsbD_xor, bit_rot _ _ _ (by decide) (by decide), bit_rot _ _ _ (by decide) (by decide)]
    show (b.getLsbD 22 ^^ a.getLsbD 20) = false
    rw [g.a20, g.b22]; rfl
  · rw [BitVec.getLsbD_xor, bit_rot _ _ _ (by decide) (by decide), bit_rot _ _ _ (by decide) (by decide)]
    show (b.getLsbD 18 ^^ a.getLsbD 16) = false
    rw [g.a16, Bool.xor_self]

theorem flip_sum (x y : Nat) (h : y % 2097152 = 1048576) :
    ((x + y) % 4294967296 / 1048576 % 2 = 1) ↔ ¬ (x / 1048576 % 2 = 1) := by
  omega

theorem odd_shift (p : Nat) (h : p % 2 = 1) : p * 1048576 % 4294967296 % 2097152 = 1048576 := by
  omega

theorem mul_bit (p r : U32) (hp : p.toNat % 2 = 1) :
    (p * (r ^^^ bit32 20)).getLsbD 20 = !(p * r).getLsbD 20 := by
  have e : (bit32 20).toNat = 1048576 := by
    unfold bit32; decide
  have key : ∀ r : U32, r.getLsbD 20 = false → (p * (r ^^^ bit32 20)).getLsbD 20 = !(p * r).getLsbD 20 := by
    intro r hr
    rw [← xor_bit32 r 20 hr, BitVec.mul_add]
    have h : (p * bit32 20).toNat % 2097152 = 1048576 := by
      rw [BitVec.toNat_mul, e]
      exact odd_shift _ hp
    have h1 := flip_sum (p * r).toNat _ h
    rw [BitVec.getLsbD, BitVec.getLsbD, BitVec.toNat_add, Nat.testBit_eq_decide_div_mod_eq,
      Nat.testBit_eq_decide_div_mod_eq, ← decide_not, decide_eq_decide]
    exact h1
  rcases h : r.getLsbD 20
  · exact key r h
  · have h1 := key (r ^^^ bit32 20) (by rw [bit_xor_self _ _ (by decide), h]; rfl)
    rw [BitVec.xor_assoc, BitVec.xor_self, BitVec.xor_zero] at h1
    rw [h1, Bool.not_not]

theorem flipB_inj (k : Nat) : Function.Injective fun x : U32 × U32 => (x.1, x.2 ^^^ bit32 k) := by
  rintro ⟨a, b⟩ ⟨a', b'⟩ h
  simp only [Prod.mk.injEq] at h
  have := congrArg (· ^^^ bit32 k) h.2
  simp only [BitVec.xor_assoc, BitVec.xor_self, BitVec.xor_zero] at this
  rw [h.1, this]

theorem flipA_inj (k : Nat) : Function.Injective fun x : U32 × U32 => (x.1 ^^^ bit32 k, x.2) := by
  rintro ⟨a, b⟩ ⟨a', b'⟩ h
  simp only [Prod.mk.injEq] at h
  have := congrArg (· ^^^ bit32 k) h.1
  simp only [BitVec.xor_assoc, BitVec.xor_self, BitVec.xor_zero] at this
  rw [h.2, this]

/-- One in 64 initial states is good. -/
theorem good_many : 2 ^ 64 ≤ 64 * {x : U32 × U32 | Good x.1 x.2}.ncard := by
  let M : U32 → Bool := fun b => (Spec.prime32_0 * (b.rotateRight 5).rotateRight 17).getLsbD 20
  have hM : ∀ b, M (b ^^^ bit32 10) = !M b := by
    intro b
    simp only [M]
    rw [rot_bit32 _ 10 5 5 (by decide) (by decide) rfl, rot_bit32 _ 5 17 20 (by decide) (by decide) rfl]
    exact mul_bit _ _ (by decide)
  have dich : ∀ x y : Bool, x = y ∨ (!x) = y := by decide
  let T1 : Set (U32 × U32) := {x | x.2.getLsbD 22 = false}
  let T2 : Set (U32 × U32) := {x | x.2.getLsbD 22 = false ∧ M x.2 = false}
  let T3 : Set (U32 × U32) := {x | (x.2.getLsbD 22 = false ∧ M x.2 = false) ∧ x.1.getLsbD 20 = false}
  let T4 : Set (U32 × U32) := {x | ((x.2.getLsbD 22 = false ∧ M x.2 = false) ∧ x.1.getLsbD 20 = false) ∧
    x.1.getLsbD 28 = !x.2.getLsbD 3}
  let T5 : Set (U32 × U32) := {x | (((x.2.getLsbD 22 = false ∧ M x.2 = false) ∧ x.1.getLsbD 20 = false) ∧
    x.1.getLsbD 28 = !x.2.getLsbD 3) ∧ x.1.getLsbD 24 = x.2.getLsbD 31}
  let T6 : Set (U32 × U32) := {x | Good x.1 x.2}
  have h1 : Set.univ.ncard ≤ 2 * T1.ncard := half_le _ (flipB_inj 22) _ _ (by
    rintro ⟨a, b⟩ _
    have := dich (b.getLsbD 22) false
    simpa only [T1, Set.mem_ofPred_eq, bit_xor_self b 22 (by decide)] using this)
  have h2 : T1.ncard ≤ 2 * T2.ncard := half_le _ (flipB_inj 10) _ _ (by
    rintro ⟨a, b⟩ h
    have := dich (M b) false
    simp only [T1, T2, Set.mem_ofPred_eq, bit_xor b 10 22 (by decide), hM] at h ⊢
    tauto)
  have h3 : T2.ncard ≤ 2 * T3.ncard := half_le _ (flipA_inj 20) _ _ (by
    rintro ⟨a, b⟩ h
    have := dich (a.getLsbD 20) false
    simp only [T2, T3, Set.mem_ofPred_eq, bit_xor_self a 20 (by decide)] at h ⊢
    tauto)
  have h4 : T3.ncard ≤ 2 * T4.ncard := half_le _ (flipA_inj 28) _ _ (by
    rintro ⟨a, b⟩ h
    have := dich (a.getLsbD 28) (!b.getLsbD 3)
    simp only [T3, T4, Set.mem_ofPred_eq, bit_xor_self a 28 (by decide), bit_xor a 28 20 (by decide)] at h ⊢
    tauto)
  have h5 : T4.ncard ≤ 2 * T5.ncard := half_le _ (flipA_inj 24) _ _ (by
    rintro ⟨a, b⟩ h
    have := dich (a.getLsbD 24) (b.getLsbD 31)
    simp only [T4, T5, Set.mem_ofPred_eq, bit_xor_self a 24 (by decide), bit_xor a 24 20 (by decide),
      bit_xor a 24 28 (by decide)] at h ⊢
    tauto)
  have h6 : T5.ncard ≤ 2 * T6.ncard := half_le _ (flipA_inj 16) _ _ (by
    rintro ⟨a, b⟩ ⟨⟨⟨⟨i1, i2⟩, i3⟩, i4⟩, i5⟩
    rcases dich (a.getLsbD 16) (b.getLsbD 18) with h | h
    · exact Or.inl ⟨i1, i2, i3, i4, i5, h⟩
    · right
      refine ⟨i1, i2, ?_, ?_, ?_, ?_⟩
      · rw [bit_xor a 16 20 (by decide)]; exact i3
      · rw [bit_xor a 16 28 (by decide)]; exact i4
      · rw [bit_xor a 16 24 (by decide)]; exact i5
      · rw [bit_xor_self a 16 (by decide)]; exact h)
  have h0 : (Set.univ : Set (U32 × U32)).ncard = 2 ^ 64 := by
    rw [Set.ncard_univ, Nat.card_prod, Nat.card_congr (Equiv.ofBijective BitVec.toFin
      ⟨fun _ _ h => BitVec.eq_of_toFin_eq h, fun x => ⟨⟨x⟩, rfl⟩⟩), Nat.card_fin]
    norm_num
  rw [h0] at h1
  show 2 ^ 64 ≤ 64 * T6.ncard
  omega

/-! ## The messages -/

/-- The seed which leads to a given initial state -/
def seedFor (n : U32) (x : U32 × U32) : U64 := (x.2 ^^^ n) ++ (x.1 - n.rotateRight 17)

theorem append_low (x y : U32) : BitVec.ofNat 32 (x ++ y : U64).toNat = y := by
  apply BitVec.eq_of_toNat_eq
  rw [BitVec.toNat_ofNat, BitVec.toNat_append, ← Nat.shiftLeft_add_eq_or_of_lt y.isLt, Nat.shiftLeft_eq]
  have := y.isLt
  omega

theorem append_high (x y : U32) : BitVec.ofNat 32 ((x ++ y : U64).toNat / 2 ^ 32) = x := by
  apply BitVec.eq_of_toNat_eq
  rw [BitVec.toNat_ofNat, BitVec.toNat_append, ← Nat.shiftLeft_add_eq_or_of_lt y.isLt, Nat.shiftLeft_eq]
  have := y.isLt
  have := x.isLt
  omega

theorem seedFor_a (n : U32) (x : U32 × U32) : n.rotateRight 17 + BitVec.ofNat 32 (seedFor n x).toNat = x.1 := by
  rw [seedFor, append_low, BitVec.add_comm, BitVec.sub_add_cancel]

theorem seedFor_b (n : U32) (x : U32 × U32) : n ^^^ BitVec.ofNat 32 ((seedFor n x).toNat / 2 ^ 32) = x.2 := by
  rw [seedFor, append_high, BitVec.xor_comm, BitVec.xor_assoc, BitVec.xor_self, BitVec.xor_zero]

theorem seedFor_inj (n : U32) : Function.Injective (seedFor n) := by
  intro x y h
  have h1 := seedFor_a n x
  have h2 := seedFor_b n x
  rw [h, seedFor_a] at h1
  rw [h, seedFor_b] at h2
  exact Prod.ext h1.symm h2.symm

/-- A message made of 32-bit words -/
def ofWords32 (e : Endian) (ws : List Nat) : List Byte := (ws.map (e.bytes 4)).flatten

theorem absorb32_words (e : Endian) (s : Spec.State32) (blk : List Byte) {w0 w1 w2 w3 : U32}
    (h0 : Spec.word32 e blk 0 = w0) (h1 : Spec.word32 e blk 1 = w1) (h2 : Spec.word32 e blk 2 = w2)
    (h3 : Spec.word32 e blk 3 = w3) : Spec.absorb32 e s blk = absorbWords s w0 w1 w2 w3 := by
  subst h0 h1 h2 h3
  rfl

theorem t1ha0_32_blocks (e : Endian) (x₁ x₂ y₁ y₂ q : List Byte) (hx₁ : x₁.length = 16) (hx₂ : x₂.length = 16)
    (hy₁ : y₁.length = 16) (hy₂ : y₂.length = 16) (a b : U32)
    (h : Spec.absorb32 e (Spec.absorb32 e (start32 a b) x₁) x₂ = Spec.absorb32 e (Spec.absorb32 e (start32 a b) y₁) y₂) :
    Spec.t1ha0_32 e (x₁ ++ x₂ ++ q) (seedFor (BitVec.ofNat 32 (32 + q.length)) (a, b)) =
      Spec.t1ha0_32 e (y₁ ++ y₂ ++ q) (seedFor (BitVec.ofNat 32 (32 + q.length)) (a, b)) := by
  have key : ∀ u v : List Byte, u.length = 16 → v.length = 16 → (u ++ v ++ q).length = 32 + q.length ∧
      Spec.blocks 16 (u ++ v ++ q) = [u, v] ++ Spec.blocks 16 q ∧ Spec.rest 16 (u ++ v ++ q) = Spec.rest 16 q := by
    intro u v hu hv
    refine ⟨by simp only [List.length_append, hu, hv], ?_, ?_⟩
    · rw [blocks_skip (by decide) _ _ (by simp [hu, hv]), blocks_skip (by decide) _ _ (by simp [hu]),
        blocks_one (by decide) u hu, blocks_one (by decide) v hv]
      rfl
    · rw [rest_skip (by decide) _ _ (by simp [hu, hv])]
  obtain ⟨kx1, kx2, kx3⟩ := key x₁ x₂ hx₁ hx₂
  obtain ⟨ky1, ky2, ky3⟩ := key y₁ y₂ hy₁ hy₂
  unfold Spec.t1ha0_32
  rw [kx1, ky1, kx2, ky2, kx3, ky3]
  simp only [seedFor_a, seedFor_b, List.foldl_append, List.foldl_cons, List.foldl_nil]
  have h' : Spec.absorb32 e (Spec.absorb32 e { a := a, b := b, c := ~~~a, d := b.rotateRight 5 } x₁) x₂ =
    Spec.absorb32 e (Spec.absorb32 e { a := a, b := b, c := ~~~a, d := b.rotateRight 5 } y₁) y₂ := h
  rw [h', if_pos (by omega), if_pos (by omega)]

/-- The two messages collide under one seed of 64. -/
theorem t1ha0_32_differential (e : Endian) (q : List Byte) :
    2 ^ 64 ≤ 64 * {seed : U64 |
      Spec.t1ha0_32 e (ofWords32 e [0, 0, 0, 0, 0, 0, 0, 0x20000] ++ q) seed =
      Spec.t1ha0_32 e (ofWords32 e [0x100000, 0x80000000, 0x80000000, 0, 0x100000, 0x80000000, 0x90000000, 0x2000] ++ q)
        seed}.ncard := by
  have e1 : ofWords32 e [0, 0, 0, 0, 0, 0, 0, 0x20000] = ofWords32 e [0, 0, 0, 0] ++ ofWords32 e [0, 0, 0, 0x20000] := by
    cases e <;> rfl
  have e2 : ofWords32 e [0x100000, 0x80000000, 0x80000000, 0, 0x100000, 0x80000000, 0x90000000, 0x2000] =
      ofWords32 e [0x100000, 0x80000000, 0x80000000, 0] ++ ofWords32 e [0x100000, 0x80000000, 0x90000000, 0x2000] := by
    cases e <;> rfl
  have hsub : seedFor (BitVec.ofNat 32 (32 + q.length)) '' {x : U32 × U32 | Good x.1 x.2} ⊆ {seed : U64 |
      Spec.t1ha0_32 e (ofWords32 e [0, 0, 0, 0, 0, 0, 0, 0x20000] ++ q) seed =
      Spec.t1ha0_32 e (ofWords32 e [0x100000, 0x80000000, 0x80000000, 0, 0x100000, 0x80000000, 0x90000000, 0x2000] ++ q)
        seed} := by
    rintro _ ⟨⟨a, b⟩, g, rfl⟩
    rw [Set.mem_ofPred_eq, e1, e2]
    refine t1ha0_32_blocks e _ _ _ _ q (by cases e <;> rfl) (by cases e <;> rfl) (by cases e <;> rfl)
      (by cases e <;> rfl) a b ?_
    rw [absorb32_words e _ (ofWords32 e [0, 0, 0, 0]) (w0 := 0) (w1 := 0) (w2 := 0) (w3 := 0)
        (by cases e <;> decide) (by cases e <;> decide) (by cases e <;> decide) (by cases e <;> decide),
      absorb32_words e _ (ofWords32 e [0, 0, 0, 0x20000]) (w0 := 0) (w1 := 0) (w2 := 0) (w3 := bit32 17)
        (by cases e <;> decide) (by cases e <;> decide) (by cases e <;> decide)
        (by unfold bit32; cases e <;> decide),
      absorb32_words e _ (ofWords32 e [0x100000, 0x80000000, 0x80000000, 0]) (w0 := bit32 20) (w1 := bit32 31)
        (w2 := bit32 31) (w3 := 0) (by unfold bit32; cases e <;> decide) (by unfold bit32; cases e <;> decide)
        (by unfold bit32; cases e <;> decide) (by cases e <;> decide),
      absorb32_words e _ (ofWords32 e [0x100000, 0x80000000, 0x90000000, 0x2000]) (w0 := bit32 20) (w1 := bit32 31)
        (w2 := bit32 28 + bit32 31) (w3 := bit32 13) (by unfold bit32; cases e <;> decide)
        (by unfold bit32; cases e <;> decide) (by unfold bit32; cases e <;> decide)
        (by unfold bit32; cases e <;> decide)]
    exact (Good.collide g).symm
  have h := Set.ncard_le_ncard hsub (Set.toFinite _)
  rw [(seedFor_inj _).injOn.ncard_image] at h
  exact le_trans good_many (Nat.mul_le_mul_left _ h)

end T1ha
