import Verif.Props.Pairs

/-!
# What the length does in t1ha0_32: C93
-/

namespace T1ha.Props

open Model Examples

variable {cfg cfg' : Cfg} {w w' : World} {s s' : Sys} {data data' page page' : Nat}

/-- Another seed, from the seed and two lengths -/
def shifted (n n' : Nat) (seed : U64) : U64 :=
  (BitVec.ofNat 32 (seed.toNat / 2 ^ 32) ^^^ BitVec.ofNat 32 n ^^^ BitVec.ofNat 32 n') ++
    (BitVec.ofNat 32 seed.toNat + (BitVec.ofNat 32 n).rotateRight 17 - (BitVec.ofNat 32 n').rotateRight 17)

/-- The last word of a message with `k` more zeros, where they do not change its value -/
def widened (f : OneShot) (q : List Byte) (k : Nat) : List Byte :=
  if f = .t1ha0_32be then List.replicate k 0 ++ q else q ++ List.replicate k 0

theorem leVal_zeros (k : Nat) : leVal (List.replicate k 0) = 0 := by
  induction k with
  | zero => rfl
  | succ k ih => rw [List.replicate_succ, leVal, ih]; rfl

theorem shifted_low (n n' : Nat) (seed : U64) : BitVec.ofNat 32 (shifted n n' seed).toNat =
    BitVec.ofNat 32 seed.toNat + (BitVec.ofNat 32 n).rotateRight 17 - (BitVec.ofNat 32 n').rotateRight 17 := by
  unfold shifted
  refine BitVec.eq_of_toNat_eq ?_
  rw [BitVec.toNat_ofNat, BitVec.toNat_append, Nat.shiftLeft_eq, Nat.mul_comm,
    ← Nat.two_pow_add_eq_or_of_lt (BitVec.isLt _), Nat.mul_add_mod, Nat.mod_eq_of_lt (BitVec.isLt _)]

theorem shifted_high (n n' : Nat) (seed : U64) : BitVec.ofNat 32 ((shifted n n' seed).toNat / 2 ^ 32) =
    BitVec.ofNat 32 (seed.toNat / 2 ^ 32) ^^^ BitVec.ofNat 32 n ^^^ BitVec.ofNat 32 n' := by
  unfold shifted
  refine BitVec.eq_of_toNat_eq ?_
  rw [BitVec.toNat_ofNat, BitVec.toNat_append, Nat.shiftLeft_eq, Nat.mul_comm,
    ← Nat.two_pow_add_eq_or_of_lt (BitVec.isLt _), Nat.mul_add_div (by decide), Nat.div_eq_of_lt (BitVec.isLt _),
    Nat.add_zero, Nat.mod_eq_of_lt (BitVec.isLt _)]

theorem t1ha0_32_shifted (e : Endian) (p q₁ q₂ : List Byte) (seed : U64) (hp : p.length % 4 = 0)
    (h1 : 1 ≤ q₁.length ∧ q₁.length ≤ 4) (h2 : 1 ≤ q₂.length ∧ q₂.length ≤ 4)
    (hn : p.length < 16 ∨ p.length % 16 ≠ 12 ∨ (q₁.length < 4 ∧ q₂.length < 4)) (hval : e.val q₁ = e.val q₂) :
    Spec.t1ha0_32 e (p ++ q₂) (shifted (p ++ q₁).length (p ++ q₂).length seed) = Spec.t1ha0_32 e (p ++ q₁) seed := by
  unfold Spec.t1ha0_32
  simp only [shifted_low, shifted_high]
  rw [show ∀ a b c : U32, a + (b + c - a) = c + b from fun a b c => by
      rw [BitVec.add_comm a, BitVec.sub_add_cancel, BitVec.add_comm],
    show ∀ a b c : U32, a ^^^ (b ^^^ c ^^^ a) = c ^^^ b from fun a b c => by
      rw [BitVec.xor_comm a, BitVec.xor_assoc, BitVec.xor_self, BitVec.xor_zero, BitVec.xor_comm]]
  by_cases h16 : p.length < 16
  · rw [if_neg (by rw [List.length_append]; omega), if_neg (by rw [List.length_append]; omega),
      words32_last e _ q₁ hp h1.1 h1.2, words32_last e _ q₂ hp h2.1 h2.2, hval]
  · have hd1 : (p ++ q₁).length / 16 = p.length / 16 := by rw [List.length_append]; omega
    have hd2 : (p ++ q₂).length / 16 = p.length / 16 := by rw [List.length_append]; omega
    rw [if_pos (by rw [List.length_append]; omega), if_pos (by rw [List.length_append]; omega)]
    have hb : ∀ q : List Byte, (p ++ q).length / 16 = p.length / 16 → Spec.blocks 16 (p ++ q) = Spec.blocks 16 p := by
      intro q hq
      unfold Spec.blocks
      rw [hq, chunks_take _ _ _ _ (by omega)]
    have hr : ∀ q : List Byte, (p ++ q).length / 16 = p.length / 16 → Spec.rest 16 (p ++ q) = Spec.rest 16 p ++ q := by
      intro q hq
      unfold Spec.rest
      rw [hq, List.drop_append_of_le_length (by omega)]
    have hrl : (Spec.rest 16 p).length % 4 = 0 := by unfold Spec.rest; rw [List.length_drop]; omega
    rw [hb q₁ hd1, hb q₂ hd2, hr q₁ hd1, hr q₂ hd2, words32_last e _ q₁ hrl h1.1 h1.2, words32_last e _ q₂ hrl h2.1 h2.2,
      hval]

/-- C93: two messages which differ in the number of zeros in their last word have the same hash under two seeds, of which
one is computed from the other one and the lengths, whatever the bytes and the seed are. (If the last word is also the
last word of a block of 16 bytes and not of the first one, then it must not be a whole word.) -/
theorem zeros_shift_seed (f : OneShot) (hf : f = .t1ha0_32le ∨ f = .t1ha0_32be) {p q : List Byte} {k : Nat}
    (h : Buf cfg w s.ov page data (p ++ q)) (h' : Buf cfg' w' s'.ov page' data' (p ++ widened f q k))
    (hp : p.length % 4 = 0) (hq : 1 ≤ q.length) (hk : q.length + k ≤ 4)
    (hn : p.length < 16 ∨ p.length % 16 ≠ 12 ∨ q.length + k < 4) (seed : U64) :
    ∃ v s₁ s₁', f.run cfg data (p ++ q).length seed w s = .ok (v, s₁) ∧
      f.run cfg' data' (p ++ widened f q k).length
        (shifted (p.length + q.length) (p.length + q.length + k) seed) w' s' = .ok (v, s₁') := by
  obtain ⟨t, ⟨h1, _⟩, _⟩ := f.returns h (ready32 hf) seed
  obtain ⟨t', ⟨h2, _⟩, _⟩ := f.returns h' (ready32 hf) (shifted (p.length + q.length) (p.length + q.length + k) seed)
  have hl : (widened f q k).length = q.length + k := by
    unfold widened
    split <;> rw [List.length_append, List.length_replicate]
    exact Nat.add_comm _ _
  have key := fun e he => t1ha0_32_shifted e p q (widened f q k) seed hp ⟨hq, by omega⟩ (by omega) (by omega) he
  rw [List.length_append, List.length_append, hl, ← Nat.add_assoc] at key
  have : f.hash (p ++ widened f q k) (shifted (p.length + q.length) (p.length + q.length + k) seed) =
      f.hash (p ++ q) seed := by
    rcases hf with rfl | rfl
    · refine key .little ?_
      show leVal q = leVal (q ++ List.replicate k 0)
      rw [leVal_append, leVal_zeros, Nat.mul_zero, Nat.add_zero]
    · refine key .big ?_
      show beVal q = beVal (List.replicate k 0 ++ q)
      rw [beVal_eq, beVal_eq, List.reverse_append, List.reverse_replicate, leVal_append, leVal_zeros, Nat.mul_zero, Nat.add_zero]
  rw [this] at h2
  exact ⟨_, _, _, h1, h2⟩

/-- C93: the other seed is another one, and different seeds give different ones. -/
theorem shifted_seeds {n k : Nat} (hk : 1 ≤ k) (hk3 : k ≤ 3) (seed : U64) :
    shifted n (n + k) seed ≠ seed ∧ shifted (n + k) n (shifted n (n + k) seed) = seed := by
  constructor
  · intro h
    have := shifted_high n (n + k) seed
    rw [h, BitVec.xor_assoc] at this
    have h0 : BitVec.ofNat 32 n ^^^ BitVec.ofNat 32 (n + k) = 0#32 :=
      xor_left_cancel (this.symm.trans (BitVec.xor_zero).symm)
    have h1 := congrArg BitVec.toNat (BitVec.xor_eq_zero_iff.1 h0)
    rw [BitVec.toNat_ofNat, BitVec.toNat_ofNat] at h1
    omega
  · have hlow := shifted_low (n + k) n (shifted n (n + k) seed)
    have hhigh := shifted_high (n + k) n (shifted n (n + k) seed)
    rw [shifted_low n, BitVec.sub_add_cancel, BitVec.add_sub_cancel] at hlow
    have hx : ∀ a b c : U32, a ^^^ b ^^^ c ^^^ c ^^^ b = a := fun a b c => by
      rw [BitVec.xor_assoc (a ^^^ b), BitVec.xor_self, BitVec.xor_zero, BitVec.xor_assoc, BitVec.xor_self, BitVec.xor_zero]
    rw [shifted_high n, hx] at hhigh
    have a := congrArg BitVec.toNat hlow
    have b := congrArg BitVec.toNat hhigh
    rw [BitVec.toNat_ofNat, BitVec.toNat_ofNat] at a b
    have hx := (shifted (n + k) n (shifted n (n + k) seed)).isLt
    have hy := seed.isLt
    exact BitVec.eq_of_toNat_eq (by omega)

/-- 41 and 43 bytes -/
example : ∃ v s₁ s₁',
    OneShot.t1ha0_32le.run amd64 5001 41 7 (memory 4096 8192 5001 (msg 40 ++ [5])) start = .ok (v, s₁) ∧
    OneShot.t1ha0_32le.run mips32 5001 43 0x00000002FFFF0007 (memory 4096 8192 5001 (msg 40 ++ [5, 0, 0])) start
      = .ok (v, s₁') :=
  zeros_shift_seed (p := msg 40) (q := [5]) (k := 2) _ (Or.inl rfl)
    (buf_mid amd64 rfl (msg 40 ++ [5]) (by decide)) (buf_mid mips32 rfl (msg 40 ++ [5, 0, 0]) (by decide))
    (by decide) (by decide) (by decide) (by decide) 7

/-- The zeros are before the other bytes of the last word. -/
example : ∃ v s₁ s₁',
    OneShot.t1ha0_32be.run amd64 5001 15 7 (memory 4096 8192 5001 (msg 12 ++ [5, 6, 7])) start = .ok (v, s₁) ∧
    OneShot.t1ha0_32be.run mips32 5001 16 (shifted 15 16 7) (memory 4096 8192 5001 (msg 12 ++ [0, 5, 6, 7])) start
      = .ok (v, s₁') :=
  zeros_shift_seed (p := msg 12) (q := [5, 6, 7]) (k := 1) _ (Or.inr rfl)
    (buf_mid amd64 rfl (msg 12 ++ [5, 6, 7]) (by decide)) (buf_mid mips32 rfl (msg 12 ++ [0, 5, 6, 7]) (by decide))
    (by decide) (by decide) (by decide) (by decide) 7

end T1ha.Props
