import Verif.Props.Others
import Verif.Proofs.Inj

/-!
# The seeds of StadtX: C84
-/

namespace T1ha.Props

open Model Examples

theorem eq_of_xor_eq_zero {n : Nat} {x y : BitVec n} (h : x ^^^ y = 0) : x = y :=
  xor_left_cancel (a := x) (by rw [h, BitVec.xor_self]; rfl)

theorem xorRight_inj {k : Nat} (hk : 0 < k) {x y : U64} (h : Spec.xorRight k x = Spec.xorRight k y) : x = y := by
  unfold Spec.xorRight at h
  have hd : (x ^^^ y) >>> k = x ^^^ y := by
    apply BitVec.eq_of_getLsbD_eq
    intro i hi
    have := congrArg (·.getLsbD i) h
    simp only [BitVec.getLsbD_xor, BitVec.getLsbD_ushiftRight] at this ⊢
    revert this
    cases x.getLsbD i <;> cases y.getLsbD i <;> cases x.getLsbD (k + i) <;> cases y.getLsbD (k + i) <;> simp
  apply eq_of_xor_eq_zero
  apply BitVec.eq_of_toNat_eq
  have := congrArg BitVec.toNat hd
  rw [BitVec.toNat_ushiftRight, Nat.shiftRight_eq_div_pow] at this
  rcases Nat.eq_zero_or_pos (x ^^^ y).toNat with h0 | h0
  · rw [h0]; rfl
  · have := Nat.div_lt_self h0 (Nat.one_lt_two_pow (n := k) (by omega))
    omega

theorem xorLeft_inj {k : Nat} (hk : 0 < k) {x y : U64} (h : Spec.xorLeft k x = Spec.xorLeft k y) : x = y := by
  unfold Spec.xorLeft at h
  have key : ∀ i, i < 64 → x.getLsbD i = y.getLsbD i := by
    intro i
    induction i using Nat.strongRecOn with
    | ind i ih =>
      intro hi
      have := congrArg (·.getLsbD i) h
      simp only [BitVec.getLsbD_xor, BitVec.getLsbD_shiftLeft, hi, decide_true, Bool.true_and] at this
      by_cases hik : i < k
      · simpa [hik] using this
      · rw [ih (i - k) (by omega) (by omega)] at this
        simpa using this
  exact BitVec.eq_of_getLsbD_eq key

theorem scramble_inj {p q x y : U64} (hq : q * p = 1#64) (h : Spec.stadtxScramble p x = Spec.stadtxScramble p y) : x = y := by
  unfold Spec.stadtxScramble at h
  have h := xorRight_inj (by decide) (xorLeft_inj (by decide) (xorRight_inj (by decide) h))
  have h := mul_right_cancel_of_inv hq h
  exact xorRight_inj (by decide) (xorLeft_inj (by decide) (xorRight_inj (by decide) h))

theorem scramble_zero (p : U64) : Spec.stadtxScramble p 0 = 0 := by
  unfold Spec.stadtxScramble Spec.xorLeft Spec.xorRight
  simp

theorem scramble_ne_zero {p q x : U64} (hq : q * p = 1#64) (h : x ≠ 0) : Spec.stadtxScramble p x ≠ 0 := fun h0 =>
  h (scramble_inj hq (h0.trans (scramble_zero p).symm))

theorem orElse_ne_zero {a x : U64} (ha : a ≠ 0) : Spec.orElse a x ≠ 0 := by
  unfold Spec.orElse
  split
  · exact ha
  · assumption

/-- Two numbers which are the same after one of two changes and replacements of 0. -/
theorem orElse_inj {i x y : U64} (h : Spec.orElse i x = Spec.orElse i y) :
    x = y ∨ (x = 0 ∧ y = i) ∨ (x = i ∧ y = 0) := by
  unfold Spec.orElse at h
  split at h <;> split at h
  · exact .inl (by simp_all)
  · exact .inr (.inl ⟨‹_›, h.symm⟩)
  · exact .inr (.inr ⟨h, ‹_›⟩)
  · exact .inl h

/-- Both replacements cannot hide the same difference. -/
theorem both_inj {c d i j x y : U64} (hc : Spec.orElse i (x ^^^ c) = Spec.orElse i (y ^^^ c))
    (hd : Spec.orElse j (x ^^^ d) = Spec.orElse j (y ^^^ d))
    (far : Spec.orElse j (c ^^^ d) ≠ Spec.orElse j (i ^^^ c ^^^ d)) : x = y := by
  have back : ∀ {u v : U64}, u ^^^ c = v → u = v ^^^ c := by
    rintro u v rfl
    rw [BitVec.xor_assoc, BitVec.xor_self, BitVec.xor_zero]
  rcases orElse_inj hc with h | ⟨h1, h2⟩ | ⟨h1, h2⟩
  · have := back h
    rwa [BitVec.xor_assoc, BitVec.xor_self, BitVec.xor_zero] at this
  · rw [back h1, back h2] at hd
    rw [show (0 : U64) ^^^ c = c by simp] at hd
    exact absurd hd far
  · rw [back h1, back h2] at hd
    rw [show (0 : U64) ^^^ c = c by simp] at hd
    exact absurd hd.symm far

/-- C84: no number of the state which StadtX makes from two seeds is 0, whatever the seeds are. -/
theorem stadtx_state_nonzero (seed0 seed1 : U64) :
    (stadtx_seed_state seed0 seed1).x0 ≠ 0 ∧ (stadtx_seed_state seed0 seed1).x1 ≠ 0 ∧
      (stadtx_seed_state seed0 seed1).x2 ≠ 0 ∧ (stadtx_seed_state seed0 seed1).x3 ≠ 0 := by
  rw [seed_state_eq]
  exact ⟨scramble_ne_zero (q := 0x6aa1630c995e47b1) (by decide) (scramble_ne_zero (q := 0xa62722c693a96aa7) (by decide) (orElse_ne_zero (by decide))),
    scramble_ne_zero (q := 0x9850db1928b49b9d) (by decide) (scramble_ne_zero (q := 0xd33512e1b1a8ca1d) (by decide) (orElse_ne_zero (by decide))),
    scramble_ne_zero (q := 0x6dcbbb064aed5f05) (by decide) (scramble_ne_zero (q := 0x642e33a6652259c3) (by decide) (orElse_ne_zero (by decide))),
    scramble_ne_zero (q := 0xdb1cb7abb8d99605) (by decide) (scramble_ne_zero (q := 0xd24817851f3e9e1b) (by decide) (orElse_ne_zero (by decide)))⟩

/-- Seeds one of which would become 0. -/
example : (stadtx_seed_state 0x43f6a8885a308d31 5).x0 ≠ 0 := (stadtx_state_nonzero _ _).1

/-- C84: different pairs of seeds have different states. -/
theorem stadtx_state_injective {a b a' b' : U64} (h : stadtx_seed_state a b = stadtx_seed_state a' b') :
    a = a' ∧ b = b' := by
  rw [seed_state_eq, seed_state_eq] at h
  unfold Spec.stadtxState at h
  injection h with h0 h1 h2 h3
  have h0 := scramble_inj (q := 0xa62722c693a96aa7) (by decide) (scramble_inj (q := 0x6aa1630c995e47b1) (by decide) h0)
  have h1 := scramble_inj (q := 0xd33512e1b1a8ca1d) (by decide) (scramble_inj (q := 0x9850db1928b49b9d) (by decide) h1)
  have h2 := scramble_inj (q := 0x642e33a6652259c3) (by decide) (scramble_inj (q := 0x6dcbbb064aed5f05) (by decide) h2)
  have h3 := scramble_inj (q := 0xd24817851f3e9e1b) (by decide) (scramble_inj (q := 0xdb1cb7abb8d99605) (by decide) h3)
  exact ⟨both_inj h0 h2 (by decide), both_inj h1 h3 (by decide)⟩

/-- These two seeds differ in the third number only. -/
example : stadtx_seed_state 0x43f6a8885a308d31 5 ≠ stadtx_seed_state 0x43f6a8885a308d30 5 := fun h =>
  absurd (stadtx_state_injective h).1 (by decide)

/-- C84: the first number of the state alone does not tell all seeds apart: 0 is replaced by 1. -/
theorem stadtx_word_collides : (stadtx_seed_state 0x43f6a8885a308d31 0).x0 = (stadtx_seed_state 0x43f6a8885a308d30 0).x0 := by
  rw [seed_state_eq, seed_state_eq]
  rfl

end T1ha.Props
