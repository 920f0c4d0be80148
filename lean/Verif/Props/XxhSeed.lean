import Verif.Props.Xxhash
import Verif.Proofs.Inj
import Mathlib.Data.Fintype.EquivFin

/-!
# The seed of XXH32 and XXH64 and the hashes of short messages: C97
-/

namespace T1ha.Props

open Model Examples

variable {cfg : Cfg} {x : Xxh} {w : World} {s : Sys} {data : Nat} {m : List Byte}

/-! ## Steps which can be undone -/

theorem rotateLeft_inj {n r : Nat} (hr : 0 < r) (hn : r < n) {x y : BitVec n} (h : x.rotateLeft r = y.rotateLeft r) :
    x = y := by
  have key : ∀ z : BitVec n, z.rotateLeft r = z.rotateRight (n - r) := fun z => by
    rw [BitVec.rotateLeft_eq_rotateLeftAux_of_lt hn, BitVec.rotateRight_eq_rotateRightAux_of_lt (by omega)]
    unfold BitVec.rotateLeftAux BitVec.rotateRightAux
    rw [Nat.sub_sub_self (by omega), BitVec.or_comm]
  rw [key, key] at h
  exact rotateRight_inj h

theorem xorshift_undo {n k : Nat} (hk : 0 < k) {x y : BitVec n} (h : x ^^^ x >>> k = y ^^^ y >>> k) : x = y := by
  have h1 : x ^^^ y = (x ^^^ y) >>> k := by
    rw [BitVec.ushiftRight_xor_distrib]
    have := congrArg (fun z => z ^^^ (x >>> k) ^^^ y) h
    rw [BitVec.xor_assoc x, BitVec.xor_self, BitVec.xor_zero] at this
    rw [this, BitVec.xor_assoc y, BitVec.xor_comm y, BitVec.xor_assoc, BitVec.xor_self, BitVec.xor_zero, BitVec.xor_comm]
  have h2 := congrArg BitVec.toNat h1
  rw [BitVec.toNat_ushiftRight, Nat.shiftRight_eq_div_pow] at h2
  have h3 : (x ^^^ y).toNat = 0 := by
    by_contra hne
    have := Nat.div_lt_self (Nat.pos_of_ne_zero hne) (Nat.one_lt_two_pow (by omega : k ≠ 0))
    omega
  have h4 : x ^^^ y = 0#n := BitVec.eq_of_toNat_eq (by rw [h3]; simp)
  exact BitVec.xor_eq_zero_iff.1 h4

theorem foldl_undo {α β : Type} {f : β → α → β} (hf : ∀ a, Function.Injective fun h => f h a) (l : List α) :
    Function.Injective fun h => l.foldl f h := by
  induction l with
  | nil => exact fun _ _ h => h
  | cons a l ih => exact fun _ _ h => hf a (ih h)

theorem p1_inv : (0xe8b2f51 : U32) * Spec.xxhP1 = 1#32 := by decide
theorem p2_inv : (0xb6c92f47 : U32) * Spec.xxhP2 = 1#32 := by decide
theorem p3_inv : (0xa89ed915 : U32) * Spec.xxhP3 = 1#32 := by decide
theorem p4_inv : (0xa0fe3bcf : U32) * Spec.xxhP4 = 1#32 := by decide
theorem q1_inv : (0x887493432badb37 : U64) * Spec.xxhQ1 = 1#64 := by decide
theorem q2_inv : (0xba79078168d4baf : U64) * Spec.xxhQ2 = 1#64 := by decide
theorem q3_inv : (0xe9e9f4c41d6df849 : U64) * Spec.xxhQ3 = 1#64 := by decide

theorem xor_right_undo {n : Nat} {a x y : BitVec n} (h : x ^^^ a = y ^^^ a) : x = y := by
  rw [BitVec.xor_comm x, BitVec.xor_comm y] at h
  exact xor_left_cancel h

theorem xxh32_seed_inj (hm : m.length < 16) : Function.Injective fun seed => Spec.xxh32 m seed := by
  intro s₁ s₂ h
  simp only [Spec.xxh32, if_neg (show ¬16 ≤ m.length by omega)] at h
  unfold Spec.xxh32Avalanche at h
  simp only at h
  have h1 := xorshift_undo (by decide) (mul_right_cancel_of_inv p2_inv (xorshift_undo (by decide)
    (mul_right_cancel_of_inv p3_inv (xorshift_undo (by decide) h))))
  unfold Spec.xxh32Tail at h1
  have hb : ∀ b, Function.Injective fun h => Spec.xxh32Byte h b := fun b _ _ e =>
    add_right_cancel' (rotateLeft_inj (by decide) (by decide) (mul_right_cancel_of_inv p1_inv e))
  have hw : ∀ b, Function.Injective fun h => Spec.xxh32Word h b := fun b _ _ e =>
    add_right_cancel' (rotateLeft_inj (by decide) (by decide) (mul_right_cancel_of_inv p4_inv e))
  exact add_right_cancel' (add_right_cancel' (foldl_undo hw _ (foldl_undo hb _ h1)))

theorem xxh64_seed_inj (hm : m.length < 32) : Function.Injective fun seed => Spec.xxh64 m seed := by
  intro s₁ s₂ h
  simp only [Spec.xxh64, if_neg (show ¬32 ≤ m.length by omega)] at h
  unfold Spec.xxh64Avalanche at h
  simp only at h
  have h1 := xorshift_undo (by decide) (mul_right_cancel_of_inv q2_inv (xorshift_undo (by decide)
    (mul_right_cancel_of_inv q3_inv (xorshift_undo (by decide) h))))
  unfold Spec.xxh64Tail at h1
  simp only at h1
  have hb : ∀ b, Function.Injective fun h => Spec.xxh64Byte h b := fun b _ _ e =>
    xor_right_undo (rotateLeft_inj (by decide) (by decide) (mul_right_cancel_of_inv q1_inv e))
  have hh : ∀ b, Function.Injective fun h => Spec.xxh64Half h b := fun b _ _ e =>
    xor_right_undo (rotateLeft_inj (by decide) (by decide) (mul_right_cancel_of_inv q2_inv (add_right_cancel' e)))
  have hw : ∀ b, Function.Injective fun h => Spec.xxh64Word h b := fun b _ _ e =>
    xor_right_undo (rotateLeft_inj (by decide) (by decide) (mul_right_cancel_of_inv q1_inv (add_right_cancel' e)))
  exact add_right_cancel' (add_right_cancel' (foldl_undo hw _ (foldl_undo hh _ (foldl_undo hb _ h1))))

theorem bitVec_surjective {n : Nat} {f : BitVec n → BitVec n} (hf : Function.Injective f) : Function.Surjective f := by
  have : Finite (BitVec n) := Finite.of_injective BitVec.toFin fun _ _ h => BitVec.eq_of_toFin_eq h
  exact Finite.injective_iff_surjective.1 hf

/-! ## The property -/

/-- C97: a message of less than 16 bytes has every 32-bit number as its XXH32, each under exactly one seed. -/
theorem xxh32_seed_revealed (h : Message cfg w s.ov data m) (hm : m.length < 16)
    (hx : x.access = .direct → x.lenient32 = true ∨ x.alignCheck = true ∧ data % 4 = 0) (v : U32) :
    ∃! seed, ∃ r t, Returns (XXH32 cfg x data m.length seed) w s v r t := by
  obtain ⟨seed, hs⟩ := bitVec_surjective (xxh32_seed_inj hm) v
  have run : ∀ sd, ∃ r t, Returns (XXH32 cfg x data m.length sd) w s (Spec.xxh32 m sd) r t := fun sd => by
    obtain ⟨r, t, h, _⟩ := xxh32_correct h sd hx
    exact ⟨r, t, h⟩
  refine ⟨seed, hs ▸ run seed, fun sd ⟨r, t, h1⟩ => xxh32_seed_inj hm ?_⟩
  obtain ⟨r', t', h2⟩ := run sd
  have := h1.1.symm.trans h2.1
  cases this
  exact hs.symm

/-- C97: a message of less than 32 bytes has every 64-bit number as its XXH64, each under exactly one seed. -/
theorem xxh64_seed_revealed (h : Message cfg w s.ov data m) (hm : m.length < 32)
    (hx : x.access = .direct → x.lenient32 = true ∧ x.lenient64 = true ∨ x.alignCheck = true ∧ data % 8 = 0) (v : U64) :
    ∃! seed, ∃ r t, Returns (XXH64 cfg x data m.length seed) w s v r t := by
  obtain ⟨seed, hs⟩ := bitVec_surjective (xxh64_seed_inj hm) v
  have run : ∀ sd, ∃ r t, Returns (XXH64 cfg x data m.length sd) w s (Spec.xxh64 m sd) r t := fun sd => by
    obtain ⟨r, t, h, _⟩ := xxh64_correct_partial h sd hx
    exact ⟨r, t, h⟩
  refine ⟨seed, hs ▸ run seed, fun sd ⟨r, t, h1⟩ => xxh64_seed_inj hm ?_⟩
  obtain ⟨r', t', h2⟩ := run sd
  have := h1.1.symm.trans h2.1
  cases this
  exact hs.symm

/-- 15 bytes on ARMv6, at an odd address -/
example (v : U32) : ∃! seed, ∃ r t, Returns (XXH32 arm32 xxhArm6 5001 (msg 15).length seed)
    (memory 4096 8192 5001 (msg 15)) start v r t :=
  xxh32_seed_revealed (message arm32 (by decide) (by rw [length_msg]; decide) (by decide)) (by rw [length_msg]; decide)
    (fun _ => Or.inl rfl) v

/-- 31 bytes, the last ones before memory which cannot be read -/
example (v : U64) : ∃! seed, ∃ r t, Returns (XXH64 mips32 xxhMips (8192 - 31) (msg 31).length seed) (atEnd 31) start v r t :=
  xxh64_seed_revealed (message mips32 (by decide) (by rw [length_msg]) (by decide)) (by rw [length_msg]; decide)
    (fun h => absurd h (by decide)) v

end T1ha.Props
