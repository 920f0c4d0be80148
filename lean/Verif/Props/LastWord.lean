import Verif.Props.Symmetry

/-!
# In t1ha1, another last word is another seed: C98
-/

namespace T1ha.Props

open Model Examples

variable {cfg cfg' : Cfg} {w w' : World} {s s' : Sys} {data data' page page' : Nat}

/-- What the last word adds to the seed: the exclusive or of the two halves of a product -/
def seedShift (f : OneShot) (q : List Byte) : U64 :=
  let n := (if f = .t1ha1_be then beVal q else leVal q) * 0x82434FE90EDCEF39
  BitVec.ofNat 64 n ^^^ BitVec.ofNat 64 (n / 2 ^ 64)

theorem t1ha1Tail_last (ws : List U64) (u : U64) (ab : U64 × U64) :
    Spec.t1ha1Tail (ws ++ [u]) ab = ((Spec.t1ha1Tail (ws ++ [0]) ab).1 + Spec.mux u Spec.prime1,
      (Spec.t1ha1Tail (ws ++ [0]) ab).2) := by
  induction ws generalizing ab with
  | nil =>
    obtain ⟨a, b⟩ := ab
    have h0 : Spec.mux 0 (Spec.tailPrime 0) = 0#64 := by simp [Spec.mux, Spec.product]
    simp only [List.nil_append, Spec.t1ha1Tail, List.length_nil, Nat.zero_mod, h0, BitVec.add_zero]
    rfl
  | cons v ws ih =>
    obtain ⟨a, b⟩ := ab
    simp only [List.cons_append, Spec.t1ha1Tail, List.length_append, List.length_singleton]
    split
    · exact ih _
    · exact ih _

theorem t1ha1_last (e : Endian) {p q : List Byte} (hp : p.length % 8 = 0) (hp32 : p.length < 32) (hq : 1 ≤ q.length)
    (hq8 : q.length ≤ 8) : ∃ x b : U64, ∀ q' : List Byte, q'.length = q.length → ∀ seed : U64,
      Spec.t1ha1 e (p ++ q') seed = Spec.t1ha1Final (seed + x + Spec.mux (BitVec.ofNat 64 (e.val q')) Spec.prime1, b) := by
  obtain ⟨x, y, h⟩ := t1ha1Tail_add (Spec.words64 e p ++ [0])
  refine ⟨x, BitVec.ofNat 64 (p.length + q.length) + y, fun q' hl seed => ?_⟩
  unfold Spec.t1ha1 Spec.len64
  rw [if_neg (by rw [List.length_append]; omega), words64_end e p q' hp (by omega) (by omega), t1ha1Tail_last, h,
    List.length_append, hl]

theorem seedShift_eq (f : OneShot) (e : Endian) (he : e = if f = .t1ha1_be then .big else .little) (q : List Byte)
    (hq : q.length ≤ 8) : seedShift f q = Spec.mux (BitVec.ofNat 64 (e.val q)) Spec.prime1 := by
  have hv : e.val q = if f = .t1ha1_be then beVal q else leVal q := by
    subst he
    split <;> rfl
  have hlt : e.val q < 2 ^ 64 := by
    have := e.val_lt q
    exact Nat.lt_of_lt_of_le this (by
      rw [show (256 : Nat) = 2 ^ 8 by decide, ← Nat.pow_mul]
      exact Nat.pow_le_pow_right (by decide) (by omega))
  unfold seedShift Spec.mux Spec.product
  rw [← hv]
  simp only [BitVec.toNat_ofNat, Nat.mod_eq_of_lt hlt]
  rfl

/-- C98: for messages of up to 32 bytes, to change the last word is to add a number to the seed. The number depends on the
old and the new word only, not on the other words and not on the seed. -/
theorem last_word_is_seed (f : OneShot) (hf : f = .t1ha1_le ∨ f = .t1ha1_be) {p q q' : List Byte} (hp : p.length % 8 = 0)
    (hp32 : p.length < 32) (hq : 1 ≤ q.length) (hq8 : q.length ≤ 8) (hl : q'.length = q.length)
    (h : Buf cfg w s.ov page data (p ++ q)) (r : f.Ready cfg w data (p ++ q).length)
    (h' : Buf cfg' w' s'.ov page' data' (p ++ q')) (r' : f.Ready cfg' w' data' (p ++ q').length) (seed : U64) :
    ∃ v s₁ s₁', f.run cfg data (p ++ q).length (seed + (seedShift f q' - seedShift f q)) w s = .ok (v, s₁) ∧
      f.run cfg' data' (p ++ q').length seed w' s' = .ok (v, s₁') := by
  obtain ⟨t, ⟨h1, _⟩, _⟩ := f.returns h r (seed + (seedShift f q' - seedShift f q))
  obtain ⟨t', ⟨h2, _⟩, _⟩ := f.returns h' r' seed
  have key : ∀ e : Endian, e = (if f = .t1ha1_be then .big else .little) →
      Spec.t1ha1 e (p ++ q') seed = Spec.t1ha1 e (p ++ q) (seed + (seedShift f q' - seedShift f q)) := fun e he => by
    obtain ⟨x, b, hx⟩ := t1ha1_last e hp hp32 hq hq8
    rw [hx q' hl, hx q rfl, ← seedShift_eq f e he q hq8, ← seedShift_eq f e he q' (by omega)]
    congr 2
    generalize seedShift f q' = u'
    generalize seedShift f q = u
    rw [BitVec.add_assoc, BitVec.add_assoc, BitVec.add_assoc, BitVec.add_comm (u' - u), BitVec.add_assoc,
      BitVec.add_comm u, BitVec.sub_add_cancel]
  have : f.hash (p ++ q') seed = f.hash (p ++ q) (seed + (seedShift f q' - seedShift f q)) := by
    rcases hf with rfl | rfl
    · exact key .little rfl
    · exact key .big rfl
  rw [this] at h2
  exact ⟨_, _, _, h1, h2⟩

/-- Two messages of 27 bytes -/
example (seed : U64) : ∃ v s₁ s₁',
    OneShot.t1ha1_be.run amd64 5001 27 (seed + (seedShift .t1ha1_be [7, 8, 9] - seedShift .t1ha1_be [1, 2, 3]))
      (memory 4096 8192 5001 (msg 24 ++ [1, 2, 3])) start = .ok (v, s₁) ∧
    OneShot.t1ha1_be.run amd64 5001 27 seed (memory 4096 8192 5001 (msg 24 ++ [7, 8, 9])) start = .ok (v, s₁') :=
  last_word_is_seed (p := msg 24) (q := [1, 2, 3]) (q' := [7, 8, 9]) .t1ha1_be (Or.inr rfl) (by decide) (by decide)
    (by decide) (by decide) rfl
    (buf_mid amd64 rfl _ (by decide)) (ready_t1ha1 _ (Or.inr rfl) (by decide) (by decide))
    (buf_mid amd64 rfl _ (by decide)) (ready_t1ha1 _ (Or.inr rfl) (by decide) (by decide)) seed

/-- The byte 1 under the seed 5 is the byte 0 under another one. -/
example : ∃ v s₁ s₁',
    OneShot.t1ha1_le.run amd64 5001 1 0x82434FE90EDCEF3E (memory 4096 8192 5001 [0]) start = .ok (v, s₁) ∧
    OneShot.t1ha1_le.run amd64 5001 1 5 (memory 4096 8192 5001 [1]) start = .ok (v, s₁') := by
  have := last_word_is_seed (p := []) (q := [0]) (q' := [1]) .t1ha1_le (Or.inl rfl) (by decide) (by decide)
    (by decide) (by decide) rfl
    (buf_mid amd64 rfl _ (by decide)) (ready_t1ha1 _ (Or.inl rfl) (by decide) (by decide))
    (buf_mid amd64 rfl _ (by decide)) (ready_t1ha1 _ (Or.inl rfl) (by decide) (by decide)) 5
  rwa [show (5 : U64) + (seedShift .t1ha1_le [1] - seedShift .t1ha1_le [0]) = 0x82434FE90EDCEF3E by decide +kernel] at this

end T1ha.Props
