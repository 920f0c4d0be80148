import Verif.Proofs.DifferAes

/-!
# Messages of the AES-NI variant B among which every seed has a collision: proofs about the specification
-/

namespace T1ha

open Model X86

/-- AESDEC, when byte 9 is changed. -/
theorem aesdec_any (t key : U128) (x : Byte) (h : invSbox (X86.byteAt t 9 ^^^ 1) = invSbox (X86.byteAt t 9) ^^^ x) :
    aesdec (t ^^^ single 9 1) key = aesdec t key ^^^ invMixColumns (single 13 x) := by
  have h1 : invSubBytes (invShiftRows (t ^^^ single 9 1)) =
      invSubBytes (invShiftRows t) ^^^ single 13 x := by
    apply eq_of_byteAt
    intro i hi
    unfold invSubBytes invShiftRows
    rw [byteAt_xor, byteAt_ofBytes _ _ hi, byteAt_ofBytes _ _ hi, byteAt_ofBytes _ _ hi, byteAt_ofBytes _ _ hi,
      single, single, byteAt_ofBytes _ _ hi, byteAt_xor, byteAt_ofBytes _ _ (by omega)]
    by_cases h13 : i = 13
    · subst h13
      exact h
    · rw [if_neg h13, if_neg (by omega)]
      exact (congrArg invSbox BitVec.xor_zero).trans BitVec.xor_zero.symm
  unfold aesdec
  rw [h1, invMixColumns_xor, BitVec.xor_assoc, BitVec.xor_comm _ key, BitVec.xor_assoc]

/-- How the inverse S-box may answer to the change -/
def answer (k : Nat) : Byte := invSbox (BitVec.ofNat 8 (2 * k)) ^^^ invSbox (BitVec.ofNat 8 (2 * k + 1))

theorem answer_any (b : Byte) : ∃ k < 128, invSbox (b ^^^ 1) = invSbox b ^^^ answer k := by
  revert b
  decide +kernel

/-- The second vector of a message -/
def correctionAny (k : Nat) : List Byte := leBytes 16 (invMixColumns (single 13 (answer k))).toNat

theorem correctionAny_eq (k : Nat) : vecOf (correctionAny k) = invMixColumns (single 13 (answer k)) := by
  unfold vecOf correctionAny
  rw [leVal_leBytes]
  apply BitVec.eq_of_toNat_eq
  rw [BitVec.toNat_ofNat]
  have := (invMixColumns (single 13 (answer k))).isLt
  omega

theorem aesBlockB_any (s : Spec.XY × U128) : ∃ k < 128, ∀ q : List Byte,
    Spec.aesBlockB s (otherFirst ++ (correctionAny k ++ q)) =
      Spec.aesBlockB s (List.replicate 16 0 ++ (List.replicate 16 0 ++ q)) := by
  obtain ⟨k, hk, h⟩ := answer_any (X86.byteAt (aesenc (vecOf (List.replicate 16 0)) s.2) 9)
  refine ⟨k, hk, fun q => ?_⟩
  have z : (List.replicate 16 (0 : Byte)).length = 16 := rfl
  have zv : vecOf (List.replicate 16 0) = 0#128 := by decide
  have x1 : (correctionAny k).length = 16 := length_leBytes _ _
  have key : aesdec (aesenc (vecOf otherFirst) s.2) (vecOf (correctionAny k)) =
      aesdec (aesenc (vecOf (List.replicate 16 0)) s.2) (vecOf (List.replicate 16 0)) := by
    have e0 : ∀ v : U128, aesenc v s.2 = aesenc v 0 ^^^ s.2 := by
      intro v
      unfold aesenc
      rw [show (0 : U128) = 0#128 from rfl, BitVec.xor_zero]
    have e1 : aesenc (vecOf otherFirst) s.2 = aesenc (vecOf (List.replicate 16 0)) s.2 ^^^ single 9 1 := by
      rw [e0, e0, otherFirst_enc, BitVec.xor_assoc, BitVec.xor_comm _ s.2, ← BitVec.xor_assoc]
    rw [e1, aesdec_any _ _ _ h, correctionAny_eq]
    generalize aesenc (vecOf (List.replicate 16 0)) s.2 = t
    rw [zv]
    unfold aesdec
    generalize invMixColumns (single 13 (answer k)) = d
    rw [BitVec.xor_assoc, BitVec.xor_self]
  unfold Spec.aesBlockB
  simp only [show List.range 7 = [0, 1, 2, 3, 4, 5, 6] from rfl, List.foldl_cons, List.foldl_nil]
  simp only [vec_skip otherFirst _ _ rfl, vec_first otherFirst _ rfl, vec_skip _ _ _ x1, vec_first _ _ x1,
    vec_skip _ _ _ z, vec_first _ _ z, key]

/-! ## The messages -/

/-- The state after a beginning -/
def aesState (r : List Byte) (seed len : U64) : Spec.XY × U128 :=
  let x := set64x seed len
  let y := aesenc x (set64x Spec.prime0 Spec.prime1)
  let s : Spec.XY := if r.length / 16 % 2 = 1 then
      { x := add64 x (Spec.vec r 0), y := aesenc (add64 x (Spec.vec r 0)) y } else { x := x, y := y }
  (Spec.blocks 128 (if r.length / 16 % 2 = 1 then r.drop 16 else r)).foldl Spec.aesBlockB (s, s.y)

theorem t1ha0_aesB_after (r b b' q : List Byte) (hr : r.length % 128 = 0 ∨ r.length % 128 = 16) (hb : b.length = 32)
    (hb' : b'.length = 32) (hq : 96 ≤ q.length) (heven : q.length / 16 % 2 = 0) (seed : U64)
    (h : Spec.aesBlockB (aesState r seed (BitVec.ofNat 64 (r.length + (32 + q.length)))) (b ++ q.take 96) =
      Spec.aesBlockB (aesState r seed (BitVec.ofNat 64 (r.length + (32 + q.length)))) (b' ++ q.take 96)) :
    Spec.t1ha0_aesB (r ++ (b ++ q)) seed = Spec.t1ha0_aesB (r ++ (b' ++ q)) seed := by
  have hr16 : r.length % 16 = 0 := by omega
  have key : ∀ c : List Byte, c.length = 32 → (r ++ (c ++ q)).length = r.length + (32 + q.length) ∧
      (r ++ (c ++ q)).take (16 * ((r.length + (32 + q.length)) / 16)) =
        r ++ ((c ++ q.take 96) ++ (q.take (16 * (q.length / 16))).drop 96) ∧
      Spec.rest 16 (r ++ (c ++ q)) = Spec.rest 16 q := by
    intro c hc
    refine ⟨by rw [List.length_append, List.length_append, hc], ?_, ?_⟩
    · have h1 : q.take 96 = (q.take (16 * (q.length / 16))).take 96 := by
        rw [List.take_take, Nat.min_eq_left (by omega)]
      rw [List.append_assoc, h1, List.take_append_drop, List.take_append, List.take_append, hc,
        List.take_of_length_le (l := r) (by omega), List.take_of_length_le (l := c) (by omega),
        show 16 * ((r.length + (32 + q.length)) / 16) - r.length - 32 = 16 * (q.length / 16) by omega]
    · rw [rest_skip (by decide) _ _ hr16, rest_skip (by decide) _ _ (by rw [hc])]
  have kl : ∀ c : List Byte, c.length = 32 → (c ++ q.take 96).length = 128 := by
    intro c hc
    rw [List.length_append, hc, List.length_take]; omega
  generalize hz : (q.take (16 * (q.length / 16))).drop 96 = z at key
  have kd : z.length = 16 * (q.length / 16) - 96 := by
    rw [← hz, List.length_drop, List.length_take]; omega
  obtain ⟨l1, t1, r1⟩ := key b hb
  obtain ⟨l2, t2, r2⟩ := key b' hb'
  unfold Spec.t1ha0_aesB Spec.len64
  rw [l1, l2, if_pos (by omega), if_pos (by omega)]
  dsimp only
  rw [t1, t2, r1, r2]
  have n1 : ∀ c : List Byte, c.length = 32 → ((r ++ ((c ++ q.take 96) ++ z)).length / 16 % 2 = 1 ↔
      r.length / 16 % 2 = 1) := by
    intro c hc
    rw [List.length_append, List.length_append, kl c hc, kd]; omega
  simp only [n1 b hb, n1 b' hb']
  have kb : ∀ c : List Byte, c.length = 32 → Spec.blocks 128 (c ++ q.take 96 ++ z) =
      (c ++ q.take 96) :: Spec.blocks 128 z ∧ Spec.rest 128 (c ++ q.take 96 ++ z) = Spec.rest 128 z := by
    intro c hc
    rw [blocks_skip (by decide) _ _ (by rw [kl c hc]), blocks_one (by decide) _ (kl c hc),
      rest_skip (by decide) _ _ (by rw [kl c hc])]
    exact ⟨rfl, rfl⟩
  unfold aesState at h
  dsimp only at h
  generalize BitVec.ofNat 64 (r.length + (32 + q.length)) = n at h ⊢
  by_cases ho : r.length / 16 % 2 = 1
  · have hd : (r.drop 16).length % 128 = 0 := by rw [List.length_drop]; omega
    have hv : ∀ t : List Byte, Spec.vec (r ++ t) 0 = Spec.vec r 0 ∧ (r ++ t).drop 16 = r.drop 16 ++ t := by
      intro t
      unfold Spec.vec
      rw [Nat.mul_zero, List.drop_zero, List.drop_zero, List.take_append_of_le_length (by omega),
        List.drop_append_of_le_length (by omega)]
      exact ⟨rfl, rfl⟩
    simp only [if_pos ho] at h ⊢
    rw [(hv _).1, (hv _).1, (hv _).2, (hv _).2, blocks_skip (by decide) _ _ hd, blocks_skip (by decide) _ _ hd,
      rest_skip (by decide) _ _ hd, rest_skip (by decide) _ _ hd, (kb b hb).1, (kb b hb).2, (kb b' hb').1,
      (kb b' hb').2]
    simp only [List.foldl_append, List.foldl_cons, h]
  · have hd : r.length % 128 = 0 := by omega
    simp only [if_neg ho] at h ⊢
    rw [blocks_skip (by decide) _ _ hd, blocks_skip (by decide) _ _ hd,
      rest_skip (by decide) _ _ hd, rest_skip (by decide) _ _ hd, (kb b hb).1, (kb b hb).2, (kb b' hb').1,
      (kb b' hb').2]
    simp only [List.foldl_append, List.foldl_cons, h]

/-- The messages which are opposed to zeroes -/
def messagesAes : List (List Byte) := (List.range 128).map fun k => otherFirst ++ correctionAny k

theorem messagesAes_length : ∀ m ∈ messagesAes, m.length = 32 ∧ m ≠ List.replicate 32 0 := by
  intro m hm
  obtain ⟨k, _, rfl⟩ := List.mem_map.mp hm
  refine ⟨by rw [List.length_append, correctionAny, length_leBytes]; rfl, ?_⟩
  intro h
  have h1 := (List.append_inj (t₁ := correctionAny k) (s₂ := List.replicate 16 0) (t₂ := List.replicate 16 0)
    h rfl).1
  exact absurd h1 (by decide)

theorem t1ha0_aesB_cover (r : List Byte) (hr : r.length % 128 = 0 ∨ r.length % 128 = 16) (n : Nat) (hn : 96 ≤ n)
    (heven : n / 16 % 2 = 0) (seed : U64) : ∃ m ∈ messagesAes, ∀ q : List Byte, q.length = n →
      Spec.t1ha0_aesB (r ++ (List.replicate 32 0 ++ q)) seed = Spec.t1ha0_aesB (r ++ (m ++ q)) seed := by
  obtain ⟨k, hk, h⟩ := aesBlockB_any (aesState r seed (BitVec.ofNat 64 (r.length + (32 + n))))
  have hm : otherFirst ++ correctionAny k ∈ messagesAes := List.mem_map.mpr ⟨k, List.mem_range.mpr hk, rfl⟩
  refine ⟨_, hm, ?_⟩
  rintro q rfl
  refine t1ha0_aesB_after r _ _ q hr (List.length_replicate ..) (messagesAes_length _ hm).1 hn heven seed ?_
  have := h (q.take 96)
  rw [← List.append_assoc, ← List.append_assoc] at this
  exact this.symm

end T1ha
