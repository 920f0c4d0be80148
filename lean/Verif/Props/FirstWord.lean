import Verif.Props.Symmetry

/-!
# In t1ha2_atonce, another first word may be another seed: C100
-/

namespace T1ha.Props

open Model Examples

variable {cfg cfg' : Cfg} {w w' : World} {s s' : Sys} {data data' page page' : Nat}

/-- The product of the first word of a message of `len` bytes, increased by this length, and the constant of the code for
these lengths -/
def firstProduct (len : Nat) (u : List Byte) : Nat :=
  (len + leVal u) % 2 ^ 64 * (if len ≤ 16 then 0xD4F06DB99D67BE4B else 0x9C06FAF4D023E3AB)

theorem words64_begin (e : Endian) (u r : List Byte) (hu : u.length = 8) :
    Spec.words64 e (u ++ r) = BitVec.ofNat 64 (e.val u) :: Spec.words64 e r := by
  unfold Spec.words64
  rw [List.length_append, hu, show (8 + r.length + 7) / 8 = (r.length + 7) / 8 + 1 by omega, chunks, List.map_cons,
    List.take_left' hu, List.drop_left' hu]

theorem length_words64 (e : Endian) (r : List Byte) : (Spec.words64 e r).length = (r.length + 7) / 8 := by
  unfold Spec.words64
  rw [List.length_map, length_chunks]

theorem t1ha2_first {u r : List Byte} (hu : u.length = 8)
    (hr : (1 ≤ r.length ∧ r.length ≤ 8) ∨ (17 ≤ r.length ∧ r.length ≤ 24)) (seed : U64) :
    Spec.t1ha2_atonce (u ++ r) seed = Spec.final64 (Spec.tailAB (Spec.words64 .little r)
      (seed ^^^ BitVec.ofNat 64 (firstProduct (8 + r.length) u),
        BitVec.ofNat 64 (8 + r.length) + BitVec.ofNat 64 (firstProduct (8 + r.length) u / 2 ^ 64))) := by
  have hp : Spec.product (BitVec.ofNat 64 (8 + r.length) + BitVec.ofNat 64 (leVal u)) (Spec.tailPrime ((r.length + 7) / 8)) =
      (BitVec.ofNat 64 (firstProduct (8 + r.length) u), BitVec.ofNat 64 (firstProduct (8 + r.length) u / 2 ^ 64)) := by
    unfold Spec.product firstProduct
    rw [← BitVec.ofNat_add, BitVec.toNat_ofNat]
    rcases hr with hr | hr
    · rw [if_pos (by omega), show (r.length + 7) / 8 = 1 by omega]
      rfl
    · rw [if_neg (by omega), show (r.length + 7) / 8 = 3 by omega]
      rfl
  have hl : (u ++ r).length = 8 + r.length := by rw [List.length_append, hu]
  unfold Spec.t1ha2_atonce Spec.len64
  rw [if_neg (by omega), words64_begin .little u r hu, hl, Spec.tailAB]
  simp only [length_words64, Spec.mix]
  rw [if_pos (by omega), show Endian.little.val u = leVal u from rfl, hp]

/-- C100: for messages of 9 to 16 and of 25 to 32 bytes, to exchange two first words whose products have the same high half
is to xor the seed with a number, which depends on the two words and the length only. -/
theorem first_word_is_seed (stack stack' : State256) {u u' r : List Byte} (hu : u.length = 8) (hu' : u'.length = 8)
    (hr : (1 ≤ r.length ∧ r.length ≤ 8) ∨ (17 ≤ r.length ∧ r.length ≤ 24))
    (hh : firstProduct (8 + r.length) u / 2 ^ 64 = firstProduct (8 + r.length) u' / 2 ^ 64)
    (h : Buf cfg w s.ov page data (u ++ r)) (h0 : (OneShot.t1ha2_atonce stack).Ready cfg w data (u ++ r).length)
    (h' : Buf cfg' w' s'.ov page' data' (u' ++ r)) (h0' : (OneShot.t1ha2_atonce stack').Ready cfg' w' data' (u' ++ r).length)
    (seed : U64) :
    ∃ v s₁ s₁', (OneShot.t1ha2_atonce stack).run cfg data (u ++ r).length
        (seed ^^^ BitVec.ofNat 64 (firstProduct (8 + r.length) u ^^^ firstProduct (8 + r.length) u')) w s = .ok (v, s₁) ∧
      (OneShot.t1ha2_atonce stack').run cfg' data' (u' ++ r).length seed w' s' = .ok (v, s₁') := by
  obtain ⟨t, ⟨h1, _⟩, _⟩ := (OneShot.t1ha2_atonce stack).returns h h0
    (seed ^^^ BitVec.ofNat 64 (firstProduct (8 + r.length) u ^^^ firstProduct (8 + r.length) u'))
  obtain ⟨t', ⟨h2, _⟩, _⟩ := (OneShot.t1ha2_atonce stack').returns h' h0' seed
  have : (OneShot.t1ha2_atonce stack').hash (u' ++ r) seed = (OneShot.t1ha2_atonce stack).hash (u ++ r)
      (seed ^^^ BitVec.ofNat 64 (firstProduct (8 + r.length) u ^^^ firstProduct (8 + r.length) u')) := by
    show Spec.t1ha2_atonce (u' ++ r) seed = Spec.t1ha2_atonce (u ++ r) _
    rw [t1ha2_first hu' hr, t1ha2_first hu hr, hh, BitVec.ofNat_xor, BitVec.xor_assoc,
      BitVec.xor_comm (BitVec.ofNat 64 (firstProduct (8 + r.length) u)), BitVec.xor_assoc, BitVec.xor_self, BitVec.xor_zero]
  rw [this] at h2
  exact ⟨_, _, _, h1, h2⟩

/-- C100: such words are everywhere: among any seven successive numbers there are two neighbours which can be exchanged. -/
theorem first_words_dense (len n : Nat) (hn : len + n + 6 < 2 ^ 64) : ∃ i < 6,
    firstProduct len (leBytes 8 (n + i)) / 2 ^ 64 = firstProduct len (leBytes 8 (n + i + 1)) / 2 ^ 64 := by
  have hv : ∀ k ≤ 6, (len + leVal (leBytes 8 (n + k))) % 2 ^ 64 = len + n + k := fun k hk => by
    rw [leVal_leBytes, Nat.mod_eq_of_lt (by omega), Nat.mod_eq_of_lt (by omega), Nat.add_assoc]
  have key : ∀ c : Nat, c * 6 ≤ 5 * 2 ^ 64 → ∃ i < 6, (len + n + i) * c / 2 ^ 64 = (len + n + (i + 1)) * c / 2 ^ 64 := by
    intro c hc
    by_contra hne
    have step : ∀ i < 6, (len + n + i) * c / 2 ^ 64 + 1 ≤ (len + n + (i + 1)) * c / 2 ^ 64 := fun i hi =>
      Nat.lt_of_le_of_ne (Nat.div_le_div_right (Nat.mul_le_mul_right c (by omega))) fun e => hne ⟨i, hi, e⟩
    have h0 := step 0 (by decide)
    have h1 := step 1 (by decide)
    have h2 := step 2 (by decide)
    have h3 := step 3 (by decide)
    have h4 := step 4 (by decide)
    have h5 := step 5 (by decide)
    have h6 : (len + n + (5 + 1)) * c = (len + n + 0) * c + c * 6 := by
      show (len + n + 6) * c = (len + n) * c + c * 6
      rw [Nat.add_mul, Nat.mul_comm c]
    rw [h6] at h5
    simp only [Nat.reduceAdd] at h0 h1 h2 h3 h4 h5
    generalize (len + n + 0) * c = x at h0 h5
    omega
  obtain ⟨i, hi, e⟩ := key (if len ≤ 16 then 0xD4F06DB99D67BE4B else 0x9C06FAF4D023E3AB) (by split <;> decide)
  refine ⟨i, hi, ?_⟩
  unfold firstProduct
  rw [hv i (by omega), Nat.add_assoc n, hv (i + 1) (by omega)]
  exact e

/-- The first word 1000000 or one of the next ones in messages of 30 bytes -/
example : ∃ i < 6, firstProduct 30 (leBytes 8 (1000000 + i)) / 2 ^ 64 = firstProduct 30 (leBytes 8 (1000000 + i + 1)) / 2 ^ 64 :=
  first_words_dense 30 1000000 (by decide)

theorem ready_atonce (stack : State256) (hs : cfg.SafeTail) {n : Nat} : (OneShot.t1ha2_atonce stack).Ready cfg w data n where
  slack _ := Or.inl hs
  builds h := nomatch h
  output _ h := nomatch h
  bottom _ h := by rcases h with h | h <;> exact nomatch h
  top _ h := nomatch h
  ulong _ h := nomatch h

/-- Two messages of 16 bytes -/
example (stack : State256) (seed : U64) : ∃ v s₁ s₁',
    (OneShot.t1ha2_atonce stack).run amd64 5001 16
      (seed ^^^ BitVec.ofNat 64 (firstProduct 16 [1, 0, 0, 0, 0, 0, 0, 0] ^^^ firstProduct 16 [2, 0, 0, 0, 0, 0, 0, 0]))
      (memory 4096 8192 5001 ([1, 0, 0, 0, 0, 0, 0, 0] ++ msg 8)) start = .ok (v, s₁) ∧
    (OneShot.t1ha2_atonce stack).run amd64 5001 16 seed (memory 4096 8192 5001 ([2, 0, 0, 0, 0, 0, 0, 0] ++ msg 8)) start =
      .ok (v, s₁') :=
  first_word_is_seed stack stack (u := [1, 0, 0, 0, 0, 0, 0, 0]) (u' := [2, 0, 0, 0, 0, 0, 0, 0]) (r := msg 8) rfl rfl
    (by decide) (by decide +kernel) (buf_mid amd64 rfl _ (by decide)) (ready_atonce _ (by decide))
    (buf_mid amd64 rfl _ (by decide)) (ready_atonce _ (by decide)) seed

/-- Two messages of 32 bytes, on two machines -/
example (stack stack' : State256) (seed : U64) : ∃ v s₁ s₁',
    (OneShot.t1ha2_atonce stack).run amd64 5001 32
      (seed ^^^ BitVec.ofNat 64 (firstProduct 32 [1, 0, 0, 0, 0, 0, 0, 0] ^^^ firstProduct 32 [2, 0, 0, 0, 0, 0, 0, 0]))
      (memory 4096 8192 5001 ([1, 0, 0, 0, 0, 0, 0, 0] ++ msg 24)) start = .ok (v, s₁) ∧
    (OneShot.t1ha2_atonce stack').run arm32 5001 32 seed (memory 4096 8192 5001 ([2, 0, 0, 0, 0, 0, 0, 0] ++ msg 24)) start =
      .ok (v, s₁') :=
  first_word_is_seed stack stack' (u := [1, 0, 0, 0, 0, 0, 0, 0]) (u' := [2, 0, 0, 0, 0, 0, 0, 0]) (r := msg 24) rfl rfl
    (by decide) (by decide +kernel) (buf_mid amd64 rfl _ (by decide)) (ready_atonce _ (by decide))
    (buf_mid arm32 rfl _ (by decide)) (ready_atonce _ (by decide)) seed

end T1ha.Props
