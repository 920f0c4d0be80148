import Verif.Props.XxhWord

/-!
# XXH64 tells apart messages which differ in one of the last words: C102
-/

namespace T1ha.Props

open Model Examples

variable {cfg cfg' : Cfg} {x x' : Xxh} {w w' : World} {s s' : Sys} {data data' : Nat}

/-- A change of one aligned word of 8 bytes after the last complete 32 bytes; or of the 4 bytes which follow the last
complete word of 8 bytes; or of one of the last 1 to 3 bytes, which follow the last complete 4 bytes -/
structure OneWord64 (p q q' r : List Byte) : Prop where
  same : q.length = q'.length
  differ : q ≠ q'
  late : (p.length + q.length + r.length) / 32 * 32 ≤ p.length
  place : p.length % 8 = 0 ∧ q.length = 8 ∨ p.length % 8 = 0 ∧ q.length = 4 ∧ r.length < 4 ∨
    q.length = 1 ∧ p.length / 4 * 4 + 4 > p.length + 1 + r.length

theorem num_ne {q q' : List Byte} (h : q.length = q'.length) (hq : q.length ≤ 8) (hne : q ≠ q') : Spec.num q ≠ Spec.num q' := by
  intro e
  have := congrArg BitVec.toNat e
  unfold Spec.num at this
  have lt : ∀ l : List Byte, l.length ≤ 8 → leVal l < 2 ^ 64 := fun l hl =>
    Nat.lt_of_lt_of_le (leVal_lt l) (by
      rw [show (256 : Nat) = 2 ^ 8 by decide, ← Nat.pow_mul]
      exact Nat.pow_le_pow_right (by decide) (by omega))
  rw [BitVec.toNat_ofNat, BitVec.toNat_ofNat, Nat.mod_eq_of_lt (lt q hq), Nat.mod_eq_of_lt (lt q' (h ▸ hq))] at this
  exact hne (by rw [← leBytes_leVal q, ← leBytes_leVal q', h, this])

theorem q5_inv : (0xc592c09fdfba7f0d : U64) * Spec.xxhQ5 = 1#64 := by decide

theorem byte64_inj (b : Byte) : Function.Injective fun h => Spec.xxh64Byte h b := fun _ _ e =>
  xor_right_undo (rotateLeft_inj (by decide) (by decide) (mul_right_cancel_of_inv q1_inv e))

theorem half64_inj (b : List Byte) : Function.Injective fun h => Spec.xxh64Half h b := fun _ _ e =>
  xor_right_undo (rotateLeft_inj (by decide) (by decide) (mul_right_cancel_of_inv q2_inv (add_right_cancel' e)))

theorem word64_inj (b : List Byte) : Function.Injective fun h => Spec.xxh64Word h b := fun _ _ e =>
  xor_right_undo (rotateLeft_inj (by decide) (by decide) (mul_right_cancel_of_inv q1_inv (add_right_cancel' e)))

theorem bytes64_ne (h : U64) (p r : List Byte) {b b' : Byte} (hne : b ≠ b') :
    (p ++ [b] ++ r).foldl Spec.xxh64Byte h ≠ (p ++ [b'] ++ r).foldl Spec.xxh64Byte h := by
  intro e
  simp only [List.foldl_append, List.foldl_cons, List.foldl_nil] at e
  have e1 := foldl_undo byte64_inj _ e
  have e2 := xor_left_cancel (rotateLeft_inj (by decide) (by decide) (mul_right_cancel_of_inv q1_inv e1))
  have e3 := congrArg BitVec.toNat (mul_right_cancel_of_inv q5_inv e2)
  rw [BitVec.toNat_setWidth, BitVec.toNat_setWidth, Nat.mod_eq_of_lt (by omega), Nat.mod_eq_of_lt (by omega)] at e3
  exact hne (BitVec.eq_of_toNat_eq e3)

/-- The last less than 8 bytes -/
def end64 (h : U64) (q : List Byte) : U64 :=
  (Spec.rest 4 q).foldl Spec.xxh64Byte ((Spec.blocks 4 q).foldl Spec.xxh64Half h)

theorem end64_inj (q : List Byte) : Function.Injective fun h => end64 h q := fun _ _ e =>
  foldl_undo half64_inj _ (foldl_undo byte64_inj _ e)

theorem end64_begin (h : U64) {c : List Byte} (hc : c.length = 4) (r : List Byte) :
    end64 h (c ++ r) = end64 (Spec.xxh64Half h c) r := by
  unfold end64
  rw [blocks_begin (by decide) hc, rest_begin (by decide) hc, List.foldl_cons]

theorem end64_half_ne (h : U64) {q q' r : List Byte} (hq : q.length = 4) (hq' : q'.length = 4) (hne : q ≠ q') :
    end64 h (q ++ r) ≠ end64 h (q' ++ r) := by
  rw [end64_begin h hq, end64_begin h hq']
  intro e
  have e1 := end64_inj _ e
  have e2 := xor_left_cancel (rotateLeft_inj (by decide) (by decide) (mul_right_cancel_of_inv q2_inv (add_right_cancel' e1)))
  exact num_ne (hq.trans hq'.symm) (by omega) hne (mul_right_cancel_of_inv q1_inv e2)

theorem end64_byte_ne (h : U64) {p r : List Byte} {b b' : Byte} (hne : b ≠ b')
    (hl : p.length / 4 * 4 + 4 > p.length + 1 + r.length) (hp : p.length < 8) :
    end64 h (p ++ [b] ++ r) ≠ end64 h (p ++ [b'] ++ r) := by
  have base : ∀ (h : U64) (p : List Byte), p.length + 1 + r.length < 4 →
      end64 h (p ++ [b] ++ r) ≠ end64 h (p ++ [b'] ++ r) := fun h p hl => by
    have hs : ∀ c : Byte, (p ++ [c] ++ r).length < 4 := fun c => by
      simp only [List.length_append, List.length_singleton]
      exact hl
    unfold end64
    rw [blocks_short (hs b), blocks_short (hs b'), rest_short (hs b), rest_short (hs b')]
    exact bytes64_ne _ _ _ hne
  by_cases h4 : p.length < 4
  · exact base h p (by omega)
  · have ht : (p.take 4).length = 4 := by rw [List.length_take]; omega
    have he : ∀ u : List Byte, p ++ u ++ r = p.take 4 ++ (p.drop 4 ++ u ++ r) := fun u => by
      rw [← List.append_assoc, ← List.append_assoc, List.take_append_drop]
    rw [he [b], he [b'], end64_begin h ht, end64_begin h ht]
    exact base _ _ (by rw [List.length_drop]; omega)

theorem tail64_eq (h : U64) (r : List Byte) :
    Spec.xxh64Tail h r = end64 ((Spec.blocks 8 r).foldl Spec.xxh64Word h) (Spec.rest 8 r) := rfl

theorem tail64_begin (h : U64) {c : List Byte} (hc : c.length = 8) (r : List Byte) :
    Spec.xxh64Tail h (c ++ r) = Spec.xxh64Tail (Spec.xxh64Word h c) r := by
  rw [tail64_eq, tail64_eq, blocks_begin (by decide) hc, rest_begin (by decide) hc, List.foldl_cons]

theorem tail64_ne (n : Nat) : ∀ (h : U64) {p q q' r : List Byte}, p.length / 8 = n → q.length = q'.length → q ≠ q' →
    (p.length % 8 = 0 ∧ q.length = 8 ∨ p.length % 8 = 0 ∧ q.length = 4 ∧ r.length < 4 ∨
      q.length = 1 ∧ p.length / 4 * 4 + 4 > p.length + 1 + r.length) →
    Spec.xxh64Tail h (p ++ q ++ r) ≠ Spec.xxh64Tail h (p ++ q' ++ r) := by
  induction n with
  | zero =>
    intro h p q q' r hp hs hne hpl
    rcases hpl with ⟨h0, h8⟩ | ⟨h0, h4, hr⟩ | ⟨h1, hr⟩
    · obtain rfl : p = [] := List.length_eq_zero_iff.1 (by omega)
      rw [List.nil_append, List.nil_append, tail64_begin h h8, tail64_begin h (hs ▸ h8), tail64_eq, tail64_eq]
      intro e
      have e1 := foldl_undo word64_inj _ (end64_inj _ e)
      have e2 := xor_left_cancel (rotateLeft_inj (by decide) (by decide) (mul_right_cancel_of_inv q1_inv (add_right_cancel' e1)))
      have e3 := add_left_cancel' (rotateLeft_inj (by decide) (by decide) (mul_right_cancel_of_inv q1_inv e2))
      exact num_ne hs (by omega) hne (mul_right_cancel_of_inv q2_inv e3)
    · obtain rfl : p = [] := List.length_eq_zero_iff.1 (by omega)
      have hl : ∀ u : List Byte, u.length = 4 → (u ++ r).length < 8 := fun u hu => by
        rw [List.length_append]
        omega
      rw [List.nil_append, List.nil_append, tail64_eq, tail64_eq, blocks_short (hl q h4), blocks_short (hl q' (hs ▸ h4)),
        rest_short (hl q h4), rest_short (hl q' (hs ▸ h4))]
      exact end64_half_ne _ h4 (hs ▸ h4) hne
    · obtain ⟨b, rfl⟩ := List.length_eq_one_iff.1 h1
      obtain ⟨b', rfl⟩ := List.length_eq_one_iff.1 (hs ▸ h1)
      have hl : ∀ c : Byte, (p ++ [c] ++ r).length < 8 := fun c => by
        simp only [List.length_append, List.length_singleton]
        omega
      rw [tail64_eq, tail64_eq, blocks_short (hl b), blocks_short (hl b'), rest_short (hl b), rest_short (hl b')]
      exact end64_byte_ne _ (fun e => hne (by rw [e])) hr (by omega)
  | succ n ih =>
    intro h p q q' r hp hs hne hpl
    have ht : (p.take 8).length = 8 := by rw [List.length_take]; omega
    have he : ∀ u : List Byte, p ++ u ++ r = p.take 8 ++ (p.drop 8 ++ u ++ r) := fun u => by
      rw [← List.append_assoc, ← List.append_assoc, List.take_append_drop]
    rw [he q, he q', tail64_begin _ ht, tail64_begin _ ht]
    refine ih _ (by rw [List.length_drop]; omega) hs hne ?_
    rw [List.length_drop]
    omega

theorem xxh64_ne {p q q' r : List Byte} (o : OneWord64 p q q' r) (seed : U64) :
    Spec.xxh64 (p ++ q ++ r) seed ≠ Spec.xxh64 (p ++ q' ++ r) seed := by
  intro h
  have hs := o.same
  have hlate := o.late
  have hl : ∀ u : List Byte, u.length = q.length → (p ++ u ++ r).length = p.length + q.length + r.length := fun u hu => by
    simp only [List.length_append, hu]
  unfold Spec.xxh64 Spec.xxh64Avalanche Spec.len64 at h
  simp only at h
  have h1 := xorshift_undo (by decide) (mul_right_cancel_of_inv q2_inv (xorshift_undo (by decide)
    (mul_right_cancel_of_inv q3_inv (xorshift_undo (by decide) h))))
  have hb : ∀ u : List Byte, u.length = q.length →
      Spec.blocks 32 (p ++ u ++ r) = chunks 32 ((p.length + q.length + r.length) / 32) p := fun u hu => by
    unfold Spec.blocks
    rw [hl u hu, List.append_assoc]
    exact chunks_take _ _ _ _ (by omega)
  have hr : ∀ u : List Byte, u.length = q.length → Spec.rest 32 (p ++ u ++ r) =
      p.drop (32 * ((p.length + q.length + r.length) / 32)) ++ u ++ r := fun u hu => by
    unfold Spec.rest
    rw [hl u hu, List.append_assoc, List.drop_append_of_le_length (by omega), List.append_assoc]
  rw [hl q rfl, hl q' hs.symm, hb q rfl, hb q' hs.symm, hr q rfl, hr q' hs.symm] at h1
  refine tail64_ne _ _ rfl hs o.differ ?_ h1
  have := o.place
  rw [List.length_drop]
  omega

/-- C102: two messages of the same length which differ in one word after the last complete 32 bytes only have different
XXH64 hashes under every seed. -/
theorem xxh64_detects_word {p q q' r : List Byte} (o : OneWord64 p q q' r) (h : Message cfg w s.ov data (p ++ q ++ r))
    (h' : Message cfg' w' s'.ov data' (p ++ q' ++ r)) (seed : U64)
    (hx : x.access = .direct → x.lenient32 = true ∧ x.lenient64 = true ∨ x.alignCheck = true ∧ data % 8 = 0)
    (hx' : x'.access = .direct → x'.lenient32 = true ∧ x'.lenient64 = true ∨ x'.alignCheck = true ∧ data' % 8 = 0) :
    ∃ v z t v' z' t', Returns (XXH64 cfg x data (p ++ q ++ r).length seed) w s v z t ∧
      Returns (XXH64 cfg' x' data' (p ++ q' ++ r).length seed) w' s' v' z' t' ∧ v ≠ v' := by
  obtain ⟨z, t, h1, _⟩ := xxh64_correct_partial h seed hx
  obtain ⟨z', t', h2, _⟩ := xxh64_correct_partial h' seed hx'
  exact ⟨_, z, t, _, z', t', h1, h2, xxh64_ne o seed⟩

/-- 31 bytes, of which those from 8 on differ -/
example (seed : U64) : ∃ v z t v' z' t',
    Returns (XXH64 mips32 xxhMips 5001 (msg 8 ++ [1, 2, 3, 4, 5, 6, 7, 8] ++ msg 15).length seed)
      (memory 4096 8192 5001 (msg 8 ++ [1, 2, 3, 4, 5, 6, 7, 8] ++ msg 15)) start v z t ∧
    Returns (XXH64 mips32 xxhMips 5001 (msg 8 ++ [8, 7, 6, 5, 4, 3, 2, 1] ++ msg 15).length seed)
      (memory 4096 8192 5001 (msg 8 ++ [8, 7, 6, 5, 4, 3, 2, 1] ++ msg 15)) start v' z' t' ∧ v ≠ v' :=
  xxh64_detects_word (p := msg 8) (q := [1, 2, 3, 4, 5, 6, 7, 8]) (q' := [8, 7, 6, 5, 4, 3, 2, 1]) (r := msg 15)
    ⟨rfl, by decide, by rw [length_msg, length_msg]; decide, Or.inl ⟨by rw [length_msg], rfl⟩⟩
    (message mips32 (by decide) (by simp only [List.length_append, length_msg]; decide) (by decide))
    (message mips32 (by decide) (by simp only [List.length_append, length_msg]; decide) (by decide)) seed
    (fun h => absurd h (by decide)) (fun h => absurd h (by decide))

/-- 1010 bytes, of which the last one differs -/
example (seed : U64) : ∃ v z t v' z' t',
    Returns (XXH64 mips32 xxhMips 5001 (msg 1009 ++ [0] ++ []).length seed) (memory 4096 8192 5001 (msg 1009 ++ [0] ++ [])) start
      v z t ∧
    Returns (XXH64 mips32 xxhMips 5001 (msg 1009 ++ [1] ++ []).length seed) (memory 4096 8192 5001 (msg 1009 ++ [1] ++ [])) start
      v' z' t' ∧ v ≠ v' :=
  xxh64_detects_word (p := msg 1009) (q := [0]) (q' := [1]) (r := [])
    ⟨rfl, by decide, by rw [length_msg]; decide, Or.inr (Or.inr ⟨rfl, by rw [length_msg]; decide⟩)⟩
    (message mips32 (by decide) (by simp only [List.length_append, length_msg]; decide) (by decide))
    (message mips32 (by decide) (by simp only [List.length_append, length_msg]; decide) (by decide)) seed
    (fun h => absurd h (by decide)) (fun h => absurd h (by decide))

end T1ha.Props
