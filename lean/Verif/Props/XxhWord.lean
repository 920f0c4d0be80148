import Verif.Props.XxhSeed

/-!
# XXH32 tells apart messages which differ in one word: C101
-/

namespace T1ha.Props

open Model Examples

variable {cfg cfg' : Cfg} {x x' : Xxh} {w w' : World} {s s' : Sys} {data data' : Nat} {m : List Byte}

theorem blocks_begin {k : Nat} (hk : 0 < k) {c : List Byte} (hc : c.length = k) (r : List Byte) :
    Spec.blocks k (c ++ r) = c :: Spec.blocks k r := by
  unfold Spec.blocks
  rw [List.length_append, hc, Nat.add_div_left _ hk, chunks, List.take_left' hc, List.drop_left' hc]

theorem rest_begin {k : Nat} (hk : 0 < k) {c : List Byte} (hc : c.length = k) (r : List Byte) :
    Spec.rest k (c ++ r) = Spec.rest k r := by
  unfold Spec.rest
  rw [List.length_append, hc, Nat.add_div_left _ hk, Nat.mul_succ, Nat.add_comm, ← List.drop_drop,
    List.drop_left' hc]

theorem blocks_short {k : Nat} {r : List Byte} (hr : r.length < k) : Spec.blocks k r = [] := by
  unfold Spec.blocks
  rw [Nat.div_eq_of_lt hr, chunks]

theorem rest_short {k : Nat} {r : List Byte} (hr : r.length < k) : Spec.rest k r = r := by
  unfold Spec.rest
  rw [Nat.div_eq_of_lt hr, Nat.mul_zero, List.drop_zero]

theorem num32_ne {q q' : List Byte} (hq : q.length = 4) (hq' : q'.length = 4) (hne : q ≠ q') : Spec.num32 q ≠ Spec.num32 q' := by
  intro h
  have := congrArg BitVec.toNat h
  unfold Spec.num32 at this
  have lt : ∀ l : List Byte, l.length = 4 → leVal l < 2 ^ 32 := fun l hl => by
    have := Endian.little.val_lt l
    rw [hl] at this
    exact this
  rw [BitVec.toNat_ofNat, BitVec.toNat_ofNat, Nat.mod_eq_of_lt (lt q hq), Nat.mod_eq_of_lt (lt q' hq')] at this
  exact hne (by rw [← leBytes_leVal q, ← leBytes_leVal q', hq, hq', this])

theorem byte32_inj (b : Byte) : Function.Injective fun h => Spec.xxh32Byte h b := fun _ _ e =>
  add_right_cancel' (rotateLeft_inj (by decide) (by decide) (mul_right_cancel_of_inv p1_inv e))

theorem word32_inj (b : List Byte) : Function.Injective fun h => Spec.xxh32Word h b := fun _ _ e =>
  add_right_cancel' (rotateLeft_inj (by decide) (by decide) (mul_right_cancel_of_inv p4_inv e))

theorem tail32_inj (r : List Byte) : Function.Injective fun h => Spec.xxh32Tail h r := fun _ _ e =>
  foldl_undo word32_inj _ (foldl_undo byte32_inj _ e)

theorem p5_inv : (0xae398151 : U32) * Spec.xxhP5 = 1#32 := by decide

/-- A change of one aligned word of 4 bytes, or of one of the last 1 to 3 bytes -/
structure OneWord (p q q' r : List Byte) : Prop where
  same : q.length = q'.length
  differ : q ≠ q'
  place : p.length % 4 = 0 ∧ q.length = 4 ∨ q.length = 1 ∧ p.length / 4 * 4 + 4 > p.length + 1 + r.length

theorem OneWord.drop {p q q' r : List Byte} (h : OneWord p q q' r) {k : Nat} (hk : 4 ∣ k) (hp : k ≤ p.length) :
    OneWord (p.drop k) q q' r where
  same := h.same
  differ := h.differ
  place := by
    obtain ⟨j, rfl⟩ := hk
    rw [List.length_drop]
    rcases h.place with h | h
    · exact Or.inl (by omega)
    · exact Or.inr (by omega)

theorem bytes32_ne (h : U32) (p r : List Byte) {b b' : Byte} (hne : b ≠ b') :
    (p ++ [b] ++ r).foldl Spec.xxh32Byte h ≠ (p ++ [b'] ++ r).foldl Spec.xxh32Byte h := by
  intro e
  simp only [List.foldl_append, List.foldl_cons, List.foldl_nil] at e
  have e1 := foldl_undo byte32_inj _ e
  have e2 := add_left_cancel' (rotateLeft_inj (by decide) (by decide) (mul_right_cancel_of_inv p1_inv e1))
  have e3 := congrArg BitVec.toNat (mul_right_cancel_of_inv p5_inv e2)
  rw [BitVec.toNat_setWidth, BitVec.toNat_setWidth, Nat.mod_eq_of_lt (by omega), Nat.mod_eq_of_lt (by omega)] at e3
  exact hne (BitVec.eq_of_toNat_eq e3)

theorem tail32_ne (n : Nat) : ∀ (h : U32) {p q q' r : List Byte}, p.length / 4 = n → OneWord p q q' r →
    Spec.xxh32Tail h (p ++ q ++ r) ≠ Spec.xxh32Tail h (p ++ q' ++ r) := by
  induction n with
  | zero =>
    intro h p q q' r hp o
    rcases o.place with ⟨h0, h4⟩ | ⟨h1, hr⟩
    · obtain rfl : p = [] := List.length_eq_zero_iff.1 (by omega)
      intro e
      simp only [List.nil_append] at e
      unfold Spec.xxh32Tail at e
      rw [blocks_begin (by decide) h4, blocks_begin (by decide) (o.same ▸ h4), rest_begin (by decide) h4,
        rest_begin (by decide) (o.same ▸ h4), List.foldl_cons, List.foldl_cons] at e
      have e1 := foldl_undo word32_inj _ (foldl_undo byte32_inj _ e)
      have e2 := add_left_cancel' (rotateLeft_inj (by decide) (by decide) (mul_right_cancel_of_inv p4_inv e1))
      exact num32_ne h4 (o.same ▸ h4) o.differ (mul_right_cancel_of_inv p3_inv e2)
    · obtain ⟨b, rfl⟩ := List.length_eq_one_iff.1 h1
      obtain ⟨b', rfl⟩ := List.length_eq_one_iff.1 (o.same ▸ h1)
      have hl : ∀ c : Byte, (p ++ [c] ++ r).length < 4 := fun c => by
        simp only [List.length_append, List.length_singleton]
        omega
      unfold Spec.xxh32Tail
      rw [blocks_short (hl b), blocks_short (hl b'), rest_short (hl b), rest_short (hl b')]
      exact bytes32_ne _ _ _ fun e => o.differ (by rw [e])
  | succ n ih =>
    intro h p q q' r hp o
    have ht : (p.take 4).length = 4 := by rw [List.length_take]; omega
    have key : ∀ u : List Byte, Spec.xxh32Tail h (p ++ u ++ r) =
        Spec.xxh32Tail (Spec.xxh32Word h (p.take 4)) (p.drop 4 ++ u ++ r) := fun u => by
      have e : p ++ u ++ r = p.take 4 ++ (p.drop 4 ++ u ++ r) := by
        rw [← List.append_assoc, ← List.append_assoc, List.take_append_drop]
      rw [e]
      unfold Spec.xxh32Tail
      rw [blocks_begin (by decide) ht, rest_begin (by decide) ht, List.foldl_cons]
    rw [key, key]
    exact ih _ (by rw [List.length_drop]; omega) (o.drop (by decide) (by omega))

/-! ## The four lanes -/

def lane (v : Quad32) : Nat → U32
  | 0 => v.x0
  | 1 => v.x1
  | 2 => v.x2
  | _ => v.x3

/-- All lanes are equal but one. -/
def Differ (v v' : Quad32) : Prop := ∃ j < 4, lane v j ≠ lane v' j ∧ ∀ k < 4, k ≠ j → lane v k = lane v' k

theorem lane_stripe (v : Quad32) (blk : List Byte) {j : Nat} (hj : j < 4) :
    lane (Spec.xxh32Stripe v blk) j = Spec.xxh32Round (lane v j) (Spec.word32 .little blk j) := by
  match j, hj with
  | 0, _ | 1, _ | 2, _ | 3, _ => rfl

theorem Differ.stripe {v v' : Quad32} (h : Differ v v') (blk : List Byte) :
    Differ (Spec.xxh32Stripe v blk) (Spec.xxh32Stripe v' blk) := by
  obtain ⟨j, hj, hne, he⟩ := h
  refine ⟨j, hj, fun e => hne ?_, fun k hk hkj => ?_⟩
  · rw [lane_stripe v blk hj, lane_stripe v' blk hj] at e
    exact add_right_cancel' (rotateLeft_inj (by decide) (by decide) (mul_right_cancel_of_inv p1_inv e))
  · rw [lane_stripe v blk hk, lane_stripe v' blk hk, he k hk hkj]

theorem Differ.stripes {v v' : Quad32} (h : Differ v v') (l : List (List Byte)) :
    Differ (l.foldl Spec.xxh32Stripe v) (l.foldl Spec.xxh32Stripe v') := by
  induction l generalizing v v' with
  | nil => exact h
  | cons b l ih => exact ih (h.stripe b)

theorem Differ.converge {v v' : Quad32} (h : Differ v v') : Spec.xxh32Converge v ≠ Spec.xxh32Converge v' := by
  obtain ⟨j, hj, hne, he⟩ := h
  intro e
  unfold Spec.xxh32Converge at e
  match j, hj with
  | 0, _ =>
    rw [show v.x1 = v'.x1 from he 1 (by decide) (by decide), show v.x2 = v'.x2 from he 2 (by decide) (by decide),
      show v.x3 = v'.x3 from he 3 (by decide) (by decide)] at e
    exact hne (rotateLeft_inj (by decide) (by decide) (add_right_cancel' (add_right_cancel' (add_right_cancel' e))))
  | 1, _ =>
    rw [show v.x0 = v'.x0 from he 0 (by decide) (by decide), show v.x2 = v'.x2 from he 2 (by decide) (by decide),
      show v.x3 = v'.x3 from he 3 (by decide) (by decide)] at e
    exact hne (rotateLeft_inj (by decide) (by decide) (add_left_cancel' (add_right_cancel' (add_right_cancel' e))))
  | 2, _ =>
    rw [show v.x0 = v'.x0 from he 0 (by decide) (by decide), show v.x1 = v'.x1 from he 1 (by decide) (by decide),
      show v.x3 = v'.x3 from he 3 (by decide) (by decide)] at e
    exact hne (rotateLeft_inj (by decide) (by decide) (add_left_cancel' (add_right_cancel' e)))
  | 3, _ =>
    rw [show v.x0 = v'.x0 from he 0 (by decide) (by decide), show v.x1 = v'.x1 from he 1 (by decide) (by decide),
      show v.x2 = v'.x2 from he 2 (by decide) (by decide)] at e
    exact hne (rotateLeft_inj (by decide) (by decide) (add_left_cancel' e))

theorem word32_split (p q r : List Byte) (hq : q.length = 4) (hp : p.length % 4 = 0) (k : Nat) :
    Spec.word32 .little (p ++ q ++ r) k = if k < p.length / 4 then Spec.word32 .little p k
      else if k = p.length / 4 then Spec.num32 q else Spec.word32 .little r (k - p.length / 4 - 1) := by
  unfold Spec.word32
  rw [List.append_assoc]
  split
  · rw [List.drop_append_of_le_length (by omega), List.take_append_of_le_length (by rw [List.length_drop]; omega)]
  · rw [show 4 * k = p.length + 4 * (k - p.length / 4) by omega, ← List.drop_drop, List.drop_left' rfl]
    split
    · next h =>
      rw [h, Nat.sub_self, Nat.mul_zero, List.drop_zero, List.take_left' hq]
      rfl
    · rw [show 4 * (k - p.length / 4) = 4 + 4 * (k - p.length / 4 - 1) by omega, ← List.drop_drop, List.drop_left' hq]

theorem Differ.begin (v : Quad32) {p q q' r : List Byte} (hq : q.length = 4) (hq' : q'.length = 4) (hne : q ≠ q')
    (hp : p.length % 4 = 0) (hp16 : p.length < 16) :
    Differ (Spec.xxh32Stripe v (p ++ q ++ r)) (Spec.xxh32Stripe v (p ++ q' ++ r)) := by
  refine ⟨p.length / 4, by omega, fun e => ?_, fun k hk hkj => ?_⟩
  · rw [lane_stripe _ _ (by omega), lane_stripe _ _ (by omega), word32_split _ _ _ hq hp, word32_split _ _ _ hq' hp,
      if_neg (Nat.lt_irrefl _), if_neg (Nat.lt_irrefl _), if_pos rfl, if_pos rfl] at e
    have e1 := add_left_cancel' (rotateLeft_inj (by decide) (by decide) (mul_right_cancel_of_inv p1_inv e))
    exact num32_ne hq hq' hne (mul_right_cancel_of_inv p2_inv e1)
  · rw [lane_stripe _ _ hk, lane_stripe _ _ hk, word32_split _ _ _ hq hp, word32_split _ _ _ hq' hp, if_neg hkj, if_neg hkj]

/-! ## The whole message -/

/-- The hash before the last step, from any state of the lanes -/
def runFrom (v : Quad32) (n : U32) (m : List Byte) : U32 :=
  Spec.xxh32Tail (Spec.xxh32Converge ((Spec.blocks 16 m).foldl Spec.xxh32Stripe v) + n) (Spec.rest 16 m)

theorem runFrom_cons (v : Quad32) (n : U32) {c : List Byte} (hc : c.length = 16) (r : List Byte) :
    runFrom v n (c ++ r) = runFrom (Spec.xxh32Stripe v c) n r := by
  unfold runFrom
  rw [blocks_begin (by decide) hc, rest_begin (by decide) hc, List.foldl_cons]

theorem Differ.runFrom {v v' : Quad32} (h : Differ v v') (n : U32) (m : List Byte) : runFrom v n m ≠ runFrom v' n m :=
  fun e => (h.stripes _).converge (add_right_cancel' (tail32_inj _ e))

theorem runFrom_ne (k : Nat) : ∀ (v : Quad32) (n : U32) {p q q' r : List Byte}, p.length / 16 = k → OneWord p q q' r →
    runFrom v n (p ++ q ++ r) ≠ runFrom v n (p ++ q' ++ r) := by
  induction k with
  | zero =>
    intro v n p q q' r hp o
    by_cases hl : (p ++ q ++ r).length < 16
    · have hl' : (p ++ q' ++ r).length < 16 := by
        have := o.same
        simp only [List.length_append] at hl ⊢
        omega
      unfold Props.runFrom
      rw [blocks_short hl, blocks_short hl', rest_short hl, rest_short hl']
      exact tail32_ne _ _ rfl o
    · simp only [List.length_append] at hl
      rcases o.place with ⟨h0, h4⟩ | ⟨h1, hr⟩
      · have h4' : q'.length = 4 := o.same ▸ h4
        have hc : ∀ u : List Byte, u.length = 4 → (p ++ u ++ r.take (12 - p.length)).length = 16 := fun u hu => by
          simp only [List.length_append, List.length_take]
          omega
        have he : ∀ u : List Byte, p ++ u ++ r = (p ++ u ++ r.take (12 - p.length)) ++ r.drop (12 - p.length) := fun u => by
          rw [List.append_assoc (p ++ u), List.take_append_drop]
        rw [he q, he q', runFrom_cons _ _ (hc q h4), runFrom_cons _ _ (hc q' h4')]
        exact (Differ.begin v h4 h4' o.differ h0 (by omega)).runFrom _ _
      · omega
  | succ k ih =>
    intro v n p q q' r hp o
    have ht : (p.take 16).length = 16 := by rw [List.length_take]; omega
    have he : ∀ u : List Byte, p ++ u ++ r = p.take 16 ++ (p.drop 16 ++ u ++ r) := fun u => by
      rw [← List.append_assoc, ← List.append_assoc, List.take_append_drop]
    rw [he q, he q', runFrom_cons _ _ ht, runFrom_cons _ _ ht]
    exact ih _ _ (by rw [List.length_drop]; omega) (o.drop (by decide) (by omega))

theorem xxh32_ne {p q q' r : List Byte} (o : OneWord p q q' r) (seed : U32) :
    Spec.xxh32 (p ++ q ++ r) seed ≠ Spec.xxh32 (p ++ q' ++ r) seed := by
  intro h
  have hl : (p ++ q' ++ r).length = (p ++ q ++ r).length := by simp only [List.length_append, o.same]
  unfold Spec.xxh32 Spec.xxh32Avalanche at h
  simp only at h
  have h1 := xorshift_undo (by decide) (mul_right_cancel_of_inv p2_inv (xorshift_undo (by decide)
    (mul_right_cancel_of_inv p3_inv (xorshift_undo (by decide) h))))
  rw [hl] at h1
  split at h1
  · exact runFrom_ne _ _ _ rfl o h1
  · next hs =>
    rw [rest_short (by omega), rest_short (by omega)] at h1
    exact tail32_ne _ _ rfl o h1

/-- C101: two messages of the same length, however long, which differ in one aligned word of 4 bytes only, or in one of the
last 1 to 3 bytes only, have different XXH32 hashes under every seed. -/
theorem xxh32_detects_word {p q q' r : List Byte} (o : OneWord p q q' r) (h : Message cfg w s.ov data (p ++ q ++ r))
    (h' : Message cfg' w' s'.ov data' (p ++ q' ++ r)) (seed : U32)
    (hx : x.access = .direct → x.lenient32 = true ∨ x.alignCheck = true ∧ data % 4 = 0)
    (hx' : x'.access = .direct → x'.lenient32 = true ∨ x'.alignCheck = true ∧ data' % 4 = 0) :
    ∃ v z t v' z' t', Returns (XXH32 cfg x data (p ++ q ++ r).length seed) w s v z t ∧
      Returns (XXH32 cfg' x' data' (p ++ q' ++ r).length seed) w' s' v' z' t' ∧ v ≠ v' := by
  obtain ⟨z, t, h1, _⟩ := xxh32_correct h seed hx
  obtain ⟨z', t', h2, _⟩ := xxh32_correct h' seed hx'
  exact ⟨_, z, t, _, z', t', h1, h2, xxh32_ne o seed⟩

/-- 1004 bytes, of which those from 500 on differ, on two machines -/
example (seed : U32) : ∃ v z t v' z' t',
    Returns (XXH32 arm32 xxhArm6 5001 (msg 500 ++ [1, 2, 3, 4] ++ msg 500).length seed)
      (memory 4096 8192 5001 (msg 500 ++ [1, 2, 3, 4] ++ msg 500)) start v z t ∧
    Returns (XXH32 mips32 xxhMips 5001 (msg 500 ++ [1, 2, 3, 5] ++ msg 500).length seed)
      (memory 4096 8192 5001 (msg 500 ++ [1, 2, 3, 5] ++ msg 500)) start v' z' t' ∧ v ≠ v' :=
  xxh32_detects_word (p := msg 500) (q := [1, 2, 3, 4]) (q' := [1, 2, 3, 5]) (r := msg 500) ⟨rfl, by decide, Or.inl ⟨by rw [length_msg], rfl⟩⟩
    (message arm32 (by decide) (by simp only [List.length_append, length_msg]; decide) (by decide))
    (message mips32 (by decide) (by simp only [List.length_append, length_msg]; decide) (by decide)) seed
    (fun _ => Or.inl rfl) (fun h => absurd h (by decide))

/-- 23 bytes, of which the last but one differs -/
example (seed : U32) : ∃ v z t v' z' t',
    Returns (XXH32 arm32 xxhArm6 5001 (msg 21 ++ [0] ++ [9]).length seed) (memory 4096 8192 5001 (msg 21 ++ [0] ++ [9])) start
      v z t ∧
    Returns (XXH32 arm32 xxhArm6 5001 (msg 21 ++ [1] ++ [9]).length seed) (memory 4096 8192 5001 (msg 21 ++ [1] ++ [9])) start
      v' z' t' ∧ v ≠ v' :=
  xxh32_detects_word (p := msg 21) (q := [0]) (q' := [1]) (r := [9]) ⟨rfl, by decide, Or.inr ⟨rfl, by rw [length_msg]; decide⟩⟩
    (message arm32 (by decide) (by simp only [List.length_append, length_msg]; decide) (by decide))
    (message arm32 (by decide) (by simp only [List.length_append, length_msg]; decide) (by decide)) seed
    (fun _ => Or.inl rfl) (fun _ => Or.inl rfl)

end T1ha.Props
