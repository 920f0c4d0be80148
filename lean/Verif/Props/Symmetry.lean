import Verif.Props.SeedShift
import Verif.Props.Collide
import Verif.Proofs.Avalanche

/-!
# The seed and the length can change places in t1ha1: C94
-/

namespace T1ha.Props

open Model Examples

variable {cfg cfg' : Cfg} {w w' : World} {s s' : Sys} {data data' page page' : Nat}

theorem t1ha1Final_symmetric {a b a' b' : U64} (hs : a + b = a' + b') (hx : a ^^^ b = a' ^^^ b') :
    Spec.t1ha1Final (a, b) = Spec.t1ha1Final (a', b') := by
  unfold Spec.t1ha1Final
  simp only [hs, hx]

theorem words64_end (e : Endian) (p q : List Byte) (hp : p.length % 8 = 0) (h0 : 1 ≤ q.length) (h8 : q.length ≤ 8) :
    Spec.words64 e (p ++ q) = Spec.words64 e p ++ [BitVec.ofNat 64 (e.val q)] := by
  unfold Spec.words64
  have h1 : ((p ++ q).length + 7) / 8 = p.length / 8 + 1 := by rw [List.length_append]; omega
  have h2 : (p.length + 7) / 8 = p.length / 8 := by omega
  rw [h1, h2, chunks_append, List.map_append, chunks_take _ _ _ _ (by omega)]
  congr 1
  simp only [chunks, List.map_cons, List.map_nil]
  rw [show 8 * (p.length / 8) = p.length by omega, List.drop_left, List.take_of_length_le h8]

theorem chunks_zeros (k n : Nat) (m : List Byte) (h : ∀ b ∈ m, b = 0) : ∀ c ∈ chunks k n m, ∀ b ∈ c, b = 0 := by
  induction n generalizing m with
  | zero => intro c hc; exact nomatch hc
  | succ n ih =>
    intro c hc
    rcases List.mem_cons.1 hc with rfl | hc
    · exact fun b hb => h b (List.mem_of_mem_take hb)
    · exact ih _ (fun b hb => h b (List.mem_of_mem_drop hb)) c hc

theorem val_zeros (e : Endian) (k : Nat) : e.val (List.replicate k 0) = 0 := by
  cases e with
  | little => exact leVal_zeros k
  | big => show beVal _ = 0; rw [beVal_eq, List.reverse_replicate, leVal_zeros]

theorem tail_zeros (e : Endian) (n : Nat) (ab : U64 × U64) :
    Spec.t1ha1Tail (Spec.words64 e (List.replicate n 0)) ab = ab := by
  have hz : ∀ w ∈ Spec.words64 e (List.replicate n 0), w = 0 := by
    intro w hw
    obtain ⟨c, hc, rfl⟩ := List.mem_map.1 hw
    have := chunks_zeros 8 _ _ (fun b hb => (List.mem_replicate.1 hb).2) c hc
    rw [List.eq_replicate_of_mem this, val_zeros]
    rfl
  revert hz
  generalize Spec.words64 e (List.replicate n 0) = ws
  intro hz
  induction ws generalizing ab with
  | nil => rfl
  | cons u us ih =>
    obtain ⟨a, b⟩ := ab
    rw [hz u (List.mem_cons_self ..)]
    unfold Spec.t1ha1Tail
    have h0 : ∀ p : U64, Spec.mux 0 p = 0#64 := fun p => by simp [Spec.mux, Spec.product]
    simp only [h0, BitVec.add_zero, ite_self]
    exact ih _ fun v hv => hz v (List.mem_cons_of_mem _ hv)

/-- C94: messages of up to 32 zeros have the same hash in `t1ha1`, if neither the sum nor the exclusive or of seed and
length is different. -/
theorem zeros_exchange (f : OneShot) (hf : f = .t1ha1_le ∨ f = .t1ha1_be) {n n' : Nat} (hn : n ≤ 32) (hn' : n' ≤ 32)
    (h : Buf cfg w s.ov page data (List.replicate n 0)) (r : f.Ready cfg w data n)
    (h' : Buf cfg' w' s'.ov page' data' (List.replicate n' 0)) (r' : f.Ready cfg' w' data' n') (seed seed' : U64)
    (hsum : seed + BitVec.ofNat 64 n = seed' + BitVec.ofNat 64 n')
    (hxor : seed ^^^ BitVec.ofNat 64 n = seed' ^^^ BitVec.ofNat 64 n') :
    ∃ v s₁ s₁', f.run cfg data n seed w s = .ok (v, s₁) ∧ f.run cfg' data' n' seed' w' s' = .ok (v, s₁') := by
  have l := List.length_replicate (n := n) (a := (0 : Byte))
  have l' := List.length_replicate (n := n') (a := (0 : Byte))
  obtain ⟨t, ⟨h1, _⟩, _⟩ := f.returns h (by rw [l]; exact r) seed
  obtain ⟨t', ⟨h2, _⟩, _⟩ := f.returns h' (by rw [l']; exact r') seed'
  have key : ∀ e, Spec.t1ha1 e (List.replicate n' 0) seed' = Spec.t1ha1 e (List.replicate n 0) seed := fun e => by
    unfold Spec.t1ha1 Spec.len64
    rw [if_neg (by rw [l']; omega), if_neg (by rw [l]; omega), tail_zeros, tail_zeros, l, l']
    exact t1ha1Final_symmetric hsum.symm hxor.symm
  have : f.hash (List.replicate n' 0) seed' = f.hash (List.replicate n 0) seed := by
    rcases hf with rfl | rfl
    · exact key .little
    · exact key .big
  rw [this, l'] at h2
  rw [l] at h1
  exact ⟨_, _, _, h1, h2⟩

/-- C94: `n` zeros have the same hash with the seed `n'` as `n'` zeros with the seed `n`. -/
theorem zeros_swap (f : OneShot) (hf : f = .t1ha1_le ∨ f = .t1ha1_be) {n n' : Nat} (hn : n ≤ 32) (hn' : n' ≤ 32)
    (h : Buf cfg w s.ov page data (List.replicate n 0)) (r : f.Ready cfg w data n)
    (h' : Buf cfg' w' s'.ov page' data' (List.replicate n' 0)) (r' : f.Ready cfg' w' data' n') :
    ∃ v s₁ s₁', f.run cfg data n (BitVec.ofNat 64 n') w s = .ok (v, s₁) ∧
      f.run cfg' data' n' (BitVec.ofNat 64 n) w' s' = .ok (v, s₁') :=
  zeros_exchange f hf hn hn' h r h' r' _ _ (BitVec.add_comm _ _) (BitVec.xor_comm _ _)

/-- The last word of a message with zeros added, where they do not change its value -/
def zerosAdded (f : OneShot) (q : List Byte) (k : Nat) : List Byte :=
  if f = .t1ha1_be then List.replicate k 0 ++ q else q ++ List.replicate k 0

/-- C94: for every message of up to 31 bytes whose last word is not whole there are two numbers, such that the message
with one more zero in its last word has the hash of the message under the next seed, for all seeds for which their sum with
the first number ends with as many ones as the sum of the second one and the number of zeros (in binary: then adding 1
changes the same bits). -/
theorem next_seed (f : OneShot) (hf : f = .t1ha1_le ∨ f = .t1ha1_be) {p q : List Byte} (hp : p.length % 8 = 0)
    (hp32 : p.length < 32) (hq : 1 ≤ q.length) :
    ∃ x y : U64, ∀ k : Nat, q.length + k ≤ 7 → ∀ seed : U64,
      (x + seed) ^^^ (x + seed + 1) = (y + BitVec.ofNat 64 k) ^^^ (y + BitVec.ofNat 64 k + 1) →
      ∀ (cfg cfg' : Cfg) (w w' : World) (s s' : Sys) (page page' data data' : Nat),
        Buf cfg w s.ov page data (p ++ zerosAdded f q (k + 1)) → f.Ready cfg w data (p ++ zerosAdded f q (k + 1)).length →
        Buf cfg' w' s'.ov page' data' (p ++ zerosAdded f q k) → f.Ready cfg' w' data' (p ++ zerosAdded f q k).length →
        ∃ v s₁ s₁', f.run cfg data (p ++ zerosAdded f q (k + 1)).length seed w s = .ok (v, s₁) ∧
          f.run cfg' data' (p ++ zerosAdded f q k).length (seed + 1) w' s' = .ok (v, s₁') := by
  have hl : ∀ k, (zerosAdded f q k).length = q.length + k := by
    intro k
    unfold zerosAdded
    split <;> rw [List.length_append, List.length_replicate]
    exact Nat.add_comm _ _
  obtain ⟨e, he, hv⟩ : ∃ e : Endian, (∀ m seed, f.hash m seed = Spec.t1ha1 e m seed) ∧
      ∀ k, e.val (zerosAdded f q k) = e.val q := by
    rcases hf with rfl | rfl
    · refine ⟨.little, fun _ _ => rfl, fun k => ?_⟩
      show leVal (q ++ List.replicate k 0) = leVal q
      rw [leVal_append, leVal_zeros, Nat.mul_zero, Nat.add_zero]
    · refine ⟨.big, fun _ _ => rfl, fun k => ?_⟩
      show beVal (List.replicate k 0 ++ q) = beVal q
      rw [beVal_eq, beVal_eq, List.reverse_append, List.reverse_replicate, leVal_append, leVal_zeros, Nat.mul_zero,
        Nat.add_zero]
  obtain ⟨x, y, hxy⟩ := t1ha1Tail_add (Spec.words64 e p ++ [BitVec.ofNat 64 (e.val q)])
  refine ⟨x, BitVec.ofNat 64 (p.length + q.length) + y, fun k hk seed hs => ?_⟩
  have key : Spec.t1ha1 e (p ++ zerosAdded f q k) (seed + 1) = Spec.t1ha1 e (p ++ zerosAdded f q (k + 1)) seed := by
    have hn : ∀ k, BitVec.ofNat 64 (p ++ zerosAdded f q k).length =
        BitVec.ofNat 64 (p.length + q.length) + BitVec.ofNat 64 k := fun k => by
      rw [List.length_append, hl, ← Nat.add_assoc, BitVec.ofNat_add]
    have hw : ∀ k, q.length + k ≤ 8 → Spec.words64 e (p ++ zerosAdded f q k) =
        Spec.words64 e p ++ [BitVec.ofNat 64 (e.val q)] := fun k hk => by
      rw [words64_end e p _ hp (by rw [hl]; omega) (by rw [hl]; exact hk), hv]
    unfold Spec.t1ha1 Spec.len64
    rw [if_neg (by rw [List.length_append, hl]; omega), if_neg (by rw [List.length_append, hl]; omega), hw k (by omega),
      hw (k + 1) (by omega), hxy, hxy, hn, hn, show BitVec.ofNat 64 (k + 1) = BitVec.ofNat 64 k + 1 from BitVec.ofNat_add k 1]
    generalize BitVec.ofNat 64 (p.length + q.length) = n at hs ⊢
    generalize BitVec.ofNat 64 k = i at hs ⊢
    have e1 : seed + 1 + x = x + seed + 1 := by rw [BitVec.add_comm, BitVec.add_assoc]
    have e2 : n + (i + 1) + y = n + y + i + 1 := by
      rw [← BitVec.add_assoc n, BitVec.add_assoc (n + i), BitVec.add_comm 1 y, ← BitVec.add_assoc, BitVec.add_assoc n i,
        BitVec.add_comm i y, ← BitVec.add_assoc n]
    have e3 : n + i + y = n + y + i := by rw [BitVec.add_assoc n, BitVec.add_comm i y, ← BitVec.add_assoc n]
    rw [e1, e2, e3, BitVec.add_comm seed x]
    generalize x + seed = a at hs ⊢
    generalize n + y + i = b at hs ⊢
    refine t1ha1Final_symmetric ?_ ?_
    · rw [BitVec.add_assoc, BitVec.add_comm 1 b]
    · have h1 : a + 1 = a ^^^ (b ^^^ (b + 1)) := by
        rw [← hs, ← BitVec.xor_assoc, BitVec.xor_self, BitVec.zero_xor]
      rw [h1, BitVec.xor_assoc, BitVec.xor_comm (b ^^^ (b + 1)) b, ← BitVec.xor_assoc b, BitVec.xor_self, BitVec.zero_xor]
  intro cfg cfg' w w' s s' page page' data data' h r h' r'
  obtain ⟨t, ⟨h1, _⟩, _⟩ := f.returns h r seed
  obtain ⟨t', ⟨h2, _⟩, _⟩ := f.returns h' r' (seed + 1)
  rw [he, key, ← he] at h2
  exact ⟨_, _, _, h1, h2⟩

theorem even_next {a : U64} (h : a.getLsbD 0 = false) : a ^^^ (a + 1) = 1 := by
  have h0 : a &&& 1#64 = 0#64 := by
    refine BitVec.eq_of_getLsbD_eq fun i hi => ?_
    rw [BitVec.getLsbD_and, BitVec.getLsbD_zero]
    cases i with
    | zero => rw [h]; rfl
    | succ i => rw [BitVec.getLsbD_one]; simp
  have h1 : a + 1#64 = a ^^^ 1#64 := by
    rw [BitVec.add_eq_or_of_and_eq_zero a 1#64 h0]
    refine BitVec.eq_of_getLsbD_eq fun i hi => ?_
    have := congrArg (·.getLsbD i) h0
    simp only [BitVec.getLsbD_and, BitVec.getLsbD_xor, BitVec.getLsbD_or] at this ⊢
    revert this
    cases a.getLsbD i <;> cases hb : (1#64).getLsbD i <;> simp_all
  show a ^^^ (a + 1#64) = 1#64
  rw [h1, ← BitVec.xor_assoc, BitVec.xor_self, BitVec.zero_xor]

theorem low_bit_add (a b : U64) : (a + b).getLsbD 0 = (a.getLsbD 0 ^^ b.getLsbD 0) := by
  rw [BitVec.getLsbD_add (by decide), BitVec.carry_zero, Bool.xor_false]

/-- C94: for every message of up to 30 bytes which has room for two zeros in its last word: with no or with one zero added
(which of them depends on the message), one more zero is the next seed, for all even or for all odd seeds (which of them
depends on the message). -/
theorem next_seed_half (f : OneShot) (hf : f = .t1ha1_le ∨ f = .t1ha1_be) {p q : List Byte} (hp : p.length % 8 = 0)
    (hp32 : p.length < 32) (hq : 1 ≤ q.length) (hq6 : q.length ≤ 6) :
    ∃ k ≤ 1, ∃ odd : Bool, ∀ seed : U64, seed.getLsbD 0 = odd →
      ∀ (cfg cfg' : Cfg) (w w' : World) (s s' : Sys) (page page' data data' : Nat),
        Buf cfg w s.ov page data (p ++ zerosAdded f q (k + 1)) → f.Ready cfg w data (p ++ zerosAdded f q (k + 1)).length →
        Buf cfg' w' s'.ov page' data' (p ++ zerosAdded f q k) → f.Ready cfg' w' data' (p ++ zerosAdded f q k).length →
        ∃ v s₁ s₁', f.run cfg data (p ++ zerosAdded f q (k + 1)).length seed w s = .ok (v, s₁) ∧
          f.run cfg' data' (p ++ zerosAdded f q k).length (seed + 1) w' s' = .ok (v, s₁') := by
  obtain ⟨x, y, h⟩ := next_seed f hf hp hp32 hq
  have hx : ∀ seed : U64, seed.getLsbD 0 = x.getLsbD 0 → (x + seed) ^^^ (x + seed + 1) = 1 := fun seed hs =>
    even_next (by rw [low_bit_add, hs, Bool.xor_self])
  cases hy : y.getLsbD 0 with
  | false =>
    refine ⟨0, by decide, x.getLsbD 0, fun seed hs => h 0 (by omega) seed ?_⟩
    rw [hx seed hs, even_next (by rw [low_bit_add, hy]; rfl)]
  | true =>
    refine ⟨1, by decide, x.getLsbD 0, fun seed hs => h 1 (by omega) seed ?_⟩
    rw [hx seed hs, even_next (by rw [low_bit_add, hy]; rfl)]

theorem ready_t1ha1 (f : OneShot) (hf : f = .t1ha1_le ∨ f = .t1ha1_be) (hs : cfg.SafeTail) (hb : cfg.Buildable) {n : Nat} :
    f.Ready cfg w data n where
  slack _ := Or.inl hs
  builds _ := hb
  output _ h := by rcases hf with rfl | rfl <;> exact nomatch h
  bottom _ h := by rcases hf with rfl | rfl <;> exact nomatch h
  top _ h := by rcases hf with rfl | rfl <;> exact nomatch h
  ulong _ h := by rcases hf with rfl | rfl <;> exact nomatch h

/-- One zero under an even seed has the hash of the empty message under the next one. -/
example (seed : U64) (h : seed.getLsbD 0 = false) : ∃ v s₁ s₁',
    OneShot.t1ha1_le.run amd64 5001 1 seed (memory 4096 8192 5001 [0]) start = .ok (v, s₁) ∧
    OneShot.t1ha1_le.run amd64 5001 0 (seed + 1) (memory 4096 8192 5001 []) start = .ok (v, s₁') :=
  zeros_exchange (n := 1) (n' := 0) _ (Or.inl rfl) (by decide) (by decide)
    (buf_mid amd64 rfl [0] (by decide)) (ready_t1ha1 _ (Or.inl rfl) (by decide) (by decide))
    (buf_mid amd64 rfl [] (by decide)) (ready_t1ha1 _ (Or.inl rfl) (by decide) (by decide)) _ _
    (by rw [BitVec.add_zero]; rfl) (by
      show seed ^^^ 1#64 = (seed + 1#64) ^^^ 0#64
      rw [BitVec.xor_zero]
      have : seed ^^^ (seed + 1#64) = 1#64 := even_next (a := seed) h
      conv_lhs => rw [← this]
      rw [← BitVec.xor_assoc, BitVec.xor_self, BitVec.zero_xor])

/-- 7 zeros with the seed 21 and 21 zeros with the seed 7 -/
example : ∃ v s₁ s₁',
    OneShot.t1ha1_be.run amd64 5001 7 21 (memory 4096 8192 5001 (List.replicate 7 0)) start = .ok (v, s₁) ∧
    OneShot.t1ha1_be.run amd64 5001 21 7 (memory 4096 8192 5001 (List.replicate 21 0)) start = .ok (v, s₁') :=
  zeros_swap (n := 7) (n' := 21) _ (Or.inr rfl) (by decide) (by decide)
    (buf_mid amd64 rfl _ (by decide)) (ready_t1ha1 _ (Or.inr rfl) (by decide) (by decide))
    (buf_mid amd64 rfl _ (by decide)) (ready_t1ha1 _ (Or.inr rfl) (by decide) (by decide))

/-- There are such seeds for every message. -/
example : ∃ seed v s₁ s₁',
    OneShot.t1ha1_le.run amd64 5001 20 seed (memory 4096 8192 5001 (msg 16 ++ [5, 6, 7, 0])) start = .ok (v, s₁) ∧
    OneShot.t1ha1_le.run amd64 5001 19 (seed + 1) (memory 4096 8192 5001 (msg 16 ++ [5, 6, 7])) start = .ok (v, s₁') := by
  obtain ⟨x, y, h⟩ := next_seed .t1ha1_le (Or.inl rfl) (p := msg 16) (q := [5, 6, 7]) (by decide) (by decide) (by decide)
  refine ⟨y - x, h 0 (by decide) (y - x) ?_ amd64 amd64 _ _ _ _ _ _ _ _
    (buf_mid amd64 rfl (msg 16 ++ [5, 6, 7, 0]) (by decide)) (ready_t1ha1 _ (Or.inl rfl) (by decide) (by decide))
    (buf_mid amd64 rfl (msg 16 ++ [5, 6, 7]) (by decide)) (ready_t1ha1 _ (Or.inl rfl) (by decide) (by decide))⟩
  rw [BitVec.add_comm x, BitVec.sub_add_cancel]
  show _ = y + 0#64 ^^^ y + 0#64 + 1
  rw [BitVec.add_zero]

/-- 19 or 20 bytes, and one more: the same for half of the seeds -/
example : ∃ k ≤ 1, ∃ odd : Bool, ∀ seed : U64, seed.getLsbD 0 = odd → ∃ v s₁ s₁',
    OneShot.t1ha1_le.run amd64 5001 (20 + k) seed
      (memory 4096 8192 5001 (msg 16 ++ ([5, 6, 7] ++ List.replicate (k + 1) 0))) start = .ok (v, s₁) ∧
    OneShot.t1ha1_le.run amd64 5001 (19 + k) (seed + 1)
      (memory 4096 8192 5001 (msg 16 ++ ([5, 6, 7] ++ List.replicate k 0))) start = .ok (v, s₁') := by
  obtain ⟨k, hk, odd, h⟩ := next_seed_half .t1ha1_le (Or.inl rfl) (p := msg 16) (q := [5, 6, 7]) (by decide) (by decide)
    (by decide) (by decide)
  refine ⟨k, hk, odd, fun seed hs => ?_⟩
  obtain rfl | rfl : k = 0 ∨ k = 1 := by omega
  · exact h seed hs amd64 amd64 _ _ _ _ _ _ _ _
      (buf_mid amd64 rfl _ (by decide)) (ready_t1ha1 _ (Or.inl rfl) (by decide) (by decide))
      (buf_mid amd64 rfl _ (by decide)) (ready_t1ha1 _ (Or.inl rfl) (by decide) (by decide))
  · exact h seed hs amd64 amd64 _ _ _ _ _ _ _ _
      (buf_mid amd64 rfl _ (by decide)) (ready_t1ha1 _ (Or.inl rfl) (by decide) (by decide))
      (buf_mid amd64 rfl _ (by decide)) (ready_t1ha1 _ (Or.inl rfl) (by decide) (by decide))

end T1ha.Props
