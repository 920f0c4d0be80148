import Verif.Proofs.Mirror

/-!
# Messages which collide under every seed: proofs about the specification
-/

namespace T1ha

open Model

/-! ## The last word of `t1ha1` -/

theorem words64_last (e : Endian) (p q : List Byte) (hp : p.length % 8 = 0) (hq : q.length = 8) :
    Spec.words64 e (p ++ q) = Spec.words64 e p ++ [BitVec.ofNat 64 (e.val q)] := by
  unfold Spec.words64
  have h1 : ((p ++ q).length + 7) / 8 = p.length / 8 + 1 := by rw [List.length_append]; omega
  have h2 : (p.length + 7) / 8 = p.length / 8 := by omega
  rw [h1, h2, chunks_append, List.map_append, chunks_take _ _ _ _ (by omega)]
  congr 1
  simp only [chunks, List.map_cons, List.map_nil]
  rw [show 8 * (p.length / 8) = p.length by omega, List.drop_left, List.take_of_length_le (by omega)]

theorem t1ha1Tail_last (us : List U64) (w₁ w₂ : U64) (ab : U64 × U64)
    (h : Spec.mux w₁ Spec.prime1 = Spec.mux w₂ Spec.prime1) :
    Spec.t1ha1Tail (us ++ [w₁]) ab = Spec.t1ha1Tail (us ++ [w₂]) ab := by
  induction us generalizing ab with
  | nil =>
    obtain ⟨a, b⟩ := ab
    simp only [List.nil_append, Spec.t1ha1Tail, List.length_nil, Spec.tailPrime, h]
  | cons u us ih =>
    obtain ⟨a, b⟩ := ab
    have hl : (us ++ [w₁]).length = (us ++ [w₂]).length := by simp
    simp only [List.cons_append, Spec.t1ha1Tail, hl, ih]

theorem t1ha1_last_word (e : Endian) (p q₁ q₂ : List Byte) (seed : U64) (hp : p.length % 8 = 0)
    (h₁ : q₁.length = 8) (h₂ : q₂.length = 8)
    (hn : p.length < 32 ∨ (p.length + 8) % 32 ≠ 0)
    (h : Spec.mux (BitVec.ofNat 64 (e.val q₁)) Spec.prime1 = Spec.mux (BitVec.ofNat 64 (e.val q₂)) Spec.prime1) :
    Spec.t1ha1 e (p ++ q₁) seed = Spec.t1ha1 e (p ++ q₂) seed := by
  have hl : ∀ q : List Byte, q.length = 8 → (p ++ q).length = p.length + 8 := by
    intro q hq; rw [List.length_append, hq]
  unfold Spec.t1ha1 Spec.len64
  simp only [hl q₁ h₁, hl q₂ h₂]
  split
  case isTrue hgt =>
    have hb : ∀ q : List Byte, q.length = 8 →
        Spec.blocks 32 (p ++ q) = chunks 32 ((p.length + 8) / 32) p := by
      intro q hq
      unfold Spec.blocks
      rw [hl q hq, chunks_take _ _ _ _ (by omega)]
    have hr : ∀ q : List Byte, q.length = 8 →
        Spec.rest 32 (p ++ q) = p.drop (32 * ((p.length + 8) / 32)) ++ q := by
      intro q hq
      unfold Spec.rest
      rw [hl q hq, List.drop_append_of_le_length (by omega)]
    rw [hb q₁ h₁, hb q₂ h₂, hr q₁ h₁, hr q₂ h₂,
      words64_last e _ q₁ (by rw [List.length_drop]; omega) h₁,
      words64_last e _ q₂ (by rw [List.length_drop]; omega) h₂, t1ha1Tail_last _ _ _ _ h]
  case isFalse hgt =>
    rw [words64_last e _ q₁ hp h₁, words64_last e _ q₂ hp h₂, t1ha1Tail_last _ _ _ _ h]

/-! ## Three vectors of a block of the AES-NI variant A -/

theorem toNat_xor_add (x y : Byte) (a b : Nat) :
    (x.toNat + 256 * a) ^^^ (y.toNat + 256 * b) = (x ^^^ y).toNat + 256 * (a ^^^ b) := by
  have hx : x.toNat < 2 ^ 8 := x.isLt
  have hy : y.toNat < 2 ^ 8 := y.isLt
  have hxy : (x ^^^ y).toNat < 2 ^ 8 := (x ^^^ y).isLt
  rw [Nat.add_comm x.toNat, Nat.add_comm y.toNat, Nat.add_comm (x ^^^ y).toNat,
    show (256 : Nat) = 2 ^ 8 from rfl]
  apply Nat.eq_of_testBit_eq
  intro j
  rw [Nat.testBit_xor, Nat.testBit_two_pow_mul_add _ hx, Nat.testBit_two_pow_mul_add _ hy,
    Nat.testBit_two_pow_mul_add _ hxy]
  split
  · rw [BitVec.toNat_xor, Nat.testBit_xor]
  · rw [Nat.testBit_xor]

theorem leVal_xor (xs ys : List Byte) (h : xs.length = ys.length) :
    leVal (xorBytes xs ys) = leVal xs ^^^ leVal ys := by
  induction xs generalizing ys with
  | nil =>
    cases ys with
    | nil => rfl
    | cons y ys => exact nomatch h
  | cons x xs ih =>
    cases ys with
    | nil => exact nomatch h
    | cons y ys =>
      have := ih ys (by simpa using h)
      simp only [xorBytes] at this
      simp only [xorBytes, List.zipWith_cons_cons, leVal, toNat_xor_add, this]

/-- A vector of 16 bytes as a number. -/
def vecOf (v : List Byte) : U128 := BitVec.ofNat 128 (leVal v)

theorem vecOf_xor (u v : List Byte) (h : u.length = v.length) :
    vecOf (xorBytes u v) = vecOf u ^^^ vecOf v := by
  unfold vecOf
  rw [leVal_xor u v h]
  apply BitVec.eq_of_toNat_eq
  rw [BitVec.toNat_ofNat, BitVec.toNat_xor, BitVec.toNat_ofNat, BitVec.toNat_ofNat, Nat.xor_mod_two_pow]

theorem vecOf_leBytes (d : U128) : vecOf (leBytes 16 d.toNat) = d := by
  unfold vecOf
  rw [leVal_leBytes]
  apply BitVec.eq_of_toNat_eq
  rw [BitVec.toNat_ofNat]
  have := d.isLt
  omega

theorem vec_flatten (vs : List (List Byte)) (i : Nat) (v : List Byte) (h : ∀ v ∈ vs, v.length = 16)
    (hi : vs[i]? = some v) : Spec.vec vs.flatten i = vecOf v := by
  induction vs generalizing i with
  | nil => exact nomatch hi
  | cons u vs ih =>
    have hu := h u (by simp)
    cases i with
    | zero =>
      simp only [List.getElem?_cons_zero, Option.some.injEq] at hi
      subst hi
      unfold Spec.vec vecOf
      rw [Nat.mul_zero, List.drop_zero, List.flatten_cons, List.take_append_of_le_length (by omega),
        List.take_of_length_le (by omega)]
    | succ i =>
      have := ih i (fun v hv => h v (by simp [hv])) (by simpa using hi)
      rw [← this, List.flatten_cons]
      unfold Spec.vec
      rw [show 16 * (i + 1) = u.length + 16 * i by omega, ← List.drop_drop, List.drop_left]

theorem blocks_skip {k : Nat} (hk : 0 < k) (p q : List Byte) (hp : p.length % k = 0) :
    Spec.blocks k (p ++ q) = Spec.blocks k p ++ Spec.blocks k q := by
  unfold Spec.blocks
  obtain ⟨n, hn⟩ := Nat.dvd_of_mod_eq_zero hp
  rw [List.length_append, hn, Nat.mul_add_div hk, Nat.mul_div_cancel_left _ hk, chunks_append,
    chunks_take _ _ _ _ (by rw [hn, Nat.mul_comm]), ← hn, List.drop_left]

theorem rest_skip {k : Nat} (hk : 0 < k) (p q : List Byte) (hp : p.length % k = 0) :
    Spec.rest k (p ++ q) = Spec.rest k q := by
  unfold Spec.rest
  obtain ⟨n, hn⟩ := Nat.dvd_of_mod_eq_zero hp
  rw [List.length_append, hn, Nat.mul_add_div hk, Nat.mul_add, ← hn, ← List.drop_drop, List.drop_left]

theorem blocks_one {k : Nat} (hk : 0 < k) (b : List Byte) (hb : b.length = k) : Spec.blocks k b = [b] := by
  unfold Spec.blocks
  rw [hb, Nat.div_self hk]
  simp only [chunks]
  rw [List.take_of_length_le (by omega)]

theorem t1ha0_aesA_block (p b b' q : List Byte) (hp : p.length % 128 = 0) (hb : b.length = 128)
    (hb' : b'.length = 128) (h : ∀ s, Spec.aesBlockA s b = Spec.aesBlockA s b') (seed : U64) :
    Spec.t1ha0_aesA (p ++ b ++ q) seed = Spec.t1ha0_aesA (p ++ b' ++ q) seed := by
  have hl : ∀ b : List Byte, b.length = 128 → (p ++ b ++ q).length = p.length + 128 + q.length := by
    intro b hb; rw [List.length_append, List.length_append, hb]
  have hbl : ∀ b : List Byte, b.length = 128 →
      Spec.blocks 128 (p ++ b ++ q) = Spec.blocks 128 p ++ [b] ++ Spec.blocks 128 q := by
    intro b hb
    rw [blocks_skip (by decide) _ _ (by rw [List.length_append, hb]; omega),
      blocks_skip (by decide) _ _ hp, blocks_one (by decide) b hb]
  have hr : ∀ b : List Byte, b.length = 128 → Spec.rest 128 (p ++ b ++ q) = Spec.rest 128 q := by
    intro b hb; rw [rest_skip (by decide) _ _ (by rw [List.length_append, hb]; omega)]
  have hr' : ∀ b : List Byte, b.length = 128 → Spec.rest 16 (p ++ b ++ q) = Spec.rest 16 q := by
    intro b hb; rw [rest_skip (by decide) _ _ (by rw [List.length_append, hb]; omega)]
  unfold Spec.t1ha0_aesA Spec.len64
  simp only [hl b hb, hl b' hb', hbl b hb, hbl b' hb', hr b hb, hr b' hb', hr' b hb, hr' b' hb',
    List.foldl_append, List.foldl_cons, List.foldl_nil, h]
  rw [if_pos (by omega), if_pos (by omega)]

theorem aesBlockA_twin (v0 v1 v2 v3 v4 v4' v5 v6 v7 d : List Byte)
    (h0 : v0.length = 16) (h1 : v1.length = 16) (h2 : v2.length = 16) (h3 : v3.length = 16)
    (h4 : v4.length = 16) (h4' : v4'.length = 16) (h5 : v5.length = 16) (h6 : v6.length = 16)
    (h7 : v7.length = 16) (hd : d.length = 16)
    (hv : vecOf d = X86.aesenc (vecOf v4) 0 ^^^ X86.aesenc (vecOf v4') 0) (s : Spec.XY) :
    Spec.aesBlockA s [v0, v1, v2, v3, v4, v5, v6, v7].flatten =
      Spec.aesBlockA s [v0, xorBytes v1 d, v2, v3, v4', xorBytes v5 d, v6, v7].flatten := by
  have x1 : (xorBytes v1 d).length = 16 := by simp only [xorBytes, List.length_zipWith]; omega
  have x5 : (xorBytes v5 d).length = 16 := by simp only [xorBytes, List.length_zipWith]; omega
  have a : ∀ i v, [v0, v1, v2, v3, v4, v5, v6, v7][i]? = some v →
      Spec.vec [v0, v1, v2, v3, v4, v5, v6, v7].flatten i = vecOf v :=
    fun i v => vec_flatten _ i v (by simp [h0, h1, h2, h3, h4, h5, h6, h7])
  have b : ∀ i v, [v0, xorBytes v1 d, v2, v3, v4', xorBytes v5 d, v6, v7][i]? = some v →
      Spec.vec [v0, xorBytes v1 d, v2, v3, v4', xorBytes v5 d, v6, v7].flatten i = vecOf v :=
    fun i v => vec_flatten _ i v (by simp [h0, x1, h2, h3, h4', x5, h6, h7])
  unfold Spec.aesBlockA
  dsimp only
  rw [a 0 _ rfl, a 1 _ rfl, a 2 _ rfl, a 3 _ rfl, a 4 _ rfl, a 5 _ rfl, a 6 _ rfl, a 7 _ rfl,
    b 0 _ rfl, b 1 _ rfl, b 2 _ rfl, b 3 _ rfl, b 4 _ rfl, b 5 _ rfl, b 6 _ rfl, b 7 _ rfl,
    vecOf_xor _ _ (by omega), vecOf_xor _ _ (by omega), hv]
  have e0 : ∀ A : U128, A ^^^ 0 = A := fun A => BitVec.xor_zero
  simp only [X86.aesenc, X86.aesdec, e0]
  have e1 : ∀ A B v : U128, B ^^^ (v ^^^ (A ^^^ B)) = A ^^^ v := by
    intro A B v
    ext i
    simp only [BitVec.getElem_xor]
    cases A[i] <;> cases B[i] <;> cases v[i] <;> rfl
  have e2 : ∀ A u v x : U128, (A ^^^ (u ^^^ x)) ^^^ (v ^^^ x) = (A ^^^ u) ^^^ v := by
    intro A u v x
    ext i
    simp only [BitVec.getElem_xor]
    cases A[i] <;> cases u[i] <;> cases v[i] <;> cases x[i] <;> rfl
  rw [e1, e2]

end T1ha
