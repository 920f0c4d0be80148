import Verif.Proofs.Inj
import Verif.Proofs.Session
import Verif.Props.Relations
import Mathlib.Data.Fintype.EquivFin

/-!
# Relations between hash values: proofs about the specification
-/

namespace T1ha

open Model

/-! ## Reversing words -/

section mirror

variable {k : Nat}

theorem mirror_nil : mirror k [] = [] := by
  unfold mirror
  rw [List.length_nil]
  rcases Nat.eq_zero_or_pos k with h | h
  · subst h; rfl
  · rw [Nat.div_eq_of_lt (by omega)]; rfl

theorem mirror_step (hk : 0 < k) {m : List Byte} (hm : m ≠ []) :
    mirror k m = (m.take k).reverse ++ mirror k (m.drop k) := by
  unfold mirror
  have hl : 0 < m.length := List.length_pos_iff.2 hm
  have : (m.length + (k - 1)) / k = ((m.drop k).length + (k - 1)) / k + 1 := by
    rw [List.length_drop]
    by_cases h : k ≤ m.length
    · rw [show m.length + (k - 1) = (m.length - k + (k - 1)) + k by omega, Nat.add_div_right _ hk]
    · rw [show m.length - k = 0 by omega, Nat.div_eq_of_lt (show 0 + (k - 1) < k by omega),
        show m.length + (k - 1) = (m.length - 1) + k by omega, Nat.add_div_right _ hk,
        Nat.div_eq_of_lt (by omega)]
  rw [this]
  simp only [chunks, List.map_cons, List.flatten_cons]

theorem mirror_length (hk : 0 < k) (m : List Byte) : (mirror k m).length = m.length := by
  induction h : m.length using Nat.strong_induction_on generalizing m with
  | _ n ih =>
    by_cases hm : m = []
    · subst hm; rw [mirror_nil, ← h]
    · have hl : 0 < m.length := List.length_pos_iff.2 hm
      rw [mirror_step hk hm, List.length_append, List.length_reverse, List.length_take,
        ih (m.drop k).length (by rw [List.length_drop]; omega) _ rfl, List.length_drop]
      omega

theorem mirror_take (hk : 0 < k) (m : List Byte) : (mirror k m).take k = (m.take k).reverse := by
  by_cases hm : m = []
  · subst hm; simp [mirror_nil]
  · rw [mirror_step hk hm]
    by_cases h : k ≤ m.length
    · rw [List.take_append_of_le_length (by rw [List.length_reverse, List.length_take]; omega),
        List.take_of_length_le (by rw [List.length_reverse, List.length_take]; omega)]
    · rw [List.drop_eq_nil_of_le (by omega), mirror_nil, List.append_nil,
        List.take_of_length_le (by rw [List.length_reverse, List.length_take]; omega)]

theorem mirror_drop (hk : 0 < k) (m : List Byte) : (mirror k m).drop k = mirror k (m.drop k) := by
  by_cases hm : m = []
  · subst hm; simp [mirror_nil]
  · rw [mirror_step hk hm]
    by_cases h : k ≤ m.length
    · have hl : (m.take k).reverse.length = k := by rw [List.length_reverse, List.length_take]; omega
      have := List.drop_left (l₁ := (m.take k).reverse) (l₂ := mirror k (m.drop k))
      rwa [hl] at this
    · rw [List.drop_eq_nil_of_le (as := m) (by omega), mirror_nil, List.append_nil]
      exact List.drop_eq_nil_of_le (by rw [List.length_reverse, List.length_take]; omega)

theorem mirror_dropN (hk : 0 < k) (j : Nat) (m : List Byte) :
    (mirror k m).drop (k * j) = mirror k (m.drop (k * j)) := by
  induction j generalizing m with
  | zero => rfl
  | succ j ih =>
    rw [Nat.mul_succ, Nat.add_comm, ← List.drop_drop, mirror_drop hk, ih, List.drop_drop]

theorem mirror_takeN (hk : 0 < k) (j : Nat) (m : List Byte) :
    (mirror k m).take (k * j) = mirror k (m.take (k * j)) := by
  induction j generalizing m with
  | zero => simp [mirror_nil]
  | succ j ih =>
    by_cases hm : m = []
    · subst hm; simp [mirror_nil]
    · rw [Nat.mul_succ, Nat.add_comm, List.take_add, mirror_take hk, mirror_drop hk, ih,
        mirror_step hk (m := m.take (k + k * j))
          (by
            intro h
            have := congrArg List.length h
            rw [List.length_take, List.length_nil] at this
            have := List.length_pos_iff.2 hm
            omega),
        List.take_take, Nat.min_eq_left (by omega), List.drop_take]
      congr 3
      omega

theorem mirror_chunks (hk : 0 < k) (n : Nat) (m : List Byte) :
    chunks k n (mirror k m) = (chunks k n m).map List.reverse := by
  induction n generalizing m with
  | zero => rfl
  | succ n ih => rw [chunks, chunks, List.map_cons, mirror_take hk, mirror_drop hk, ih]

theorem mirror_blocks (hk : 0 < k) (j n : Nat) (m : List Byte) :
    chunks (k * j) n (mirror k m) = (chunks (k * j) n m).map (mirror k) := by
  induction n generalizing m with
  | zero => rfl
  | succ n ih => rw [chunks, chunks, List.map_cons, mirror_takeN hk, mirror_dropN hk, ih]

theorem mirror_replicate (n : Nat) (b : Byte) (hk : 0 < k) :
    mirror k (List.replicate n b) = List.replicate n b := by
  rw [List.eq_replicate_iff]
  refine ⟨by rw [mirror_length hk, List.length_replicate], ?_⟩
  intro x hx
  unfold mirror at hx
  rw [List.mem_flatten] at hx
  obtain ⟨l, hl, hx⟩ := hx
  rw [List.mem_map] at hl
  obtain ⟨c, hc, rfl⟩ := hl
  rw [List.mem_reverse] at hx
  have key : ∀ (n : Nat) (m : List Byte), ∀ c ∈ chunks k n m, ∀ x ∈ c, x ∈ m := by
    intro n
    induction n with
    | zero => intro m c hc; exact absurd hc (by simp [chunks])
    | succ n ih =>
      intro m c hc x hx
      rw [chunks, List.mem_cons] at hc
      rcases hc with rfl | hc
      · exact List.mem_of_mem_take hx
      · exact List.mem_of_mem_drop (ih _ c hc x hx)
  exact List.eq_of_mem_replicate (key _ _ c hc x hx)

end mirror

theorem words64_mirror (m : List Byte) :
    Spec.words64 .little (mirror 8 m) = Spec.words64 .big m := by
  unfold Spec.words64
  rw [mirror_length (by decide), mirror_chunks (by decide), List.map_map]
  congr 1
  funext w
  simp [Endian.val, beVal_eq]

theorem words32_mirror (m : List Byte) :
    Spec.words32 .little (mirror 4 m) = Spec.words32 .big m := by
  unfold Spec.words32
  rw [mirror_length (by decide), mirror_chunks (by decide), List.map_map]
  congr 1
  funext w
  simp [Endian.val, beVal_eq]

theorem word64_mirror (m : List Byte) (i : Nat) :
    Spec.word64 .little (mirror 8 m) i = Spec.word64 .big m i := by
  unfold Spec.word64
  rw [mirror_dropN (by decide), mirror_take (by decide)]
  simp [Endian.val, beVal_eq]

theorem word32_mirror (m : List Byte) (i : Nat) :
    Spec.word32 .little (mirror 4 m) i = Spec.word32 .big m i := by
  unfold Spec.word32
  rw [mirror_dropN (by decide), mirror_take (by decide)]
  simp [Endian.val, beVal_eq]

theorem foldl_mirror {σ : Type} {k : Nat} (f g : σ → List Byte → σ)
    (h : ∀ s b, f s (mirror k b) = g s b) (bs : List (List Byte)) (s : σ) :
    (bs.map (mirror k)).foldl f s = bs.foldl g s := by
  induction bs generalizing s with
  | nil => rfl
  | cons b bs ih => rw [List.map_cons, List.foldl_cons, List.foldl_cons, h, ih]

theorem blocks_mirror {k j : Nat} (hk : 0 < k) (m : List Byte) :
    Spec.blocks (k * j) (mirror k m) = (Spec.blocks (k * j) m).map (mirror k) := by
  unfold Spec.blocks
  rw [mirror_length hk, mirror_blocks hk]

theorem rest_mirror {k j : Nat} (hk : 0 < k) (m : List Byte) :
    Spec.rest (k * j) (mirror k m) = mirror k (Spec.rest (k * j) m) := by
  unfold Spec.rest
  rw [mirror_length hk, Nat.mul_assoc, mirror_dropN hk]

theorem t1ha1_mirror (m : List Byte) (seed : U64) :
    Spec.t1ha1 .little (mirror 8 m) seed = Spec.t1ha1 .big m seed := by
  unfold Spec.t1ha1
  have hl := mirror_length (k := 8) (by decide) m
  have hb : Spec.blocks 32 (mirror 8 m) = (Spec.blocks 32 m).map (mirror 8) :=
    blocks_mirror (k := 8) (j := 4) (by decide) m
  have hr : Spec.rest 32 (mirror 8 m) = mirror 8 (Spec.rest 32 m) :=
    rest_mirror (k := 8) (j := 4) (by decide) m
  have hf := foldl_mirror (k := 8) (Spec.t1ha1Absorb .little) (Spec.t1ha1Absorb .big)
    (by intro s b; simp only [Spec.t1ha1Absorb, word64_mirror])
  simp only [Spec.len64, hl, hb, hr, words64_mirror, hf]

theorem t1ha0_32_mirror (m : List Byte) (seed : U64) :
    Spec.t1ha0_32 .little (mirror 4 m) seed = Spec.t1ha0_32 .big m seed := by
  unfold Spec.t1ha0_32
  have hl := mirror_length (k := 4) (by decide) m
  have hb : Spec.blocks 16 (mirror 4 m) = (Spec.blocks 16 m).map (mirror 4) :=
    blocks_mirror (k := 4) (j := 4) (by decide) m
  have hr : Spec.rest 16 (mirror 4 m) = mirror 4 (Spec.rest 16 m) :=
    rest_mirror (k := 4) (j := 4) (by decide) m
  have hf := foldl_mirror (k := 4) (Spec.absorb32 .little) (Spec.absorb32 .big)
    (by intro s b; simp only [Spec.absorb32, word32_mirror])
  simp only [hl, hb, hr, words32_mirror, hf]

/-! ## The last word -/

theorem final32_inj {ab cd : U32 × U32} (h : Spec.final32 ab = Spec.final32 cd) : ab = cd := by
  obtain ⟨a, b⟩ := ab
  obtain ⟨c, d⟩ := cd
  have h3 := mul_right_cancel_of_inv prime6_inv h
  have h2 := mul_right_cancel_of_inv prime4_inv (xorshift_inj (by decide) h3)
  have h1 := mul_right_cancel_of_inv prime0_inv (xorshift_inj (by decide) h2)
  have hn := congrArg BitVec.toNat h1
  rw [toNat_append_add, toNat_append_add] at hn
  have x1 := (b ^^^ a.rotateRight 13).isLt
  have x2 := (d ^^^ c.rotateRight 13).isLt
  have ha : a = c := BitVec.eq_of_toNat_eq (by simp only at hn; omega)
  subst ha
  have hb : b ^^^ a.rotateRight 13 = d ^^^ a.rotateRight 13 :=
    BitVec.eq_of_toNat_eq (by simp only at hn; omega)
  rw [BitVec.xor_comm b, BitVec.xor_comm d] at hb
  rw [xor_left_cancel hb]

theorem lo32 (x p : U32) : BitVec.ofNat 32 (x.toNat * p.toNat) = x * p := by
  apply BitVec.eq_of_toNat_eq
  rw [BitVec.toNat_ofNat, BitVec.toNat_mul]

theorem tail32_last (us : List U32) (w₁ w₂ : U32) (ab : U32 × U32)
    (h : Spec.tail32 (us ++ [w₁]) ab = Spec.tail32 (us ++ [w₂]) ab) : w₁ = w₂ := by
  induction us generalizing ab with
  | nil =>
    obtain ⟨a, b⟩ := ab
    have := congrArg Prod.snd h
    simp only [List.nil_append, Spec.tail32, List.length_nil, Nat.zero_mod] at this
    rw [if_neg (by decide), if_neg (by decide)] at this
    simp only [Spec.mix32, Spec.tailPrime32, lo32] at this
    exact add_left_cancel' (mul_right_cancel_of_inv prime32_1_inv (xor_left_cancel this))
  | cons u us ih =>
    obtain ⟨a, b⟩ := ab
    have hl : (us ++ [w₁]).length = (us ++ [w₂]).length := by simp
    simp only [List.cons_append, Spec.tail32, hl] at h
    split at h
    · exact ih _ h
    · exact ih _ h

theorem words32_last (e : Endian) (p q : List Byte) (hp : p.length % 4 = 0) (h0 : 0 < q.length)
    (h4 : q.length ≤ 4) :
    Spec.words32 e (p ++ q) = Spec.words32 e p ++ [BitVec.ofNat 32 (e.val q)] := by
  unfold Spec.words32
  have h1 : ((p ++ q).length + 3) / 4 = p.length / 4 + 1 := by rw [List.length_append]; omega
  have h2 : (p.length + 3) / 4 = p.length / 4 := by omega
  rw [h1, h2, chunks_append, List.map_append, chunks_take _ _ _ _ (by omega)]
  congr 1
  simp only [chunks, List.map_cons, List.map_nil]
  rw [show 4 * (p.length / 4) = p.length by omega, List.drop_left, List.take_of_length_le h4]

theorem t1ha0_32_last_word (e : Endian) (p q₁ q₂ : List Byte) (seed : U64) (hp : p.length % 4 = 0)
    (hq : q₁.length = q₂.length) (h0 : 0 < q₁.length) (h4 : q₁.length ≤ 4)
    (hn : p.length + q₁.length ≤ 16 ∨ (p.length + q₁.length) % 16 ≠ 0)
    (h : Spec.t1ha0_32 e (p ++ q₁) seed = Spec.t1ha0_32 e (p ++ q₂) seed) : q₁ = q₂ := by
  have hval : BitVec.ofNat 32 (e.val q₁) = BitVec.ofNat 32 (e.val q₂) := by
    unfold Spec.t1ha0_32 at h
    have hl : (p ++ q₂).length = (p ++ q₁).length := by rw [List.length_append, List.length_append, hq]
    simp only [hl] at h
    split at h
    case isTrue hgt =>
      rw [List.length_append] at hgt
      have hle : 16 * ((p ++ q₁).length / 16) ≤ p.length := by rw [List.length_append]; omega
      have hb : ∀ q : List Byte, q.length = q₁.length →
          Spec.blocks 16 (p ++ q) = chunks 16 ((p ++ q₁).length / 16) p := by
        intro q hq
        unfold Spec.blocks
        rw [List.length_append, hq, ← List.length_append, chunks_take _ _ _ _ (by omega)]
      have hr : ∀ q : List Byte, q.length = q₁.length →
          Spec.rest 16 (p ++ q) = p.drop (16 * ((p ++ q₁).length / 16)) ++ q := by
        intro q hq
        unfold Spec.rest
        rw [List.length_append, hq, ← List.length_append, List.drop_append_of_le_length hle]
      rw [hb q₁ rfl, hb q₂ hq.symm, hr q₁ rfl, hr q₂ hq.symm,
        words32_last e _ q₁ (by rw [List.length_drop]; omega) h0 h4,
        words32_last e _ q₂ (by rw [List.length_drop]; omega) (by omega) (by omega)] at h
      exact tail32_last _ _ _ _ (final32_inj h)
    case isFalse hgt =>
      rw [words32_last e _ q₁ hp h0 h4, words32_last e _ q₂ hp (by omega) (by omega)] at h
      exact tail32_last _ _ _ _ (final32_inj h)
  exact ofNat_val_inj e hq (by omega) hval

theorem t1ha0_32_empty_inj (e : Endian) {x y : U64}
    (h : Spec.t1ha0_32 e [] x = Spec.t1ha0_32 e [] y) : x = y := by
  have hh : ∀ z, Spec.t1ha0_32 e [] z = Spec.final32 ((BitVec.ofNat 32 0).rotateRight 17 + BitVec.ofNat 32 z.toNat,
      BitVec.ofNat 32 0 ^^^ BitVec.ofNat 32 (z.toNat / 2 ^ 32)) := fun _ => rfl
  rw [hh, hh] at h
  have := final32_inj h
  rw [Prod.mk.injEq] at this
  obtain ⟨h1, h2⟩ := this
  have a := congrArg BitVec.toNat (add_left_cancel' h1)
  have b := congrArg BitVec.toNat (xor_left_cancel h2)
  rw [BitVec.toNat_ofNat, BitVec.toNat_ofNat] at a b
  have hx := x.isLt
  have hy := y.isLt
  exact BitVec.eq_of_toNat_eq (by omega)

/-- A hash of the empty message takes every value, for exactly one seed. -/
theorem t1ha0_32_empty_bij (e : Endian) (v : U64) : ∃ x, Spec.t1ha0_32 e [] x = v := by
  have : Finite U64 := Finite.of_injective BitVec.toFin fun a b h => by
    cases a; cases b; simp_all
  exact (Finite.injective_iff_surjective.1 fun _ _ => t1ha0_32_empty_inj e) v

end T1ha
