import Verif.Proofs.Inj
import Verif.Proofs.Session

/-!
# Absorbing loses nothing that matters
-/

namespace T1ha

open Model

/-! ## One block -/

/-- The `i`-th 8-byte word of a block. -/
def part8 (blk : List Byte) (i : Nat) : List Byte := (blk.drop (8 * i)).take 8

theorem word64_inj {b₁ b₂ : List Byte} {i : Nat} (h₁ : b₁.length = 32) (h₂ : b₂.length = 32)
    (h : Spec.word64 .little b₁ i = Spec.word64 .little b₂ i) : part8 b₁ i = part8 b₂ i := by
  refine ofNat_val_inj .little (W := 64) ?_ ?_ h
  · show (part8 b₁ i).length = (part8 b₂ i).length
    simp only [part8, List.length_take, List.length_drop, h₁, h₂]
  · show 8 * (part8 b₁ i).length ≤ 64
    simp only [part8, List.length_take, List.length_drop, h₁]
    omega

theorem word64_congr {b₁ b₂ : List Byte} {i : Nat} (h : part8 b₁ i = part8 b₂ i) :
    Spec.word64 .little b₁ i = Spec.word64 .little b₂ i := congrArg (fun x => BitVec.ofNat 64 (leVal x)) h

theorem parts8 (b : List Byte) (h : b.length = 32) :
    b = part8 b 0 ++ (part8 b 1 ++ (part8 b 2 ++ part8 b 3)) := by
  have e : ∀ i, b.drop (8 * i) = part8 b i ++ b.drop (8 * (i + 1)) := by
    intro i
    rw [show 8 * (i + 1) = 8 * i + 8 by omega, ← List.drop_drop]
    exact (List.take_append_drop 8 _).symm
  have e4 : b.drop (8 * (3 + 1)) = [] := List.drop_eq_nil_of_le (by omega)
  conv => lhs; rw [← List.drop_zero (l := b), show 0 = 8 * 0 from rfl, e 0, e 1, e 2, e 3, e4,
    List.append_nil]

theorem absorb_words01 {s : Spec.State} {b₁ b₂ : List Byte}
    (h : Spec.absorb s b₁ = Spec.absorb s b₂) :
    Spec.word64 .little b₁ 0 = Spec.word64 .little b₂ 0 ∧
      Spec.word64 .little b₁ 1 = Spec.word64 .little b₂ 1 := by
  have hc := congrArg Spec.State.c h
  have hd := congrArg Spec.State.d h
  exact ⟨rotateRight_inj (add_left_cancel' (xor_left_cancel hc)),
    rotateRight_inj (add_left_cancel' (xor_left_cancel hd))⟩

theorem absorb_inj {s : Spec.State} {b₁ b₂ : List Byte} (h₁ : b₁.length = 32) (h₂ : b₂.length = 32)
    (hd : part8 b₁ 2 = part8 b₂ 2 ∨ part8 b₁ 3 = part8 b₂ 3)
    (h : Spec.absorb s b₁ = Spec.absorb s b₂) : b₁ = b₂ := by
  obtain ⟨w0, w1⟩ := absorb_words01 h
  have ha := mul_left_cancel_of_inv prime5_inv (xor_left_cancel (congrArg Spec.State.a h))
  have key : Spec.word64 .little b₁ 2 = Spec.word64 .little b₂ 2 ∧
      Spec.word64 .little b₁ 3 = Spec.word64 .little b₂ 3 := by
    rw [w0] at ha
    rcases hd with hd | hd
    · have w2 := word64_congr hd
      rw [w2] at ha
      exact ⟨w2, add_left_cancel' ha⟩
    · have w3 := word64_congr hd
      rw [w3] at ha
      exact ⟨add_right_cancel' (rotateRight_inj (add_left_cancel' (add_right_cancel' ha))), w3⟩
  rw [parts8 b₁ h₁, parts8 b₂ h₂, word64_inj h₁ h₂ w0, word64_inj h₁ h₂ w1, word64_inj h₁ h₂ key.1,
    word64_inj h₁ h₂ key.2]

/-! ## States and contexts -/

/-- Contexts with the same state members have the same state. -/
theorem Model.Img.state_eq {cfg : Cfg} {img₁ img₂ p₁ p₂ : List Byte} {s₁ s₂ : Spec.State} {t₁ t₂ : U64}
    (h₁ : Img cfg img₁ s₁ p₁ t₁) (h₂ : Img cfg img₂ s₂ p₂ t₂) (h : img₁.take 32 = img₂.take 32) :
    s₁ = s₂ := by
  have key : ∀ (k : Nat) (u v : U64), k + 8 ≤ 32 → Part img₁ k (cfg.endian.bytes 8 u.toNat) →
      Part img₂ k (cfg.endian.bytes 8 v.toNat) → u = v := by
    intro k u v hk hu hv
    unfold Part at hu hv
    rw [length_bytes] at hu hv
    have e : ∀ l : List Byte, (l.drop k).take 8 = ((l.take 32).drop k).take 8 := by
      intro l
      rw [List.drop_take, List.take_take, Nat.min_eq_left (by omega)]
    rw [e, h, ← e, hv] at hu
    have := congrArg cfg.endian.val hu
    rw [Endian.val_bytes, Endian.val_bytes, show 256 ^ 8 = 2 ^ 64 by decide, Nat.mod_eq_of_lt v.isLt,
      Nat.mod_eq_of_lt u.isLt] at this
    exact (BitVec.eq_of_toNat_eq this).symm
  have a := key 0 _ _ (by decide) h₁.a h₂.a
  have b := key 8 _ _ (by decide) h₁.b h₂.b
  have c := key 16 _ _ (by decide) h₁.c h₂.c
  have d := key 24 _ _ (by decide) h₁.d h₂.d
  cases s₁; cases s₂
  simp_all

theorem absorb_block {s : Spec.State} {fed b : List Byte} (hf : fed.length % 32 = 0)
    (hb : b.length = 32) :
    Spec.absorbAll s (Spec.blocks 32 (fed ++ b)) =
      Spec.absorb (Spec.absorbAll s (Spec.blocks 32 fed)) b := by
  have hr : Spec.rest 32 fed = [] := List.eq_nil_of_length_eq_zero (by rw [length_rest, hf])
  have hb1 : Spec.blocks 32 b = [b] := by
    unfold Spec.blocks
    rw [hb]
    show [b.take 32] = [b]
    rw [List.take_of_length_le (by omega)]
  rw [blocks_append, hr, List.nil_append, hb1, Spec.absorbAll, List.foldl_append]
  rfl

/-! ## The padding -/

/-- A number made of 64-bit digits. -/
def ofWords : List U64 → Nat
  | [] => 0
  | w :: ws => w.toNat + 2 ^ 64 * ofWords ws

theorem ofWords_chunks (n : Nat) (m : List Byte) (h : m.length ≤ 8 * n) :
    ofWords ((chunks 8 n m).map fun w => BitVec.ofNat 64 (leVal w)) = leVal m := by
  induction n generalizing m with
  | zero =>
    have : m = [] := List.eq_nil_of_length_eq_zero (by omega)
    subst this
    rfl
  | succ n ih =>
    simp only [chunks, List.map_cons, ofWords]
    rw [ih _ (by rw [List.length_drop]; omega), BitVec.toNat_ofNat, leVal_drop, leVal_take]
    have := Nat.mod_add_div (leVal m) (256 ^ 8)
    rw [show (2 : Nat) ^ 64 = 256 ^ 8 by decide, Nat.mod_mod]
    exact this

theorem ofWords_words64 (m : List Byte) : ofWords (Spec.words64 .little m) = leVal m :=
  ofWords_chunks _ m (by omega)

theorem length_words64 (e : Endian) (m : List Byte) : (Spec.words64 e m).length = (m.length + 7) / 8 := by
  unfold Spec.words64
  rw [List.length_map, length_chunks]

theorem flatten_chunks (k n : Nat) (m : List Byte) : (chunks k n m).flatten = m.take (k * n) := by
  induction n generalizing m with
  | zero => simp [chunks]
  | succ n ih =>
    simp only [chunks, List.flatten_cons]
    rw [ih, Nat.mul_succ, Nat.add_comm (k * n), List.take_add]

theorem length_padded (m : List Byte) : (Spec.padded m).length = m.length + 8 := by
  rw [Spec.padded, List.length_append, leBytes_length]

/-- The last 8 bytes, as a number. -/
theorem padded_high (m : List Byte) :
    leVal (Spec.padded m) / 256 ^ m.length = (8 * m.length) % 2 ^ 64 ^^^ 2 ^ 63 := by
  rw [← leVal_drop, Spec.padded, List.drop_left, leVal_leBytes]
  apply Nat.mod_eq_of_lt
  exact Nat.xor_lt_two_pow (n := 64) (Nat.mod_lt _ (by decide)) (by decide)

theorem xor_top {n : Nat} (h : n < 2 ^ 64) :
    n ^^^ 2 ^ 63 = if n < 2 ^ 63 then n + 2 ^ 63 else n - 2 ^ 63 := by
  have hlow : (n ^^^ 2 ^ 63) % 2 ^ 63 = n % 2 ^ 63 := by
    rw [Nat.xor_mod_two_pow, Nat.mod_self, Nat.xor_zero]
  have hhigh : (n ^^^ 2 ^ 63) / 2 ^ 63 = n / 2 ^ 63 ^^^ 1 := by
    rw [Nat.xor_div_two_pow]
    rfl
  have hd : n / 2 ^ 63 = 0 ∨ n / 2 ^ 63 = 1 := by omega
  split
  · have h0 : n / 2 ^ 63 = 0 := by omega
    rw [h0, show 0 ^^^ 1 = 1 from rfl] at hhigh
    omega
  · have h1 : n / 2 ^ 63 = 1 := by omega
    rw [h1, show 1 ^^^ 1 = 0 from rfl] at hhigh
    omega

theorem padding_lt {m₁ m₂ : List Byte} (h₂ : m₂.length < 2 ^ 61) {δ : Nat} (hd : 1 ≤ δ) (hd' : δ ≤ 7)
    (hl : m₂.length = m₁.length + δ) : leVal (Spec.padded m₁) ≠ leVal (Spec.padded m₂) := by
  intro h
  have h1 := padded_high m₁
  have h2 := padded_high m₂
  rw [h, ] at h1
  rw [hl, Nat.pow_add, ← Nat.div_div_eq_div_mul, h1, ← hl] at h2
  rw [Nat.mod_eq_of_lt (by omega), Nat.mod_eq_of_lt (by omega), xor_top (by omega),
    xor_top (by omega)] at h2
  generalize m₁.length = L1 at *
  generalize m₂.length = L2 at *
  subst hl
  have : δ = 1 ∨ δ = 2 ∨ δ = 3 ∨ δ = 4 ∨ δ = 5 ∨ δ = 6 ∨ δ = 7 := by omega
  rcases this with h | h | h | h | h | h | h <;> subst h <;> norm_num at h2 <;> split at h2 <;>
    split at h2 <;> omega

theorem absorbed_inj {m₁ m₂ : List Byte} (h₁ : m₁.length < 2 ^ 61) (h₂ : m₂.length < 2 ^ 61)
    (hb : Spec.blocks 32 (Spec.padded m₁) = Spec.blocks 32 (Spec.padded m₂))
    (hw : Spec.words64 .little (Spec.rest 32 (Spec.padded m₁)) =
      Spec.words64 .little (Spec.rest 32 (Spec.padded m₂))) : m₁ = m₂ := by
  have hn := congrArg List.length hb
  rw [length_blocks, length_blocks, length_padded, length_padded] at hn
  have hm := congrArg List.length hw
  rw [length_words64, length_words64, length_rest, length_rest, length_padded, length_padded] at hm
  have hv : leVal (Spec.padded m₁) = leVal (Spec.padded m₂) := by
    have e : ∀ m : List Byte, m.length / 32 = (m₁.length + 8) / 32 →
        leVal m = leVal ((Spec.blocks 32 m).flatten) +
          256 ^ (32 * ((m₁.length + 8) / 32)) * ofWords (Spec.words64 .little (Spec.rest 32 m)) := by
      intro m hm
      rw [ofWords_words64, Spec.blocks, flatten_chunks, Spec.rest, leVal_take, leVal_drop, hm]
      exact (Nat.mod_add_div _ _).symm
    rw [e (Spec.padded m₁) (by rw [length_padded]), e (Spec.padded m₂) (by rw [length_padded, hn]), hb, hw]
  rcases Nat.lt_trichotomy m₁.length m₂.length with h | h | h
  · exact absurd hv (padding_lt h₂ (δ := m₂.length - m₁.length) (by omega) (by omega) (by omega))
  · have := congrArg (· % 256 ^ m₁.length) hv
    rw [← leVal_take, h, ← leVal_take, Spec.padded, ← h, List.take_left, Spec.padded, h,
      List.take_left] at this
    rw [← leBytes_leVal m₁, ← leBytes_leVal m₂, this, h]
  · exact absurd hv.symm (padding_lt h₁ (δ := m₁.length - m₂.length) (by omega) (by omega) (by omega))

end T1ha
