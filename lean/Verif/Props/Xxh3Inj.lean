import Verif.Props.XxhWord64
import Verif.Props.Xxh3

/-!
# XXH3 has no collisions of very short messages: C103
-/

namespace T1ha.Props

open Model Examples

variable {cfg cfg' : Cfg} {x x' : Xxh3} {w w' : World} {s s' : Sys} {data data' : Nat}

theorem avalanche64_inj : Function.Injective Spec.xxh64Avalanche := fun _ _ h =>
  xorshift_undo (by decide) (mul_right_cancel_of_inv q2_inv (xorshift_undo (by decide)
    (mul_right_cancel_of_inv q3_inv (xorshift_undo (by decide) h))))

theorem setWidth_inj {a b : U32} (h : a.setWidth 64 = b.setWidth 64) : a = b := by
  have := congrArg BitVec.toNat h
  rw [BitVec.toNat_setWidth, BitVec.toNat_setWidth, Nat.mod_eq_of_lt (by omega), Nat.mod_eq_of_lt (by omega)] at this
  exact BitVec.eq_of_toNat_eq this

theorem combined_inj {m m' : List Byte} (h1 : 1 ≤ m.length) (h3 : m.length ≤ 3) (h1' : 1 ≤ m'.length) (h3' : m'.length ≤ 3)
    (h : Spec.xxh3Combined m = Spec.xxh3Combined m') : m = m' := by
  unfold Spec.xxh3Combined at h
  have h := Classical.not_not.1 fun hne => num32_ne rfl rfl hne h
  simp only [List.cons.injEq, and_true] at h
  obtain ⟨ha, hb, hc, hd⟩ := h
  have hl : m.length = m'.length := by
    have := congrArg BitVec.toNat hb
    rw [BitVec.toNat_ofNat, BitVec.toNat_ofNat] at this
    omega
  match m, m', h1, h3, h1', h3', hl with
  | [a], [a'], _, _, _, _, _ =>
    simp only [List.length_singleton, List.getD_cons_zero, Nat.sub_self] at ha
    rw [ha]
  | [a, b], [a', b'], _, _, _, _, _ =>
    simp at ha hc
    rw [ha, hc]
  | [a, b, c], [a', b', c'], _, _, _, _, _ =>
    simp at ha hc hd
    rw [ha, hc, hd]

/-! ## Four to eight bytes -/

/-- A word and two of its rotations -/
def spread (a b : Nat) (h : U64) : U64 := h ^^^ (h.rotateLeft a ^^^ h.rotateLeft b)

theorem rot_bit (h : U64) {r i : Nat} (hr : r < 64) (hi : i < 64) :
    (h.rotateLeft r).getLsbD i = h.getLsbD ((i + (64 - r)) % 64) := by
  rw [BitVec.getLsbD_rotateLeft, Nat.mod_eq_of_lt hr]
  by_cases h1 : i < r
  · rw [decide_eq_true h1, cond_true]
    congr 1
    omega
  · rw [decide_eq_false h1, cond_false, decide_eq_true hi, Bool.true_and]
    congr 1
    omega

theorem spread_twice {a b c d : Nat} (ha : a < 64) (hb : b < 64) (hc : (a + a) % 64 = c) (hd : (b + b) % 64 = d) (h : U64) :
    spread a b (spread a b h) = spread c d h := by
  have hc' : c < 64 := by omega
  have hd' : d < 64 := by omega
  refine BitVec.eq_of_getLsbD_eq fun i hi => ?_
  have hA : ∀ (z : U64) (j : Nat), (z.rotateLeft a).getLsbD (j % 64) = z.getLsbD ((j % 64 + (64 - a)) % 64) := fun z j =>
    rot_bit z ha (Nat.mod_lt _ (by decide))
  have hB : ∀ (z : U64) (j : Nat), (z.rotateLeft b).getLsbD (j % 64) = z.getLsbD ((j % 64 + (64 - b)) % 64) := fun z j =>
    rot_bit z hb (Nat.mod_lt _ (by decide))
  simp only [spread, BitVec.getLsbD_xor, rot_bit _ ha hi, rot_bit _ hb hi, rot_bit _ hc' hi, rot_bit _ hd' hi, hA, hB]
  rw [show ((i + (64 - a)) % 64 + (64 - a)) % 64 = (i + (64 - c)) % 64 by omega,
    show ((i + (64 - b)) % 64 + (64 - b)) % 64 = (i + (64 - d)) % 64 by omega,
    show ((i + (64 - a)) % 64 + (64 - b)) % 64 = ((i + (64 - b)) % 64 + (64 - a)) % 64 by omega]
  generalize h.getLsbD i = x0
  generalize h.getLsbD ((i + (64 - a)) % 64) = x1
  generalize h.getLsbD ((i + (64 - b)) % 64) = x2
  generalize h.getLsbD ((i + (64 - c)) % 64) = x3
  generalize h.getLsbD ((i + (64 - d)) % 64) = x4
  generalize h.getLsbD (((i + (64 - b)) % 64 + (64 - a)) % 64) = x5
  revert x0 x1 x2 x3 x4 x5
  decide

theorem spread_inj : Function.Injective (spread 49 24) := by
  intro x y h
  have h1 : spread 34 48 x = spread 34 48 y := by
    rw [← spread_twice (a := 49) (b := 24) (by decide) (by decide) rfl rfl,
      ← spread_twice (a := 49) (b := 24) (by decide) (by decide) rfl rfl, h]
  have h2 : spread 4 32 x = spread 4 32 y := by
    rw [← spread_twice (a := 34) (b := 48) (by decide) (by decide) rfl rfl,
      ← spread_twice (a := 34) (b := 48) (by decide) (by decide) rfl rfl, h1]
  have h3 : spread 8 0 x = spread 8 0 y := by
    rw [← spread_twice (a := 4) (b := 32) (by decide) (by decide) rfl rfl,
      ← spread_twice (a := 4) (b := 32) (by decide) (by decide) rfl rfl, h2]
  have h4 : ∀ z : U64, spread 8 0 z = z.rotateLeft 8 := fun z => by
    have : z.rotateLeft 0 = z := BitVec.eq_of_getLsbD_eq fun i hi => by
      rw [rot_bit z (by decide) hi]
      congr 1
      omega
    unfold spread
    rw [this, BitVec.xor_comm (z.rotateLeft 8), ← BitVec.xor_assoc, BitVec.xor_self, BitVec.zero_xor]
  rw [h4, h4] at h3
  exact rotateLeft_inj (by decide) (by decide) h3

theorem add_step_inj {n : Nat} (hn : n ≤ 8) {x y : U64}
    (h : x ^^^ ((x >>> 35) + BitVec.ofNat 64 n) = y ^^^ ((y >>> 35) + BitVec.ofNat 64 n)) : x = y := by
  have hs : ∀ z : U64, ((z >>> 35) + BitVec.ofNat 64 n) >>> 35 = 0#64 := fun z => by
    refine BitVec.eq_of_toNat_eq ?_
    have := z.isLt
    rw [BitVec.toNat_ushiftRight, BitVec.toNat_add, BitVec.toNat_ushiftRight, BitVec.toNat_ofNat, Nat.shiftRight_eq_div_pow,
      Nat.shiftRight_eq_div_pow, BitVec.toNat_ofNat]
    omega
  have h1 : x >>> 35 = y >>> 35 := by
    have := congrArg (fun z : U64 => z >>> 35) h
    simp only [BitVec.ushiftRight_xor_distrib, hs, BitVec.xor_zero] at this
    exact this
  rw [h1] at h
  exact xor_right_undo h

theorem rrmxmx_inj {n : Nat} (hn : n ≤ 8) : Function.Injective fun h => Spec.xxh3Rrmxmx h (BitVec.ofNat 64 n) := by
  intro a b h
  have hp : (0x2ab9c720d1024ad : U64) * 0x9FB21C651E98DF25 = 1#64 := by decide
  exact spread_inj (mul_right_cancel_of_inv hp (add_step_inj hn (mul_right_cancel_of_inv hp (xorshift_undo (by decide) h))))

theorem ends_inj {m m' : List Byte} (h4 : 4 ≤ m.length) (h8 : m.length ≤ 8) (hl : m.length = m'.length)
    (h : (Spec.at32 m (m.length - 4)).setWidth 64 + ((Spec.at32 m 0).setWidth 64 <<< 32) =
      (Spec.at32 m' (m'.length - 4)).setWidth 64 + ((Spec.at32 m' 0).setWidth 64 <<< 32)) : m = m' := by
  have hn := congrArg BitVec.toNat h
  have key : ∀ a b : U32, (a.setWidth 64 + (b.setWidth 64 <<< 32)).toNat = a.toNat + b.toNat * 2 ^ 32 := fun a b => by
    have := a.isLt
    have := b.isLt
    rw [BitVec.toNat_add, BitVec.toNat_shiftLeft, BitVec.toNat_setWidth, BitVec.toNat_setWidth, Nat.shiftLeft_eq]
    omega
  rw [key, key] at hn
  have ha := (Spec.at32 m (m.length - 4)).isLt
  have ha' := (Spec.at32 m' (m'.length - 4)).isLt
  have e1 : Spec.at32 m (m.length - 4) = Spec.at32 m' (m'.length - 4) := BitVec.eq_of_toNat_eq (by omega)
  have e0 : Spec.at32 m 0 = Spec.at32 m' 0 := BitVec.eq_of_toNat_eq (by omega)
  have f1 : (m.drop (m.length - 4)).take 4 = (m'.drop (m'.length - 4)).take 4 :=
    Classical.not_not.1 fun hne => num32_ne (by simp; omega) (by simp; omega) hne e1
  have f0 : (m.drop 0).take 4 = (m'.drop 0).take 4 :=
    Classical.not_not.1 fun hne => num32_ne (by simp; omega) (by simp; omega) hne e0
  rw [List.take_of_length_le (by simp; omega), List.take_of_length_le (by simp; omega)] at f1
  rw [List.drop_zero, List.drop_zero] at f0
  have f2 : m.drop 4 = m'.drop 4 := by
    have := congrArg (List.drop (8 - m.length)) f1
    rw [List.drop_drop, List.drop_drop, ← hl, show m.length - 4 + (8 - m.length) = 4 by omega] at this
    exact this
  rw [← List.take_append_drop 4 m, ← List.take_append_drop 4 m', f0, f2]

/-- Two messages which XXH3 tells apart: of 1 to 3 bytes, or of the same length of 4 to 8 bytes -/
def VeryShort (m m' : List Byte) : Prop :=
  (1 ≤ m.length ∧ m.length ≤ 3 ∧ 1 ≤ m'.length ∧ m'.length ≤ 3) ∨ (4 ≤ m.length ∧ m.length ≤ 8 ∧ m.length = m'.length)

theorem xxh3_inj {m m' : List Byte} (hv : VeryShort m m') (seed : U64)
    (h : Spec.xxh3WithSeed m seed = Spec.xxh3WithSeed m' seed) : m = m' := by
  unfold Spec.xxh3WithSeed Spec.xxh3 at h
  rcases hv with ⟨h1, h3, h1', h3'⟩ | ⟨h4, h8, hl⟩
  · rw [if_pos (by omega), if_pos (by omega)] at h
    unfold Spec.xxh3Short at h
    rw [if_neg (by omega), if_pos h3, if_neg (by omega), if_pos h3'] at h
    exact combined_inj h1 h3 h1' h3' (setWidth_inj (xor_right_undo (avalanche64_inj h)))
  · rw [if_pos (by omega), if_pos (by omega)] at h
    unfold Spec.xxh3Short Spec.len64 at h
    rw [if_neg (by omega), if_neg (by omega), if_pos h8, if_neg (by omega), if_neg (by omega), if_pos (by omega)] at h
    rw [show BitVec.ofNat 64 m'.length = BitVec.ofNat 64 m.length by rw [hl]] at h
    exact ends_inj h4 h8 hl (xor_right_undo (rrmxmx_inj h8 h))

/-- C103: two different messages, both of 1 to 3 bytes, or both of the same length of 4 to 8 bytes, have different XXH3
hashes under every seed, and with `XXH3_64bits`, which takes none. -/
theorem xxh3_very_short {m m' : List Byte} (hv : VeryShort m m') (hne : m ≠ m')
    (h : Message cfg w s.ov data m) (h' : Message cfg' w' s'.ov data' m')
    (hx : x.access = .direct → x.lenient32 = true ∧ x.lenient64 = true)
    (hx' : x'.access = .direct → x'.lenient32 = true ∧ x'.lenient64 = true)
    (hf : data + m.length < 2 ^ cfg.bits) (hf' : data' + m'.length < 2 ^ cfg'.bits)
    (hd : x.debug = true → data ≠ 0 ∧ m.length ≠ 8) (hd' : x'.debug = true → data' ≠ 0 ∧ m'.length ≠ 8) (seed : U64) :
    (∃ v z t v' z' t', Returns (XXH3_64bits_withSeed cfg x (.memory data) m.length seed) w s v z t ∧
      Returns (XXH3_64bits_withSeed cfg' x' (.memory data') m'.length seed) w' s' v' z' t' ∧ v ≠ v') ∧
    ∃ v z t v' z' t', Returns (XXH3_64bits cfg x (.memory data) m.length) w s v z t ∧
      Returns (XXH3_64bits cfg' x' (.memory data') m'.length) w' s' v' z' t' ∧ v ≠ v' := by
  have hl : m.length ≤ 240 ∧ m'.length ≤ 240 := by
    rcases hv with hv | hv <;> omega
  have run := xxh3_correct_partial h hx (by unfold Xxh3.reach; rw [if_pos hl.1]; exact hf)
    (fun e => ⟨fun _ => (hd e).1, (hd e).2⟩) seed
  have run' := xxh3_correct_partial h' hx' (by unfold Xxh3.reach; rw [if_pos hl.2]; exact hf')
    (fun e => ⟨fun _ => (hd' e).1, (hd' e).2⟩) seed
  obtain ⟨⟨z, t, r1, _⟩, ⟨z0, t0, r2, _⟩⟩ := run
  obtain ⟨⟨z', t', r1', _⟩, ⟨z0', t0', r2', _⟩⟩ := run'
  exact ⟨⟨_, z, t, _, z', t', r1, r1', fun e => hne (xxh3_inj hv seed e)⟩,
    ⟨_, z0, t0, _, z0', t0', r2, r2', fun e => hne (xxh3_inj hv 0 e)⟩⟩

/-- The bytes 7 and 7, 7, on two machines -/
example (seed : U64) := xxh3_very_short (x := xxh3Gcc) (x' := xxh3Mips) (m := [7]) (m' := [7, 7])
  (Or.inl (by decide)) (by decide) (message amd64 (lo := 4096) (hi := 8192) (data := 5001) (by decide) (by decide) (by decide))
  (message mips32 (lo := 4096) (hi := 8192) (data := 5001) (by decide) (by decide) (by decide))
  (fun h => absurd h (by decide)) (fun h => absurd h (by decide)) (by decide) (by decide) (fun h => absurd h (by decide))
  (fun _ => by decide) seed

/-- Two messages of 7 bytes -/
example (seed : U64) := xxh3_very_short (x := xxh3Mips) (x' := xxh3Mips) (m := [1, 2, 3, 4, 5, 6, 7]) (m' := [1, 2, 3, 5, 5, 6, 7])
  (Or.inr (by decide)) (by decide) (message mips32 (lo := 4096) (hi := 8192) (data := 5001) (by decide) (by decide) (by decide))
  (message mips32 (lo := 4096) (hi := 8192) (data := 5001) (by decide) (by decide) (by decide))
  (fun h => absurd h (by decide)) (fun h => absurd h (by decide)) (by decide) (by decide) (fun _ => by decide)
  (fun _ => by decide) seed

end T1ha.Props
