import Verif.Proofs.XxhashFail
import Verif.Proofs.Xxh3Long

/-!
# XXH3: calls which fail, and messages with the same hash
-/

namespace T1ha.Model

variable {w : World} {ov : Overlay} {cfg : Cfg} {x : Xxh3} {b : Bytes} {r m : List Byte} {data : Nat} {seed : U64}

theorem Fails.asserted {β : Type} {c : Bool} {f : Unit → M β} {e : Err} (hc : c = true) (hf : Fails w ov (f ()) e) :
    Fails w ov (XXH_ASSERT x c >>= f) e := by
  refine Fails.after (P := fun _ => True) (v := ()) (C := nowhere) (n := 0) ?_ hf
  unfold XXH_ASSERT
  rw [if_neg (by simp [hc])]
  exact Reads.pure ()

/-! ## Words which are not aligned -/

theorem fails_le64 {i : Nat} (hd : x.access = .direct) (hl : x.lenient64 = false) (ha : b.isAligned i 8 = false) :
    Fails w ov (XXH_readLE64 cfg x.toXxh b i) .misaligned := by
  unfold XXH_readLE64 XXH_read64
  simp only [hd]
  refine Fails.now ?_ _
  unfold deref64
  rw [if_neg (by simp [hl, ha])]
  exact fails_fail _

theorem le64_aligned (g : ByteSource w ov cfg (fun _ => True) b r) (i : Nat) (h : i + 8 ≤ r.length)
    (ha : b.isAligned i 8 = true) :
    Exec w ov (fun _ => True) nowhere 0 (XXH_readLE64 cfg x.toXxh b i) (fun _ o => o = ov) :=
  ((g.readLE64 (x := x.toXxh) i h (fun _ => Or.inr ha)).uncovered).post fun _ _ h => h.2

theorem mix16B_aligned {secret : Bytes} {s : List Byte} (g : ByteSource w ov cfg (fun _ => True) b r)
    (g' : ByteSource w ov cfg (fun _ => True) secret s) (i j : Nat) (hi : i + 16 ≤ r.length) (hj : j + 16 ≤ s.length)
    (ha : b.isAligned i 8 = true) (ha' : b.isAligned (i + 8) 8 = true) (hb : secret.isAligned j 8 = true)
    (hb' : secret.isAligned (j + 8) 8 = true) :
    Exec w ov (fun _ => True) nowhere 0 (XXH3_mix16B cfg x b i secret j seed) (fun _ o => o = ov) := by
  unfold XXH3_mix16B
  refine Exec.bindL (le64_aligned g i (by omega) ha) ?_
  rintro _ _ rfl
  refine Exec.bindL (le64_aligned g (i + 8) (by omega) ha') ?_
  rintro _ _ rfl
  refine Exec.bindL (le64_aligned g' j (by omega) hb) ?_
  rintro _ _ rfl
  refine Exec.bindL (le64_aligned g' (j + 8) (by omega) hb') ?_
  rintro _ _ rfl
  exact Exec.pure _ rfl

theorem mixLoop_aligned (g : ByteSource w ov cfg (fun _ => True) (.memory data) r) (ha : data % 8 = 0) (todo i j : Nat)
    (acc : U64) (hi : i + 16 * todo ≤ r.length) (hj : j + 16 * todo ≤ 192) (h8 : i % 8 = 0) (h8' : j % 8 = 0) :
    Exec w ov (fun _ => True) nowhere todo (XXH3_mixLoop cfg x (.memory data) (.array XXH3_kSecret) seed todo i j acc)
      (fun _ o => o = ov) := by
  have hk : XXH3_kSecret.length = 192 := by rw [kSecret_eq]; exact length_xxh3Secret
  induction todo generalizing i j acc with
  | zero => exact Exec.pure acc rfl
  | succ todo ih =>
    unfold XXH3_mixLoop
    have h1 := mix16B_aligned (x := x) (seed := seed) g
      (source_array (P := fun _ => True) (cfg := cfg) (w := w) (ov := ov) trivial (List.prefix_refl XXH3_kSecret))
      i j (by omega) (by omega) (by simp [Bytes.isAligned]; omega) (by simp [Bytes.isAligned]; omega)
      (by simp [Bytes.isAligned]; omega) (by simp [Bytes.isAligned]; omega)
    refine Exec.bind' (C₂ := nowhere) (n₂ := todo) (Reads.iterate trivial) (fun _ _ h => ?_) (fun _ h => h.elim)
      (by omega)
    obtain ⟨-, rfl⟩ := h
    refine Exec.bind' (C₁ := nowhere) (C₂ := nowhere) (n₁ := 0) (n₂ := todo) h1 ?_ (fun _ h => h.elim) (by omega)
    rintro v _ rfl
    exact ih (i + 16) (j + 16) (acc + v) (by omega) (by omega) (by omega) (by omega)

/-- With an address which is not a multiple of 8. -/
theorem fails_mix16B_unaligned {secret : Bytes} {i j : Nat} (hd : x.access = .direct) (hl : x.lenient64 = false)
    (ha : b.isAligned i 8 = false) : Fails w ov (XXH3_mix16B cfg x b i secret j seed) .misaligned := by
  unfold XXH3_mix16B
  exact Fails.now (fails_le64 hd hl ha) _

/-- With bytes of the secret which are not at a multiple of 8. -/
theorem fails_mix16B_secret (g : ByteSource w ov cfg (fun _ => True) b r) {secret : Bytes} {i j : Nat}
    (hi : i + 16 ≤ r.length) (hd : x.access = .direct) (hl : x.lenient64 = false)
    (hj : secret.isAligned j 8 = false) : Fails w ov (XXH3_mix16B cfg x b i secret j seed) .misaligned := by
  by_cases ha : b.isAligned i 8 = true
  · by_cases ha' : b.isAligned (i + 8) 8 = true
    · unfold XXH3_mix16B
      refine Fails.afterExec (le64_aligned g i (by omega) ha) ?_
      rintro _ _ rfl
      refine Fails.afterExec (le64_aligned g (i + 8) (by omega) ha') ?_
      rintro _ _ rfl
      exact Fails.now (fails_le64 hd hl hj) _
    · unfold XXH3_mix16B
      refine Fails.afterExec (le64_aligned g i (by omega) ha) ?_
      rintro _ _ rfl
      exact Fails.now (fails_le64 hd hl (by simpa using ha')) _
  · exact fails_mix16B_unaligned hd hl (by simpa using ha)

theorem fails_middle (hd : x.access = .direct) (hl : x.lenient64 = false) (h : Message cfg w ov data m)
    (h1 : 128 < m.length) (h2 : m.length ≤ 240) :
    Fails w ov (XXH3_64bits_withSeed cfg x (.memory data) m.length seed) .misaligned := by
  have hk : XXH3_kSecret.length = 192 := by rw [kSecret_eq]; exact length_xxh3Secret
  have g := (space_any (cfg := cfg) (lo := data) h.fits).source h.holds (Nat.le_refl _) (Nat.le_refl _)
  unfold XXH3_64bits_withSeed XXH3_64bits_internal
  refine Fails.asserted (by decide) ?_
  rw [if_neg (by omega), if_neg (by omega), if_pos h2]
  unfold XXH3_len_129to240_64b
  refine Fails.asserted (by decide) <| Fails.asserted (by simp; omega) ?_
  by_cases ha : data % 8 = 0
  · refine Fails.afterExec (mixLoop_aligned g ha 8 0 0 _ (by omega) (by omega) (by omega) (by omega)) ?_
    rintro _ _ rfl
    refine Fails.asserted (by simp; omega) ?_
    by_cases h3 : m.length / 16 - 8 = 0
    · rw [h3]
      refine Fails.after (P := fun _ => True) (Reads.pure _) <| Fails.now ?_ _
      exact fails_mix16B_secret g (by omega) hd hl (by decide)
    · obtain ⟨k, hk⟩ := Nat.exists_eq_succ_of_ne_zero h3
      rw [hk]
      refine Fails.now ?_ _
      unfold XXH3_mixLoop
      refine Fails.after (P := fun _ => True) (Reads.iterate trivial) <| Fails.now ?_ _
      exact fails_mix16B_secret g (by omega) hd hl (by decide)
  · refine Fails.now ?_ _
    unfold XXH3_mixLoop
    refine Fails.after (P := fun _ => True) (Reads.iterate trivial) <| Fails.now ?_ _
    exact fails_mix16B_unaligned hd hl (by simpa [Bytes.isAligned] using ha)

/-! ## Pointers after the address space -/

theorem fails_ahead {secret : Bytes} {s : Nat} {len : Nat} (acc : Lanes) (hs : 136 ≤ s) (hb : 8 * s < 2 ^ cfg.bits)
    (hlen : 240 < len) (hh : 2 ^ cfg.bits ≤ data + x.prefetch) :
    Fails w ov (XXH3_hashLong_internal_loop cfg x acc (.memory data) len secret s) .ptrWrap := by
  have first : ∀ k j a, Fails w ov (XXH3_accumulate cfg x (.memory data) secret (k + 1) 0 j a) .ptrWrap := by
    intro k j a
    unfold XXH3_accumulate
    refine Fails.after (P := fun _ => True) (Reads.iterate trivial) <| Fails.now ?_ _
    unfold XXH_PREFETCH
    exact Fails.now (fails_ptrAdd (by omega)) _
  obtain ⟨pb, hpb⟩ : ∃ pb, (s - 64) / 8 = pb + 1 := ⟨(s - 64) / 8 - 1, by omega⟩
  unfold XXH3_hashLong_internal_loop
  rw [hpb]
  dsimp only
  rw [Nat.mod_eq_of_lt (by omega), if_neg (by omega)]
  refine Fails.asserted (by simpa using hs) ?_
  cases hq : (len - 1) / (64 * (pb + 1)) with
  | zero =>
    refine Fails.after (P := fun _ => True) (Reads.pure _) <| Fails.asserted (by simp; omega) <| Fails.asserted ?_ <| Fails.now ?_ _
    · have := Nat.lt_of_div_eq_zero (by omega) hq
      rw [Nat.mul_zero, Nat.sub_zero]
      simp only [decide_eq_true_eq]
      omega
    · rw [Nat.mul_zero, Nat.sub_zero, Nat.zero_mul]
      obtain ⟨k, hk⟩ : ∃ k, (len - 1) / 64 = k + 1 := ⟨(len - 1) / 64 - 1, by omega⟩
      rw [hk]
      exact first _ _ _
  | succ n =>
    refine Fails.now ?_ _
    unfold XXH3_hashLong_blocks
    exact Fails.after (P := fun _ => True) (Reads.iterate trivial) <| Fails.now (first _ _ _) _

theorem fails_ahead_seed {len : Nat} (fine : x.access = .direct → x.lenient32 = true ∧ x.lenient64 = true)
    (hlen : 240 < len) (hh : 2 ^ cfg.bits ≤ data + x.prefetch) :
    Fails w ov (XXH3_64bits_withSeed cfg x (.memory data) len seed) .ptrWrap := by
  have hb : 8 * 192 < 2 ^ cfg.bits := by unfold Cfg.bits; split <;> decide
  unfold XXH3_64bits_withSeed XXH3_64bits_internal
  refine Fails.asserted (by decide) ?_
  rw [if_neg (by omega), if_neg (by omega), if_neg (by omega)]
  unfold XXH3_hashLong_64b_withSeed
  split
  · exact Fails.now (fails_ahead _ (by decide) hb hlen hh) _
  · exact Fails.after (reads_initCustomSecret (P := fun _ => True) trivial fine seed) <|
      Fails.now (fails_ahead _ (by decide) hb hlen hh) _

/-! ## An assertion which is wrong -/

theorem fails_eight (hx : x.debug = true) (h0 : data ≠ 0) :
    Fails w ov (XXH3_64bits_withSeed cfg x (.memory data) 8 seed) .assertFail := by
  unfold XXH3_64bits_withSeed XXH3_64bits_internal
  refine Fails.asserted (by decide) ?_
  rw [if_pos (by decide)]
  unfold XXH3_len_0to16_64b
  refine Fails.asserted (by decide) ?_
  rw [if_neg (by decide), if_pos (by decide)]
  unfold XXH3_len_4to8_64b
  refine Fails.asserted (by simpa [Bytes.isNull] using h0) <| Fails.asserted rfl <| Fails.now ?_ _
  unfold XXH_ASSERT
  rw [if_pos (by simp [hx])]
  exact fails_fail _

/-! ## A secret which is too long -/

theorem fails_secret {secret : Bytes} {n len : Nat} (hs : 136 ≤ n) (hz : 64 * ((n - 64) / 8) % 2 ^ cfg.bits = 0)
    (hlen : 240 < len) :
    Fails w ov (XXH3_64bits_withSecret cfg x b len secret n) .divideByZero ∧
    Fails w ov (XXH3_128bits_withSecret cfg x b len secret n) .divideByZero := by
  have key : ∀ acc, Fails w ov (XXH3_hashLong_internal_loop cfg x acc b len secret n) .divideByZero := by
    intro acc
    unfold XXH3_hashLong_internal_loop
    dsimp only
    rw [if_pos hz]
    exact fails_fail _
  constructor
  · unfold XXH3_64bits_withSecret XXH3_64bits_internal
    refine Fails.asserted (by simpa using hs) ?_
    rw [if_neg (by omega), if_neg (by omega), if_neg (by omega)]
    exact Fails.now (key _) _
  · unfold XXH3_128bits_withSecret XXH3_128bits_internal
    refine Fails.asserted (by simpa using hs) ?_
    rw [if_neg (by omega), if_neg (by omega), if_neg (by omega)]
    exact Fails.now (key _) _

/-! ## Messages with the same hash -/

theorem mux_zero (v : U64) : Spec.mux 0 v = 0 := by
  unfold Spec.mux Spec.product
  simp

theorem at64_first (a r : List Byte) (h : a.length = 8) : Spec.at64 (a ++ r) 0 = Spec.num a := by
  unfold Spec.at64
  rw [List.drop_zero, List.take_left' h]

theorem num_bytes (v : U64) : Spec.num (leBytes 8 v.toNat) = v := by
  unfold Spec.num
  rw [leVal_leBytes]
  apply BitVec.eq_of_toNat_eq
  have := v.isLt
  rw [BitVec.toNat_ofNat]
  omega

/-- 32 bytes, of which the first eight depend on the seed: the next eight do not matter. -/
theorem xxh3_blind {b b' c : List Byte} (hb : b.length = 8) (hb' : b'.length = 8) (hc : c.length = 16) :
    Spec.xxh3WithSeed (leBytes 8 (Spec.at64 Spec.xxh3Secret 0 + seed).toNat ++ b ++ c) seed =
      Spec.xxh3WithSeed (leBytes 8 (Spec.at64 Spec.xxh3Secret 0 + seed).toNat ++ b' ++ c) seed := by
  have key : ∀ b : List Byte, b.length = 8 →
      Spec.xxh3WithSeed (leBytes 8 (Spec.at64 Spec.xxh3Secret 0 + seed).toNat ++ b ++ c) seed =
        Spec.xxh3Avalanche (32 * Spec.xxhQ1 + Spec.xxh3Mix16 c (Spec.xxh3Secret.drop 16) seed 0 0) := by
    intro b hb
    have hl : (leBytes 8 (Spec.at64 Spec.xxh3Secret 0 + seed).toNat ++ b ++ c).length = 32 := by
      simp [leBytes_length, hb, hc]
    unfold Spec.xxh3WithSeed Spec.xxh3
    rw [if_neg (by omega), if_pos (by omega)]
    unfold Spec.xxh3Middle
    rw [hl, show (32 + 31) / 32 = 1 from rfl, show List.range 1 = [0] from rfl, List.foldr_cons, List.foldr_nil]
    have h1 : Spec.xxh3Mix16 (leBytes 8 (Spec.at64 Spec.xxh3Secret 0 + seed).toNat ++ b ++ c) Spec.xxh3Secret seed
        (16 * 0) (32 * 0) = 0 := by
      unfold Spec.xxh3Mix16
      rw [List.append_assoc, at64_first _ _ (leBytes_length ..), num_bytes, Nat.mul_zero, BitVec.xor_self]
      exact mux_zero _
    have h2 : ∀ i, Spec.at64 (leBytes 8 (Spec.at64 Spec.xxh3Secret 0 + seed).toNat ++ b ++ c) (16 + i) =
        Spec.at64 c i := by
      intro i
      unfold Spec.at64
      rw [← List.drop_drop, List.drop_left' (by simp [leBytes_length, hb])]
    have h3 : ∀ i, Spec.at64 Spec.xxh3Secret (16 + i) = Spec.at64 (Spec.xxh3Secret.drop 16) i := by
      intro i
      unfold Spec.at64
      rw [List.drop_drop]
    have h4 : Spec.xxh3Mix16 (leBytes 8 (Spec.at64 Spec.xxh3Secret 0 + seed).toNat ++ b ++ c) Spec.xxh3Secret seed
        (32 - 16 * (0 + 1)) (32 * 0 + 16) = Spec.xxh3Mix16 c (Spec.xxh3Secret.drop 16) seed 0 0 := by
      unfold Spec.xxh3Mix16
      rw [show 32 - 16 * (0 + 1) = 16 + 0 from rfl, show 32 * 0 + 16 = 16 + 0 from rfl, Nat.add_assoc, h2, h2, h3, h3]
    rw [h1, h4, show ∀ v : U64, v + 0 = v from fun v => BitVec.add_zero v]
    unfold Spec.len64
    rw [hl]
    rfl
  rw [key b hb, key b' hb']

end T1ha.Model
