import Verif.Proofs.Differ
import Verif.Proofs.X86

/-!
# Messages which collide under many seeds in the AES-NI variant B: proofs about the specification
-/

namespace T1ha

open Model X86

/-- If every element is turned into one of `S` by one of `N` injective maps, then `S` has one of `N` elements. -/
theorem cover_le {α : Type} [Finite α] (N : Nat) (f : Fin N → α → α) (hf : ∀ i, Function.Injective (f i)) (S : Set α)
    (h : ∀ x, ∃ i, f i x ∈ S) : (Set.univ : Set α).ncard ≤ N * S.ncard := by
  let g : α → Fin N × α := fun x => ((h x).choose, f (h x).choose x)
  have hg : Function.Injective g := by
    intro x y hxy
    have h1 : (h x).choose = (h y).choose := congrArg Prod.fst hxy
    have h2 : f (h x).choose x = f (h y).choose y := congrArg Prod.snd hxy
    rw [h1] at h2
    exact hf _ h2
  have h1 : g '' Set.univ ⊆ Set.univ ×ˢ S := by
    rintro _ ⟨x, _, rfl⟩
    exact ⟨Set.mem_univ _, (h x).choose_spec⟩
  have h2 := Set.ncard_le_ncard h1 (Set.toFinite _)
  rwa [hg.injOn.ncard_image, Set.ncard_prod, Set.ncard_univ (Fin N), Nat.card_fin] at h2

/-! ## Bytes of vectors -/

theorem getLsbD_leVal (bs : List Byte) (i j : Nat) (hj : j < 8) :
    (leVal bs).testBit (8 * i + j) = (bs.getD i 0).getLsbD j := by
  induction bs generalizing i with
  | nil => simp [leVal]
  | cons b bs ih =>
    rw [leVal, Nat.add_comm, show (256 : Nat) = 2 ^ 8 from rfl, Nat.testBit_two_pow_mul_add _ b.isLt]
    cases i with
    | zero => simp [hj, BitVec.getLsbD]
    | succ i =>
      rw [if_neg (by omega), show 8 * (i + 1) + j - 8 = 8 * i + j by omega, ih]
      rfl

theorem byteAt_bit (v : U128) (i j : Nat) (hj : j < 8) : (X86.byteAt v i).getLsbD j = v.getLsbD (8 * i + j) := by
  rw [X86.byteAt, BitVec.getLsbD_setWidth, BitVec.getLsbD_ushiftRight]
  simp [hj]

theorem byteAt_ofBytes (f : Nat → Byte) (i : Nat) (hi : i < 16) : X86.byteAt (ofBytes f) i = f i := by
  apply BitVec.eq_of_getLsbD_eq
  intro j hj
  rw [byteAt_bit _ _ _ hj, ofBytes, BitVec.getLsbD_ofNat, getLsbD_leVal _ _ _ hj, List.getD_eq_getElem?_getD,
    List.getElem?_map, List.getElem?_range hi]
  simp; omega

theorem byteAt_xor (v w : U128) (i : Nat) : X86.byteAt (v ^^^ w) i = X86.byteAt v i ^^^ X86.byteAt w i := by
  apply BitVec.eq_of_getLsbD_eq
  intro j hj
  rw [BitVec.getLsbD_xor, byteAt_bit _ _ _ hj, byteAt_bit _ _ _ hj, byteAt_bit _ _ _ hj, BitVec.getLsbD_xor]

theorem eq_of_byteAt {v w : U128} (h : ∀ i < 16, X86.byteAt v i = X86.byteAt w i) : v = w := by
  apply BitVec.eq_of_getLsbD_eq
  intro k hk
  have := congrArg (fun b => b.getLsbD (k % 8)) (h (k / 8) (by omega))
  simp only [byteAt_bit _ _ _ (Nat.mod_lt k (by decide : 0 < 8)), Nat.div_add_mod] at this
  exact this

/-! ## Linearity of InvMixColumns -/

theorem xtime_xor (a b : Byte) : xtime (a ^^^ b) = xtime a ^^^ xtime b := by
  unfold xtime
  rw [BitVec.shiftLeft_xor_distrib, BitVec.msb_xor]
  generalize a <<< 1 = x
  generalize b <<< 1 = y
  cases a.msb <;> cases b.msb <;> simp
  · rw [BitVec.xor_assoc]
  · rw [BitVec.xor_assoc, BitVec.xor_assoc, BitVec.xor_comm y]
  · rw [BitVec.xor_comm y, BitVec.xor_assoc, ← BitVec.xor_assoc _ _ y, BitVec.xor_self,
      BitVec.zero_xor]

theorem invMixColumns_xor (v w : U128) : invMixColumns (v ^^^ w) = invMixColumns v ^^^ invMixColumns w := by
  apply eq_of_byteAt
  intro i hi
  rw [byteAt_xor]
  unfold invMixColumns
  rw [byteAt_ofBytes _ _ hi, byteAt_ofBytes _ _ hi, byteAt_ofBytes _ _ hi]
  simp only [byteAt_xor, xtime_xor]
  ac_rfl

/-! ## The change of the first two vectors -/

/-- A vector with a single byte -/
def single (k : Nat) (b : Byte) : U128 := ofBytes fun i => if i = k then b else 0

/-- AESDEC, when byte 9 has one of four values, and is changed. -/
theorem aesdec_change (t key : U128) (h : invSbox (X86.byteAt t 9 ^^^ 1) = invSbox (X86.byteAt t 9) ^^^ 0xab) :
    aesdec (t ^^^ single 9 1) key = aesdec t key ^^^ invMixColumns (single 13 0xab) := by
  have h1 : invSubBytes (invShiftRows (t ^^^ single 9 1)) =
      invSubBytes (invShiftRows t) ^^^ single 13 0xab := by
    apply eq_of_byteAt
    intro i hi
    unfold invSubBytes invShiftRows
    rw [byteAt_xor, byteAt_ofBytes _ _ hi, byteAt_ofBytes _ _ hi, byteAt_ofBytes _ _ hi, byteAt_ofBytes _ _ hi,
      single, single, byteAt_ofBytes _ _ hi, byteAt_xor, byteAt_ofBytes _ _ (by omega)]
    by_cases h13 : i = 13
    · subst h13
      exact h
    · rw [if_neg h13, if_neg (by omega)]
      exact (congrArg invSbox BitVec.xor_zero).trans BitVec.xor_zero.symm
  unfold aesdec
  rw [h1, invMixColumns_xor, BitVec.xor_assoc, BitVec.xor_comm _ key, BitVec.xor_assoc]

/-! ## The salt depends on the seed -/

theorem aesenc_byte9 (x key : U128) : X86.byteAt (aesenc x key) 9 =
    xtime (sbox (X86.byteAt x 13)) ^^^ (xtime (sbox (X86.byteAt x 2)) ^^^ sbox (X86.byteAt x 2)) ^^^
      sbox (X86.byteAt x 7) ^^^ sbox (X86.byteAt x 8) ^^^ X86.byteAt key 9 := by
  unfold aesenc mixColumns subBytes shiftRows
  rw [byteAt_xor, byteAt_ofBytes _ _ (by decide)]
  simp only [Nat.reduceDiv, Nat.reduceMul, Nat.reduceAdd, Nat.reduceMod]
  rw [byteAt_ofBytes _ _ (by decide), byteAt_ofBytes _ _ (by decide), byteAt_ofBytes _ _ (by decide),
    byteAt_ofBytes _ _ (by decide), byteAt_ofBytes _ _ (by decide), byteAt_ofBytes _ _ (by decide),
    byteAt_ofBytes _ _ (by decide), byteAt_ofBytes _ _ (by decide)]

/-- Change the lowest byte of the seed so that its entry in the S-box is changed by `r`. -/
def reseed (r : Byte) (seed : U64) : U64 :=
  seed ^^^ (invSbox (sbox (seed.setWidth 8) ^^^ r) ^^^ seed.setWidth 8).setWidth 64

theorem reseed_low (r : Byte) (seed : U64) : (reseed r seed).setWidth 8 = invSbox (sbox (seed.setWidth 8) ^^^ r) := by
  apply BitVec.eq_of_getLsbD_eq
  intro i hi
  rw [reseed, BitVec.getLsbD_setWidth, BitVec.getLsbD_xor, BitVec.getLsbD_setWidth, BitVec.getLsbD_xor,
    BitVec.getLsbD_setWidth]
  have h : i < 64 := by omega
  simp only [hi, h, decide_true, Bool.true_and]
  cases seed.getLsbD i <;> simp

theorem reseed_high (r : Byte) (seed : U64) (i : Nat) (hi : 8 ≤ i) : (reseed r seed).getLsbD i = seed.getLsbD i := by
  rw [reseed, BitVec.getLsbD_xor, BitVec.getLsbD_setWidth, BitVec.getLsbD_of_ge _ i hi]
  simp

theorem reseed_inj (r : Byte) : Function.Injective (reseed r) := by
  intro s s' h
  have h1 := reseed_low r s
  rw [h, reseed_low] at h1
  have h2 := congrArg sbox h1
  rw [sbox_invSbox, sbox_invSbox] at h2
  have h3 := congrArg (· ^^^ r) h2
  simp only [BitVec.xor_assoc, BitVec.xor_self, BitVec.xor_zero] at h3
  have h4 := congrArg invSbox h3
  rw [invSbox_sbox, invSbox_sbox] at h4
  rw [reseed, reseed, h4] at h
  have h5 := congrArg (· ^^^ (invSbox (sbox (s.setWidth 8) ^^^ r) ^^^ s.setWidth 8).setWidth 64) h
  simpa only [BitVec.xor_assoc, BitVec.xor_self, BitVec.xor_zero] using h5

theorem set64x_low (hi lo : U64) (i : Nat) (h : i < 8) : X86.byteAt (set64x hi lo) i = (lo >>> (8 * i)).setWidth 8 := by
  apply BitVec.eq_of_getLsbD_eq
  intro j hj
  rw [byteAt_bit _ _ _ hj, set64x, BitVec.getLsbD_append, BitVec.getLsbD_setWidth, BitVec.getLsbD_ushiftRight]
  simp [hj, show 8 * i + j < 64 by omega]

theorem set64x_high (hi lo : U64) (i : Nat) (h : i < 8) :
    X86.byteAt (set64x hi lo) (8 + i) = (hi >>> (8 * i)).setWidth 8 := by
  apply BitVec.eq_of_getLsbD_eq
  intro j hj
  rw [byteAt_bit _ _ _ hj, set64x, BitVec.getLsbD_append, BitVec.getLsbD_setWidth, BitVec.getLsbD_ushiftRight]
  simp [hj, show ¬ 8 * (8 + i) + j < 64 by omega, show 8 * (8 + i) + j - 64 = 8 * i + j by omega]

theorem salt_reseed (r : Byte) (seed len : U64) (key : U128) :
    X86.byteAt (aesenc (set64x (reseed r seed) len) key) 9 = X86.byteAt (aesenc (set64x seed len) key) 9 ^^^ r := by
  have h13 : X86.byteAt (set64x (reseed r seed) len) 13 = X86.byteAt (set64x seed len) 13 := by
    rw [set64x_high _ _ 5 (by decide), set64x_high _ _ 5 (by decide)]
    apply BitVec.eq_of_getLsbD_eq
    intro j hj
    rw [BitVec.getLsbD_setWidth, BitVec.getLsbD_setWidth, BitVec.getLsbD_ushiftRight, BitVec.getLsbD_ushiftRight,
      reseed_high _ _ _ (by omega)]
  have h8 : sbox (X86.byteAt (set64x (reseed r seed) len) 8) = sbox (X86.byteAt (set64x seed len) 8) ^^^ r := by
    rw [set64x_high _ _ 0 (by decide), set64x_high _ _ 0 (by decide), Nat.mul_zero, BitVec.ushiftRight_zero,
      BitVec.ushiftRight_zero, reseed_low, sbox_invSbox]
  rw [aesenc_byte9, aesenc_byte9, h13, h8, set64x_low _ _ 2 (by decide), set64x_low _ _ 2 (by decide),
    set64x_low _ _ 7 (by decide), set64x_low _ _ 7 (by decide)]
  ac_rfl

/-- For one seed of 64, byte 9 of the salt has one of four values. -/
theorem salt_many (len : U64) (key : U128) :
    2 ^ 64 ≤ 64 * {seed : U64 | X86.byteAt (aesenc (set64x seed len) key) 9 ∈ [0, 1, 0xe2, 0xe3]}.ncard := by
  have h := cover_le 64 (fun k => reseed (BitVec.ofNat 8 (2 * k.1))) (fun k => reseed_inj _)
    {seed : U64 | X86.byteAt (aesenc (set64x seed len) key) 9 ∈ [0, 1, 0xe2, 0xe3]} (fun seed => by
      simp only [Set.mem_ofPred_eq, salt_reseed]
      generalize X86.byteAt (aesenc (set64x seed len) key) 9 = b
      revert b
      decide +kernel)
  have h0 : (Set.univ : Set U64).ncard = 2 ^ 64 := by
    rw [Set.ncard_univ, Nat.card_congr (Equiv.ofBijective BitVec.toFin
      ⟨fun _ _ h => BitVec.eq_of_toFin_eq h, fun x => ⟨⟨x⟩, rfl⟩⟩), Nat.card_fin]
  rwa [h0] at h

/-! ## The messages -/

/-- The second of the two first vectors (the other one is zero) -/
def otherFirst : List Byte := [0, 0, 0x58, 0, 0, 0, 0, 0x45, 0xf7, 0, 0, 0, 0, 0xb3, 0, 0]

/-- The change of the second vector -/
def correction : List Byte := [0, 0, 0, 0, 0, 0, 0, 0, 0, 0, 0, 0, 0xc9, 0xf8, 0x84, 0x1e]

theorem otherFirst_enc : aesenc (vecOf otherFirst) 0 = aesenc (vecOf (List.replicate 16 0)) 0 ^^^ single 9 1 := by
  decide +kernel

theorem correction_eq : vecOf correction = invMixColumns (single 13 0xab) := by
  decide +kernel

theorem vec_first (v q : List Byte) (hv : v.length = 16) : Spec.vec (v ++ q) 0 = vecOf v := by
  unfold Spec.vec vecOf
  rw [Nat.mul_zero, List.drop_zero, List.take_left' hv]

theorem vec_skip (v q : List Byte) (i : Nat) (hv : v.length = 16) : Spec.vec (v ++ q) (i + 1) = Spec.vec q i := by
  unfold Spec.vec
  rw [show 16 * (i + 1) = v.length + 16 * i by omega, ← List.drop_drop, List.drop_left]

theorem aesBlockB_twin (s : Spec.XY × U128) (v1 q : List Byte) (h1 : v1.length = 16)
    (hs : X86.byteAt s.2 9 ∈ [0, 1, 0xe2, 0xe3]) :
    Spec.aesBlockB s (otherFirst ++ (xorBytes v1 correction ++ q)) =
      Spec.aesBlockB s (List.replicate 16 0 ++ (v1 ++ q)) := by
  have x1 : (xorBytes v1 correction).length = 16 := by
    simp only [xorBytes, List.length_zipWith, h1]; rfl
  have z : (List.replicate 16 (0 : Byte)).length = 16 := rfl
  have key : aesdec (aesenc (vecOf otherFirst) s.2) (vecOf (xorBytes v1 correction)) =
      aesdec (aesenc (vecOf (List.replicate 16 0)) s.2) (vecOf v1) := by
    have e0 : ∀ v : U128, aesenc v s.2 = aesenc v 0 ^^^ s.2 := by
      intro v
      unfold aesenc
      rw [show (0 : U128) = 0#128 from rfl, BitVec.xor_zero]
    have e1 : aesenc (vecOf otherFirst) s.2 = aesenc (vecOf (List.replicate 16 0)) s.2 ^^^ single 9 1 := by
      rw [e0, e0, otherFirst_enc, BitVec.xor_assoc, BitVec.xor_comm _ s.2, ← BitVec.xor_assoc]
    rw [e1, aesdec_change, vecOf_xor _ _ (by rw [h1]; rfl), correction_eq]
    · unfold aesdec
      generalize invMixColumns (single 13 0xab) = d
      rw [BitVec.xor_assoc, BitVec.xor_assoc, BitVec.xor_self, BitVec.xor_zero]
    · rw [e0, byteAt_xor, show X86.byteAt (aesenc (vecOf (List.replicate 16 0)) 0) 9 = 0x63 by decide +kernel]
      generalize X86.byteAt s.2 9 = b at hs
      revert b
      decide +kernel
  unfold Spec.aesBlockB
  simp only [show List.range 7 = [0, 1, 2, 3, 4, 5, 6] from rfl, List.foldl_cons, List.foldl_nil]
  simp only [vec_skip otherFirst _ _ rfl, vec_first otherFirst _ rfl, vec_skip _ _ _ x1, vec_first _ _ x1,
    vec_skip _ _ _ z, vec_first _ _ z, vec_skip _ _ _ h1, vec_first _ _ h1, key]

theorem t1ha0_aesB_first (b b' q : List Byte) (hb : b.length = 32) (hb' : b'.length = 32) (hq : 96 ≤ q.length)
    (heven : q.length / 16 % 2 = 0) (seed : U64)
    (salt : U128) (hsalt : salt = aesenc (set64x seed (BitVec.ofNat 64 (32 + q.length)))
      (set64x Spec.prime0 Spec.prime1))
    (h : ∀ x : U128, Spec.aesBlockB ({ x := x, y := salt }, salt) (b ++ q.take 96) =
      Spec.aesBlockB ({ x := x, y := salt }, salt) (b' ++ q.take 96)) :
    Spec.t1ha0_aesB (b ++ q) seed = Spec.t1ha0_aesB (b' ++ q) seed := by
  have key : ∀ c : List Byte, c.length = 32 → (c ++ q).length = 32 + q.length ∧
      (c ++ q).take (16 * ((32 + q.length) / 16)) = (c ++ q.take 96) ++ (q.take (16 * (q.length / 16))).drop 96 ∧
      Spec.rest 16 (c ++ q) = Spec.rest 16 q := by
    intro c hc
    refine ⟨by rw [List.length_append, hc], ?_, rest_skip (by decide) _ _ (by rw [hc])⟩
    have h1 : q.take 96 = (q.take (16 * (q.length / 16))).take 96 := by
      rw [List.take_take, Nat.min_eq_left (by omega)]
    rw [List.append_assoc, h1, List.take_append_drop, List.take_append, hc,
      List.take_of_length_le (by omega), show 16 * ((32 + q.length) / 16) - 32 = 16 * (q.length / 16) by omega]
  have kl : ∀ c : List Byte, c.length = 32 → (c ++ q.take 96).length = 128 := by
    intro c hc
    rw [List.length_append, hc, List.length_take]; omega
  have kd : ((q.take (16 * (q.length / 16))).drop 96).length = 16 * (q.length / 16) - 96 := by
    rw [List.length_drop, List.length_take]; omega
  obtain ⟨l1, t1, r1⟩ := key b hb
  obtain ⟨l2, t2, r2⟩ := key b' hb'
  unfold Spec.t1ha0_aesB Spec.len64
  rw [l1, l2, if_pos (by omega), if_pos (by omega)]
  dsimp only
  rw [t1, t2, r1, r2, ← hsalt]
  have n1 : ¬ ((b ++ q.take 96 ++ (q.take (16 * (q.length / 16))).drop 96).length / 16 % 2 = 1) := by
    rw [List.length_append, kl b hb, kd]; omega
  have n2 : ¬ ((b' ++ q.take 96 ++ (q.take (16 * (q.length / 16))).drop 96).length / 16 % 2 = 1) := by
    rw [List.length_append, kl b' hb', kd]; omega
  simp only [if_neg n1, if_neg n2]
  have kb : ∀ (c z : List Byte), c.length = 32 → Spec.blocks 128 (c ++ q.take 96 ++ z) =
      (c ++ q.take 96) :: Spec.blocks 128 z ∧ Spec.rest 128 (c ++ q.take 96 ++ z) = Spec.rest 128 z := by
    intro c z hc
    rw [blocks_skip (by decide) _ _ (by rw [kl c hc]), blocks_one (by decide) _ (kl c hc),
      rest_skip (by decide) _ _ (by rw [kl c hc])]
    exact ⟨rfl, rfl⟩
  rw [(kb b _ hb).1, (kb b _ hb).2, (kb b' _ hb').1, (kb b' _ hb').2]
  simp only [List.foldl_cons, h]

theorem t1ha0_aesB_twin (v1 q : List Byte) (h1 : v1.length = 16) (hq : 96 ≤ q.length)
    (heven : q.length / 16 % 2 = 0) (seed : U64)
    (hs : X86.byteAt (aesenc (set64x seed (BitVec.ofNat 64 (32 + q.length))) (set64x Spec.prime0 Spec.prime1)) 9 ∈
      [0, 1, 0xe2, 0xe3]) :
    Spec.t1ha0_aesB (List.replicate 16 0 ++ v1 ++ q) seed =
      Spec.t1ha0_aesB (otherFirst ++ xorBytes v1 correction ++ q) seed := by
  have x1 : (xorBytes v1 correction).length = 16 := by
    simp only [xorBytes, List.length_zipWith, h1]; rfl
  have l : (List.replicate 16 (0 : Byte) ++ v1).length = 32 := by
    rw [List.length_append, h1, List.length_replicate]
  have l' : (otherFirst ++ xorBytes v1 correction).length = 32 := by
    rw [List.length_append, x1]; rfl
  generalize hsalt : aesenc (set64x seed (BitVec.ofNat 64 (32 + q.length))) (set64x Spec.prime0 Spec.prime1) = salt at hs
  refine t1ha0_aesB_first _ _ q l l' hq heven seed salt hsalt.symm fun x => ?_
  rw [List.append_assoc, List.append_assoc]
  exact (aesBlockB_twin ({ x := x, y := salt }, salt) v1 _ h1 hs).symm

/-- The two messages collide under one seed of 64. -/
theorem t1ha0_aesB_differential (v1 q : List Byte) (h1 : v1.length = 16) (hq : 96 ≤ q.length)
    (heven : q.length / 16 % 2 = 0) :
    2 ^ 64 ≤ 64 * {seed : U64 | Spec.t1ha0_aesB (List.replicate 16 0 ++ v1 ++ q) seed =
      Spec.t1ha0_aesB (otherFirst ++ xorBytes v1 correction ++ q) seed}.ncard := by
  have h := salt_many (BitVec.ofNat 64 (32 + q.length)) (set64x Spec.prime0 Spec.prime1)
  refine le_trans h (Nat.mul_le_mul_left 64 (Set.ncard_le_ncard ?_ (Set.toFinite _)))
  intro seed hs
  exact t1ha0_aesB_twin v1 q h1 hq heven seed hs

end T1ha
