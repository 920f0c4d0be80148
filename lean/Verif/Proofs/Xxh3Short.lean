import Verif.Proofs.Xxh3Basic

/-!
# XXH3: messages of at most 240 bytes
-/

namespace T1ha.Model

variable {cfg : Cfg} {x : Xxh3} {w : World} {ov : Overlay} {P : Ev → Prop} {input secret : Bytes}
  {m s : List Byte} {seed : U64}

theorem avalanche64_eq (h : U64) : XXH64_avalanche h = Spec.xxh64Avalanche h := rfl

/-! ## At most 16 bytes -/

theorem combined_value (c1 c2 c3 : Byte) (n : Nat) (hn : n < 256) :
    (c1.setWidth 32 <<< 16) ||| (c2.setWidth 32 <<< 24) ||| (c3.setWidth 32 <<< 0) ||| (BitVec.ofNat 32 n <<< 8) =
      Spec.num32 [c3, BitVec.ofNat 8 n, c1, c2] := by
  rw [← num32_four, show (BitVec.ofNat 8 n).setWidth 32 = BitVec.ofNat 32 n from by
    apply BitVec.eq_of_toNat_eq
    rw [BitVec.toNat_setWidth, BitVec.toNat_ofNat, BitVec.toNat_ofNat]
    omega, BitVec.shiftLeft_zero]
  rw [BitVec.or_comm _ (c3.setWidth 32), BitVec.or_assoc, BitVec.or_comm _ (BitVec.ofNat 32 n <<< 8)]
  simp only [BitVec.or_assoc]

/-- Both ways to add the high half. -/
theorem high_either (k : U64) : (k &&& 0xFFFFFFFF00000000#64) +
      XXH_mult32to64 ((k.setWidth 32).setWidth 64) (XXH_PRIME32_2.setWidth 64) =
    k + XXH_mult32to64 ((k.setWidth 32).setWidth 64) ((XXH_PRIME32_2 - 1).setWidth 64) := by
  unfold XXH_mult32to64
  rw [low_low_half]
  have hk : k = (k &&& 0xFFFFFFFF00000000#64) + (k.setWidth 32).setWidth 64 := by
    rw [← and_low_half, BitVec.add_eq_or_of_and_eq_zero]
    · rw [← BitVec.and_or_distrib_left]
      rw [show (0xFFFFFFFF00000000#64 ||| 0xFFFFFFFF#64) = BitVec.allOnes 64 from rfl, BitVec.and_allOnes]
    · rw [BitVec.and_assoc, ← BitVec.and_assoc (0xFFFFFFFF00000000#64) k, BitVec.and_comm (0xFFFFFFFF00000000#64) k,
        BitVec.and_assoc k, show (0xFFFFFFFF00000000#64 &&& 0xFFFFFFFF#64) = 0#64 from rfl, BitVec.and_zero,
        BitVec.and_zero]
  conv => rhs; lhs; rw [hk]
  rw [BitVec.add_assoc]
  congr 1
  generalize (k.setWidth 32).setWidth 64 = l
  rw [show (XXH_PRIME32_2.setWidth 64 : U64).setWidth 32 = XXH_PRIME32_2 from rfl,
    show ((XXH_PRIME32_2 - 1).setWidth 64 : U64).setWidth 32 = XXH_PRIME32_2 - 1 from rfl,
    show (XXH_PRIME32_2.setWidth 64 : U64) = 1#64 + (XXH_PRIME32_2 - 1).setWidth 64 from rfl, BitVec.mul_add,
    BitVec.mul_one]

section
variable (h : Hashing w ov cfg x P input m secret s)
include h

theorem Hashing.combined (h1 : 0 < m.length) (h3 : m.length ≤ 3) :
    Reads w ov P (input.here 0 m.length) 0 (XXH3_combined input m.length) (Spec.xxh3Combined m) := by
  unfold XXH3_combined
  have h2 : m.length >>> 1 < m.length := by rw [Nat.shiftRight_eq_div_pow]; omega
  refine Exec.cov (Reads.bind (h.msg.byte 0 h1) <| Reads.bind (h.msg.byte (m.length >>> 1) h2) <|
    Reads.bind (C₂ := nowhere) (n₂ := 0) (h.msg.byte (m.length - 1) (by omega)) ?_) ?_ rfl
  · refine reads_pure ?_
    unfold Spec.xxh3Combined
    rw [combined_value _ _ _ _ (by omega)]
    simp only [Nat.shiftRight_eq_div_pow, Nat.pow_one]
    rw [List.getD_eq_getElem?_getD, List.getD_eq_getElem?_getD, List.getD_eq_getElem?_getD,
      List.getElem?_eq_getElem h1, List.getElem?_eq_getElem (show m.length - 1 < _ by omega),
      List.getElem?_eq_getElem (show m.length / 2 < _ by omega)]
    rfl
  · intro a ha
    obtain ⟨k, hk, ha⟩ := input.here_bytes ha
    rw [Nat.zero_add] at ha
    rw [Nat.shiftRight_eq_div_pow]
    have : k = 0 ∨ k = m.length / 2 ^ 1 ∨ k = m.length - 1 := by omega
    rcases this with rfl | rfl | rfl
    · exact Or.inl ha
    · exact Or.inr (Or.inl ha)
    · exact Or.inr (Or.inr (Or.inl ha))

variable (hs : 136 ≤ s.length) (hn : x.debug = true → m.length ≠ 0 → input.isNull = false)
  (hk : x.debug = true → secret.isNull = false)
include hs hn hk

theorem Hashing.len_1to3 (h1 : 0 < m.length) (h3 : m.length ≤ 3) :
    Reads w ov P (input.here 0 m.length) 0 (XXH3_len_1to3_64b cfg x input m.length secret seed)
      (Spec.xxh3Short m s seed) := by
  unfold XXH3_len_1to3_64b
  refine assert_ok (fun hd => by rw [hn hd (by omega)]; rfl) <| assert_ok (fun hd => by simp; omega) <|
    assert_ok (fun hd => by rw [hk hd]; rfl) <| Exec.bindL (h.combined h1 h3) ?_
  rintro _ _ ⟨rfl, rfl⟩
  refine Exec.bindR (h.flip32 0 4 (by omega) (by omega)) (reads_pure ?_)
  unfold Spec.xxh3Short
  rw [if_neg (by omega), if_pos h3]
  rfl

theorem Hashing.len_4to8 (h1 : 4 ≤ m.length) (h3 : m.length ≤ 8) (h8 : x.debug = true → m.length ≠ 8) :
    Reads w ov P (input.here 0 m.length) 0 (XXH3_len_4to8_64b cfg x input m.length secret seed)
      (Spec.xxh3Short m s seed) := by
  unfold XXH3_len_4to8_64b
  refine assert_ok (fun hd => by rw [hn hd (by omega)]; rfl) <| assert_ok (fun hd => by rw [hk hd]; rfl) <|
    assert_ok (fun hd => by have := h8 hd; simp; omega) <| Exec.cov (Reads.bind (h.in32 0 (by omega)) <|
      Exec.bindL (h.in32 (m.length - 4) (by omega)) ?_) ?_ rfl
  · rintro _ _ ⟨rfl, rfl⟩
    refine Exec.bindR (h.flip64 8 16 (by omega) (by omega)) (reads_pure ?_)
    unfold Spec.xxh3Short
    rw [if_neg (by omega), if_neg (by omega), if_pos h3, rrmxmx_eq, seed4to8_eq]
    rfl
  · intro a ha
    cases input with
    | memory p => simp only [Bytes.here, range] at *; omega
    | array l => exact ha.elim

theorem Hashing.len_9to16 (h1 : 9 ≤ m.length) (h3 : m.length ≤ 16) :
    Reads w ov P (input.here 0 m.length) 0 (XXH3_len_9to16_64b cfg x input m.length secret seed)
      (Spec.xxh3Short m s seed) := by
  unfold XXH3_len_9to16_64b
  refine assert_ok (fun hd => by rw [hn hd (by omega)]; rfl) <| assert_ok (fun hd => by rw [hk hd]; rfl) <|
    assert_ok (fun hd => by simp; omega) <| Exec.bindR (h.flip64 24 32 (by omega) (by omega)) <|
    Exec.bindR (h.flip64 40 48 (by omega) (by omega)) <| Exec.cov (Reads.bind (h.in64 0 (by omega)) <|
      Exec.bindL (h.in64 (m.length - 8) (by omega)) ?_) ?_ rfl
  · rintro _ _ ⟨rfl, rfl⟩
    refine reads_pure ?_
    unfold Spec.xxh3Short
    rw [if_neg (by omega), if_neg (by omega), if_neg (by omega), fold64_eq, xxh_swap64_eq]
    rfl
  · intro a ha
    cases input with
    | memory p => simp only [Bytes.here, range] at *; omega
    | array l => exact ha.elim

theorem Hashing.len_0to16 (h3 : m.length ≤ 16) (h8 : x.debug = true → m.length ≠ 8) :
    Reads w ov P (input.here 0 m.length) 0 (XXH3_len_0to16_64b cfg x input m.length secret seed)
      (Spec.xxh3Short m s seed) := by
  unfold XXH3_len_0to16_64b
  refine assert_ok (fun hd => by simp; omega) ?_
  split
  · exact h.len_9to16 hs hn hk (by omega) h3
  · split
    · exact h.len_4to8 hs hn hk (by omega) (by omega) h8
    · split
      · exact h.len_1to3 hs hn hk (by omega) (by omega)
      · have h0 : m.length = 0 := by omega
        refine Exec.cov (Exec.bindR (h.flip64 56 64 (by omega) (by omega)) (reads_pure ?_)) ?_ rfl
        · unfold Spec.xxh3Short
          rw [if_pos h0]
          rfl
        · intro a ha
          rw [h0] at ha
          exact (here_nothing input 0 ha).elim

theorem Hashing.len_1to3_128 (h1 : 0 < m.length) (h3 : m.length ≤ 3) :
    Reads w ov P (input.here 0 m.length) 0 (XXH3_len_1to3_128b cfg x input m.length secret seed)
      (Spec.xxh3Short128 m s seed) := by
  unfold XXH3_len_1to3_128b
  refine assert_ok (fun hd => by rw [hn hd (by omega)]; rfl) <| assert_ok (fun hd => by simp; omega) <|
    assert_ok (fun hd => by rw [hk hd]; rfl) <| Exec.bindL (h.combined h1 h3) ?_
  rintro _ _ ⟨rfl, rfl⟩
  refine Exec.bindR (h.flip32 0 4 (by omega) (by omega)) <| Exec.bindR (h.flip32 8 12 (by omega) (by omega)) <|
    reads_pure ?_
  unfold Spec.xxh3Short128
  rw [if_neg (by omega), if_pos h3, xxh_rotl32_eq, xxh_swap32_eq]
  rfl

theorem Hashing.len_4to8_128 (h1 : 4 ≤ m.length) (h3 : m.length ≤ 8) :
    Reads w ov P (input.here 0 m.length) 0 (XXH3_len_4to8_128b cfg x input m.length secret seed)
      (Spec.xxh3Short128 m s seed) := by
  unfold XXH3_len_4to8_128b
  refine assert_ok (fun hd => by rw [hn hd (by omega)]; rfl) <| assert_ok (fun hd => by rw [hk hd]; rfl) <|
    assert_ok (fun hd => by simp; omega) <| Exec.cov (Reads.bind (h.in32 0 (by omega)) <|
      Exec.bindL (h.in32 (m.length - 4) (by omega)) ?_) ?_ rfl
  · rintro _ _ ⟨rfl, rfl⟩
    refine Exec.bindR (h.flip64 16 24 (by omega) (by omega)) (reads_pure ?_)
    have hq : BitVec.ofNat 64 (m.length <<< 2) = 4 * Spec.len64 m := by
      unfold Spec.len64
      apply BitVec.eq_of_toNat_eq
      rw [BitVec.toNat_ofNat, BitVec.toNat_mul, BitVec.toNat_ofNat, Nat.shiftLeft_eq, show (4 : U64).toNat = 4 from rfl]
      omega
    have hd : ∀ v : U64, v <<< 1 = 2 * v := by
      intro v
      apply BitVec.eq_of_toNat_eq
      rw [BitVec.toNat_shiftLeft, BitVec.toNat_mul, Nat.shiftLeft_eq, show (2 : U64).toNat = 2 from rfl]
      omega
    unfold Spec.xxh3Short128
    rw [if_neg (by omega), if_neg (by omega), if_pos h3, seed4to8_eq]
    simp only [mult64to128_eq, hq, hd]
    rfl
  · intro a ha
    cases input with
    | memory p => simp only [Bytes.here, range] at *; omega
    | array l => exact ha.elim

theorem Hashing.len_9to16_128 (h1 : 9 ≤ m.length) (h3 : m.length ≤ 16) :
    Reads w ov P (input.here 0 m.length) 0 (XXH3_len_9to16_128b cfg x input m.length secret seed)
      (Spec.xxh3Short128 m s seed) := by
  unfold XXH3_len_9to16_128b
  refine assert_ok (fun hd => by rw [hn hd (by omega)]; rfl) <| assert_ok (fun hd => by rw [hk hd]; rfl) <|
    assert_ok (fun hd => by simp; omega) <| Exec.bindR (h.flip64 32 40 (by omega) (by omega)) <|
    Exec.bindR (h.flip64 48 56 (by omega) (by omega)) <| Exec.cov (Reads.bind (h.in64 0 (by omega)) <|
      Exec.bindL (h.in64 (m.length - 8) (by omega)) ?_) ?_ rfl
  · rintro _ _ ⟨rfl, rfl⟩
    refine reads_pure ?_
    have hl : BitVec.ofNat 64 (m.length - 1) = Spec.len64 m - 1 := by
      unfold Spec.len64
      apply BitVec.eq_of_toNat_eq
      rw [BitVec.toNat_ofNat, BitVec.toNat_sub, BitVec.toNat_ofNat, show (1 : U64).toNat = 1 from rfl]
      omega
    unfold Spec.xxh3Short128
    rw [if_neg (show ¬ m.length = 0 by omega), if_neg (show ¬ m.length ≤ 3 by omega),
      if_neg (show ¬ m.length ≤ 8 by omega)]
    simp only [mult64to128_eq, hl, high_either, ite_self, xxh_swap64_eq, avalanche3_eq]
    have e : ∀ k : U64, k + XXH_mult32to64 ((k.setWidth 32).setWidth 64) ((XXH_PRIME32_2 - 1).setWidth 64) =
        k + (k &&& 0xFFFFFFFF#64) * (Spec.xxhP2.setWidth 64 - 1) := by
      intro k
      unfold XXH_mult32to64
      rw [and_low_half, low_low_half]
      rfl
    simp only [e, ← BitVec.add_assoc]
    rfl
  · intro a ha
    cases input with
    | memory p => simp only [Bytes.here, range] at *; omega
    | array l => exact ha.elim

theorem Hashing.len_0to16_128 (h3 : m.length ≤ 16) :
    Reads w ov P (input.here 0 m.length) 0 (XXH3_len_0to16_128b cfg x input m.length secret seed)
      (Spec.xxh3Short128 m s seed) := by
  unfold XXH3_len_0to16_128b
  refine assert_ok (fun hd => by simp; omega) ?_
  split
  · exact h.len_9to16_128 hs hn hk (by omega) h3
  · split
    · exact h.len_4to8_128 hs hn hk (by omega) (by omega)
    · split
      · exact h.len_1to3_128 hs hn hk (by omega) (by omega)
      · have h0 : m.length = 0 := by omega
        refine Exec.cov (Exec.bindR (h.flip64 64 72 (by omega) (by omega)) <|
          Exec.bindR (h.flip64 80 88 (by omega) (by omega)) (reads_pure ?_)) ?_ rfl
        · unfold Spec.xxh3Short128
          rw [if_pos h0]
          rfl
        · intro a ha
          rw [h0] at ha
          exact (here_nothing input 0 ha).elim

end

end T1ha.Model
