import Verif.Proofs.Xxh3Short

/-!
# XXH3: messages of 17 to 240 bytes
-/

namespace T1ha.Model

variable {cfg : Cfg} {x : Xxh3} {w : World} {ov : Overlay} {P : Ev → Prop} {input secret : Bytes}
  {m s : List Byte} {seed : U64}

/-- Bytes which are read in several parts. -/
theorem here_parts (b : Bytes) {a i n : Nat} {C : Prop} (h : b.here i n a)
    (hC : ∀ p, b = .memory p → p + i ≤ a → a < p + i + n → C) : C := by
  cases b with
  | memory p =>
    simp only [Bytes.here, range] at h
    exact hC p rfl (by omega) (by omega)
  | array l => exact h.elim

section
variable (h : Hashing w ov cfg x P input m secret s)
include h

/-! ## 64 bits -/

theorem Hashing.mixEnds (i k j : Nat) (acc : U64) (hi : i + 16 ≤ m.length) (hk : k ≤ m.length) (h16 : 16 ≤ k)
    (hj : j + 32 ≤ s.length) :
    Reads w ov P (fun a => input.here i 16 a ∨ input.here (m.length - k) 16 a) 0
      (XXH3_mixEnds cfg x input m.length secret seed i k j acc)
      (acc + Spec.xxh3Mix16 m s seed i j + Spec.xxh3Mix16 m s seed (m.length - k) (j + 16)) := by
  unfold XXH3_mixEnds
  refine Exec.cov (Reads.bind (h.mix16B i j seed hi (by omega)) <|
    Reads.bind (C₂ := nowhere) (n₂ := 0) (h.mix16B (m.length - k) (j + 16) seed (by omega) (by omega)) (Reads.pure _))
    ?_ rfl
  rintro a (ha | ha)
  · exact Or.inl ha
  · exact Or.inr (Or.inl ha)

variable (hs : 136 ≤ s.length)
include hs

theorem Hashing.len_17to128 (h1 : 16 < m.length) (h2 : m.length ≤ 128) :
    Reads w ov P (input.here 0 m.length) 0 (XXH3_len_17to128_64b cfg x input m.length secret s.length seed)
      (Spec.xxh3Middle m s seed) := by
  unfold XXH3_len_17to128_64b
  refine assert_ok (fun _ => by simpa using hs) <| assert_ok (fun _ => by simp; omega) ?_
  unfold Spec.xxh3Middle
  have hn : (m.length ≤ 32 ∧ (m.length + 31) / 32 = 1) ∨ (32 < m.length ∧ m.length ≤ 64 ∧ (m.length + 31) / 32 = 2) ∨
    (64 < m.length ∧ m.length ≤ 96 ∧ (m.length + 31) / 32 = 3) ∨ (96 < m.length ∧ (m.length + 31) / 32 = 4) := by
    omega
  dsimp only
  rcases hn with ⟨a, e⟩ | ⟨a, b, e⟩ | ⟨a, b, e⟩ | ⟨a, e⟩
  · rw [e, if_neg (by omega)]
    refine Exec.cov (Reads.bind (C₁ := nowhere) (n₁ := 0) (Reads.pure _) <|
      Reads.bind (C₂ := nowhere) (n₂ := 0) (h.mixEnds 0 16 0 _ (by omega) (by omega) (by omega) (by omega))
        (reads_pure rfl)) ?_ rfl
    intro a ha
    refine here_parts input ha ?_
    rintro p rfl _ _
    simp only [Bytes.here, range, nowhere]
    omega
  · rw [e, if_pos (by omega), if_neg (by omega)]
    refine Exec.cov (Reads.bind (Reads.bind (C₁ := nowhere) (n₁ := 0) (Reads.pure _) <|
      h.mixEnds 16 32 32 _ (by omega) (by omega) (by omega) (by omega)) <|
      Reads.bind (C₂ := nowhere) (n₂ := 0) (h.mixEnds 0 16 0 _ (by omega) (by omega) (by omega) (by omega))
        (reads_pure rfl)) ?_ rfl
    intro a ha
    refine here_parts input ha ?_
    rintro p rfl _ _
    simp only [Bytes.here, range, nowhere]
    omega
  · rw [e, if_pos (by omega), if_pos (by omega), if_neg (by omega)]
    refine Exec.cov (Reads.bind (Reads.bind (Reads.bind (C₁ := nowhere) (n₁ := 0) (Reads.pure _) <|
      h.mixEnds 32 48 64 _ (by omega) (by omega) (by omega) (by omega)) <|
      h.mixEnds 16 32 32 _ (by omega) (by omega) (by omega) (by omega)) <|
      Reads.bind (C₂ := nowhere) (n₂ := 0) (h.mixEnds 0 16 0 _ (by omega) (by omega) (by omega) (by omega))
        (reads_pure rfl)) ?_ rfl
    intro a ha
    refine here_parts input ha ?_
    rintro p rfl _ _
    simp only [Bytes.here, range, nowhere]
    omega
  · rw [e, if_pos (by omega), if_pos (by omega), if_pos (by omega)]
    refine Exec.cov (Reads.bind (Reads.bind (Reads.bind (h.mixEnds 48 64 96 _ (by omega) (by omega) (by omega) (by omega)) <|
      h.mixEnds 32 48 64 _ (by omega) (by omega) (by omega) (by omega)) <|
      h.mixEnds 16 32 32 _ (by omega) (by omega) (by omega) (by omega)) <|
      Reads.bind (C₂ := nowhere) (n₂ := 0) (h.mixEnds 0 16 0 _ (by omega) (by omega) (by omega) (by omega))
        (reads_pure rfl)) ?_ rfl
    intro a ha
    refine here_parts input ha ?_
    rintro p rfl _ _
    simp only [Bytes.here, range, nowhere]
    omega

omit hs in
theorem Hashing.mixLoop (todo i j : Nat) (acc : U64) (hi : i + 16 * todo ≤ m.length) (hj : j + 16 * todo ≤ s.length) :
    Reads w ov P (input.here i (16 * todo)) todo (XXH3_mixLoop cfg x input secret seed todo i j acc)
      ((List.range todo).foldl (fun acc t => acc + Spec.xxh3Mix16 m s seed (i + 16 * t) (j + 16 * t)) acc) := by
  induction todo generalizing i j acc with
  | zero => exact Exec.cov (Reads.pure acc) (fun a ha => (here_nothing input i ha).elim) rfl
  | succ todo ih =>
    unfold XXH3_mixLoop
    refine Exec.cov (Reads.bind (Reads.iterate h.msg.iter) <| Reads.bind (h.mix16B i j seed (by omega) (by omega)) <|
      Exec.post (ih (i + 16) (j + 16) (acc + Spec.xxh3Mix16 m s seed i j) (by omega) (by omega)) ?_) ?_ (by omega)
    · rintro _ _ ⟨rfl, rfl⟩
      refine ⟨?_, rfl⟩
      rw [List.range_succ_eq_map, List.foldl_cons, List.foldl_map]
      simp only [Nat.mul_zero, Nat.add_zero, Nat.succ_eq_add_one, Nat.mul_add, Nat.mul_one, Nat.add_assoc,
        Nat.add_comm 16]
    · intro a ha
      refine here_parts input ha ?_
      rintro p rfl _ _
      simp only [Bytes.here, range, nowhere]
      omega

theorem Hashing.len_129to240 (h1 : 128 < m.length) (h2 : m.length ≤ 240) :
    Reads w ov P (input.here 0 m.length) (m.length / 16)
      (XXH3_len_129to240_64b cfg x input m.length secret s.length seed) (Spec.xxh3Large m s seed) := by
  unfold XXH3_len_129to240_64b
  refine assert_ok (fun _ => by simpa using hs) <| assert_ok (fun _ => by simp; omega) ?_
  refine Exec.cov (Reads.bind (h.mixLoop 8 0 0 _ (by omega) (by omega)) <| assert_ok (fun _ => by simp; omega) <|
    Reads.bind (h.mixLoop (m.length / 16 - 8) (16 * 8) 3 _ (by omega) (by omega)) <|
    Reads.bind (C₂ := nowhere) (n₂ := 0) (h.mix16B (m.length - 16) (136 - 17) seed (by omega) (by omega)) <|
      reads_pure ?_) ?_ (by omega)
  · unfold Spec.xxh3Large
    simp only [avalanche3_eq]
    congr 2
    simp only [Nat.zero_add, Nat.mul_add, Nat.add_comm 3, Nat.add_comm (16 * 8)]
    rfl
  · intro a ha
    refine here_parts input ha ?_
    rintro p rfl _ _
    simp only [Bytes.here, range, nowhere]
    omega

/-! ## 128 bits -/

omit hs in
theorem Hashing.mix32B (acc : Hash128) (i k j : Nat) (seed : U64) (hi : i + 16 ≤ m.length) (hk : k + 16 ≤ m.length)
    (hj : j + 32 ≤ s.length) :
    Reads w ov P (fun a => input.here i 16 a ∨ input.here k 16 a) 0
      (XXH128_mix32B cfg x input secret acc i k j seed) (Spec.xxh3Mix32 m s seed acc i k j) := by
  unfold XXH128_mix32B
  refine Exec.cov (Reads.bind (h.mix16B i j seed hi (by omega)) <| Exec.bindR (h.in64 k (by omega)).uncovered <|
    Exec.bindR (h.in64 (k + 8) (by omega)).uncovered <| Exec.bindL (h.mix16B k (j + 16) seed hk (by omega)) ?_) ?_ rfl
  · rintro _ _ ⟨rfl, rfl⟩
    exact Exec.bindR (h.in64 i (by omega)).uncovered <| Exec.bindR (h.in64 (i + 8) (by omega)).uncovered <|
      Reads.pure _
  · rintro a (ha | ha)
    · exact Or.inl ha
    · exact Or.inr ha

omit h hs in
theorem xxh3Final128_eq (acc : Hash128) : XXH3_final128 m.length seed acc = Spec.xxh3Final128 m seed acc := by
  unfold XXH3_final128 Spec.xxh3Final128
  dsimp only
  rw [show ∀ v : U64, 0 - v = -v from fun v => by simp]
  rfl

theorem Hashing.len_17to128_128 (h1 : 16 < m.length) (h2 : m.length ≤ 128) :
    Reads w ov P (input.here 0 m.length) 0 (XXH3_len_17to128_128b cfg x input m.length secret s.length seed)
      (Spec.xxh3Middle128 m s seed) := by
  unfold XXH3_len_17to128_128b
  refine assert_ok (fun _ => by simpa using hs) <| assert_ok (fun _ => by simp; omega) ?_
  unfold Spec.xxh3Middle128
  have hn : (m.length ≤ 32 ∧ (m.length + 31) / 32 = 1) ∨ (32 < m.length ∧ m.length ≤ 64 ∧ (m.length + 31) / 32 = 2) ∨
    (64 < m.length ∧ m.length ≤ 96 ∧ (m.length + 31) / 32 = 3) ∨ (96 < m.length ∧ (m.length + 31) / 32 = 4) := by
    omega
  simp only [xxh3Final128_eq]
  rcases hn with ⟨a, e⟩ | ⟨a, b, e⟩ | ⟨a, b, e⟩ | ⟨a, e⟩
  · rw [e, if_neg (by omega)]
    refine Exec.cov (Reads.bind (C₁ := nowhere) (n₁ := 0) (Reads.pure _) <|
      Reads.bind (C₂ := nowhere) (n₂ := 0) (h.mix32B _ 0 (m.length - 16) 0 seed (by omega) (by omega) (by omega))
        (reads_pure rfl)) ?_ rfl
    intro a ha
    refine here_parts input ha ?_
    rintro p rfl _ _
    simp only [Bytes.here, range, nowhere]
    omega
  · rw [e, if_pos (by omega), if_neg (by omega)]
    refine Exec.cov (Reads.bind (Reads.bind (C₁ := nowhere) (n₁ := 0) (Reads.pure _) <|
      h.mix32B _ 16 (m.length - 32) 32 seed (by omega) (by omega) (by omega)) <|
      Reads.bind (C₂ := nowhere) (n₂ := 0) (h.mix32B _ 0 (m.length - 16) 0 seed (by omega) (by omega) (by omega))
        (reads_pure rfl)) ?_ rfl
    intro a ha
    refine here_parts input ha ?_
    rintro p rfl _ _
    simp only [Bytes.here, range, nowhere]
    omega
  · rw [e, if_pos (by omega), if_pos (by omega), if_neg (by omega)]
    refine Exec.cov (Reads.bind (Reads.bind (Reads.bind (C₁ := nowhere) (n₁ := 0) (Reads.pure _) <|
      h.mix32B _ 32 (m.length - 48) 64 seed (by omega) (by omega) (by omega)) <|
      h.mix32B _ 16 (m.length - 32) 32 seed (by omega) (by omega) (by omega)) <|
      Reads.bind (C₂ := nowhere) (n₂ := 0) (h.mix32B _ 0 (m.length - 16) 0 seed (by omega) (by omega) (by omega))
        (reads_pure rfl)) ?_ rfl
    intro a ha
    refine here_parts input ha ?_
    rintro p rfl _ _
    simp only [Bytes.here, range, nowhere]
    omega
  · rw [e, if_pos (by omega), if_pos (by omega), if_pos (by omega)]
    refine Exec.cov (Reads.bind (Reads.bind (Reads.bind
      (h.mix32B _ 48 (m.length - 64) 96 seed (by omega) (by omega) (by omega)) <|
      h.mix32B _ 32 (m.length - 48) 64 seed (by omega) (by omega) (by omega)) <|
      h.mix32B _ 16 (m.length - 32) 32 seed (by omega) (by omega) (by omega)) <|
      Reads.bind (C₂ := nowhere) (n₂ := 0) (h.mix32B _ 0 (m.length - 16) 0 seed (by omega) (by omega) (by omega))
        (reads_pure rfl)) ?_ rfl
    intro a ha
    refine here_parts input ha ?_
    rintro p rfl _ _
    simp only [Bytes.here, range, nowhere]
    omega

omit hs in
theorem Hashing.mixLoop128 (todo i j : Nat) (acc : Hash128) (hi : i + 32 * todo ≤ m.length)
    (hj : j + 32 * todo ≤ s.length) :
    Reads w ov P (input.here i (32 * todo)) todo (XXH128_mixLoop cfg x input secret seed todo i j acc)
      ((List.range todo).foldl
        (fun acc t => Spec.xxh3Mix32 m s seed acc (i + 32 * t) (i + 32 * t + 16) (j + 32 * t)) acc) := by
  induction todo generalizing i j acc with
  | zero => exact Exec.cov (Reads.pure acc) (fun a ha => (here_nothing input i ha).elim) rfl
  | succ todo ih =>
    unfold XXH128_mixLoop
    refine Exec.cov (Reads.bind (Reads.iterate h.msg.iter) <|
      Reads.bind (h.mix32B acc i (i + 16) j seed (by omega) (by omega) (by omega)) <|
      Exec.post (ih (i + 32) (j + 32) (Spec.xxh3Mix32 m s seed acc i (i + 16) j) (by omega) (by omega)) ?_) ?_ (by omega)
    · rintro _ _ ⟨rfl, rfl⟩
      refine ⟨?_, rfl⟩
      rw [List.range_succ_eq_map, List.foldl_cons, List.foldl_map]
      simp only [Nat.mul_zero, Nat.add_zero, Nat.succ_eq_add_one, Nat.mul_add, Nat.mul_one, Nat.add_assoc,
        Nat.add_comm 32]
    · intro a ha
      refine here_parts input ha ?_
      rintro p rfl _ _
      simp only [Bytes.here, range, nowhere]
      omega

theorem Hashing.len_129to240_128 (h1 : 128 < m.length) (h2 : m.length ≤ 240) :
    Reads w ov P (input.here 0 m.length) (m.length / 32)
      (XXH3_len_129to240_128b cfg x input m.length secret s.length seed) (Spec.xxh3Large128 m s seed) := by
  unfold XXH3_len_129to240_128b
  refine assert_ok (fun _ => by simpa using hs) <| assert_ok (fun _ => by simp; omega) ?_
  refine Exec.cov (Reads.bind (h.mixLoop128 4 0 0 _ (by omega) (by omega)) <| assert_ok (fun _ => by simp; omega) <|
    Reads.bind (h.mixLoop128 (m.length / 32 - 4) (32 * 4) 3 _ (by omega) (by omega)) <|
    Reads.bind (C₂ := nowhere) (n₂ := 0)
      (h.mix32B _ (m.length - 16) (m.length - 32) (136 - 17 - 16) (0 - seed) (by omega) (by omega) (by omega)) <|
      reads_pure ?_) ?_ (by omega)
  · unfold Spec.xxh3Large128
    rw [xxh3Final128_eq]
    simp only [avalanche3_eq]
    rw [show 0 - seed = -seed by simp]
    congr 2
    simp only [Nat.zero_add, Nat.mul_add, Nat.add_comm 3, Nat.add_comm (32 * 4)]
    rfl
  · intro a ha
    refine here_parts input ha ?_
    rintro p rfl _ _
    simp only [Bytes.here, range, nowhere]
    omega

end

end T1ha.Model
