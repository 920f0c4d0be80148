import Verif.Proofs.OneShot

/-!
# The empty message
-/

namespace T1ha.Model

variable {w : World} {ov : Overlay} {cfg : Cfg}

theorem words64_nil (e : Endian) : Spec.words64 e [] = [] := by
  simp [Spec.words64, chunks]

theorem words32_nil (e : Endian) : Spec.words32 e [] = [] := by
  simp [Spec.words32, chunks]

theorem t1ha1_body_empty (e : Endian) (al : Aligness) (data : Nat) (seed : U64) :
    t1ha1_body cfg e al data 0 seed = pure (Spec.t1ha1 e [] seed) := by
  unfold t1ha1_body Spec.t1ha1
  rw [if_neg (by decide), t1ha1_tail_eq]
  simp only [steps, Nat.not_lt_zero, if_false, pure_bind, List.length_nil, gt_iff_lt]
  rw [t1ha1Tail_eq, words64_nil]
  rfl

theorem t1ha1_empty (e : Endian) (data : Nat) (seed : U64) :
    t1ha1 cfg e data 0 seed = pure (Spec.t1ha1 e [] seed) := by
  unfold t1ha1
  simp only [t1ha1_body_empty, ite_self]

theorem atonce_body_empty (al : Aligness) (g : State256) (data : Nat) (seed : U64) :
    t1ha2_atonce_body cfg al g data 0 seed = pure (Spec.t1ha2_atonce [] seed) := by
  unfold t1ha2_atonce_body Spec.t1ha2_atonce
  rw [if_neg (by decide), t1ha2_TAIL_AB, t1ha2_TAIL_AB_mix_eq]
  simp only [steps, Nat.not_lt_zero, if_false, pure_bind, List.length_nil, gt_iff_lt]
  rw [words64_nil, final64_eq]
  rfl

theorem atonce_empty (g : State256) (data : Nat) (seed : U64) :
    t1ha2_atonce cfg g data 0 seed = pure (Spec.t1ha2_atonce [] seed) := by
  unfold t1ha2_atonce
  simp only [atonce_body_empty, ite_self]

theorem exec_atonce128_body_empty {extra : Nat} (al : Aligness) (hw : Writable w extra 8) (g : State256)
    (data : Nat) (seed : U64) :
    Exec w ov (fun x => x = .wr extra 8) nowhere 0 (t1ha2_atonce128_body cfg al g extra data 0 seed)
      (fun x o => x = (Spec.t1ha2_atonce128 [] seed).1 ∧
        o = put ov extra (cfg.endian.bytes 8 (Spec.t1ha2_atonce128 [] seed).2.toNat)) := by
  unfold t1ha2_atonce128_body
  rw [if_neg (by decide), t1ha2_TAIL_ABCD, t1ha2_TAIL_ABCD_mix_eq]
  simp only [steps, Nat.not_lt_zero, if_false, pure_bind]
  have e : Spec.t1ha2_atonce128 [] seed = final128 cfg
      (init_cd (init_ab g seed (BitVec.ofNat 64 0)) seed (BitVec.ofNat 64 0)).a
      (init_cd (init_ab g seed (BitVec.ofNat 64 0)) seed (BitVec.ofNat 64 0)).b
      (init_cd (init_ab g seed (BitVec.ofNat 64 0)) seed (BitVec.ofNat 64 0)).c
      (init_cd (init_ab g seed (BitVec.ofNat 64 0)) seed (BitVec.ofNat 64 0)).d := by
    rw [final128_eq]
    have hi := init_eq g seed (BitVec.ofNat 64 0)
    simp only [State256.spec] at hi
    rw [hi]
    unfold Spec.t1ha2_atonce128
    rw [if_neg (by simp), words64_nil]
    rfl
  rw [e]
  refine Exec.bindL (Exec.writeInt hw rfl) (fun _ o ho => Exec.pure _ ⟨rfl, ?_⟩)
  rw [ho]

theorem exec_atonce128_empty {extra : Nat} (hw : Writable w extra 8) (g : State256) (data : Nat)
    (seed : U64) :
    Exec w ov (fun x => x = .wr extra 8) nowhere 0 (t1ha2_atonce128 cfg g extra data 0 seed)
      (fun x o => x = (Spec.t1ha2_atonce128 [] seed).1 ∧
        o = put ov extra (cfg.endian.bytes 8 (Spec.t1ha2_atonce128 [] seed).2.toNat)) := by
  unfold t1ha2_atonce128
  by_cases he : cfg.unaligned = .efficient
  · rw [if_pos he]
    exact exec_atonce128_body_empty _ hw g data seed
  · rw [if_neg he]
    by_cases hm : (data &&& (cfg.alignment64 - 1) != 0) = true
    · simp only [if_pos hm]
      exact exec_atonce128_body_empty _ hw g data seed
    · simp only [if_neg hm]
      exact exec_atonce128_body_empty _ hw g data seed

theorem t1ha0_body_empty (e : Endian) (al : Aligness) (data : Nat) (seed : U64) :
    t1ha0_body cfg e al data 0 seed = pure (Spec.t1ha0_32 e [] seed) := by
  unfold t1ha0_body Spec.t1ha0_32
  simp only [setWidth_seed_hi]
  simp only [setWidth_seed, rot32_eq, List.length_nil]
  generalize BitVec.rotateRight (BitVec.ofNat 32 0) 17 + BitVec.ofNat 32 seed.toNat = a
  generalize BitVec.ofNat 32 0 ^^^ BitVec.ofNat 32 (seed.toNat / 2 ^ 32) = b
  rw [if_neg (by decide), t1ha0_tail_eq]
  simp only [steps, Nat.not_lt_zero, if_false, pure_bind, gt_iff_lt]
  rw [words32_nil]
  rfl

theorem t1ha0_32_empty (e : Endian) (data : Nat) (seed : U64) :
    t1ha0_32 cfg e data 0 seed = pure (Spec.t1ha0_32 e [] seed) := by
  unfold t1ha0_32
  simp only [t1ha0_body_empty, ite_self]

theorem aes_a_empty (ac : AesCfg) (data : Nat) (seed : U64) :
    t1ha0_ia32aes_a cfg ac data 0 seed = pure (Spec.t1ha0_aesA [] seed) := by
  unfold t1ha0_ia32aes_a Spec.t1ha0_aesA
  rw [if_neg (by decide), aes_tail_eq]
  simp only [steps, Nat.not_lt_zero, if_false, pure_bind, List.length_nil, gt_iff_lt]
  rw [words64_nil]
  rfl

theorem aes_b_empty (ac : AesCfg) (data : Nat) (seed : U64) :
    t1ha0_ia32aes_avx2 cfg ac data 0 seed = pure (Spec.t1ha0_aesB [] seed) := by
  unfold t1ha0_ia32aes_avx2 Spec.t1ha0_aesB
  rw [if_neg (by decide), aes_tail_eq]
  simp only [steps, Nat.not_lt_zero, if_false, pure_bind, List.length_nil, gt_iff_lt]
  rw [words64_nil]
  rfl

theorem returns_empty (f : OneShot) {s : Sys} (data : Nat) (seed : U64)
    (ho : ∀ p, f.output = some p → Writable w p 8) :
    ∃ t, Returns (f.run cfg data 0 seed) w s (f.hash [] seed) ⟨t ++ s.log, f.after cfg [] seed s.ov⟩ t ∧
      ∀ x ∈ t, ∃ p, f.output = some p ∧ x = .wr p 8 := by
  cases f with
  | t1ha2_atonce128 g extra =>
    obtain ⟨v, ov', t, h1, ⟨h2, h3⟩, h4, _⟩ := exec_atonce128_empty (cfg := cfg) (ov := s.ov)
      (ho extra rfl) g data seed s.log
    subst h2 h3
    exact ⟨t, ⟨h1, rfl⟩, fun x hx => ⟨extra, rfl, h4 x hx⟩⟩
  | t1ha1_le => exact ⟨[], ⟨by rw [OneShot.run, t1ha1_le, t1ha1_empty]; rfl, rfl⟩, by simp⟩
  | t1ha1_be => exact ⟨[], ⟨by rw [OneShot.run, t1ha1_be, t1ha1_empty]; rfl, rfl⟩, by simp⟩
  | t1ha2_atonce g => exact ⟨[], ⟨by rw [OneShot.run, atonce_empty]; rfl, rfl⟩, by simp⟩
  | t1ha0_32le => exact ⟨[], ⟨by rw [OneShot.run, t1ha0_32le, t1ha0_32_empty]; rfl, rfl⟩, by simp⟩
  | t1ha0_32be => exact ⟨[], ⟨by rw [OneShot.run, t1ha0_32be, t1ha0_32_empty]; rfl, rfl⟩, by simp⟩
  | t1ha0_ia32aes_noavx ac =>
    exact ⟨[], ⟨by rw [OneShot.run, t1ha0_ia32aes_noavx, aes_a_empty]; rfl, rfl⟩, by simp⟩
  | t1ha0_ia32aes_avx ac =>
    exact ⟨[], ⟨by rw [OneShot.run, t1ha0_ia32aes_avx, aes_a_empty]; rfl, rfl⟩, by simp⟩
  | t1ha0_ia32aes_avx2 ac =>
    exact ⟨[], ⟨by rw [OneShot.run, aes_b_empty]; rfl, rfl⟩, by simp⟩

/-- What a call does not write. -/
theorem after_other (f : OneShot) {m : List Byte} {seed : U64} {a : Nat}
    (h : ∀ p, f.output = some p → a < p ∨ p + 8 ≤ a) : f.after cfg m seed ov a = ov a := by
  unfold OneShot.after
  cases ho : f.output with
  | none => rfl
  | some p => exact put_other (by rw [length_bytes]; exact h p ho)

theorem after_grow (f : OneShot) {m : List Byte} {seed : U64} {a : Nat}
    (h : f.after cfg m seed ov a = none) : ov a = none := by
  unfold OneShot.after at h
  cases ho : f.output with
  | none => rw [ho] at h; exact h
  | some p => rw [ho] at h; exact put_grow h

end T1ha.Model
