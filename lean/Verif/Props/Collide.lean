import Verif.Proofs.Collide
import Verif.Props.Pairs

/-!
# Collisions which no seed avoids: C37

The full property: for every function and any two different messages there is a seed under which their
hashes differ, so that collisions prepared without knowing the seed are useless.  It fails for `t1ha1`
and for the AES-NI variants `t1ha0_ia32aes_noavx` and `t1ha0_ia32aes_avx`: the theorems
`t1ha1_collision_under_every_seed` and `aes_collision_under_every_seed` give messages which collide under
every seed.  `seed_separates_partial` is what is proved of the positive side: only for `t1ha0_32le` and
`t1ha0_32be`, and only for messages which differ in their last word.
-/

namespace T1ha.Props

open Model Examples

variable {cfg cfg' : Cfg} {w w' : World} {s s' : Sys} {page page' data data' : Nat}

/-- Two words of 8 bytes. -/
def twin1 : Nat := 0x471f21072e016b5a
def twin2 : Nat := 0x0215812c699bb134

/-- C37 fails for `t1ha1`: whatever comes first, messages which end with one of these two words have
the same hash, under every seed. -/
theorem t1ha1_collision_under_every_seed (f : OneShot) (e : Endian)
    (hf : f = .t1ha1_le ∧ e = .little ∨ f = .t1ha1_be ∧ e = .big) (p : List Byte) (hp : p.length % 8 = 0)
    (h32 : p.length < 32 ∨ (p.length + 8) % 32 ≠ 0) :
    p ++ e.bytes 8 twin1 ≠ p ++ e.bytes 8 twin2 ∧
    ∀ (cfg cfg' : Cfg) (w w' : World) (s s' : Sys) (page page' data data' : Nat) (seed : U64),
      Buf cfg w s.ov page data (p ++ e.bytes 8 twin1) → f.Ready cfg w data (p.length + 8) →
      Buf cfg' w' s'.ov page' data' (p ++ e.bytes 8 twin2) → f.Ready cfg' w' data' (p.length + 8) →
      ∃ v s₁ s₁', f.run cfg data (p.length + 8) seed w s = .ok (v, s₁) ∧
        f.run cfg' data' (p.length + 8) seed w' s' = .ok (v, s₁') := by
  refine ⟨fun h => ?_, ?_⟩
  · have h := List.append_cancel_left h
    revert h
    rcases hf with ⟨_, rfl⟩ | ⟨_, rfl⟩ <;> decide
  · intro cfg cfg' w w' s s' page page' data data' seed h r h' r'
    have l1 : (p ++ e.bytes 8 twin1).length = p.length + 8 := by
      rw [List.length_append]; rcases hf with ⟨_, rfl⟩ | ⟨_, rfl⟩ <;> rfl
    have l2 : (p ++ e.bytes 8 twin2).length = p.length + 8 := by
      rw [List.length_append]; rcases hf with ⟨_, rfl⟩ | ⟨_, rfl⟩ <;> rfl
    rw [← l1] at r
    rw [← l2] at r'
    obtain ⟨t, ⟨h1, _⟩, _⟩ := f.returns h r seed
    obtain ⟨t', ⟨h2, _⟩, _⟩ := f.returns h' r' seed
    rw [l1] at h1
    rw [l2] at h2
    have key : f.hash (p ++ e.bytes 8 twin2) seed = f.hash (p ++ e.bytes 8 twin1) seed := by
      rcases hf with ⟨rfl, rfl⟩ | ⟨rfl, rfl⟩
      · exact t1ha1_last_word .little p _ _ seed hp rfl rfl h32 (by decide +kernel)
      · exact t1ha1_last_word .big p _ _ seed hp rfl rfl h32 (by decide +kernel)
    rw [key] at h2
    exact ⟨_, _, _, h1, h2⟩

/-- Two messages of 48 bytes collide under every seed, on two machines. -/
example (seed : U64) : ∃ v s₁ s₁',
    OneShot.t1ha1_le.run amd64 5001 48 seed (memory 4096 8192 5001 (msg 40 ++ leBytes 8 twin1)) start
      = .ok (v, s₁) ∧
    OneShot.t1ha1_le.run arm32 5001 48 seed (memory 4096 8192 5001 (msg 40 ++ leBytes 8 twin2)) start
      = .ok (v, s₁') :=
  (t1ha1_collision_under_every_seed _ .little (Or.inl ⟨rfl, rfl⟩) (msg 40) (by decide) (by decide)).2
    amd64 arm32 _ _ _ _ _ _ _ _ seed
    (buf_mid amd64 rfl (msg 40 ++ leBytes 8 twin1) (by decide))
    { slack := fun _ => Or.inl (by decide), builds := (fun h => nomatch h),
      output := (fun _ h => nomatch h), bottom := (fun _ h => nomatch h), top := (fun _ h => nomatch h),
      ulong := (fun _ h => nomatch h) }
    (buf_mid arm32 rfl (msg 40 ++ leBytes 8 twin2) (by decide))
    { slack := fun _ => Or.inl (by decide), builds := (fun h => nomatch h),
      output := (fun _ h => nomatch h), bottom := (fun _ h => nomatch h), top := (fun _ h => nomatch h),
      ulong := (fun _ h => nomatch h) }

/-- C37 fails for `t1ha0_ia32aes_noavx` and `t1ha0_ia32aes_avx`: in any 128-byte block (at a multiple of
128), the fifth 16-byte vector can be replaced by any other one. There is a correction `d`, which depends on
these two vectors only, to be xored into the second and the sixth vector: the hash stays the same, under
every seed. So each block gives 2^128 colliding messages. -/
theorem aes_collision_under_every_seed (f : OneShot)
    (hf : ∃ ac, f = .t1ha0_ia32aes_noavx ac ∨ f = .t1ha0_ia32aes_avx ac)
    (v4 v4' : List Byte) (h4 : v4.length = 16) (h4' : v4'.length = 16) :
    ∃ d : List Byte, d.length = 16 ∧
      ∀ (p q v0 v1 v2 v3 v5 v6 v7 : List Byte), p.length % 128 = 0 →
        (∀ v ∈ [v0, v1, v2, v3, v5, v6, v7], v.length = 16) →
        ∀ m m', m = p ++ [v0, v1, v2, v3, v4, v5, v6, v7].flatten ++ q →
          m' = p ++ [v0, xorBytes v1 d, v2, v3, v4', xorBytes v5 d, v6, v7].flatten ++ q →
        ∀ (cfg cfg' : Cfg) (w w' : World) (s s' : Sys) (page page' data data' : Nat) (seed : U64),
          Buf cfg w s.ov page data m → f.Ready cfg w data m.length →
          Buf cfg' w' s'.ov page' data' m' → f.Ready cfg' w' data' m'.length →
          ∃ v s₁ s₁', f.run cfg data m.length seed w s = .ok (v, s₁) ∧
            f.run cfg' data' m'.length seed w' s' = .ok (v, s₁') := by
  refine ⟨leBytes 16 (X86.aesenc (vecOf v4) 0 ^^^ X86.aesenc (vecOf v4') 0).toNat, leBytes_length _ _, ?_⟩
  have hd := vecOf_leBytes (X86.aesenc (vecOf v4) 0 ^^^ X86.aesenc (vecOf v4') 0)
  have ld := leBytes_length 16 (X86.aesenc (vecOf v4) 0 ^^^ X86.aesenc (vecOf v4') 0).toNat
  generalize leBytes 16 (X86.aesenc (vecOf v4) 0 ^^^ X86.aesenc (vecOf v4') 0).toNat = d at hd ld ⊢
  intro p q v0 v1 v2 v3 v5 v6 v7 hp hv m m' hm hm' cfg cfg' w w' s s' page page' data data' seed h r h' r'
  have h0 := hv v0 (by simp)
  have h1 := hv v1 (by simp)
  have h2 := hv v2 (by simp)
  have h3 := hv v3 (by simp)
  have h5 := hv v5 (by simp)
  have h6 := hv v6 (by simp)
  have h7 := hv v7 (by simp)
  obtain ⟨t, ⟨k1, _⟩, _⟩ := f.returns h r seed
  obtain ⟨t', ⟨k2, _⟩, _⟩ := f.returns h' r' seed
  have x1 : (xorBytes v1 d).length = 16 := by simp only [xorBytes, List.length_zipWith]; omega
  have x5 : (xorBytes v5 d).length = 16 := by simp only [xorBytes, List.length_zipWith]; omega
  have key : f.hash m' seed = f.hash m seed := by
    have : Spec.t1ha0_aesA m' seed = Spec.t1ha0_aesA m seed := by
      rw [hm, hm']
      refine (t1ha0_aesA_block p _ _ q hp ?_ ?_ (fun s => ?_) seed).symm
      · simp [h0, h1, h2, h3, h4, h5, h6, h7]
      · simp [h0, x1, h2, h3, h4', x5, h6, h7]
      · exact aesBlockA_twin v0 v1 v2 v3 v4 v4' v5 v6 v7 d h0 h1 h2 h3 h4 h4' h5 h6 h7 ld hd s
    obtain ⟨ac, rfl | rfl⟩ := hf
    · exact this
    · exact this
  rw [key] at k2
  exact ⟨_, _, _, k1, k2⟩

/-- Two messages of 300 bytes, whose vectors at offset 192 are `msg 16` and 16 times 9. -/
example (seed : U64) (ac : AesCfg) : ∃ m m' : List Byte, m.length = 300 ∧ m'.length = 300 ∧ m ≠ m' ∧
    ∃ v s₁ s₁',
      (OneShot.t1ha0_ia32aes_avx ac).run amd64 5001 300 seed (memory 4096 8192 5001 m) start = .ok (v, s₁) ∧
      (OneShot.t1ha0_ia32aes_avx ac).run amd64 5001 300 seed (memory 4096 8192 5001 m') start = .ok (v, s₁') := by
  obtain ⟨d, hd, H⟩ := aes_collision_under_every_seed (.t1ha0_ia32aes_avx ac) ⟨ac, Or.inr rfl⟩ (msg 16)
    (List.replicate 16 9) (by decide) (by decide)
  have x : (xorBytes (msg 16) d).length = 16 := by
    simp only [xorBytes, List.length_zipWith, hd, length_msg]; decide
  have l : (msg 128 ++ [msg 16, msg 16, msg 16, msg 16, msg 16, msg 16, msg 16, msg 16].flatten ++ msg 44).length
      = 300 := by
    simp only [List.length_append, List.flatten_cons, List.flatten_nil, length_msg, List.length_nil]
  have l' : (msg 128 ++ [msg 16, xorBytes (msg 16) d, msg 16, msg 16, List.replicate 16 9, xorBytes (msg 16) d,
      msg 16, msg 16].flatten ++ msg 44).length = 300 := by
    simp only [List.length_append, List.flatten_cons, List.flatten_nil, x, length_msg, List.length_replicate,
      List.length_nil]
  have R : ∀ m : List Byte, m.length = 300 →
      (OneShot.t1ha0_ia32aes_avx ac).Ready amd64 (memory 4096 8192 5001 m) 5001 m.length := fun m hm =>
    { slack := fun _ => Or.inl (by decide), builds := (fun h => nomatch h),
      output := (fun _ h => nomatch h), bottom := (fun _ _ _ => by omega),
      top := (fun _ h => nomatch h), ulong := (fun _ h => nomatch h) }
  have := H (msg 128) (msg 44) (msg 16) (msg 16) (msg 16) (msg 16) (msg 16) (msg 16) (msg 16)
    (by rw [length_msg]) (by simp [length_msg]) _ _ rfl rfl amd64 amd64 _ _ start start 4096 4096 5001 5001 seed
    (buf_mid amd64 rfl _ (by rw [l]; decide)) (R _ l) (buf_mid amd64 rfl _ (by rw [l']; decide)) (R _ l')
  rw [l, l'] at this
  refine ⟨_, _, l, l', fun h => ?_, this⟩
  have h := List.append_cancel_left (List.append_cancel_right h)
  simp only [List.flatten_cons] at h
  have h := List.append_cancel_left h
  have h := (List.append_inj h (by rw [x, length_msg])).2
  have h := List.append_cancel_left (List.append_cancel_left h)
  have h := (List.append_inj h (by rw [length_msg, List.length_replicate])).1
  revert h
  decide

/-- C37, in part: for `t1ha0_32le` and `t1ha0_32be`, and two messages which agree except in their last word.
Missing: other pairs of messages for these two functions, and the functions `t1ha2_atonce`,
`t1ha2_atonce128` and `t1ha0_ia32aes_avx2`. -/
theorem seed_separates_partial (f : OneShot) (hf : f = .t1ha0_32le ∨ f = .t1ha0_32be) {p q q' : List Byte}
    (h : Buf cfg w s.ov page data (p ++ q)) (h' : Buf cfg' w' s'.ov page' data' (p ++ q'))
    (hp : p.length % 4 = 0) (hq : 1 ≤ q.length ∧ q.length ≤ 4) (hlen : q'.length = q.length) (hne : q ≠ q')
    (h16 : (p ++ q).length ≤ 16 ∨ (p ++ q).length % 16 ≠ 0) :
    ∃ seed v v' s₁ s₁', f.run cfg data (p ++ q).length seed w s = .ok (v, s₁) ∧
      f.run cfg' data' (p ++ q').length seed w' s' = .ok (v', s₁') ∧ v ≠ v' :=
  ⟨0, last_word_detected f hf h h' hp hq hlen hne h16 0⟩

end T1ha.Props
