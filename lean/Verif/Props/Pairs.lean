import Verif.Proofs.Tiny
import Verif.Proofs.OneShot
import Verif.Proofs.Empty
import Verif.Props.Examples

/-!
# Properties about pairs of hash values: C27, C29, C30, C31

Two calls, which may happen on two machines with different builds of the library.
-/

namespace T1ha.Props

open Model Examples

variable {cfg cfg' : Cfg} {w w' : World} {s s' : Sys} {page page' data data' : Nat} {m m' : List Byte}

/-! ## C27 -/

/-- C27: for keys of up to 32 bytes, the AES-NI variants return what `t1ha2_atonce` returns. -/
theorem short_keys_alike (f g : OneShot)
    (hf : ∃ ac, f = .t1ha0_ia32aes_noavx ac ∨ f = .t1ha0_ia32aes_avx ac ∨ f = .t1ha0_ia32aes_avx2 ac)
    (hg : ∃ stack, g = .t1ha2_atonce stack)
    (h : Buf cfg w s.ov page data m) (h' : Buf cfg' w' s'.ov page' data' m)
    (r : f.Ready cfg w data m.length) (r' : g.Ready cfg' w' data' m.length) (hm : m.length ≤ 32)
    (seed : U64) :
    ∃ v s₁ s₁', f.run cfg data m.length seed w s = .ok (v, s₁) ∧
      g.run cfg' data' m.length seed w' s' = .ok (v, s₁') := by
  obtain ⟨t, ⟨h1, _⟩, _⟩ := f.returns h r seed
  obtain ⟨t', ⟨h2, _⟩, _⟩ := g.returns h' r' seed
  obtain ⟨ac, hf⟩ := hf
  obtain ⟨stack, hg⟩ := hg
  have hn : ¬ m.length > 32 := by omega
  have key : g.hash m seed = f.hash m seed := by
    rcases hf with rfl | rfl | rfl <;> subst hg <;>
      simp only [OneShot.hash, Spec.t1ha2_atonce, Spec.t1ha0_aesA, Spec.t1ha0_aesB, if_neg hn]
  rw [key] at h2
  exact ⟨_, _, _, h1, h2⟩

/-- 32 bytes at the end of a page: `t1ha0_ia32aes_avx2` on x86-64, `t1ha2_atonce` on x86-64 and with slow
unaligned access. -/
example (ac : AesCfg) (stack : State256) : ∃ v s₁ s₁',
    (OneShot.t1ha0_ia32aes_avx2 ac).run amd64 (8192 - 32) (msg 32).length 7 (atEnd 32) start = .ok (v, s₁) ∧
    (OneShot.t1ha2_atonce stack).run arm32 (8192 - 32) (msg 32).length 7 (atEnd 32) start = .ok (v, s₁') :=
  short_keys_alike _ _ ⟨ac, Or.inr (Or.inr rfl)⟩ ⟨stack, rfl⟩ (buf_atEnd amd64 rfl 32 (by decide))
    (buf_atEnd arm32 rfl 32 (by decide)) (ready_atEnd _ _ _ (by decide) (by decide) (by decide) (by simp [OneShot.output]))
    (ready_atEnd _ _ _ (by decide) (by decide) (by decide) (by simp [OneShot.output]))
    (by rw [length_msg]) 7

/-! ## C29 -/

/-- `mirror k m` (in `Verif/Props/Relations.lean`) reverses each word of `k` bytes, here for `k = 4`. -/
example : mirror 4 [1, 2, 3, 4, 5, 6] = [4, 3, 2, 1, 6, 5] := by decide

/-- C29: the big-endian variant of a message is the little-endian variant of the message whose words are
reversed. -/
theorem mirror_duality (f g : OneShot) (k : Nat)
    (hfg : f = .t1ha1_be ∧ g = .t1ha1_le ∧ k = 8 ∨ f = .t1ha0_32be ∧ g = .t1ha0_32le ∧ k = 4)
    (h : Buf cfg w s.ov page data m) (h' : Buf cfg' w' s'.ov page' data' (mirror k m))
    (r : f.Ready cfg w data m.length) (r' : g.Ready cfg' w' data' m.length) (seed : U64) :
    ∃ v s₁ s₁', f.run cfg data m.length seed w s = .ok (v, s₁) ∧
      g.run cfg' data' m.length seed w' s' = .ok (v, s₁') := by
  have hl : (mirror k m).length = m.length :=
    mirror_length (by rcases hfg with ⟨_, _, rfl⟩ | ⟨_, _, rfl⟩ <;> decide) m
  obtain ⟨t, ⟨h1, _⟩, _⟩ := f.returns h r seed
  obtain ⟨t', ⟨h2, _⟩, _⟩ := g.returns h' (by rw [hl]; exact r') seed
  rw [hl] at h2
  have key : g.hash (mirror k m) seed = f.hash m seed := by
    rcases hfg with ⟨rfl, rfl, rfl⟩ | ⟨rfl, rfl, rfl⟩
    · exact t1ha1_mirror m seed
    · exact t1ha0_32_mirror m seed
  rw [key] at h2
  exact ⟨_, _, _, h1, h2⟩

/-- C29: so the two variants agree on messages of equal bytes, in particular on the empty message and on
messages of one byte. -/
theorem variants_agree (f g : OneShot) (n : Nat) (b : Byte)
    (hfg : f = .t1ha1_be ∧ g = .t1ha1_le ∨ f = .t1ha0_32be ∧ g = .t1ha0_32le)
    (h : Buf cfg w s.ov page data (List.replicate n b))
    (h' : Buf cfg' w' s'.ov page' data' (List.replicate n b))
    (r : f.Ready cfg w data n) (r' : g.Ready cfg' w' data' n) (seed : U64) :
    ∃ v s₁ s₁', f.run cfg data n seed w s = .ok (v, s₁) ∧
      g.run cfg' data' n seed w' s' = .ok (v, s₁') := by
  have key := fun k hk hfg => mirror_duality f g k hfg h
    (by rw [mirror_replicate n b hk]; exact h') (by rw [List.length_replicate]; exact r)
    (by rw [List.length_replicate]; exact r') seed
  simp only [List.length_replicate] at key
  rcases hfg with hfg | hfg
  · exact key 8 (by decide) (Or.inl ⟨hfg.1, hfg.2, rfl⟩)
  · exact key 4 (by decide) (Or.inr ⟨hfg.1, hfg.2, rfl⟩)

/-- A message of 43 bytes, and its mirror image in the middle of a page. -/
example : ∃ v s₁ s₁',
    OneShot.t1ha1_be.run amd64 (8192 - 43) (msg 43).length 7 (atEnd 43) start = .ok (v, s₁) ∧
    OneShot.t1ha1_le.run arm32 5001 (msg 43).length 7 (memory 4096 8192 5001 (mirror 8 (msg 43))) start
      = .ok (v, s₁') :=
  mirror_duality _ _ 8 (Or.inl ⟨rfl, rfl, rfl⟩) (buf_atEnd amd64 rfl 43 (by decide))
    (buf arm32 rfl (by decide) (by decide) (by decide)
      (by rw [mirror_length (by decide), length_msg]; decide) (by decide))
    (ready_atEnd _ _ _ (by decide) (by decide) (by decide) (by simp [OneShot.output]))
    { slack := fun _ => Or.inl (by decide), builds := (fun h => nomatch h),
      output := (fun _ h => nomatch h), bottom := (fun _ h => nomatch h), top := (fun _ h => nomatch h),
      ulong := (fun _ h => nomatch h) } 7

/-- 1000 times the same byte. -/
example : ∃ v s₁ s₁',
    OneShot.t1ha0_32be.run mips32 5001 1000 7 (memory 4096 8192 5001 (List.replicate 1000 9)) start = .ok (v, s₁) ∧
    OneShot.t1ha0_32le.run mips32 5001 1000 7 (memory 4096 8192 5001 (List.replicate 1000 9)) start = .ok (v, s₁') :=
  have hb := buf mips32 rfl (lo := 4096) (hi := 8192) (data := 5001) (m := List.replicate 1000 9) (by decide)
    (by decide) (by decide) (by rw [List.length_replicate]; decide) (by decide)
  variants_agree _ _ 1000 9 (Or.inr ⟨rfl, rfl⟩) hb hb
    { slack := (fun h => nomatch h), builds := (fun h => nomatch h),
      output := (fun _ h => nomatch h), bottom := (fun _ h => nomatch h), top := (fun _ h => nomatch h),
      ulong := (fun _ h => nomatch h) }
    { slack := (fun h => nomatch h), builds := (fun h => nomatch h),
      output := (fun _ h => nomatch h), bottom := (fun _ h => nomatch h), top := (fun _ h => nomatch h),
      ulong := (fun _ h => nomatch h) } 7

/-! ## C31 -/

theorem ready32 {f : OneShot} (hf : f = .t1ha0_32le ∨ f = .t1ha0_32be) {n : Nat} :
    f.Ready cfg w data n where
  slack h := by rcases hf with rfl | rfl <;> exact nomatch h
  builds h := by rcases hf with rfl | rfl <;> exact nomatch h
  output _ h := by rcases hf with rfl | rfl <;> exact nomatch h
  bottom _ h := by rcases hf with rfl | rfl <;> exact nomatch h
  top _ h := by rcases hf with rfl | rfl <;> exact nomatch h
  ulong _ h := by rcases hf with rfl | rfl <;> exact nomatch h

/-- C31: two messages which agree except in their last word (of one to four bytes) have different hashes
under the same seed, if their length is at most 16 or no multiple of 16. -/
theorem last_word_detected (f : OneShot) (hf : f = .t1ha0_32le ∨ f = .t1ha0_32be) {p q q' : List Byte}
    (h : Buf cfg w s.ov page data (p ++ q)) (h' : Buf cfg' w' s'.ov page' data' (p ++ q'))
    (hp : p.length % 4 = 0) (hq : 1 ≤ q.length ∧ q.length ≤ 4) (hlen : q'.length = q.length) (hne : q ≠ q')
    (h16 : (p ++ q).length ≤ 16 ∨ (p ++ q).length % 16 ≠ 0) (seed : U64) :
    ∃ v v' s₁ s₁', f.run cfg data (p ++ q).length seed w s = .ok (v, s₁) ∧
      f.run cfg' data' (p ++ q').length seed w' s' = .ok (v', s₁') ∧ v ≠ v' := by
  obtain ⟨t, ⟨h1, _⟩, _⟩ := f.returns h (ready32 hf) seed
  obtain ⟨t', ⟨h2, _⟩, _⟩ := f.returns h' (ready32 hf) seed
  refine ⟨_, _, _, _, h1, h2, fun heq => hne ?_⟩
  rw [List.length_append] at h16
  rcases hf with rfl | rfl
  · exact t1ha0_32_last_word .little p q q' seed hp hlen.symm (by omega) hq.2 h16 heq
  · exact t1ha0_32_last_word .big p q q' seed hp hlen.symm (by omega) hq.2 h16 heq

example : ∃ v v' s₁ s₁',
    OneShot.t1ha0_32le.run amd64 5001 (msg 40 ++ [1, 2, 3]).length 7 (memory 4096 8192 5001 (msg 40 ++ [1, 2, 3])) start
      = .ok (v, s₁) ∧
    OneShot.t1ha0_32le.run amd64 5001 (msg 40 ++ [1, 0, 3]).length 7 (memory 4096 8192 5001 (msg 40 ++ [1, 0, 3])) start
      = .ok (v', s₁') ∧ v ≠ v' :=
  last_word_detected _ (Or.inl rfl)
    (buf_mid amd64 rfl (msg 40 ++ [1, 2, 3]) (by decide))
    (buf_mid amd64 rfl (msg 40 ++ [1, 0, 3]) (by decide))
    (by decide) (by decide) (by decide) (by decide) (by decide) 7

/-- 28 zeros, followed by the bytes of a word. -/
def afterZeros (f : OneShot) (word : Nat) : List Byte :=
  List.replicate 28 0 ++ (if f = .t1ha0_32be then (leBytes 4 word).reverse else leBytes 4 word)

/-- C31 is sharp: with a length of 32, a change in the last word is not always detected. -/
theorem last_word_missed (f : OneShot) (hf : f = .t1ha0_32le ∨ f = .t1ha0_32be)
    (h : Buf cfg w s.ov page data (afterZeros f 0x25dfde87))
    (h' : Buf cfg' w' s'.ov page' data' (afterZeros f 0x4e5c1e62)) :
    ∃ v s₁ s₁', f.run cfg data 32 7 w s = .ok (v, s₁) ∧ f.run cfg' data' 32 7 w' s' = .ok (v, s₁') := by
  have hl : ∀ x, (afterZeros f x).length = 32 := by
    intro x; rcases hf with rfl | rfl <;> rfl
  obtain ⟨t, ⟨h1, _⟩, _⟩ := f.returns h (ready32 hf) 7
  obtain ⟨t', ⟨h2, _⟩, _⟩ := f.returns h' (ready32 hf) 7
  have key : f.hash (afterZeros f 0x25dfde87) 7 = f.hash (afterZeros f 0x4e5c1e62) 7 := by
    rcases hf with rfl | rfl <;> decide +kernel
  rw [hl] at h1 h2
  rw [← key] at h2
  exact ⟨_, _, _, h1, h2⟩

example : ∃ v s₁ s₁',
    OneShot.t1ha0_32be.run amd64 5001 32 7 (memory 4096 8192 5001 (afterZeros .t1ha0_32be 0x25dfde87)) start
      = .ok (v, s₁) ∧
    OneShot.t1ha0_32be.run mips32 5001 32 7 (memory 4096 8192 5001 (afterZeros .t1ha0_32be 0x4e5c1e62)) start
      = .ok (v, s₁') :=
  last_word_missed _ (Or.inr rfl) (buf_mid amd64 rfl _ (by decide +kernel)) (buf_mid mips32 rfl _ (by decide +kernel))

/-! ## C30 -/

/-- C30: different keys of up to 4 bytes never collide under the same seed, whether their lengths are equal or
not. -/
theorem tiny_keys_no_collision (f : OneShot) (hf : f = .t1ha0_32le ∨ f = .t1ha0_32be)
    (h : Buf cfg w s.ov page data m) (h' : Buf cfg' w' s'.ov page' data' m')
    (h4 : m.length ≤ 4) (h4' : m'.length ≤ 4) (hne : m ≠ m') (seed : U64) :
    ∃ v v' s₁ s₁', f.run cfg data m.length seed w s = .ok (v, s₁) ∧
      f.run cfg' data' m'.length seed w' s' = .ok (v', s₁') ∧ v ≠ v' := by
  obtain ⟨t, ⟨h1, _⟩, _⟩ := f.returns h (ready32 hf) seed
  obtain ⟨t', ⟨h2, _⟩, _⟩ := f.returns h' (ready32 hf) seed
  refine ⟨_, _, _, _, h1, h2, fun heq => hne ?_⟩
  rcases hf with rfl | rfl
  · exact t1ha0_32_tiny_inj .little seed h4 h4' heq
  · exact t1ha0_32_tiny_inj .big seed h4 h4' heq

/-- C30: for the empty key, each value is returned for exactly one seed. -/
theorem empty_key_bijection (f : OneShot) (hf : f = .t1ha0_32le ∨ f = .t1ha0_32be) (v : U64) :
    ∃ seed, (∀ (cfg : Cfg) (w : World) (s : Sys) (data : Nat), f.run cfg data 0 seed w s = .ok (v, s)) ∧
      ∀ seed', seed' ≠ seed → ∀ (cfg : Cfg) (w : World) (s : Sys) (data : Nat),
        ∃ v', f.run cfg data 0 seed' w s = .ok (v', s) ∧ v' ≠ v := by
  have run : ∀ (cfg : Cfg) (w : World) (s : Sys) (data : Nat) (seed : U64),
      f.run cfg data 0 seed w s = .ok (f.hash [] seed, s) := by
    intro cfg w s data seed
    rcases hf with rfl | rfl
    · rw [OneShot.run, t1ha0_32le, t1ha0_32_empty]; rfl
    · rw [OneShot.run, t1ha0_32be, t1ha0_32_empty]; rfl
  have bij : ∃ seed, f.hash [] seed = v ∧ ∀ seed', f.hash [] seed' = v → seed' = seed := by
    rcases hf with rfl | rfl
    · obtain ⟨x, hx⟩ := t1ha0_32_empty_bij .little v
      exact ⟨x, hx, fun y hy => t1ha0_32_empty_inj .little (hy.trans hx.symm)⟩
    · obtain ⟨x, hx⟩ := t1ha0_32_empty_bij .big v
      exact ⟨x, hx, fun y hy => t1ha0_32_empty_inj .big (hy.trans hx.symm)⟩
  obtain ⟨x, hx, hu⟩ := bij
  refine ⟨x, fun cfg w s data => by rw [run, hx], fun y hy cfg w s data => ?_⟩
  exact ⟨_, run cfg w s data y, fun h => hy (hu y h)⟩

example : ∃ v v' s₁ s₁',
    OneShot.t1ha0_32be.run amd64 5001 [1, 2, 3].length 7 (memory 4096 8192 5001 [1, 2, 3]) start = .ok (v, s₁) ∧
    OneShot.t1ha0_32be.run mips32 5001 [0, 1, 2, 3].length 7 (memory 4096 8192 5001 [0, 1, 2, 3]) start
      = .ok (v', s₁') ∧ v ≠ v' :=
  tiny_keys_no_collision _ (Or.inr rfl)
    (buf_mid amd64 rfl [1, 2, 3] (by decide)) (buf_mid mips32 rfl [0, 1, 2, 3] (by decide))
    (by decide) (by decide) (by decide) 7

/-- Two keys of five bytes. -/
def fiveBytes : OneShot → List Byte × List Byte
  | .t1ha0_32be => ([0x66, 0xC2, 0x55, 0x75, 0x0B], [0xD6, 0xC4, 0xFB, 0x79, 0x20])
  | _ => ([0x75, 0x55, 0xC2, 0x66, 0x0B], [0x79, 0xFB, 0xC4, 0xD6, 0x20])

/-- C30 is sharp: there are different keys of five bytes which collide, under the seed 0. -/
theorem five_bytes_collide (f : OneShot) (hf : f = .t1ha0_32le ∨ f = .t1ha0_32be)
    (h : Buf cfg w s.ov page data (fiveBytes f).1) (h' : Buf cfg' w' s'.ov page' data' (fiveBytes f).2) :
    (fiveBytes f).1 ≠ (fiveBytes f).2 ∧
    ∃ v s₁ s₁', f.run cfg data 5 0 w s = .ok (v, s₁) ∧ f.run cfg' data' 5 0 w' s' = .ok (v, s₁') := by
  have hl : (fiveBytes f).1.length = 5 ∧ (fiveBytes f).2.length = 5 := by
    rcases hf with rfl | rfl <;> exact ⟨rfl, rfl⟩
  obtain ⟨t, ⟨h1, _⟩, _⟩ := f.returns h (ready32 hf) 0
  obtain ⟨t', ⟨h2, _⟩, _⟩ := f.returns h' (ready32 hf) 0
  have key : f.hash (fiveBytes f).1 0 = f.hash (fiveBytes f).2 0 := by
    rcases hf with rfl | rfl <;> decide +kernel
  rw [hl.1] at h1
  rw [hl.2, ← key] at h2
  refine ⟨?_, _, _, _, h1, h2⟩
  rcases hf with rfl | rfl <;> decide

example : (fiveBytes .t1ha0_32le).1 ≠ (fiveBytes .t1ha0_32le).2 ∧ ∃ v s₁ s₁',
    OneShot.t1ha0_32le.run amd64 5001 5 0 (memory 4096 8192 5001 (fiveBytes .t1ha0_32le).1) start = .ok (v, s₁) ∧
    OneShot.t1ha0_32le.run mips32 5001 5 0 (memory 4096 8192 5001 (fiveBytes .t1ha0_32le).2) start = .ok (v, s₁') :=
  five_bytes_collide _ (Or.inl rfl) (buf_mid amd64 rfl _ (by decide)) (buf_mid mips32 rfl _ (by decide))

end T1ha.Props
