import Verif.Proofs.Flood
import Verif.Props.Collide

/-!
# Floods of collisions which no seed avoids: C55

The theorems of C37 give two messages which collide under every seed. Here is how many such messages there are.
-/

namespace T1ha.Props

open Model Examples

/-- The messages of this set have the same hash: whatever the seed, wherever and on whatever machine any two of
them are hashed. -/
def Flood (f : OneShot) (messages : Set (List Byte)) : Prop :=
  ∀ m ∈ messages, ∀ m' ∈ messages,
    ∀ (cfg cfg' : Cfg) (w w' : World) (s s' : Sys) (page page' data data' : Nat) (seed : U64),
      Buf cfg w s.ov page data m → f.Ready cfg w data m.length →
      Buf cfg' w' s'.ov page' data' m' → f.Ready cfg' w' data' m'.length →
      ∃ v s₁ s₁', f.run cfg data m.length seed w s = .ok (v, s₁) ∧
        f.run cfg' data' m'.length seed w' s' = .ok (v, s₁')

theorem flood_of_hash {f : OneShot} {messages : Set (List Byte)}
    (h : ∀ m ∈ messages, ∀ m' ∈ messages, ∀ seed, f.hash m seed = f.hash m' seed) : Flood f messages := by
  intro m hm m' hm' cfg cfg' w w' s s' page page' data data' seed b r b' r'
  obtain ⟨t, ⟨h1, _⟩, _⟩ := f.returns b r seed
  obtain ⟨t', ⟨h2, _⟩, _⟩ := f.returns b' r' seed
  rw [← h m hm m' hm' seed] at h2
  exact ⟨_, _, _, h1, h2⟩

/-- C55: `t1ha1` has 256^k messages of 16 + k bytes which collide under every seed: 2^128 messages of 32 bytes.
Also after any prefix of a multiple of 32 bytes, for up to 31 further bytes. -/
theorem t1ha1_flood (f : OneShot) (hf : f = .t1ha1_le ∨ f = .t1ha1_be) (p : List Byte) (k : Nat)
    (hk : p = [] ∧ k ≤ 16 ∨ p.length % 32 = 0 ∧ k < 16) :
    ∃ messages : Set (List Byte), 256 ^ k ≤ messages.ncard ∧
      (∀ m ∈ messages, p <+: m ∧ m.length = p.length + 16 + k) ∧ Flood f messages := by
  obtain ⟨e, he⟩ : ∃ e, ∀ m, f.hash m = Spec.t1ha1 e m := by
    rcases hf with rfl | rfl
    · exact ⟨.little, fun _ => rfl⟩
    · exact ⟨.big, fun _ => rfl⟩
  obtain ⟨tails, h1, h2, h3⟩ := t1ha1_many e p k hk
  refine ⟨(p ++ ·) '' tails, ?_, ?_, flood_of_hash ?_⟩
  · rwa [(List.append_right_injective p).injOn.ncard_image]
  · rintro _ ⟨q, hq, rfl⟩
    exact ⟨List.prefix_append _ _, by simp only [List.length_append, h2 q hq]; omega⟩
  · rintro _ ⟨q, hq, rfl⟩ _ ⟨q', hq', rfl⟩ seed
    rw [he, he]
    exact h3 q hq q' hq' seed

/-- Two of 256 messages of 49 bytes which begin with the same 32 bytes, hashed on two machines. -/
example (seed : U64) : ∃ m m' : List Byte, m ≠ m' ∧ msg 32 <+: m ∧ msg 32 <+: m' ∧ m.length = 49 ∧ m'.length = 49 ∧
    ∃ v s₁ s₁', OneShot.t1ha1_le.run amd64 5001 m.length seed (memory 4096 8192 5001 m) start = .ok (v, s₁) ∧
      OneShot.t1ha1_le.run arm32 5001 m'.length seed (memory 4096 8192 5001 m') start = .ok (v, s₁') := by
  obtain ⟨messages, h1, h2, h3⟩ := t1ha1_flood .t1ha1_le (Or.inl rfl) (msg 32) 1 (Or.inr ⟨by decide, by decide⟩)
  obtain ⟨m, m', hm, hm', hne⟩ := (Set.one_lt_ncard_iff (Set.finite_of_ncard_pos (by omega))).mp
    (lt_of_lt_of_le (by decide) h1)
  have l : m.length = 49 := (h2 m hm).2
  have l' : m'.length = 49 := (h2 m' hm').2
  refine ⟨m, m', hne, (h2 m hm).1, (h2 m' hm').1, l, l', ?_⟩
  exact h3 m hm m' hm' amd64 arm32 _ _ start start 4096 4096 5001 5001 seed (buf_mid amd64 rfl _ (by omega))
    { slack := fun _ => Or.inl (by decide), builds := (fun h => nomatch h),
      output := (fun _ h => nomatch h), bottom := (fun _ h => nomatch h), top := (fun _ h => nomatch h),
      ulong := (fun _ h => nomatch h) } (buf_mid arm32 rfl _ (by omega))
    { slack := fun _ => Or.inl (by decide), builds := (fun h => nomatch h),
      output := (fun _ h => nomatch h), bottom := (fun _ h => nomatch h), top := (fun _ h => nomatch h),
      ulong := (fun _ h => nomatch h) }

/-- C55: `t1ha0_ia32aes_noavx` and `t1ha0_ia32aes_avx` have 2^(128 k) messages with `k` blocks of 128 bytes each
which collide under every seed, with any given bytes before these blocks (a multiple of 128) and behind them. -/
theorem aes_flood (f : OneShot) (hf : ∃ ac, f = .t1ha0_ia32aes_noavx ac ∨ f = .t1ha0_ia32aes_avx ac)
    (p q : List Byte) (hp : p.length % 128 = 0) (k : Nat) :
    ∃ messages : Set (List Byte), (2 ^ 128) ^ k ≤ messages.ncard ∧
      (∀ m ∈ messages, p <+: m ∧ q <:+ m ∧ m.length = p.length + 128 * k + q.length) ∧ Flood f messages := by
  have he : ∀ m, f.hash m = Spec.t1ha0_aesA m := by
    obtain ⟨ac, rfl | rfl⟩ := hf <;> exact fun _ => rfl
  obtain ⟨parts, h1, h2, h3⟩ := aesA_many p q hp k
  refine ⟨(fun b => p ++ b ++ q) '' parts, ?_, ?_, flood_of_hash ?_⟩
  · rwa [Set.InjOn.ncard_image]
    intro b _ b' _ h
    exact List.append_cancel_left (List.append_cancel_right h)
  · rintro _ ⟨b, hb, rfl⟩
    refine ⟨⟨b ++ q, by simp⟩, List.suffix_append _ _, ?_⟩
    simp only [List.length_append, h2 b hb]
  · rintro _ ⟨b, hb, rfl⟩ _ ⟨b', hb', rfl⟩ seed
    rw [he, he]
    exact h3 b hb b' hb' seed

/-- More than 2^1000 messages of 1044 bytes. -/
example (ac : AesCfg) : ∃ messages : Set (List Byte), (2 ^ 128) ^ 8 ≤ messages.ncard ∧
    (∀ m ∈ messages, [] <+: m ∧ msg 20 <:+ m ∧ m.length = 0 + 128 * 8 + (msg 20).length) ∧
    Flood (.t1ha0_ia32aes_noavx ac) messages :=
  aes_flood _ ⟨ac, Or.inl rfl⟩ [] (msg 20) (by decide) 8

end T1ha.Props
