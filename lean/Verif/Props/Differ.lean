import Verif.Proofs.DifferTwo
import Verif.Proofs.DifferAes
import Verif.Props.Pairs
import Verif.Props.OneShot
import Verif.Props.Stream

/-!
# Messages which collide under many seeds: C56

Who does not know the seed can prepare two messages which collide under a considerable part of all seeds: a fifth
for `t1ha2`, even if 128 bits are compared. (For `t1ha1` and the first two AES-NI variants, see C37: there are
messages which collide under all seeds.)
-/

namespace T1ha.Props

open Model Examples

/-- A call returns `v`, and stores `high` if the function has a second result. -/
def Gives (f : OneShot) (cfg : Cfg) (w : World) (s : Sys) (data len : Nat) (seed v high : U64) : Prop :=
  ∃ s', f.run cfg data len seed w s = .ok (v, s') ∧
    ∀ p, f.output = some p → Holds w s'.ov p (cfg.endian.bytes 8 high.toNat)

/-- The two messages have the same hash for one of `k` seeds, wherever they are, on whatever machines. -/
def CollideOften (k : Nat) (f : OneShot) (m m' : List Byte) : Prop :=
  ∀ (cfg cfg' : Cfg) (w w' : World) (s s' : Sys) (page page' data data' : Nat),
    Buf cfg w s.ov page data m → f.Ready cfg w data m.length →
    Buf cfg' w' s'.ov page' data' m' → f.Ready cfg' w' data' m'.length →
    2 ^ 64 ≤ k * {seed | ∃ v high, Gives f cfg w s data m.length seed v high ∧
      Gives f cfg' w' s' data' m'.length seed v high}.ncard

/-- The second result which a function should give -/
def highResult (f : OneShot) (m : List Byte) (seed : U64) : U64 :=
  match f with
  | .t1ha2_atonce128 _ _ => (Spec.t1ha2_atonce128 m seed).2
  | _ => 0

theorem gives_hash (f : OneShot) {cfg : Cfg} {w : World} {s : Sys} {page data : Nat} {m : List Byte}
    (h : Buf cfg w s.ov page data m) (r : f.Ready cfg w data m.length) (seed : U64) :
    Gives f cfg w s data m.length seed (f.hash m seed) (highResult f m seed) := by
  by_cases hf : ∃ g p, f = .t1ha2_atonce128 g p
  · obtain ⟨g, p, rfl⟩ := hf
    obtain ⟨log, ov, h1, h2, _⟩ := t1ha2_atonce128_correct h (r.slack rfl) (r.output p rfl) g seed
    refine ⟨_, h1, ?_⟩
    rintro _ ⟨⟩
    exact h2
  · obtain ⟨t, ⟨h1, _⟩, _⟩ := f.returns h r seed
    refine ⟨_, h1, ?_⟩
    intro p hp
    cases f with
    | t1ha2_atonce128 g p => exact absurd ⟨g, p, rfl⟩ hf
    | _ => exact nomatch hp

theorem often_of_hash {k : Nat} {f : OneShot} {m m' : List Byte}
    (h : 2 ^ 64 ≤ k * {seed | f.hash m seed = f.hash m' seed ∧ highResult f m seed = highResult f m' seed}.ncard) :
    CollideOften k f m m' := by
  intro cfg cfg' w w' s s' page page' data data' b r b' r'
  refine le_trans h (Nat.mul_le_mul_left _ (Set.ncard_le_ncard ?_ (Set.toFinite _)))
  intro seed hs
  rw [Set.mem_ofPred_eq] at hs ⊢
  have h1 := gives_hash f b r seed
  have h2 := gives_hash f b' r' seed
  rw [← hs.1, ← hs.2] at h2
  exact ⟨_, _, h1, h2⟩

/-- C56: for every length of 64 bytes or more (but for one of 2048) there are two beginnings of messages such that
whatever follows, `t1ha2_atonce` gives the same result for a fifth of all seeds, and so does `t1ha2_atonce128`,
with both halves of its result. -/
theorem t1ha2_collides_often (n : Nat) (hn : (64 + n) % 2048 ≠ 1024) :
    ∃ p p' : List Byte, p.length = 64 ∧ p'.length = 64 ∧ p ≠ p' ∧
      ∀ f : OneShot, (∃ stack, f = .t1ha2_atonce stack ∨ ∃ extra, f = .t1ha2_atonce128 stack extra) →
        ∀ q : List Byte, q.length = n → CollideOften 5 f (p ++ q) (p' ++ q) := by
  refine ⟨pairTwo (BitVec.ofNat 64 (64 + n)), pairTwo' (BitVec.ofNat 64 (64 + n)), (pairTwo_length _).1,
    (pairTwo_length _).2, pairTwo_ne _, ?_⟩
  intro f hf q hq
  refine often_of_hash (le_trans (t1ha2_differential n hn q hq) (Nat.mul_le_mul_left _
    (Set.ncard_le_ncard ?_ (Set.toFinite _))))
  intro seed hs
  rw [Set.mem_ofPred_eq] at hs ⊢
  generalize pairTwo (BitVec.ofNat 64 (64 + n)) ++ q = m at hs ⊢
  generalize pairTwo' (BitVec.ofNat 64 (64 + n)) ++ q = m' at hs ⊢
  obtain ⟨stack, rfl | ⟨extra, rfl⟩⟩ := hf
  · exact ⟨hs.1, rfl⟩
  · exact ⟨congrArg Prod.fst hs.2, congrArg Prod.snd hs.2⟩

theorem ready128 (stack : State256) (m : List Byte) :
    (OneShot.t1ha2_atonce128 stack 4096).Ready amd64 (memory 4096 8192 5001 m) 5001 m.length where
  slack := fun _ => Or.inl (by decide)
  builds := fun h => nomatch h
  output := by rintro _ ⟨⟩; exact writable (by decide) (by decide)
  bottom := fun _ h => by rcases h with h | h <;> exact nomatch h
  top := fun _ h => nomatch h
  ulong := fun _ h => nomatch h

/-- Two messages of 100 bytes. -/
example (stack : State256) : ∃ m m' : List Byte, m.length = 100 ∧ m'.length = 100 ∧ m ≠ m' ∧
    2 ^ 64 ≤ 5 * {seed | ∃ v high,
      Gives (.t1ha2_atonce128 stack 4096) amd64 (memory 4096 8192 5001 m) start 5001 m.length seed v high ∧
      Gives (.t1ha2_atonce128 stack 4096) amd64 (memory 4096 8192 5001 m') start 5001 m'.length seed v high}.ncard := by
  obtain ⟨p, p', h1, h2, h3, h4⟩ := t1ha2_collides_often 36 (by decide)
  have l : (p ++ msg 36).length = 100 := by rw [List.length_append, h1, length_msg]
  have l' : (p' ++ msg 36).length = 100 := by rw [List.length_append, h2, length_msg]
  exact ⟨_, _, l, l', fun h => h3 (List.append_cancel_right h),
    h4 _ ⟨stack, Or.inr ⟨4096, rfl⟩⟩ (msg 36) (length_msg _) _ _ _ _ _ _ 4096 4096 5001 5001
      (buf_mid amd64 rfl _ (by omega)) (ready128 stack _) (buf_mid amd64 rfl _ (by omega)) (ready128 stack _)⟩

/-- C56: the same for streams, if the second seed is known (and is not one of a few). The pieces may be cut in any
way. -/
theorem stream_collides_often (y : U64) (hy : y.toNat % 2048 ≠ 1024) :
    ∃ p p' : List Byte, p.length = 64 ∧ p'.length = 64 ∧ p ≠ p' ∧
      ∀ (q : List Byte) (cfg cfg' : Cfg) (w w' : World) (s s' : Sys) (ctx ctx' slot slot' : Nat)
        (extra extra' : Option Nat) (before before' : List Byte) (ps ps' : List (Nat × List Byte)),
        Ctx cfg w s.ov ctx before → Pieces cfg w s.ov ctx ps → Out cfg w ctx extra slot → joined ps = p ++ q →
        Ctx cfg' w' s'.ov ctx' before' → Pieces cfg' w' s'.ov ctx' ps' → Out cfg' w' ctx' extra' slot' →
        joined ps' = p' ++ q → extra.isSome = extra'.isSome →
        2 ^ 64 ≤ 5 * {x | ∃ v high s₁ s₁',
          stream cfg ctx x y (spans ps) extra slot w s = .ok (v, s₁) ∧
          stream cfg' ctx' x y (spans ps') extra' slot' w' s' = .ok (v, s₁') ∧
          (∀ a, extra = some a → Holds w s₁.ov a (cfg.endian.bytes 8 high)) ∧
          ∀ a, extra' = some a → Holds w' s₁'.ov a (cfg'.endian.bytes 8 high)}.ncard := by
  refine ⟨pairTwo y, pairTwo' y, (pairTwo_length _).1, (pairTwo_length _).2, pairTwo_ne _, ?_⟩
  intro q cfg cfg' w w' s s' ctx ctx' slot slot' extra extra' before before' ps ps' c g o j c' g' o' j' he
  refine le_trans (t1ha2_stream_differential y hy) (Nat.mul_le_mul_left _ (Set.ncard_le_ncard ?_ (Set.toFinite _)))
  intro x hx
  rw [Set.mem_ofPred_eq] at hx ⊢
  obtain ⟨s₁, t, ⟨h1, _⟩, h2⟩ := stream_returns x y ps c g o
  obtain ⟨s₁', t', ⟨h3, _⟩, h4⟩ := stream_returns x y ps' c' g' o'
  rw [j] at h1 h2
  rw [j'] at h3 h4
  obtain ⟨e1, e2⟩ := hx q
  have hv : streamHash (pairTwo y ++ q) x y extra = streamHash (pairTwo' y ++ q) x y extra' := by
    cases extra <;> cases extra' <;> simp_all [streamHash]
  rw [hv] at h1
  unfold HighAt at h2 h4
  rw [e2] at h2
  exact ⟨_, _, _, _, h1, h3, h2, h4⟩

/-- A context at 4096 and a message at 5000. -/
theorem stream_place (m : List Byte) (hm : m.length ≤ 3000) :
    Ctx amd64 (memory 4096 8192 4096 (List.replicate 904 0 ++ m)) start.ov 4096 (List.replicate (ctxSize amd64) 0) ∧
      Piece amd64 (memory 4096 8192 4096 (List.replicate 904 0 ++ m)) start.ov 4096 5000 m ∧
      Out amd64 (memory 4096 8192 4096 (List.replicate 904 0 ++ m)) 4096 none 4300 := by
  have h : Holds (memory 4096 8192 4096 (List.replicate 904 0 ++ m)) start.ov 4096 (List.replicate 904 0 ++ m) :=
    (buf amd64 rfl (by decide) (by decide) (by decide) (by rw [List.length_append, List.length_replicate]; omega)
      (by decide)).holds
  have h1 := h.take (ctxSize amd64)
  have h2 := h.drop 904
  rw [List.drop_left' (List.length_replicate ..)] at h2
  rw [List.take_append_of_le_length (by rw [List.length_replicate]; decide), List.take_replicate] at h1
  refine ⟨⟨rfl, h1, writable (by decide) (by decide), by decide, by decide, by decide⟩,
    ⟨h2, ?_, Or.inr (Or.inr (by decide)), by decide, fun _ _ => by decide⟩,
    ⟨writable (by decide) (by decide), by decide, Or.inr (by decide), by decide, fun _ h => nomatch h⟩⟩
  show 5000 + m.length < 2 ^ 64
  omega

/-- Two messages of 100 bytes, with the second seed 0. -/
example : ∃ m m' : List Byte, m.length = 100 ∧ m'.length = 100 ∧ m ≠ m' ∧
    2 ^ 64 ≤ 5 * {x | ∃ v s₁ s₁',
      stream amd64 4096 x 0 [(5000, 100)] none 4300 (memory 4096 8192 4096 (List.replicate 904 0 ++ m)) start
        = .ok (v, s₁) ∧
      stream amd64 4096 x 0 [(5000, 100)] none 4300 (memory 4096 8192 4096 (List.replicate 904 0 ++ m')) start
        = .ok (v, s₁')}.ncard := by
  obtain ⟨p, p', h1, h2, h3, h4⟩ := stream_collides_often 0 (by decide)
  have l : (p ++ msg 36).length = 100 := by rw [List.length_append, h1, length_msg]
  have l' : (p' ++ msg 36).length = 100 := by rw [List.length_append, h2, length_msg]
  obtain ⟨c, g, o⟩ := stream_place (p ++ msg 36) (by omega)
  obtain ⟨c', g', o'⟩ := stream_place (p' ++ msg 36) (by omega)
  refine ⟨_, _, l, l', fun h => h3 (List.append_cancel_right h), le_trans
    (h4 (msg 36) amd64 amd64 _ _ _ _ 4096 4096 4300 4300 none none _ _ [(5000, p ++ msg 36)] [(5000, p' ++ msg 36)]
      c (by intro x hx; rw [List.mem_singleton] at hx; subst hx; exact g) o (List.append_nil _)
      c' (by intro x hx; rw [List.mem_singleton] at hx; subst hx; exact g') o' (List.append_nil _) rfl)
    (Nat.mul_le_mul_left _ (Set.ncard_le_ncard ?_ (Set.toFinite _)))⟩
  intro x hx
  rw [Set.mem_ofPred_eq] at hx ⊢
  obtain ⟨v, hi, s₁, s₁', e1, e2, _⟩ := hx
  simp only [spans, List.map_cons, List.map_nil] at e1 e2
  rw [l] at e1
  rw [l'] at e2
  exact ⟨v, s₁, s₁', e1, e2⟩

/-- C56: there are two beginnings of messages such that whatever follows, `t1ha0_32le` gives the same result for one
of 64 seeds. The same holds for `t1ha0_32be`. -/
theorem t1ha0_32_collides_often (f : OneShot) (hf : f = .t1ha0_32le ∨ f = .t1ha0_32be) :
    ∃ p p' : List Byte, p.length = 32 ∧ p'.length = 32 ∧ p ≠ p' ∧
      ∀ q : List Byte, CollideOften 64 f (p ++ q) (p' ++ q) := by
  obtain ⟨e, he, hh⟩ : ∃ e, (∀ m, f.hash m = Spec.t1ha0_32 e m) ∧ ∀ m seed, highResult f m seed = 0 := by
    rcases hf with rfl | rfl
    · exact ⟨.little, fun _ => rfl, fun _ _ => rfl⟩
    · exact ⟨.big, fun _ => rfl, fun _ _ => rfl⟩
  refine ⟨ofWords32 e [0, 0, 0, 0, 0, 0, 0, 0x20000],
    ofWords32 e [0x100000, 0x80000000, 0x80000000, 0, 0x100000, 0x80000000, 0x90000000, 0x2000], ?_, ?_, ?_,
    fun q => often_of_hash (le_trans (t1ha0_32_differential e q) (Nat.mul_le_mul_left _
    (Set.ncard_le_ncard ?_ (Set.toFinite _))))⟩
  · cases e <;> rfl
  · cases e <;> rfl
  · cases e <;> decide
  · intro seed h1
    rw [Set.mem_ofPred_eq] at h1 ⊢
    rw [he, he, hh, hh]
    exact ⟨h1, rfl⟩

/-- Two messages of 75 bytes. -/
example : ∃ m m' : List Byte, m.length = 75 ∧ m'.length = 75 ∧ m ≠ m' ∧
    2 ^ 64 ≤ 64 * {seed | ∃ v high,
      Gives .t1ha0_32le mips32 (memory 4096 8192 5001 m) start 5001 m.length seed v high ∧
      Gives .t1ha0_32le mips32 (memory 4096 8192 5001 m') start 5001 m'.length seed v high}.ncard := by
  obtain ⟨p, p', h1, h2, h3, h4⟩ := t1ha0_32_collides_often .t1ha0_32le (Or.inl rfl)
  have l : (p ++ msg 43).length = 75 := by rw [List.length_append, h1, length_msg]
  have l' : (p' ++ msg 43).length = 75 := by rw [List.length_append, h2, length_msg]
  exact ⟨_, _, l, l', fun h => h3 (List.append_cancel_right h),
    h4 (msg 43) _ _ _ _ _ _ 4096 4096 5001 5001 (buf_mid mips32 rfl _ (by omega)) (ready32 (Or.inl rfl))
      (buf_mid mips32 rfl _ (by omega)) (ready32 (Or.inl rfl))⟩

/-- C56: there are two beginnings of messages such that whatever follows (96 bytes or more, and an even number of
whole vectors), `t1ha0_ia32aes_avx2` gives the same result for one of 64 seeds. -/
theorem avx2_collides_often (ac : AesCfg) : ∃ p p' : List Byte, p.length = 32 ∧ p'.length = 32 ∧ p ≠ p' ∧
    ∀ q : List Byte, 96 ≤ q.length → q.length / 16 % 2 = 0 →
      CollideOften 64 (.t1ha0_ia32aes_avx2 ac) (p ++ q) (p' ++ q) := by
  refine ⟨List.replicate 16 0 ++ List.replicate 16 0, otherFirst ++ xorBytes (List.replicate 16 0) correction, ?_, ?_,
    ?_, fun q hq heven => often_of_hash (le_trans (t1ha0_aesB_differential (List.replicate 16 0) q rfl hq heven) (Nat.mul_le_mul_left _ (Set.ncard_le_ncard ?_ (Set.toFinite _))))⟩
  · rfl
  · rfl
  · decide
  · intro seed h1
    rw [Set.mem_ofPred_eq] at h1 ⊢
    exact ⟨h1, rfl⟩

/-- Two messages of 203 bytes. -/
example (ac : AesCfg) : ∃ m m' : List Byte, m.length = 203 ∧ m'.length = 203 ∧ m ≠ m' ∧
    2 ^ 64 ≤ 64 * {seed | ∃ v high,
      Gives (.t1ha0_ia32aes_avx2 ac) amd64 (memory 4096 8192 5001 m) start 5001 m.length seed v high ∧
      Gives (.t1ha0_ia32aes_avx2 ac) amd64 (memory 4096 8192 5001 m') start 5001 m'.length seed v high}.ncard := by
  obtain ⟨p, p', h1, h2, h3, h4⟩ := avx2_collides_often ac
  have l : (p ++ msg 171).length = 203 := by rw [List.length_append, h1, length_msg]
  have l' : (p' ++ msg 171).length = 203 := by rw [List.length_append, h2, length_msg]
  have R : ∀ m : List Byte, m.length = 203 →
      (OneShot.t1ha0_ia32aes_avx2 ac).Ready amd64 (memory 4096 8192 5001 m) 5001 m.length := fun m hm =>
    { slack := fun _ => Or.inl (by decide), builds := (fun h => nomatch h), output := (fun _ h => nomatch h),
      bottom := (fun _ h => by rcases h with h | h <;> exact nomatch h),
      top := (fun _ _ _ => by rw [hm]; decide), ulong := (fun _ _ => by rw [hm]; decide) }
  exact ⟨_, _, l, l', fun h => h3 (List.append_cancel_right h),
    h4 (msg 171) (by rw [length_msg]; decide) (by rw [length_msg]) _ _ _ _ _ _ 4096 4096 5001 5001
      (buf_mid amd64 rfl _ (by omega)) (R _ l) (buf_mid amd64 rfl _ (by omega)) (R _ l')⟩

end T1ha.Props
