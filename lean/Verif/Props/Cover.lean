import Verif.Proofs.Cover
import Verif.Proofs.Cover32
import Verif.Proofs.CoverAes
import Verif.Props.Differ

/-!
# Messages among which every seed has a collision: C57

No choice of the seed protects from collisions: for `t1ha2` there is a list of 1024 messages of 96 bytes such that
under every seed, two of them collide, with all 128 bits. For `t1ha0_32le`, `t1ha0_32be` and `t1ha0_ia32aes_avx2`
there are similar lists. (For `t1ha1` and the first two AES-NI variants, two messages suffice: see C37.)
-/

namespace T1ha.Props

open Model Examples

/-- Under this seed the two messages have the same hash, wherever they are, on whatever machines. -/
def CollideUnder (f : OneShot) (seed : U64) (m m' : List Byte) : Prop :=
  ∀ (cfg cfg' : Cfg) (w w' : World) (s s' : Sys) (page page' data data' : Nat),
    Buf cfg w s.ov page data m → f.Ready cfg w data m.length →
    Buf cfg' w' s'.ov page' data' m' → f.Ready cfg' w' data' m'.length →
    ∃ v high, Gives f cfg w s data m.length seed v high ∧ Gives f cfg' w' s' data' m'.length seed v high

theorem under_of_hash {f : OneShot} {seed : U64} {m m' : List Byte} (h : f.hash m seed = f.hash m' seed)
    (h' : highResult f m seed = highResult f m' seed) : CollideUnder f seed m m' := by
  intro cfg cfg' w w' s s' page page' data data' b r b' r'
  have h1 := gives_hash f b r seed
  have h2 := gives_hash f b' r' seed
  rw [← h, ← h'] at h2
  exact ⟨_, _, h1, h2⟩

/-- C57: a list of 1024 strings of 96 bytes is given. Whatever the seed, whatever precedes (some whole blocks of 32
bytes) and however long the rest is, two of the strings can be exchanged for one another in any message, and neither
`t1ha2_atonce` nor `t1ha2_atonce128` notices. -/
theorem t1ha2_collision_among : ∃ ms : List (List Byte), ms.length = 1024 ∧ (∀ m ∈ ms, m.length = 96) ∧
    ∀ (seed : U64) (r : List Byte) (n : Nat), 32 ∣ r.length → ∃ m ∈ ms, ∃ m' ∈ ms, m ≠ m' ∧
      ∀ f : OneShot, (∃ stack, f = .t1ha2_atonce stack ∨ ∃ extra, f = .t1ha2_atonce128 stack extra) →
        ∀ q : List Byte, q.length = n → CollideUnder f seed (r ++ m ++ q) (r ++ m' ++ q) := by
  refine ⟨messagesAny, length_messagesAny, messagesAny_length, ?_⟩
  intro seed r n hr
  obtain ⟨m, hm, m', hm', hne, h⟩ := t1ha2_cover seed r (Nat.mod_eq_zero_of_dvd hr) n
  refine ⟨m, hm, m', hm', hne, ?_⟩
  intro f hf q hq
  obtain ⟨h1, h2⟩ := h q hq
  rw [List.append_assoc, List.append_assoc]
  generalize r ++ (m ++ q) = x at h1 h2 ⊢
  generalize r ++ (m' ++ q) = x' at h1 h2 ⊢
  obtain ⟨stack, rfl | ⟨extra, rfl⟩⟩ := hf
  · exact under_of_hash h1 rfl
  · exact under_of_hash (congrArg Prod.fst h2) (congrArg Prod.snd h2)

/-- Messages of 164 bytes: 32 bytes, one of the strings, 36 bytes. -/
example (stack : State256) (seed : U64) : ∃ m m' : List Byte, m.length = 164 ∧ m'.length = 164 ∧ m ≠ m' ∧
    ∃ v high,
      Gives (.t1ha2_atonce128 stack 4096) amd64 (memory 4096 8192 5001 m) start 5001 m.length seed v high ∧
      Gives (.t1ha2_atonce128 stack 4096) amd64 (memory 4096 8192 5001 m') start 5001 m'.length seed v high := by
  obtain ⟨ms, _, hl, h⟩ := t1ha2_collision_among
  obtain ⟨m, hm, m', hm', hne, h⟩ := h seed (msg 32) 36 (by rw [length_msg])
  have l : (msg 32 ++ m ++ msg 36).length = 164 := by
    rw [List.length_append, List.length_append, hl m hm, length_msg, length_msg]
  have l' : (msg 32 ++ m' ++ msg 36).length = 164 := by
    rw [List.length_append, List.length_append, hl m' hm', length_msg, length_msg]
  exact ⟨_, _, l, l', fun e => hne (List.append_cancel_left (List.append_cancel_right e)),
    h _ ⟨stack, Or.inr ⟨4096, rfl⟩⟩ (msg 36) (length_msg _) _ _ _ _ _ _ 4096 4096 5001 5001
      (buf_mid amd64 rfl _ (by omega)) (ready128 stack _) (buf_mid amd64 rfl _ (by omega)) (ready128 stack _)⟩

/-- C57: the same for streams, whatever both seeds. The pieces may be cut in any way. -/
theorem stream_collision_among : ∃ ms : List (List Byte), ms.length = 1024 ∧ (∀ m ∈ ms, m.length = 96) ∧
    ∀ (x y : U64) (r : List Byte), 32 ∣ r.length → ∃ m ∈ ms, ∃ m' ∈ ms, m ≠ m' ∧
      ∀ (q : List Byte) (cfg cfg' : Cfg) (w w' : World) (s s' : Sys) (ctx ctx' slot slot' : Nat)
        (extra extra' : Option Nat) (before before' : List Byte) (ps ps' : List (Nat × List Byte)),
        Ctx cfg w s.ov ctx before → Pieces cfg w s.ov ctx ps → Out cfg w ctx extra slot → joined ps = r ++ m ++ q →
        Ctx cfg' w' s'.ov ctx' before' → Pieces cfg' w' s'.ov ctx' ps' → Out cfg' w' ctx' extra' slot' →
        joined ps' = r ++ m' ++ q → extra.isSome = extra'.isSome →
        ∃ v high s₁ s₁',
          stream cfg ctx x y (spans ps) extra slot w s = .ok (v, s₁) ∧
          stream cfg' ctx' x y (spans ps') extra' slot' w' s' = .ok (v, s₁') ∧
          (∀ a, extra = some a → Holds w s₁.ov a (cfg.endian.bytes 8 high)) ∧
          ∀ a, extra' = some a → Holds w' s₁'.ov a (cfg'.endian.bytes 8 high) := by
  refine ⟨messagesAny, length_messagesAny, messagesAny_length, ?_⟩
  intro x y r hr
  obtain ⟨m, hm, m', hm', hne, h⟩ := t1ha2_stream_cover x y r (Nat.mod_eq_zero_of_dvd hr)
  refine ⟨m, hm, m', hm', hne, ?_⟩
  intro q cfg cfg' w w' s s' ctx ctx' slot slot' extra extra' before before' ps ps' c g o j c' g' o' j' he
  obtain ⟨s₁, t, ⟨h1, _⟩, h2⟩ := stream_returns x y ps c g o
  obtain ⟨s₁', t', ⟨h3, _⟩, h4⟩ := stream_returns x y ps' c' g' o'
  rw [j, List.append_assoc] at h1 h2
  rw [j', List.append_assoc] at h3 h4
  obtain ⟨e1, e2⟩ := h q
  generalize r ++ (m ++ q) = z at h1 h2 e1 e2
  generalize r ++ (m' ++ q) = z' at h3 h4 e1 e2
  have hv : streamHash z x y extra = streamHash z' x y extra' := by
    cases extra <;> cases extra' <;> simp_all [streamHash]
  rw [hv] at h1
  unfold HighAt at h2 h4
  rw [e2] at h2
  exact ⟨_, _, _, _, h1, h3, h2, h4⟩

/-- Messages of 132 bytes: one of the strings, and 36 bytes; both seeds unknown. -/
example (x y : U64) : ∃ m m' : List Byte, m.length = 132 ∧ m'.length = 132 ∧ m ≠ m' ∧ ∃ v s₁ s₁',
      stream amd64 4096 x y [(5000, 132)] none 4300 (memory 4096 8192 4096 (List.replicate 904 0 ++ m)) start
        = .ok (v, s₁) ∧
      stream amd64 4096 x y [(5000, 132)] none 4300 (memory 4096 8192 4096 (List.replicate 904 0 ++ m')) start
        = .ok (v, s₁') := by
  obtain ⟨ms, _, hl, h⟩ := stream_collision_among
  obtain ⟨m, hm, m', hm', hne, h⟩ := h x y [] (by decide)
  have l : (m ++ msg 36).length = 132 := by rw [List.length_append, hl m hm, length_msg]
  have l' : (m' ++ msg 36).length = 132 := by rw [List.length_append, hl m' hm', length_msg]
  obtain ⟨c, g, o⟩ := stream_place (m ++ msg 36) (by omega)
  obtain ⟨c', g', o'⟩ := stream_place (m' ++ msg 36) (by omega)
  obtain ⟨v, hi, s₁, s₁', e1, e2, _⟩ := h (msg 36) amd64 amd64 _ _ _ _ 4096 4096 4300 4300 none none _ _
    [(5000, m ++ msg 36)] [(5000, m' ++ msg 36)]
    c (by intro x hx; rw [List.mem_singleton] at hx; subst hx; exact g) o (List.append_nil _)
    c' (by intro x hx; rw [List.mem_singleton] at hx; subst hx; exact g') o' (List.append_nil _) rfl
  have sp : spans [(5000, m ++ msg 36)] = [(5000, 132)] := by rw [← l]; rfl
  have sp' : spans [(5000, m' ++ msg 36)] = [(5000, 132)] := by rw [← l']; rfl
  rw [sp] at e1
  rw [sp'] at e2
  exact ⟨_, _, l, l', fun e => hne (List.append_cancel_right e), v, s₁, s₁', e1, e2⟩

/-- C57: a list of 1024 strings of 48 bytes for `t1ha0_32le`, and another one for `t1ha0_32be`. -/
theorem t1ha0_32_collision_among (f : OneShot) (hf : f = .t1ha0_32le ∨ f = .t1ha0_32be) :
    ∃ ms : List (List Byte), ms.length = 1024 ∧ (∀ m ∈ ms, m.length = 48) ∧
      ∀ (seed : U64) (r : List Byte) (n : Nat), 16 ∣ r.length → ∃ m ∈ ms, ∃ m' ∈ ms, m ≠ m' ∧
        ∀ q : List Byte, q.length = n → CollideUnder f seed (r ++ m ++ q) (r ++ m' ++ q) := by
  obtain ⟨e, he, hh⟩ : ∃ e, (∀ m, f.hash m = Spec.t1ha0_32 e m) ∧ ∀ m seed, highResult f m seed = 0 := by
    rcases hf with rfl | rfl
    · exact ⟨.little, fun _ => rfl, fun _ _ => rfl⟩
    · exact ⟨.big, fun _ => rfl, fun _ _ => rfl⟩
  refine ⟨messagesAny32 e, length_messagesAny32 e, messagesAny32_length e, ?_⟩
  intro seed r n hr
  obtain ⟨m, hm, m', hm', hne, h⟩ := t1ha0_32_cover e seed r (Nat.mod_eq_zero_of_dvd hr) n
  refine ⟨m, hm, m', hm', hne, ?_⟩
  intro q hq
  rw [List.append_assoc, List.append_assoc]
  exact under_of_hash (by rw [he, he]; exact h q hq) (by rw [hh, hh])

/-- Messages of 107 bytes: 16 bytes, one of the strings, 43 bytes. -/
example (seed : U64) : ∃ m m' : List Byte, m.length = 107 ∧ m'.length = 107 ∧ m ≠ m' ∧ ∃ v high,
    Gives .t1ha0_32le mips32 (memory 4096 8192 5001 m) start 5001 m.length seed v high ∧
    Gives .t1ha0_32le mips32 (memory 4096 8192 5001 m') start 5001 m'.length seed v high := by
  obtain ⟨ms, _, hl, h⟩ := t1ha0_32_collision_among .t1ha0_32le (Or.inl rfl)
  obtain ⟨m, hm, m', hm', hne, h⟩ := h seed (msg 16) 43 (by rw [length_msg])
  have l : (msg 16 ++ m ++ msg 43).length = 107 := by
    rw [List.length_append, List.length_append, hl m hm, length_msg, length_msg]
  have l' : (msg 16 ++ m' ++ msg 43).length = 107 := by
    rw [List.length_append, List.length_append, hl m' hm', length_msg, length_msg]
  exact ⟨_, _, l, l', fun e => hne (List.append_cancel_left (List.append_cancel_right e)),
    h (msg 43) (length_msg _) _ _ _ _ _ _ 4096 4096 5001 5001 (buf_mid mips32 rfl _ (by omega)) (ready32 (Or.inl rfl))
      (buf_mid mips32 rfl _ (by omega)) (ready32 (Or.inl rfl))⟩

/-- C57: one string of 32 bytes, and 128 others: whatever the seed, one of the others can replace the first one, and
`t1ha0_ia32aes_avx2` does not notice. Before it are whole blocks of 128 bytes (and 16 bytes more, if the number of
vectors is odd), after it are 96 bytes or more. -/
theorem avx2_collision_among (ac : AesCfg) : ∃ (m : List Byte) (ms : List (List Byte)),
    m.length = 32 ∧ ms.length = 128 ∧ (∀ m' ∈ ms, m'.length = 32 ∧ m' ≠ m) ∧
    ∀ (seed : U64) (r : List Byte) (n : Nat), r.length % 128 = 0 ∨ r.length % 128 = 16 → 96 ≤ n → n / 16 % 2 = 0 →
      ∃ m' ∈ ms, ∀ q : List Byte, q.length = n →
        CollideUnder (.t1ha0_ia32aes_avx2 ac) seed (r ++ m ++ q) (r ++ m' ++ q) := by
  refine ⟨List.replicate 32 0, messagesAes, List.length_replicate .., ?_, messagesAes_length, ?_⟩
  · rw [messagesAes, List.length_map, List.length_range]
  intro seed r n hr hn heven
  obtain ⟨m', hm', h⟩ := t1ha0_aesB_cover r hr n hn heven seed
  refine ⟨m', hm', ?_⟩
  intro q hq
  rw [List.append_assoc, List.append_assoc]
  exact under_of_hash (h q hq) rfl

/-- Messages of 347 bytes: 144 bytes, 32 bytes which differ, 171 bytes. -/
example (ac : AesCfg) (seed : U64) : ∃ m m' : List Byte, m.length = 347 ∧ m'.length = 347 ∧ m ≠ m' ∧ ∃ v high,
    Gives (.t1ha0_ia32aes_avx2 ac) amd64 (memory 4096 8192 5001 m) start 5001 m.length seed v high ∧
    Gives (.t1ha0_ia32aes_avx2 ac) amd64 (memory 4096 8192 5001 m') start 5001 m'.length seed v high := by
  obtain ⟨m, ms, hm, _, hl, h⟩ := avx2_collision_among ac
  obtain ⟨m', hm', h⟩ := h seed (msg 144) 171 (by rw [length_msg]; decide) (by decide) (by decide)
  have l : (msg 144 ++ m ++ msg 171).length = 347 := by
    rw [List.length_append, List.length_append, hm, length_msg, length_msg]
  have l' : (msg 144 ++ m' ++ msg 171).length = 347 := by
    rw [List.length_append, List.length_append, (hl m' hm').1, length_msg, length_msg]
  have R : ∀ m : List Byte, m.length = 347 →
      (OneShot.t1ha0_ia32aes_avx2 ac).Ready amd64 (memory 4096 8192 5001 m) 5001 m.length := fun m hm =>
    { slack := fun _ => Or.inl (by decide), builds := (fun h => nomatch h), output := (fun _ h => nomatch h),
      bottom := (fun _ h => by rcases h with h | h <;> exact nomatch h),
      top := (fun _ _ _ => by rw [hm]; decide), ulong := (fun _ _ => by rw [hm]; decide) }
  exact ⟨_, _, l, l', fun e => (hl m' hm').2 (List.append_cancel_left (List.append_cancel_right e)).symm,
    h (msg 171) (length_msg _) _ _ _ _ _ _ 4096 4096 5001 5001
      (buf_mid amd64 rfl _ (by omega)) (R _ l) (buf_mid amd64 rfl _ (by omega)) (R _ l')⟩

end T1ha.Props
