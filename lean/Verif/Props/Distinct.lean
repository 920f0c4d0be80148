import Verif.Props.OneShot
import Verif.Props.Stream

/-!
# No function can stand in for another one: C52
-/

namespace T1ha.Props

open Model Examples

/-- All the results which the library can compute of a message `m` with the seed `x` (and the second seed `y`,
for streams): one-shot functions first, then the two ways to end a stream. -/
def results (m : List Byte) (x y : U64) : List U64 :=
  [Spec.t1ha1 .little m x, Spec.t1ha1 .big m x, Spec.t1ha2_atonce m x, (Spec.t1ha2_atonce128 m x).1,
    (Spec.t1ha2_atonce128 m x).2, Spec.t1ha0_32 .little m x, Spec.t1ha0_32 .big m x, Spec.t1ha0_aesA m x,
    Spec.t1ha0_aesB m x, Spec.t1ha2_stream m x y, (Spec.t1ha2_stream128 m x y).1, (Spec.t1ha2_stream128 m x y).2]

/-- C52: for a message of 1000 bytes, with the second seed of the stream 0, equal to the first seed or to the
length, all results are different. -/
theorem results_differ : (results (msg 1000) 7 0).Nodup ∧ (results (msg 1000) 7 7).Nodup ∧
    (results (msg 1000) 7 1000).Nodup := by
  decide +kernel

/-- The place of the result of a one-shot function in `results`. `t1ha0_ia32aes_noavx` and
`t1ha0_ia32aes_avx` have the same one. -/
def algorithm : OneShot → Nat
  | .t1ha1_le => 0
  | .t1ha1_be => 1
  | .t1ha2_atonce _ => 2
  | .t1ha2_atonce128 _ _ => 3
  | .t1ha0_32le => 5
  | .t1ha0_32be => 6
  | .t1ha0_ia32aes_noavx _ => 7
  | .t1ha0_ia32aes_avx _ => 7
  | .t1ha0_ia32aes_avx2 _ => 8

theorem hash_eq_result (f : OneShot) (m : List Byte) (x y : U64) :
    (results m x y)[algorithm f]? = some (f.hash m x) := by
  cases f <;> rfl

/-- C52: two one-shot functions return the same values for all messages and seeds only if they are the same, or
both are one of `t1ha0_ia32aes_noavx` and `t1ha0_ia32aes_avx`. -/
theorem same_function_iff (f g : OneShot) :
    (∀ m seed, f.hash m seed = g.hash m seed) ↔ algorithm f = algorithm g := by
  constructor
  · intro h
    have hf := hash_eq_result f (msg 1000) 7 0
    have hg := hash_eq_result g (msg 1000) 7 0
    rw [h] at hf
    obtain ⟨hi, _⟩ := List.getElem?_eq_some_iff.1 hf
    exact List.getElem?_inj hi results_differ.1 |>.1 (hf.trans hg.symm)
  · intro h m seed
    have hf := hash_eq_result f m seed 0
    have hg := hash_eq_result g m seed 0
    rw [h, hg] at hf
    exact (Option.some.inj hf).symm

/-- On one machine, with one message: two calls with different results. -/
example : ∃ v v' s₁ s₂ t₁ t₂,
    Returns (OneShot.t1ha1_le.run amd64 (8192 - 1000) (msg 1000).length 7) (atEnd 1000) start v s₁ t₁ ∧
    Returns ((OneShot.t1ha2_atonce ⟨1, 2, 3, 4⟩).run amd64 (8192 - 1000) (msg 1000).length 7) (atEnd 1000) start
      v' s₂ t₂ ∧ v ≠ v' := by
  obtain ⟨t₁, h₁, _⟩ := OneShot.returns (s := start) .t1ha1_le (buf_atEnd amd64 rfl 1000 (by decide))
    (ready_atEnd _ amd64 1000 (by decide) (by decide) (by decide) (by simp [OneShot.output])) 7
  obtain ⟨t₂, h₂, _⟩ := OneShot.returns (s := start) (.t1ha2_atonce ⟨1, 2, 3, 4⟩)
    (buf_atEnd amd64 rfl 1000 (by decide))
    (ready_atEnd _ amd64 1000 (by decide) (by decide) (by decide) (by simp [OneShot.output])) 7
  refine ⟨_, _, _, _, _, _, h₁, h₂, fun he => ?_⟩
  have hf := hash_eq_result .t1ha1_le (msg 1000) 7 0
  have hg := hash_eq_result (.t1ha2_atonce ⟨1, 2, 3, 4⟩) (msg 1000) 7 0
  rw [he] at hf
  exact absurd ((List.getElem?_inj (by exact Nat.zero_lt_succ _) results_differ.1).1 (hf.trans hg.symm)) (by decide)

end T1ha.Props

namespace T1ha.Examples

open Model

/-- Every address is mapped; the bytes `m` are at 4096. -/
def everywhere (m : List Byte) : World where
  cell _ a := some ((if 4096 ≤ a then m[a - 4096]? else none).getD 0)
  writable _ := true

theorem everywhere_holds (m : List Byte) {ov : Overlay} (h : ∀ a, ov a = none) : Holds (everywhere m) ov 4096 m := by
  intro t i v hv
  simp only [everywhere, see, h]
  rw [if_pos (by omega), show 4096 + i - 4096 = i by omega, hv]
  rfl

theorem everywhere_writable (m : List Byte) (p n : Nat) : Writable (everywhere m) p n :=
  ⟨fun _ _ _ => rfl, fun _ _ => rfl⟩

theorem everywhere_buf (m : List Byte) (hm : m.length ≤ 4096) :
    Buf amd64 (everywhere m) start.ov 4096 4096 m := by
  refine ⟨everywhere_holds m fun _ => rfl, Nat.lt_of_le_of_lt (Nat.add_le_add_left hm _) (by decide), ?_,
    pageOk amd64 rfl, fun _ _ => by decide⟩
  intro t a c _
  simp only [everywhere, Option.isSome_some]

theorem everywhere_ready (f : OneShot) (m : List Byte) (hm : m.length ≤ 4096) :
    f.Ready amd64 (everywhere m) 4096 m.length where
  slack := fun _ => Or.inl (by decide)
  builds := fun _ => by decide
  output := fun p _ => everywhere_writable m p 8
  bottom := fun _ _ _ => by omega
  top := fun _ _ _ => Nat.lt_of_le_of_lt (Nat.add_le_add_right (Nat.add_le_add_left hm _) _) (by decide)
  ulong := fun _ _ => Nat.lt_of_le_of_lt hm (by decide)

theorem everywhere_piece (m : List Byte) (hm : m.length ≤ 4096) :
    Piece amd64 (everywhere m) start.ov 65536 4096 m :=
  ⟨everywhere_holds m fun _ => rfl, (everywhere_buf m hm).fits, Or.inr (Or.inl (by omega)), by decide,
    fun _ _ => by decide⟩

theorem everywhere_pieces (m : List Byte) (hm : m.length ≤ 4096) :
    Pieces amd64 (everywhere m) start.ov 65536 [(4096, m)] := by
  intro p hp
  simp only [List.mem_singleton] at hp
  subst hp
  exact everywhere_piece m hm

theorem everywhere_ctx (m : List Byte) : ∃ before, Ctx amd64 (everywhere m) start.ov 65536 before := by
  refine ⟨(List.range (ctxSize amd64)).map fun i => ((if 4096 ≤ 65536 + i then m[65536 + i - 4096]? else none).getD 0),
    by simp, ?_, everywhere_writable m _ _, by decide, by decide, by decide⟩
  intro t i v hv
  rw [List.getElem?_map, Option.map_eq_some_iff] at hv
  obtain ⟨j, hj, rfl⟩ := hv
  obtain ⟨hi, rfl⟩ := List.getElem?_eq_some_iff.1 hj
  simp only [List.getElem_range, everywhere, see, start]
  rfl

end T1ha.Examples

namespace T1ha.Props

open Model Examples

/-- C52: the calls themselves. Two functions return the same value, on all machines and for all messages and seeds,
exactly if they are the same, or both are one of `t1ha0_ia32aes_noavx` and `t1ha0_ia32aes_avx`. -/
theorem calls_alike_iff (f g : OneShot) :
    (∀ (cfg : Cfg) (w : World) (s : Sys) (page data : Nat) (m : List Byte) (seed : U64), Buf cfg w s.ov page data m →
      f.Ready cfg w data m.length → g.Ready cfg w data m.length →
      ∃ v s₁ s₂ t₁ t₂, Returns (f.run cfg data m.length seed) w s v s₁ t₁ ∧
        Returns (g.run cfg data m.length seed) w s v s₂ t₂) ↔ algorithm f = algorithm g := by
  constructor
  · intro h
    have hm : (msg 1000).length ≤ 4096 := by rw [length_msg]; decide
    obtain ⟨v, s₁, s₂, t₁, t₂, h1, h2⟩ := h amd64 (everywhere (msg 1000)) start 4096 4096 (msg 1000) 7
      (everywhere_buf _ hm) (everywhere_ready f _ hm) (everywhere_ready g _ hm)
    obtain ⟨t, h3, -⟩ := OneShot.returns (s := start) f (everywhere_buf _ hm) (everywhere_ready f _ hm) 7
    obtain ⟨t', h4, -⟩ := OneShot.returns (s := start) g (everywhere_buf _ hm) (everywhere_ready g _ hm) 7
    have e1 : v = f.hash (msg 1000) 7 := by
      have := h1.1.symm.trans h3.1
      injection this with this
      exact (Prod.mk.inj this).1
    have e2 : v = g.hash (msg 1000) 7 := by
      have := h2.1.symm.trans h4.1
      injection this with this
      exact (Prod.mk.inj this).1
    have hf := hash_eq_result f (msg 1000) 7 0
    have hg := hash_eq_result g (msg 1000) 7 0
    rw [← e1] at hf
    rw [← e2] at hg
    obtain ⟨hi, _⟩ := List.getElem?_eq_some_iff.1 hf
    exact List.getElem?_inj hi results_differ.1 |>.1 (hf.trans hg.symm)
  · intro h cfg w s page data m seed hb hf hg
    obtain ⟨t, h3, -⟩ := OneShot.returns f hb hf seed
    obtain ⟨t', h4, -⟩ := OneShot.returns g hb hg seed
    rw [← (same_function_iff f g).2 h m seed] at h4
    exact ⟨_, _, _, _, _, h3, h4⟩

/-- C52: the same for a stream: of a certain message of 1000 bytes, cut in any way, with the second seed 0, equal to
the first one or to the length, on every machine, neither the result nor the second half of it (if it is asked for) is
what a one-shot function returns. -/
theorem stream_call_differs {cfg : Cfg} {w : World} {s : Sys} {page data ctx slot : Nat} {before : List Byte}
    {extra : Option Nat} {ps : List (Nat × List Byte)} {y : U64} (f : OneShot)
    (hb : Buf cfg w s.ov page data (msg 1000)) (hf : f.Ready cfg w data (msg 1000).length)
    (here : Ctx cfg w s.ov ctx before) (pieces : Pieces cfg w s.ov ctx ps) (hps : joined ps = msg 1000)
    (out : Out cfg w ctx extra slot) (hy : y = 0 ∨ y = 7 ∨ y = 1000) :
    ∃ v u hi s₁ s₂ t₁ t₂, Returns (f.run cfg data (msg 1000).length 7) w s v s₁ t₁ ∧
      Returns (stream cfg ctx 7 y (spans ps) extra slot) w s u s₂ t₂ ∧
      (∀ p, extra = some p → Holds w s₂.ov p (cfg.endian.bytes 8 (hi : U64).toNat)) ∧ v ≠ u ∧ v ≠ hi := by
  obtain ⟨t₁, h1, -⟩ := OneShot.returns f hb hf 7
  obtain ⟨s₂, t₂, h2, h3⟩ := stream_correct ps here pieces out 7 y
  rw [hps] at h2 h3
  have hn : (results (msg 1000) 7 y).Nodup := by
    rcases hy with rfl | rfl | rfl
    · exact results_differ.1
    · exact results_differ.2.1
    · exact results_differ.2.2
  have hv := hash_eq_result f (msg 1000) 7 y
  have ha : algorithm f < 9 := by cases f <;> simp [algorithm]
  have apart : ∀ k < 12, 9 ≤ k → ∀ u, (results (msg 1000) 7 y)[k]? = some u → f.hash (msg 1000) 7 ≠ u := by
    intro k hk h9 u hu he
    rw [he] at hv
    have := (List.getElem?_inj (by exact hk) hn).1 (hu.trans hv.symm)
    omega
  refine ⟨_, _, (Spec.t1ha2_stream128 (msg 1000) 7 y).2, _, s₂, t₁, t₂, h1, h2, h3, ?_,
    apart 11 (by decide) (by decide) _ rfl⟩
  cases extra with
  | none => exact apart 9 (by decide) (by decide) _ rfl
  | some p => exact apart 10 (by decide) (by decide) _ rfl

/-- All in one memory. -/
example (f : OneShot) : ∃ v u hi s₁ s₂ t₁ t₂,
    Returns (f.run amd64 4096 (msg 1000).length 7) (everywhere (msg 1000)) start v s₁ t₁ ∧
      Returns (stream amd64 65536 7 0 (spans [(4096, msg 1000)]) (some 70000) 71000) (everywhere (msg 1000)) start u
        s₂ t₂ ∧
      (∀ p, some 70000 = some p → Holds (everywhere (msg 1000)) s₂.ov p (amd64.endian.bytes 8 (hi : U64).toNat)) ∧
      v ≠ u ∧ v ≠ hi := by
  have hm : (msg 1000).length ≤ 4096 := by rw [length_msg]; decide
  obtain ⟨before, hc⟩ := everywhere_ctx (msg 1000)
  refine stream_call_differs (ps := [(4096, msg 1000)]) f (everywhere_buf _ hm) (everywhere_ready f _ hm) hc
    (everywhere_pieces _ hm) (by simp [joined]) ⟨everywhere_writable _ _ _, by decide, by decide, by decide,
      fun p _ => everywhere_writable _ _ _⟩ (Or.inl rfl)

end T1ha.Props
