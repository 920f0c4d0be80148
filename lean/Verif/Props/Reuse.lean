import Verif.Proofs.Reuse
import Verif.Props.Stream

/-!
# Properties of contexts after `t1ha2_final`, and of contexts without `t1ha2_init`: C39, C40

The words used in the statements (`Spec.sponge`, `Reuse`) are defined in `Verif/Props/Sponge.lean`.
-/

namespace T1ha.Props

open Model Examples

variable {cfg cfg' : Cfg} {w w' : World} {s s' : Sys} {ctx ctx' data slot slot' : Nat}
  {extra extra' : Option Nat} {x y : U64} {img img' fed m : List Byte}
  {done : List (List Byte × Bool)}

/-! ## C39 -/

/-- C39: `t1ha2_update` returns whatever calls of `t1ha2_update` and `t1ha2_final` came before. It touches
only the context and the given bytes, writes only inside the context, and the context can be used again. -/
theorem reuse_update (past : Reuse cfg x y img done fed) (here : Ctx cfg w s.ov ctx img)
    (piece : Piece cfg w s.ov ctx data m) :
    ∃ s' t img', Returns (t1ha2_update cfg ctx data m.length) w s () s' t ∧ Ctx cfg w s'.ov ctx img' ∧
      Reuse cfg x y img' done (fed ++ m) ∧
      (∀ e ∈ t, UpdateEv cfg ctx data m.length e) ∧ Unchanged s.ov s'.ov ctx (ctxSize cfg) := by
  obtain ⟨v, s', t, h1, ⟨_, h3⟩, h4, -⟩ := returns_of_exec (feed_exec here past.image piece)
  obtain ⟨img', hc⟩ := here.after h3.grow
  exact ⟨s', t, img', h1, hc, past.update here piece h1 hc, h4, fun a ha => h3.same a ha⟩

/-- C39: `t1ha2_final` returns whatever calls of `t1ha2_update` and `t1ha2_final` came before. Its result
is a function of the seeds and of what was fed before each of these calls. It touches only the context, its
local variable and the place of the second half, and the context can be used again. -/
theorem reuse_final (past : Reuse cfg x y img done fed) (here : Ctx cfg w s.ov ctx img)
    (out : Out cfg w ctx extra slot) :
    ∃ s' t img', Returns (t1ha2_final cfg ctx extra slot) w s
        ((Spec.sponge x y done fed).result extra.isSome) s' t ∧
      (∀ p, extra = some p → Holds w s'.ov p (cfg.endian.bytes 8 (Spec.sponge x y done fed).high.toNat)) ∧
      Ctx cfg w s'.ov ctx img' ∧
      ((∀ p, extra = some p → p + 8 ≤ ctx ∨ ctx + ctxSize cfg ≤ p) →
        Reuse cfg x y img' (done ++ [(fed, extra.isSome)]) []) ∧
      (∀ e ∈ t, FinalEv cfg ctx extra slot e) ∧
      ∀ a, (a < ctx ∨ ctx + ctxSize cfg ≤ a) → (a < slot ∨ slot + 8 ≤ a) →
        (∀ p, extra = some p → a < p ∨ p + 8 ≤ a) → s'.ov a = s.ov a := by
  obtain ⟨v, s', t, h1, ⟨h2, h3, h4, h5, -⟩, h6, _, h7⟩ :=
    returns_of_exec (finish_exec here past.image out)
  obtain ⟨img', hc⟩ := here.after h5
  subst h2
  exact ⟨s', t, img', h1, h3, hc, fun ha => past.final here out ha h1 hc, final_ev h6 h7, h4⟩

/-- C39: the results are the same for all builds and machines. -/
theorem reuse_portable (past : Reuse cfg x y img done fed) (past' : Reuse cfg' x y img' done fed)
    (here : Ctx cfg w s.ov ctx img) (here' : Ctx cfg' w' s'.ov ctx' img')
    (out : Out cfg w ctx extra slot) (out' : Out cfg' w' ctx' extra' slot')
    (hsame : extra.isSome = extra'.isSome) :
    ∃ v hi s1 s1' t t', Returns (t1ha2_final cfg ctx extra slot) w s v s1 t ∧
      Returns (t1ha2_final cfg' ctx' extra' slot') w' s' v s1' t' ∧
      (∀ p, extra = some p → Holds w s1.ov p (cfg.endian.bytes 8 hi)) ∧
      ∀ p, extra' = some p → Holds w' s1'.ov p (cfg'.endian.bytes 8 hi) := by
  obtain ⟨s1, t, _, h1, h2, _⟩ := reuse_final past here out
  obtain ⟨s1', t', _, h1', h2', _⟩ := reuse_final past' here' out'
  rw [← hsame] at h1'
  exact ⟨_, _, s1, s1', t, t', h1, h1', h2, h2'⟩

/-- C39: before the first `t1ha2_final`, the results of `reuse_final` are the ordinary ones. -/
theorem first_final (m : List Byte) (x y : U64) :
    (Spec.sponge x y [] m).result false = Spec.t1ha2_stream m x y ∧
      ((Spec.sponge x y [] m).result true, (Spec.sponge x y [] m).high) = Spec.t1ha2_stream128 m x y :=
  Spec.sponge_fresh x y m

/-- C39: `t1ha2_final` changes the context: a second call returns another value (here after
`t1ha2_init(ctx, 0, 0)`, without data). -/
theorem final_not_repeatable :
    (Spec.sponge 0 0 [([], false)] []).result false ≠ (Spec.sponge 0 0 [] []).result false := by
  decide +kernel

/-- A context to which 143 bytes have been fed, of which both halves of the result have been taken, and to
which 77 more bytes have been fed. -/
theorem reuse_quiet (cfg : Cfg) (x y : U64) : ∃ (s : Sys) (img : List Byte),
    Reuse cfg x y img [(quietBytes 5001 43 ++ quietBytes 6003 100, true)] (quietBytes 7001 77) ∧
      Ctx cfg quiet s.ov 4096 img := by
  have hs : ctxSize cfg ≤ 80 := by unfold ctxSize offTotal; split <;> decide
  obtain ⟨s1, t1, i1, r1, c1, _, u1⟩ := t1ha2_init_returns (s := start) (ctx_quiet cfg) x y
  have h1 := Reuse.init (ctx_quiet cfg) r1 c1
  obtain ⟨s2, t2, i2, r2, c2, h2, _, u2⟩ := reuse_update h1 c1
    (piece_quiet cfg (p := 5001) (n := 43) (by decide) (by decide) u1)
  have u2' : Unchanged start.ov s2.ov 4096 (ctxSize cfg) := fun a ha => (u2 a ha).trans (u1 a ha)
  obtain ⟨s3, t3, i3, r3, c3, h3, _, u3⟩ := reuse_update h2 c2
    (piece_quiet cfg (p := 6003) (n := 100) (by decide) (by decide) u2')
  have u3' : Unchanged start.ov s3.ov 4096 (ctxSize cfg) := fun a ha => (u3 a ha).trans (u2' a ha)
  obtain ⟨s4, t4, i4, r4, _, c4, h4, _, u4⟩ := reuse_final h3 c3
    (out_quiet cfg (some 9001) (by rintro _ ⟨⟩; decide))
  have p4 : Piece cfg quiet s4.ov 4096 7001 (quietBytes 7001 77) := by
    have := piece_quiet cfg (p := 7001) (n := 77) (by decide) (by decide) u3'
    have hl := length_quietBytes 7001 77
    refine ⟨this.holds.congr fun a ha hb => u4 a (by omega) (by omega) ?_, this.fits, this.apart, this.notNull,
      this.above⟩
    rintro _ ⟨⟩
    omega
  obtain ⟨s5, t5, i5, r5, c5, h5, _⟩ := reuse_update (h4 (by rintro _ ⟨⟩; omega)) c4 p4
  exact ⟨s5, i5, h5, c5⟩

/-- `reuse_update`, `reuse_final`, `reuse_portable` -/
example : ∃ v s s' s1 s1' t t', Returns (t1ha2_final mips32 4096 none 4300) quiet s v s1 t ∧
    Returns (t1ha2_final amd64 4096 none 4300) quiet s' v s1' t' := by
  obtain ⟨s, img, h1, h2⟩ := reuse_quiet mips32 5 6
  obtain ⟨s', img', h1', h2'⟩ := reuse_quiet amd64 5 6
  obtain ⟨v, _, s1, s1', t, t', g, g', _⟩ := reuse_portable h1 h1' h2 h2'
    (out_quiet mips32 none (fun _ h => (nomatch h))) (out_quiet amd64 none (fun _ h => (nomatch h))) rfl
  exact ⟨v, s, s', s1, s1', t, t', g, g'⟩

/-! ## C40 -/

/-- C40, for contexts whose `partial` is less than 32: whatever else the context contains, `t1ha2_update` and
`t1ha2_final` return and write nowhere but where they may. (The statement for all contexts is false:
`garbage_context_overflows`.) -/
theorem any_contents_safe_partial {n : Nat} (here : Ctx cfg w s.ov ctx img)
    (waiting : Holds w s.ov (ctx + 64) (cfg.endian.bytes (szBytes cfg) n)) (few : n < 32)
    (piece : Piece cfg w s.ov ctx data m) (out : Out cfg w ctx extra slot) :
    (∃ s' t, Returns (t1ha2_update cfg ctx data m.length) w s () s' t ∧
      (∀ e ∈ t, UpdateEv cfg ctx data m.length e) ∧ Unchanged s.ov s'.ov ctx (ctxSize cfg)) ∧
    ∃ v s' t, Returns (t1ha2_final cfg ctx extra slot) w s v s' t ∧
      (∀ e ∈ t, FinalEv cfg ctx extra slot e) ∧
      ∀ a, (a < ctx ∨ ctx + ctxSize cfg ≤ a) → (a < slot ∨ slot + 8 ≤ a) →
        (∀ p, extra = some p → a < p ∨ p + 8 ≤ a) → s'.ov a = s.ov a := by
  obtain ⟨p, -, hi⟩ := here.image waiting few
  obtain ⟨v, s', t, h1, ⟨_, h3⟩, h4, -⟩ := returns_of_exec (feed_exec here hi piece)
  obtain ⟨v', s'', t', g1, ⟨_, _, g4, _, -⟩, g6, _, g7⟩ := returns_of_exec (finish_exec here hi out)
  exact ⟨⟨s', t, h1, h4, fun a ha => h3.same a ha⟩, v', s'', t', g1, final_ev g6 g7, g4⟩

/-- C40 is false: if `partial` is so large that `buffer + partial` is behind the context, then
`t1ha2_update` copies the data there, out of the context, and returns as if nothing had happened; no
assertion of the debug build notices. (`t1ha2.c:318-322` computes `32 - partial` without a check.) -/
theorem garbage_context_overflows {n : Nat} (here : Ctx cfg w s.ov ctx img)
    (waiting : Holds w s.ov (ctx + 64) (cfg.endian.bytes (szBytes cfg) n))
    (many : ctxSize cfg ≤ 32 + n) (fits : n + m.length < 2 ^ cfg.bits)
    (behind : Writable w (ctx + 32 + n) m.length)
    (piece : Piece cfg w s.ov ctx data m)
    (_apart : data + m.length ≤ ctx + 32 + n ∨ ctx + 32 + n + m.length ≤ data) :
    ∃ s' t, Returns (t1ha2_update cfg ctx data m.length) w s () s' t ∧
      Holds w s'.ov (ctx + 32 + n) m := by
  obtain ⟨v, s', t, h1, h2, -⟩ := returns_of_exec (overflow_exec here waiting piece many fits behind)
  exact ⟨s', t, h1, h2⟩

/-- A context at 4096 whose `partial` is `n`. -/
theorem ctx_waiting (cfg : Cfg) (n : Nat) : ∃ (s : Sys) (img : List Byte),
    Ctx cfg quiet s.ov 4096 img ∧
      Holds quiet s.ov (4096 + 64) (cfg.endian.bytes (szBytes cfg) n) ∧
      Unchanged start.ov s.ov 4096 (ctxSize cfg) := by
  have hs : 64 + szBytes cfg ≤ ctxSize cfg ∧ ctxSize cfg ≤ 80 := by
    obtain ⟨h1, h2, h3, h4, h5⟩ := offs cfg; omega
  have h := ctx_quiet cfg
  have hg : ∀ a, put start.ov (4096 + 64) (cfg.endian.bytes (szBytes cfg) n) a = none → start.ov a = none :=
    fun a => put_grow
  obtain ⟨img, hc⟩ := h.after hg
  refine ⟨⟨[], put start.ov (4096 + 64) (cfg.endian.bytes (szBytes cfg) n)⟩, img, hc, ?_, ?_⟩
  · refine holds_put ?_
    rw [length_bytes]
    exact h.writable.1.sub (by omega) (by omega)
  · intro a ha
    exact put_other (by rw [length_bytes]; omega)

/-- `any_contents_safe_partial`: 31 bytes of a buffer which nobody filled. -/
example : ∃ s s' t, Returns (t1ha2_update mips32 4096 6000 100) quiet s () s' t := by
  obtain ⟨s, img, h1, h2, h3⟩ := ctx_waiting mips32 31
  have hp := piece_quiet mips32 (ov := s.ov) (p := 6000) (n := 100) (by decide) (by decide) h3
  obtain ⟨⟨s', t, g, _⟩, _⟩ := any_contents_safe_partial h1 h2 (by decide) hp
    (out_quiet mips32 none (fun _ h => (nomatch h)))
  rw [length_quietBytes] at g
  exact ⟨s, s', t, g⟩

/-- `garbage_context_overflows`: 100 bytes are written 1000 bytes behind the buffer. -/
example : ∃ s s' t, Returns (t1ha2_update amd64 4096 6000 100) quiet s () s' t ∧
    Holds quiet s'.ov 5128 (quietBytes 6000 100) := by
  obtain ⟨s, img, h1, h2, h3⟩ := ctx_waiting amd64 1000
  have hp := piece_quiet amd64 (ov := s.ov) (p := 6000) (n := 100) (by decide) (by decide) h3
  obtain ⟨s', t, g1, g2⟩ := garbage_context_overflows h1 h2 (by decide)
    (by rw [length_quietBytes]; decide)
    (by rw [length_quietBytes]; exact quiet_writable (by decide) (by decide)) hp
    (by rw [length_quietBytes]; omega)
  rw [length_quietBytes] at g1
  exact ⟨s, s', t, g1, g2⟩

end T1ha.Props
