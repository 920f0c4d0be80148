import Verif.Proofs.Absorb
import Verif.Proofs.Ops
import Verif.Props.Examples

/-!
# Properties of the streaming functions: C05, C07-C19, C32

The words used in the statements (`Ctx`, `Piece`, `Out`, `History`, `stream`, ...) are defined in
`Verif/Props/Session.lean`.
-/

namespace T1ha.Props

open Model Examples

variable {cfg cfg' : Cfg} {w w' : World} {s s' : Sys} {ctx ctx' data slot slot' : Nat}
  {extra extra' : Option Nat} {x y : U64} {img img' before before' fed m : List Byte}

/-! ## C08-C14: what the calls do -/

/-- C12-C14: `t1ha2_init` returns; it reads nothing, has no loop, and writes only inside the context;
afterwards the context can be used. -/
theorem t1ha2_init_returns (here : Ctx cfg w s.ov ctx before) (x y : U64) :
    ∃ s' t img, Returns (t1ha2_init cfg ctx x y) w s () s' t ∧ Ctx cfg w s'.ov ctx img ∧
      (∀ e ∈ t, InitEv cfg ctx e) ∧ Unchanged s.ov s'.ov ctx (ctxSize cfg) := by
  obtain ⟨v, s', t, h1, ⟨_, h3⟩, h4, _⟩ := returns_of_exec (init_exec here x y)
  obtain ⟨img, hc⟩ := here.after h3.grow
  exact ⟨s', t, img, h1, hc, h4, fun a ha => h3.same a ha⟩

/-- C08-C14: `t1ha2_update` returns, whatever the pieces fed before were. It reads only the context and
the given bytes, reads each of these, writes only inside the context, and its loop runs as often as there
are whole 32-byte blocks of the stream in the piece. Afterwards the context can be used. -/
theorem t1ha2_update_returns (past : History cfg x y img fed) (here : Ctx cfg w s.ov ctx img)
    (piece : Piece cfg w s.ov ctx data m) :
    ∃ s' t img', Returns (t1ha2_update cfg ctx data m.length) w s () s' t ∧ Ctx cfg w s'.ov ctx img' ∧
      (∀ e ∈ t, UpdateEv cfg ctx data m.length e) ∧
      (∀ i, i < m.length → ∃ p n, Ev.rd p n ∈ t ∧ p ≤ data + i ∧ data + i < p + n) ∧
      t.count .iter = wholeBlocks fed.length m.length ∧
      Unchanged s.ov s'.ov ctx (ctxSize cfg) := by
  obtain ⟨v, s', t, h1, ⟨_, h3⟩, h4, h5, h6⟩ := returns_of_exec (update_exec here past.fed piece)
  obtain ⟨img', hc⟩ := here.after h3.grow
  refine ⟨s', t, img', h1, hc, h4, ?_, ?_, fun a ha => h3.same a ha⟩
  · intro i hi
    obtain ⟨x, hx, hcov⟩ := h5 (data + i) ⟨by omega, by omega⟩
    cases x with
    | rd p n => exact ⟨p, n, hx, hcov.1, hcov.2⟩
    | wr p n => exact absurd hcov (by simp [Ev.covers])
    | iter => exact absurd hcov (by simp [Ev.covers])
    | ptr p => exact absurd hcov (by simp [Ev.covers])
  · rw [h6, length_rest]
    unfold updateLoops wholeBlocks
    split <;> omega

/-- C05, C08-C14: `t1ha2_final` returns the hash of all the bytes fed to the context, and stores the
second half where asked for. It touches only the context, its local variable and the place of the second
half, and has no loop. Afterwards the context can be used again (from `t1ha2_init`). -/
theorem t1ha2_final_correct (past : History cfg x y img fed) (here : Ctx cfg w s.ov ctx img)
    (out : Out cfg w ctx extra slot) :
    ∃ s' t img', Returns (t1ha2_final cfg ctx extra slot) w s (streamHash fed x y extra) s' t ∧
      HighAt cfg w s'.ov fed x y extra ∧ Ctx cfg w s'.ov ctx img' ∧
      (∀ e ∈ t, FinalEv cfg ctx extra slot e) ∧
      ∀ a, (a < ctx ∨ ctx + ctxSize cfg ≤ a) → (a < slot ∨ slot + 8 ≤ a) →
        (∀ p, extra = some p → a < p ∨ p + 8 ≤ a) → s'.ov a = s.ov a := by
  obtain ⟨v, s', t, h1, ⟨h2, h3, h4, h5⟩, h6, _, h7⟩ := returns_of_exec (final_exec here past.fed out)
  obtain ⟨img', hc⟩ := here.after h5
  subst h2
  exact ⟨s', t, img', h1, h3, hc, final_ev h6 h7, h4⟩

/-- C12: none of the streaming functions misbehaves: no assertion fails, no access is misaligned. -/
theorem streaming_no_misbehaviour (past : History cfg x y img fed) (here : Ctx cfg w s.ov ctx img)
    (piece : Piece cfg w s.ov ctx data m) (out : Out cfg w ctx extra slot) (e : Err) :
    t1ha2_init cfg ctx x y w s ≠ .error e ∧ t1ha2_update cfg ctx data m.length w s ≠ .error e ∧
      t1ha2_final cfg ctx extra slot w s ≠ .error e := by
  obtain ⟨_, _, _, h1, _⟩ := t1ha2_init_returns here x y
  obtain ⟨_, _, _, h2, _⟩ := t1ha2_update_returns past here piece
  obtain ⟨_, _, _, h3, _⟩ := t1ha2_final_correct past here out
  rw [h1.1, h2.1, h3.1]
  exact ⟨by simp, by simp, by simp⟩

/-! ### A situation which meets the hypotheses -/

theorem ctx_quiet (cfg : Cfg) : Ctx cfg quiet start.ov 4096 (quietBytes 4096 (ctxSize cfg)) := by
  have hs : ctxSize cfg ≤ 80 := by unfold ctxSize offTotal; split <;> decide
  refine ⟨length_quietBytes _ _, quiet_holds (by decide) (by omega), quiet_writable (by decide) (by omega),
    ?_, ?_, by decide⟩
  · have : 2 ^ 32 ≤ 2 ^ cfg.bits := by unfold Cfg.bits; split <;> decide
    omega
  · unfold Cfg.alignment64
    split <;> decide

theorem piece_quiet (cfg : Cfg) {p n : Nat} (h : 4400 ≤ p) (h2 : p + n ≤ 8192) {ov : Overlay}
    (hu : Unchanged start.ov ov 4096 (ctxSize cfg)) : Piece cfg quiet ov 4096 p (quietBytes p n) := by
  have hs : ctxSize cfg ≤ 80 := by unfold ctxSize offTotal; split <;> decide
  refine ⟨(quiet_holds (by omega) h2).congr fun a h1 _ => hu a (by omega), ?_, by omega, by omega, by omega⟩
  have : 2 ^ 32 ≤ 2 ^ cfg.bits := by unfold Cfg.bits; split <;> decide
  rw [length_quietBytes]
  omega

theorem out_quiet (cfg : Cfg) (extra : Option Nat) (h : ∀ p, extra = some p → 4096 ≤ p ∧ p + 8 ≤ 12288) :
    Out cfg quiet 4096 extra 4300 := by
  have hs : ctxSize cfg ≤ 80 := by unfold ctxSize offTotal; split <;> decide
  have : 2 ^ 32 ≤ 2 ^ cfg.bits := by unfold Cfg.bits; split <;> decide
  exact ⟨quiet_writable (by decide) (by decide), by omega, by omega, by decide,
    fun p hp => quiet_writable (h p hp).1 (h p hp).2⟩

/-- A context to which 43 bytes and then 100 bytes have been fed, from odd addresses. -/
theorem history_quiet (cfg : Cfg) (x y : U64) :
    ∃ (s : Sys) (img : List Byte), History cfg x y img (quietBytes 5001 43 ++ quietBytes 6003 100) ∧
      Ctx cfg quiet s.ov 4096 img ∧ Unchanged start.ov s.ov 4096 (ctxSize cfg) := by
  obtain ⟨s1, t1, i1, r1, c1, _, u1⟩ := t1ha2_init_returns (s := start) (ctx_quiet cfg) x y
  have h1 := History.init (ctx_quiet cfg) r1 c1
  have p1 := piece_quiet cfg (p := 5001) (n := 43) (by decide) (by decide) u1
  obtain ⟨s2, t2, i2, r2, c2, _, _, _, u2⟩ := t1ha2_update_returns h1 c1 p1
  have h2 := History.update h1 c1 p1 r2 c2
  have u2' : Unchanged start.ov s2.ov 4096 (ctxSize cfg) := fun a ha => (u2 a ha).trans (u1 a ha)
  have p2 := piece_quiet cfg (p := 6003) (n := 100) (by decide) (by decide) u2'
  obtain ⟨s3, t3, i3, r3, c3, _, _, _, u3⟩ := t1ha2_update_returns h2 c2 p2
  exact ⟨s3, i3, History.update h2 c2 p2 r3 c3, c3, fun a ha => (u3 a ha).trans (u2' a ha)⟩

/-- `t1ha2_update_returns`: 77 bytes after 143: the block in the buffer is completed, one more block
follows, and 28 bytes remain. -/
example : ∃ s s' t, Returns (t1ha2_update mips32 4096 7001 77) quiet s () s' t ∧
    t.count .iter = 1 := by
  obtain ⟨s, img, h1, h2, h3⟩ := history_quiet mips32 5 6
  obtain ⟨s', t, img', g1, _, _, _, g5, _⟩ :=
    t1ha2_update_returns h1 h2 (piece_quiet mips32 (p := 7001) (n := 77) (by decide) (by decide) h3)
  rw [List.length_append, length_quietBytes, length_quietBytes, length_quietBytes] at g5
  rw [length_quietBytes] at g1
  exact ⟨s, s', t, g1, g5⟩

/-- `t1ha2_final_correct`, `streaming_no_misbehaviour`: both results asked for, assertions on, on a
strict-alignment machine. -/
example : ∃ s s' t, Returns (t1ha2_final mips32 4096 (some 9001) 4300) quiet s
      (Spec.t1ha2_stream128 (quietBytes 5001 43 ++ quietBytes 6003 100) 5 6).1 s' t ∧
    ∀ e, t1ha2_final mips32 4096 (some 9001) 4300 quiet s ≠ .error e := by
  obtain ⟨s, img, h1, h2, h3⟩ := history_quiet mips32 5 6
  have ho := out_quiet mips32 (some 9001) (by rintro _ ⟨⟩; decide)
  obtain ⟨s', t, img', g1, _⟩ := t1ha2_final_correct h1 h2 ho
  exact ⟨s, s', t, g1, fun e => (streaming_no_misbehaviour h1 h2
    (piece_quiet mips32 (p := 7001) (n := 77) (by decide) (by decide) h3) ho e).2.2⟩

/-! ## C05 -/

/-- C05: two builds of the library, on two machines, with contexts which were fed the same bytes in
different ways: the same results. -/
theorem t1ha2_stream_portable (past : History cfg x y img fed) (past' : History cfg' x y img' fed)
    (here : Ctx cfg w s.ov ctx img) (here' : Ctx cfg' w' s'.ov ctx' img')
    (out : Out cfg w ctx extra slot) (out' : Out cfg' w' ctx' extra' slot')
    (hsame : extra.isSome = extra'.isSome) :
    ∃ v hi s1 s1' t t', Returns (t1ha2_final cfg ctx extra slot) w s v s1 t ∧
      Returns (t1ha2_final cfg' ctx' extra' slot') w' s' v s1' t' ∧
      (∀ p, extra = some p → Holds w s1.ov p (cfg.endian.bytes 8 hi)) ∧
      ∀ p, extra' = some p → Holds w' s1'.ov p (cfg'.endian.bytes 8 hi) := by
  obtain ⟨s1, t, _, h1, h2, _⟩ := t1ha2_final_correct past here out
  obtain ⟨s1', t', _, h1', h2', _⟩ := t1ha2_final_correct past' here' out'
  refine ⟨_, _, s1, s1', t, t', h1, ?_, h2, h2'⟩
  have : streamHash fed x y extra = streamHash fed x y extra' := by
    cases extra <;> cases extra' <;> simp_all [streamHash]
  rw [this]
  exact h1'

example : ∃ v s s' s1 s1' t t', Returns (t1ha2_final mips32 4096 none 4300) quiet s v s1 t ∧
    Returns (t1ha2_final amd64 4096 none 4300) quiet s' v s1' t' := by
  obtain ⟨s, img, h1, h2, _⟩ := history_quiet mips32 5 6
  obtain ⟨s', img', h1', h2', _⟩ := history_quiet amd64 5 6
  obtain ⟨v, _, s1, s1', t, t', g, g', _⟩ := t1ha2_stream_portable h1 h1' h2 h2'
    (out_quiet mips32 none (fun _ h => (nomatch h))) (out_quiet amd64 none (fun _ h => (nomatch h))) rfl
  exact ⟨v, s, s', s1, s1', t, t', g, g'⟩

/-! ## C07 -/

/-- C05: a program which calls init, any number of updates, and final, returns the hash of the
concatenated pieces. -/
theorem stream_correct (ps : List (Nat × List Byte)) (here : Ctx cfg w s.ov ctx before)
    (pieces : Pieces cfg w s.ov ctx ps) (out : Out cfg w ctx extra slot) (x y : U64) :
    ∃ s' t, Returns (stream cfg ctx x y (spans ps) extra slot) w s (streamHash (joined ps) x y extra) s' t ∧
      HighAt cfg w s'.ov (joined ps) x y extra :=
  stream_returns x y ps here pieces out

/-- C07: two ways to cut the same message give the same result, wherever the pieces are and whatever
the contexts contained before. -/
theorem chunking_does_not_matter (ps ps' : List (Nat × List Byte)) (hj : joined ps = joined ps')
    (here : Ctx cfg w s.ov ctx before) (here' : Ctx cfg w' s'.ov ctx' before')
    (pieces : Pieces cfg w s.ov ctx ps) (pieces' : Pieces cfg w' s'.ov ctx' ps')
    (out : Out cfg w ctx extra slot) (out' : Out cfg w' ctx' extra' slot')
    (hsame : extra.isSome = extra'.isSome) (x y : U64) :
    ∃ v hi s1 s1' t t', Returns (stream cfg ctx x y (spans ps) extra slot) w s v s1 t ∧
      Returns (stream cfg ctx' x y (spans ps') extra' slot') w' s' v s1' t' ∧
      (∀ p, extra = some p → Holds w s1.ov p (cfg.endian.bytes 8 hi)) ∧
      ∀ p, extra' = some p → Holds w' s1'.ov p (cfg.endian.bytes 8 hi) := by
  obtain ⟨s1, t, h1, h2⟩ := stream_returns x y ps here pieces out
  obtain ⟨s1', t', h1', h2'⟩ := stream_returns x y ps' here' pieces' out'
  rw [← hj] at h1' h2'
  refine ⟨_, _, s1, s1', t, t', h1, ?_, h2, h2'⟩
  have : streamHash (joined ps) x y extra = streamHash (joined ps) x y extra' := by
    cases extra <;> cases extra' <;> simp_all [streamHash]
  rw [this]
  exact h1'

/-- 100 bytes at once, and as 5, 0, 70 and 25 bytes. -/
example : ∃ v s1 s1' t t',
    Returns (stream amd64 4096 5 6 [(5001, 100)] none 4300) quiet start v s1 t ∧
    Returns (stream amd64 4096 5 6 [(5001, 5), (5006, 0), (5006, 70), (5076, 25)] none 4300)
      quiet start v s1' t' := by
  have hu : Unchanged start.ov start.ov 4096 (ctxSize amd64) := fun _ _ => rfl
  have ho := out_quiet amd64 none (fun _ h => (nomatch h))
  obtain ⟨v, hi, s1, s1', t, t', h, h', _⟩ := chunking_does_not_matter (s := start) (s' := start)
    [(5001, quietBytes 5001 100)]
    [(5001, quietBytes 5001 5), (5006, quietBytes 5006 0), (5006, quietBytes 5006 70),
      (5076, quietBytes 5076 25)] (by decide +kernel) (ctx_quiet amd64) (ctx_quiet amd64)
    (by
      intro p hp
      simp only [List.mem_cons, List.not_mem_nil, or_false] at hp
      subst hp
      exact piece_quiet amd64 (by decide) (by decide) hu)
    (by
      intro p hp
      simp only [List.mem_cons, List.not_mem_nil, or_false] at hp
      rcases hp with hp | hp | hp | hp <;> subst hp <;>
        exact piece_quiet amd64 (by decide) (by decide) hu)
    ho ho rfl 5 6
  exact ⟨v, s1, s1', t, t', h, h'⟩

/-! ## C15 -/

/-- C15: what the context contained before `t1ha2_init` has no influence on results. (`before` and
`before'` may be anything: garbage, or a context which has been used and finalised: by
`t1ha2_final_correct` it is still a `Ctx`.) -/
theorem init_makes_fresh (ps : List (Nat × List Byte))
    (here : Ctx cfg w s.ov ctx before) (here' : Ctx cfg w' s'.ov ctx before')
    (pieces : Pieces cfg w s.ov ctx ps) (pieces' : Pieces cfg w' s'.ov ctx ps)
    (out : Out cfg w ctx extra slot) (out' : Out cfg w' ctx extra slot) (x y : U64) :
    ∃ v s1 s1' t t', Returns (stream cfg ctx x y (spans ps) extra slot) w s v s1 t ∧
      Returns (stream cfg ctx x y (spans ps) extra slot) w' s' v s1' t' := by
  obtain ⟨v, _, s1, s1', t, t', h, h', _⟩ := chunking_does_not_matter ps ps rfl here here' pieces pieces'
    out out' rfl x y
  exact ⟨v, s1, s1', t, t', h, h'⟩

/-- A fresh memory, and one in which 143 bytes have been fed to the context already. -/
example : ∃ v s' s1 s1' t t', Returns (stream amd64 4096 5 6 [(5001, 100)] none 4300) quiet start v s1 t ∧
    Returns (stream amd64 4096 5 6 [(5001, 100)] none 4300) quiet s' v s1' t' := by
  have hu : Unchanged start.ov start.ov 4096 (ctxSize amd64) := fun _ _ => rfl
  have ho := out_quiet amd64 none (fun _ h => (nomatch h))
  obtain ⟨s', img, h1, h2, h3⟩ := history_quiet amd64 7 8
  have hp : ∀ {ov : Overlay}, Unchanged start.ov ov 4096 (ctxSize amd64) →
      Pieces amd64 quiet ov 4096 [(5001, quietBytes 5001 100)] := by
    intro ov hu p hp
    simp only [List.mem_cons, List.not_mem_nil, or_false] at hp
    subst hp
    exact piece_quiet amd64 (by decide) (by decide) hu
  obtain ⟨v, s1, s1', t, t', h, h'⟩ := init_makes_fresh (s := start) (s' := s')
    [(5001, quietBytes 5001 100)] (ctx_quiet amd64) h2 (hp hu) (hp h3) ho ho 5 6
  exact ⟨v, s', s1, s1', t, t', h, h'⟩

/-! ## C16 -/

section programs

variable {K E : List Nat} {ops : List Op}

theorem live_noStreams (hV : Vars cfg w s.ov K E slot) : Live cfg w K noStreams s.ov := by
  intro c hc
  obtain ⟨img, h⟩ := hV.ctx c hc
  exact ⟨img, h, fun st h => (nomatch h)⟩

/-- C15, C16, C17: a program which uses any number of contexts, with calls in any order (init, update,
copy of a context, final; a context may be initialised again at any time), returns in each call of
`t1ha2_final` the hash of the bytes fed to this context. -/
theorem program_correct (hV : Vars cfg w s.ov K E slot)
    (hA : ∀ op ∈ ops, op.About cfg w s.ov K E slot) (hP : Proper noStreams ops) :
    ∃ s' t, Returns (runOps cfg slot ops) w s (expected noStreams ops) s' t :=
  runOps_returns hV ops hA noStreams hP s (live_noStreams hV) (fun _ _ _ _ => rfl)

/-- C16: the results of a context `c` in a program which interleaves operations on many contexts are the
results of the program which consists of the operations on `c` only. -/
theorem contexts_independent (hV : Vars cfg w s.ov K E slot)
    (hA : ∀ op ∈ ops, op.About cfg w s.ov K E slot) (hP : Proper noStreams ops)
    (hpl : ∀ op ∈ ops, op.Plain) (c : Nat) :
    ∃ out s1 s2 t1 t2, Returns (runOps cfg slot ops) w s out s1 t1 ∧
      Returns (runOps cfg slot (opsOn c ops)) w s (resultsOf c ops out) s2 t2 := by
  obtain ⟨s1, t1, h1⟩ := program_correct hV hA hP
  obtain ⟨e1, e2⟩ := expected_opsOn (c := c) ops noStreams noStreams rfl hpl hP
  obtain ⟨s2, t2, h2⟩ := program_correct (ops := opsOn c ops) hV
    (fun op hop => hA op ((List.mem_filter.1 hop).1)) e2
  rw [← e1] at h2
  exact ⟨_, s1, s2, t1, t2, h1, h2⟩

/-- Two contexts, interleaved. -/
def twoContexts : List Op :=
  [.init 4096 1 2, .init 4200 3 4, .update 4096 5001 (quietBytes 5001 43),
   .update 4200 6001 (quietBytes 6001 20), .update 4096 5044 (quietBytes 5044 10),
   .final 4200 (some 9001), .final 4096 none]

theorem vars_quiet : Vars amd64 quiet start.ov [4096, 4200] [9001] 4300 := by
  have hctx : ∀ c, c = 4096 ∨ c = 4200 → ∃ img, Ctx amd64 quiet start.ov c img := by
    intro c hc
    refine ⟨quietBytes c 80, length_quietBytes _ _, quiet_holds (by omega) (by omega),
      quiet_writable (by omega) (by rcases hc with rfl | rfl <;> decide), ?_, ?_, ?_⟩ <;>
      rcases hc with rfl | rfl <;> decide
  refine ⟨fun c hc => hctx c (by simpa using hc), ?_, quiet_writable (by decide) (by decide), by decide,
    ?_, by decide, ?_, ?_⟩ <;> simp <;> try decide
  exact quiet_writable (by decide) (by decide)

theorem about_twoContexts : ∀ op ∈ twoContexts, op.About amd64 quiet start.ov [4096, 4200] [9001] 4300 := by
  intro op hop
  simp only [twoContexts, List.mem_cons, List.not_mem_nil, or_false] at hop
  rcases hop with h | h | h | h | h | h | h <;> subst h <;> simp only [Op.About, length_quietBytes]
  · simp
  · simp
  · exact ⟨by simp, by decide, by decide, quiet_holds (by decide) (by decide), by decide, by simp [ctxSize, offTotal, amd64],
      by simp, by decide⟩
  · exact ⟨by simp, by decide, by decide, quiet_holds (by decide) (by decide), by decide, by simp [ctxSize, offTotal, amd64],
      by simp, by decide⟩
  · exact ⟨by simp, by decide, by decide, quiet_holds (by decide) (by decide), by decide, by simp [ctxSize, offTotal, amd64],
      by simp, by decide⟩
  · simp
  · simp

example : ∃ out s1 s2 t1 t2, Returns (runOps amd64 4300 twoContexts) quiet start out s1 t1 ∧
    Returns (runOps amd64 4300 (opsOn 4200 twoContexts)) quiet start (resultsOf 4200 twoContexts out) s2 t2 :=
  contexts_independent vars_quiet about_twoContexts
    (by simp [twoContexts, Proper, Op.Proper, Op.step, Streams.set])
    (by simp [twoContexts, Op.Plain]) 4200

end programs

/-! ## C17 -/

/-- C17: copying the bytes of a context gives another context with the same contents; the original keeps
its own. -/
theorem context_copy (here : Ctx cfg w s.ov ctx img) (there : Ctx cfg w s.ov ctx' before)
    (hd : ctx' + ctxSize cfg ≤ ctx ∨ ctx + ctxSize cfg ≤ ctx') :
    ∃ s' t, Returns (memcpy ctx' ctx (ctxSize cfg)) w s () s' t ∧
      Ctx cfg w s'.ov ctx img ∧ Ctx cfg w s'.ov ctx' img := by
  have hcp := Exec.memcpy (P := fun _ => True) (dst := ctx') here.holds
    (by rw [here.size]; exact there.writable) trivial trivial there.notNull here.notNull
  rw [here.size] at hcp
  obtain ⟨v, s1, t1, h1, h2, -⟩ := returns_of_exec hcp
  have h3 : Only s.ov s1.ov ctx' (ctxSize cfg) := by
    rw [h2]; exact only_put (Nat.le_refl _) (by rw [here.size])
  refine ⟨s1, t1, h1, here.only h3 (by omega), here.size, ?_, there.writable, there.fits, there.aligned, there.notNull⟩
  rw [h2]
  exact holds_put (by rw [here.size]; exact there.writable.1)

/-- C17: two contexts with the same contents (for instance a context and its copy), at different
addresses, in different memories, continue alike: the results depend only on the bytes fed before and
after the copy. -/
theorem copy_continues (past : History cfg x y img fed) (ps ps' : List (Nat × List Byte))
    (hj : joined ps = joined ps')
    (here : Ctx cfg w s.ov ctx img) (here' : Ctx cfg w' s'.ov ctx' img)
    (pieces : Pieces cfg w s.ov ctx ps) (pieces' : Pieces cfg w' s'.ov ctx' ps')
    (out : Out cfg w ctx extra slot) (out' : Out cfg w' ctx' extra' slot')
    (hsame : extra.isSome = extra'.isSome) :
    ∃ s1 s1' t t',
      Returns (resume cfg ctx (spans ps) extra slot) w s (streamHash (fed ++ joined ps) x y extra) s1 t ∧
      Returns (resume cfg ctx' (spans ps') extra' slot') w' s' (streamHash (fed ++ joined ps) x y extra) s1' t' ∧
      HighAt cfg w s1.ov (fed ++ joined ps) x y extra ∧
      HighAt cfg w' s1'.ov (fed ++ joined ps) x y extra' := by
  obtain ⟨s1, t, h1, h2⟩ := resume_returns ps here past.fed pieces out
  obtain ⟨s1', t', h1', h2'⟩ := resume_returns ps' here' past.fed pieces' out'
  rw [← hj] at h1' h2'
  refine ⟨s1, s1', t, t', h1, ?_, h2, h2'⟩
  have : streamHash (fed ++ joined ps) x y extra = streamHash (fed ++ joined ps) x y extra' := by
    cases extra <;> cases extra' <;> simp_all [streamHash]
  rw [this]
  exact h1'

/-- The context at 4096 is copied to 4200 in mid-stream; both go on. -/
example : ∃ s s' t v s1 s1' t1 t1',
    Returns (memcpy 4200 4096 (ctxSize amd64)) quiet s () s' t ∧
    Returns (resume amd64 4096 [(7001, 50)] none 4300) quiet s' v s1 t1 ∧
    Returns (resume amd64 4200 [(7001, 30), (7031, 20)] none 4300) quiet s' v s1' t1' := by
  obtain ⟨s, img, h1, h2, h3⟩ := history_quiet amd64 7 8
  have there : Ctx amd64 quiet s.ov 4200 (quietBytes 4200 80) := by
    refine ⟨length_quietBytes _ _, (quiet_holds (by decide) (by decide)).congr fun a h1 _ => h3 a ?_,
      quiet_writable (by decide) (by decide), by decide, by decide, by decide⟩
    have : ctxSize amd64 = 80 := by decide
    omega
  obtain ⟨s', t, g1, g2, g3⟩ := context_copy h2 there (Or.inr (by decide))
  have hu : ∀ a, 4400 ≤ a → s'.ov a = start.ov a := by
    intro a ha
    have hcp := Exec.memcpy (P := fun _ => True) (dst := 4200) h2.holds
      (by rw [h2.size]; exact there.writable) trivial trivial there.notNull h2.notNull
    rw [h2.size] at hcp
    obtain ⟨v, s1, t1, k1, k2, -⟩ := returns_of_exec hcp
    obtain ⟨-, rfl, -⟩ := g1.unique k1
    have hsz := h2.size
    have hs : ctxSize amd64 = 80 := by decide
    rw [k2, put_other (by omega), h3 a (by omega)]
  have hp : ∀ c p n, (c = 4096 ∨ c = 4200) → 4400 ≤ p → p + n ≤ 8192 →
      Piece amd64 quiet s'.ov c p (quietBytes p n) := by
    intro c p n hc h1 h2
    have hs : ctxSize amd64 = 80 := by decide
    refine ⟨(quiet_holds (by omega) h2).congr fun a h _ => hu a (by omega), ?_, by omega, by omega, by omega⟩
    rw [length_quietBytes]
    exact Nat.lt_of_le_of_lt h2 (by decide)
  obtain ⟨s1, s1', t1, t1', k1, k2, _⟩ := copy_continues h1 [(7001, quietBytes 7001 50)]
    [(7001, quietBytes 7001 30), (7031, quietBytes 7031 20)] (by decide +kernel) g2 g3
    (by
      intro p h
      simp only [List.mem_cons, List.not_mem_nil, or_false] at h
      subst h
      exact hp _ _ _ (Or.inl rfl) (by decide) (by decide))
    (by
      intro p h
      simp only [List.mem_cons, List.not_mem_nil, or_false] at h
      rcases h with h | h <;> subst h <;> exact hp _ _ _ (Or.inr rfl) (by decide) (by decide))
    (out_quiet amd64 none (fun _ h => (nomatch h)))
    (⟨quiet_writable (by decide) (by decide), by decide, by decide, by decide, fun _ h => (nomatch h)⟩ :
      Out amd64 quiet 4200 none 4300) rfl
  exact ⟨s, s', t, _, s1, s1', t1, t1', g1, k1, k2⟩

/-! ## C19 -/

/-- C19, for pointers which are not null or contexts without pending bytes (all blocks so far are complete):
an update of length 0 reads no byte outside of the context, and changes nothing, not even in the unused
part of the buffer. (With a null pointer and pending bytes the behaviour of the C program is not defined:
`null_update_undefined`.) -/
theorem empty_update_partial (past : History cfg x y img fed) (here : Ctx cfg w s.ov ctx img)
    (hn : data ≠ 0 ∨ fed.length % 32 = 0) :
    ∃ s' t, Returns (t1ha2_update cfg ctx data 0) w s () s' t ∧ Ctx cfg w s'.ov ctx img ∧
      (∀ p n, Ev.rd p n ∈ t → 0 < n → Inside ctx (ctxSize cfg) p n) ∧
      Unchanged s.ov s'.ov ctx (ctxSize cfg) := by
  obtain ⟨_, s', t, h1, ⟨h2, h3⟩, h4, -⟩ := returns_of_exec (empty_exec here past.fed (data := data)
    (by rw [length_rest]; exact hn))
  refine ⟨s', t, h1, ⟨here.size, h2, here.writable, here.fits, here.aligned, here.notNull⟩, ?_, h3.same⟩
  intro p n hx hn
  exact (h4 _ hx).resolve_right (by omega)

/-- Any pointer after 143 bytes. A null pointer after no bytes. -/
example : (∃ s s' t, Returns (t1ha2_update amd64 4096 3 0) quiet s () s' t) ∧
    ∃ s s' t, Returns (t1ha2_update amd64 4096 0 0) quiet s () s' t := by
  constructor
  · obtain ⟨s, img, h1, h2, _⟩ := history_quiet amd64 7 8
    obtain ⟨s', t, h, _⟩ := empty_update_partial h1 h2 (data := 3) (Or.inl (by decide))
    exact ⟨s, s', t, h⟩
  · obtain ⟨s1, t1, i1, r1, c1, _, u1⟩ := t1ha2_init_returns (s := start) (ctx_quiet amd64) 7 8
    obtain ⟨s', t, h, _⟩ := empty_update_partial (History.init (ctx_quiet amd64) r1 c1) c1 (data := 0)
      (Or.inr rfl)
    exact ⟨s1, s', t, h⟩

/-- C19 is false if bytes are pending and the pointer is null: then `memcpy` is called with a null pointer
(src/t1ha2.c:319), which C does not allow even if nothing is to be copied. -/
theorem null_update_undefined (past : History cfg x y img fed) (here : Ctx cfg w s.ov ctx img)
    (pending : fed.length % 32 ≠ 0) :
    t1ha2_update cfg ctx 0 0 w s = .error .nullPointer :=
  null_update here past.fed (by rw [length_rest]; exact pending)

/-- After 143 bytes. -/
example : ∃ s, t1ha2_update amd64 4096 0 0 quiet s = .error .nullPointer := by
  obtain ⟨s, img, h1, h2, _⟩ := history_quiet amd64 7 8
  exact ⟨s, null_update_undefined h1 h2 (by decide +kernel)⟩

/-! ## C18 -/

/-- C18: what `t1ha2_final` computes from: the complete blocks, and the words of the rest of the data
followed by the length block. Of two messages of less than 2^61 bytes each, these are different. -/
theorem padding_unambiguous {m₁ m₂ : List Byte} (h₁ : m₁.length < 2 ^ 61) (h₂ : m₂.length < 2 ^ 61)
    (hne : m₁ ≠ m₂) :
    Spec.blocks 32 (Spec.padded m₁) ≠ Spec.blocks 32 (Spec.padded m₂) ∨
      Spec.words64 .little (Spec.rest 32 (Spec.padded m₁)) ≠
        Spec.words64 .little (Spec.rest 32 (Spec.padded m₂)) := by
  by_cases hb : Spec.blocks 32 (Spec.padded m₁) = Spec.blocks 32 (Spec.padded m₂)
  · exact Or.inr fun hw => hne (absorbed_inj h₁ h₂ hb hw)
  · exact Or.inl hb

/-- One zero byte and two of them. -/
example : Spec.blocks 32 (Spec.padded [0]) ≠ Spec.blocks 32 (Spec.padded [0, 0]) ∨
    Spec.words64 .little (Spec.rest 32 (Spec.padded [0])) ≠
      Spec.words64 .little (Spec.rest 32 (Spec.padded [0, 0])) :=
  padding_unambiguous (by decide) (by decide) (by decide)

/-- C18: the length block is the same for lengths which differ by a multiple of 2^61, so there the
padding does not help. -/
theorem length_block_wraps (m m' : List Byte) (h : m.length % 2 ^ 61 = m'.length % 2 ^ 61) :
    (Spec.padded m).drop m.length = (Spec.padded m').drop m'.length := by
  rw [Spec.padded, Spec.padded, List.drop_left, List.drop_left]
  congr 2
  omega

/-- `length_block_wraps` for messages of 3 bytes (2^61 + 3 bytes would be the next length). -/
example : (Spec.padded [1, 2, 3]).drop 3 = (Spec.padded [4, 5, 6]).drop 3 :=
  length_block_wraps [1, 2, 3] [4, 5, 6] rfl

/-- Lengths 3 and 2^61 + 3. -/
example (m : List Byte) (h : m.length = 2 ^ 61 + 3) :
    (Spec.padded [1, 2, 3]).drop 3 = (Spec.padded m).drop m.length :=
  length_block_wraps [1, 2, 3] m (by rw [h]; decide)

/-! ## C32 -/

/-- C32: two contexts with the same history at a block boundary are fed two different 32-byte blocks
which differ in only one of the aligned 8-byte words: the resulting states (the first 32 bytes of the
context) are different. -/
theorem single_word_change_not_blinded {b₁ b₂ img₁ img₂ : List Byte}
    (hf : fed.length % 32 = 0) (h₁ : History cfg x y img₁ (fed ++ b₁)) (h₂ : History cfg x y img₂ (fed ++ b₂))
    (l₁ : b₁.length = 32) (l₂ : b₂.length = 32) (hne : b₁ ≠ b₂) (i : Nat)
    (hsame : ∀ j, j ≠ i → (b₁.drop (8 * j)).take 8 = (b₂.drop (8 * j)).take 8) :
    img₁.take 32 ≠ img₂.take 32 := by
  intro h
  have hs := h₁.fed.state_eq h₂.fed h
  rw [absorb_block hf l₁, absorb_block hf l₂] at hs
  refine hne (absorb_inj l₁ l₂ ?_ hs)
  by_cases hi : i = 2
  · exact Or.inr (hsame 3 (by omega))
  · exact Or.inl (hsame 2 (by omega))

/-- C32: also if the blocks differ anywhere in their first 16 bytes. -/
theorem first_half_change_not_blinded {b₁ b₂ img₁ img₂ : List Byte}
    (hf : fed.length % 32 = 0) (h₁ : History cfg x y img₁ (fed ++ b₁)) (h₂ : History cfg x y img₂ (fed ++ b₂))
    (l₁ : b₁.length = 32) (l₂ : b₂.length = 32) (hne : b₁.take 16 ≠ b₂.take 16) :
    img₁.take 32 ≠ img₂.take 32 := by
  intro h
  have hs := h₁.fed.state_eq h₂.fed h
  rw [absorb_block hf l₁, absorb_block hf l₂] at hs
  obtain ⟨w0, w1⟩ := absorb_words01 hs
  apply hne
  have e : ∀ b : List Byte, b.take 16 = part8 b 0 ++ part8 b 1 := by
    intro b
    rw [show 16 = 8 + 8 from rfl, List.take_add]
    rfl
  rw [e, e, word64_inj l₁ l₂ w0, word64_inj l₁ l₂ w1]

/-- A history of any `m`. -/
theorem history_of (cfg : Cfg) (x y : U64) (m : List Byte) (hm : m.length ≤ 1000) :
    ∃ img, History cfg x y img ([] ++ m) := by
  have hs : ctxSize cfg ≤ 80 := by unfold ctxSize offTotal; split <;> decide
  have hc := ctx_quiet cfg
  let s0 : Sys := ⟨[], put start.ov 5000 m⟩
  have c0 : Ctx cfg quiet s0.ov 4096 (quietBytes 4096 (ctxSize cfg)) :=
    ⟨hc.size, hc.holds.congr fun a _ h => put_other (by rw [length_quietBytes] at h; omega), hc.writable,
      hc.fits, hc.aligned, hc.notNull⟩
  obtain ⟨s1, t1, i1, r1, c1, _, u1⟩ := t1ha2_init_returns (s := s0) c0 x y
  have h1 := History.init c0 r1 c1
  have hh : Holds quiet s0.ov 5000 m := holds_put (quiet_writable (by decide) (by omega)).1
  have p1 : Piece cfg quiet s1.ov 4096 5000 m := by
    refine ⟨hh.congr fun a h _ => u1 a (by omega), ?_, by omega, by decide, by omega⟩
    have : 2 ^ 32 ≤ 2 ^ cfg.bits := by unfold Cfg.bits; split <;> decide
    omega
  obtain ⟨s2, t2, i2, r2, c2, _⟩ := t1ha2_update_returns h1 c1 p1
  exact ⟨i2, History.update h1 c1 p1 r2 c2⟩

/-- Two blocks which differ in the last byte of the third word, after no other block. -/
example : ∃ img₁ img₂, History amd64 1 2 img₁ ([] ++ msg 32) ∧
    History amd64 1 2 img₂ ([] ++ (msg 32).set 23 0) ∧ img₁.take 32 ≠ img₂.take 32 := by
  obtain ⟨i1, h1⟩ := history_of amd64 1 2 (msg 32) (by decide)
  obtain ⟨i2, h2⟩ := history_of amd64 1 2 ((msg 32).set 23 0) (by decide)
  refine ⟨i1, i2, h1, h2, single_word_change_not_blinded rfl h1 h2 (by decide) (by decide)
    (by decide) 2 ?_⟩
  intro j hj
  rcases Nat.lt_or_ge j 4 with h | h
  · have : j = 0 ∨ j = 1 ∨ j = 3 := by omega
    rcases this with rfl | rfl | rfl <;> decide
  · have l : ((msg 32).set 23 0).length = 32 := by decide
    rw [List.drop_eq_nil_of_le (by rw [length_msg]; omega), List.drop_eq_nil_of_le (by omega)]

/-- Two blocks with different first bytes. -/
example : ∃ img₁ img₂, History mips32 1 2 img₁ ([] ++ msg 32) ∧
    History mips32 1 2 img₂ ([] ++ (msg 32).reverse) ∧ img₁.take 32 ≠ img₂.take 32 := by
  obtain ⟨i1, h1⟩ := history_of mips32 1 2 (msg 32) (by decide)
  obtain ⟨i2, h2⟩ := history_of mips32 1 2 (msg 32).reverse (by decide)
  exact ⟨i1, i2, h1, h2, first_half_change_not_blinded rfl h1 h2 (by decide) (by decide) (by decide)⟩

end T1ha.Props
