import Verif.Model.Tool
import Verif.Props.Selfcheck

/-!
# The tool `test`: the verification of a function

C63.
-/

namespace T1ha.Props

open Model Examples

variable {cfg : Cfg} {w : World} {s : Sys} {pattern long refs : Nat} {table : List U64} {hash : HashFn}
  {answer : Nat → U64} {scratch : Nat → Prop}

theorem toolProbeNext_eq (cfg : Cfg) (hash : HashFn) (r : Nat) (failed : Bool) (data len : Nat) (seed : U64) :
    toolProbeNext cfg hash r failed data len seed =
      probeNext { cfg with ndebug := true } hash r failed data len seed := by
  have key : ∀ c, toolProbe hash c data len seed = probe { cfg with ndebug := true } hash c data len seed := by
    intro c
    unfold toolProbe probe cassert
    simp only [if_true, pure_bind]
    congr 1
    funext v
    by_cases h : c = v
    · subst h; simp
    · rw [if_neg h]
      have : (v != c) = true := by simpa using Ne.symm h
      rw [this]
  unfold toolProbeNext probeNext
  simp only [key]
  rfl

/-- `verify` does the same as `t1ha_selfcheck` compiled with `NDEBUG`. -/
theorem toolVerify_eq (cfg : Cfg) (pattern long : Nat) (hash : HashFn) (refs : Nat) :
    t1ha_selfcheck { cfg with ndebug := true } pattern long hash refs =
      (do let failed ← toolVerify cfg pattern long hash refs; pure (if failed then -1 else 0) : M CInt) := by
  unfold toolVerify t1ha_selfcheck selfcheck_bins selfcheck_aligns selfcheck_fill selfcheck_longs
  simp only [toolProbeNext_eq, bind_assoc, pure_bind]
  rfl

/-- C63: the tool reports a failure for a function exactly if one of the answers of the function to the 81 probes is
not the value of the table; for all tables and all answers. It changes nothing in memory but local variables. -/
theorem verify_correct (mem : CheckMem cfg w s.ov pattern long refs table)
    (code : Computes w s.ov pattern long hash answer scratch) (apart : Elsewhere scratch pattern long refs) :
    ∃ failed s' t, Returns (toolVerify cfg pattern long hash refs) w s failed s' t ∧
      (failed = false ↔ PassesAll answer table) ∧
      ∀ a, ¬ scratch a → (a < long ∨ long + 512 ≤ a) → s'.ov a = s.ov a := by
  have mem' : CheckMem { cfg with ndebug := true } w s.ov pattern long refs table :=
    ⟨mem.size, mem.holds_table, mem.table_fits, mem.holds_pattern, mem.pattern_fits, mem.writable_long, mem.long_fits,
      mem.apart⟩
  obtain ⟨h1, h2, -⟩ := selfcheck_correct mem' code apart
  have back : ∀ {v : CInt} {s' : Sys} {t : List Ev},
      Returns (t1ha_selfcheck { cfg with ndebug := true } pattern long hash refs) w s v s' t →
      ∃ failed, Returns (toolVerify cfg pattern long hash refs) w s failed s' t ∧ v = if failed then -1 else 0 := by
    intro v s' t h
    rw [toolVerify_eq] at h
    obtain ⟨g1, g2⟩ := h
    have g1' : M.bind (toolVerify cfg pattern long hash refs) (fun failed => pure (if failed then -1 else 0)) w s =
      .ok (v, s') := g1
    unfold M.bind at g1'
    cases hv : toolVerify cfg pattern long hash refs w s with
    | error e => rw [hv] at g1'; cases g1'
    | ok x =>
      obtain ⟨failed, s2⟩ := x
      rw [hv] at g1'
      have g3 : (Except.ok ((if failed then -1 else 0 : CInt), s2) : Except Err (CInt × Sys)) = .ok (v, s') := g1'
      simp only [Except.ok.injEq, Prod.mk.injEq] at g3
      obtain ⟨rfl, rfl⟩ := g3
      exact ⟨failed, ⟨hv, g2⟩, rfl⟩
  by_cases hp : PassesAll answer table
  · obtain ⟨s', t, g1, g2⟩ := h1 hp
    obtain ⟨failed, g3, g4⟩ := back g1
    refine ⟨failed, s', t, g3, ⟨fun _ => hp, fun _ => ?_⟩, g2⟩
    cases failed with
    | false => rfl
    | true => exact absurd g4 (by decide)
  · obtain ⟨s', t, g1, g2⟩ := h2 hp rfl
    obtain ⟨failed, g3, g4⟩ := back g1
    refine ⟨failed, s', t, g3, ⟨fun hf => ?_, fun h => absurd h hp⟩, g2⟩
    subst hf
    exact absurd g4 (by decide)

/-- C63: the functions of the library pass the verification, wherever they and their data are placed. -/
theorem library_verified {b : Build} {page : Nat} {st : Statics} {fr : Checked → Frame} (f : Checked)
    (here : Placed b.cfg w s.ov page st (fr f) f)
    (apart : ∀ x ∈ locals b.cfg (fr f) f, Model.Disjoint (st.table f.table) (8 * 81) x.1 x.2) (stack : State256)
    (ac : AesCfg) :
    ∃ s' t, Returns (toolVerify b.cfg st.t1ha_test_pattern (fr f).pattern_long (library b.cfg stack ac fr f)
      (st.table (toolTable f))) w s false s' t := by
  have ht : toolTable f = f.table := by cases f <;> rfl
  rw [ht]
  have el : Elsewhere (InLocals b.cfg (fr f) f) st.t1ha_test_pattern (fr f).pattern_long (st.table f.table) := by
    intro a ha
    obtain ⟨x, hx, h1, h2⟩ := ha
    have h3 := apart x hx
    obtain ⟨-, -, -, h4, h5⟩ := here.locals_ok x hx
    unfold Model.Disjoint at h3 h4 h5
    omega
  obtain ⟨failed, s', t, g1, g2, -⟩ := verify_correct here.mem (computes_library stack ac fr f here) el
  rw [g2.2 (values f)] at g1
  exact ⟨s', t, g1⟩

/-- The hypotheses can be met: for every function, on a 64-bit machine; in the memory of the examples. -/
example (f : Checked) (stack : State256) (ac : AesCfg) : ∃ s' t, Returns (toolVerify amd64 place.t1ha_test_pattern
    stackFrame.pattern_long (library amd64 stack ac (fun _ => stackFrame) f) (place.table (toolTable f)))
    (rom (image amd64)) start false s' t := by
  have h := placed_rom linux64 (someCpu 7 0x1A080000 32) rfl (by decide)
  have hc : Covered linux64 (someCpu 7 0x1A080000 32) f := by
    cases f <;> unfold Covered Build.LooksForAes HasAes HasAvx HasOsxsave HasAvx2 <;> decide
  exact library_verified (b := linux64) (fr := fun _ => stackFrame) f (h.each f hc) (h.apart f f hc hc).1 stack ac

/-- A wrong last answer is found out. -/
example (mem : CheckMem cfg w s.ov pattern long refs table)
    (code : Computes w s.ov pattern long hash answer scratch) (apart : Elsewhere scratch pattern long refs)
    {v : U64} (last : table[80]? = some v) (wrong : answer 80 ≠ v) :
    ∃ s' t, Returns (toolVerify cfg pattern long hash refs) w s true s' t := by
  obtain ⟨failed, s', t, g1, g2, -⟩ := verify_correct mem code apart
  cases failed with
  | true => exact ⟨s', t, g1⟩
  | false =>
    have := g2.1 rfl 80 (by decide)
    rw [last] at this
    exact absurd (Option.some.inj this).symm wrong

end T1ha.Props
