import Verif.Props.Selfcheck
import Verif.Proofs.Tool

/-!
# The tool `test`: key sizes and the exit status

C58, C59. The tool is documented in README.md:204-292 and by its own `--help` (tests/main.c:51-101).
-/

namespace T1ha.Props

open Model Examples

/-! ## C58 -/

/-- The options for key sizes, and the sizes in bytes. -/
def keySizes : List (String × Nat) :=
  [("tiny", 7), ("small", 63), ("medium", 1024), ("large", 16384), ("huge", 262144)]

/-- Benchmarks with keys of this size are announced. -/
def ToolRun.Benchmarks (r : ToolRun) (size : Nat) : Prop := .print (.benchFor size) ∈ r.events

/-- Nobody asks for help. -/
def NoHelp (args : List String) : Prop := "--help" ∉ args ∧ "-h" ∉ args

/-- The run benchmarks at all: there is a clock, and nothing is hashed from standard input. -/
structure Benches (t : ToolBuild) (e : Env) (args : List String) (r : ToolRun) : Prop where
  run : toolMain t e args = some r
  success : r.status = .success
  clock : e.mera_init = true
  noHelp : NoHelp args
  noStrings : "--hash-stdin-strings" ∉ args
  noBenchAll : "--bench-all" ∉ args

theorem not_before {before : List Event}
    (hb : ∀ x ∈ before, OfTests x ∨ x ∈ [.print .buildInfo, .print .selfcheckPassed, .print .preparing, .print .clock])
    (n : Nat) : Event.print (.benchFor n) ∉ before := by
  intro h
  rcases hb _ h with h | h
  · exact h
  · simp at h

/-- What such a run does. -/
theorem Benches.flags {t : ToolBuild} {e : Env} {args : List String} {r : ToolRun} (h : Benches t e args r) :
    ∃ fl before, r.events = before ++ benchEvents t e.cpu (aesFlags t.build (featuresAtTests t.build e.cpu) fl) ∧
      (∀ x ∈ before, OfTests x ∨
        x ∈ [.print .buildInfo, .print .selfcheckPassed, .print .preparing, .print .clock]) ∧
      (args = [] ∧ fl = ⟨default_option_flags, default_disabled_option_flags t.build⟩ ∨
        args ≠ [] ∧ ∃ f, parseArgs t.build e.validGHz args ⟨0, 0⟩ = .ok f ∧ fl = withDefaults f) := by
  rcases toolMain_cases h.run with g | ⟨g, g'⟩ | ⟨g, g'⟩ | ⟨g, f, g', g''⟩
  · rw [h.success] at g; cases g.1
  · exact absurd g' (by have := h.noHelp; unfold NoHelp at this; tauto)
  · obtain ⟨before, h1, h2⟩ := toolRun_bench g' h.success (show default_option_flags.getLsbD 2 = false by decide) h.clock
    exact ⟨_, before, h1, h2, Or.inl ⟨g, rfl⟩⟩
  · have h2 : (withDefaults f).option_flags.getLsbD 2 = false := by
      rw [withDefaults_other f (by decide) (by decide)]
      exact no_strings h.noStrings h.noBenchAll g' (by decide)
    obtain ⟨before, h1, h2⟩ := toolRun_bench g'' h.success h2 h.clock
    exact ⟨_, before, h1, h2, Or.inr ⟨g, f, g', rfl⟩⟩

/-- C58: the sizes which are benchmarked are those which are asked for, or tiny and large keys if no size is
asked for. Missing: this is wrong after `--test-quiet`, `--test-only` and `--no-bench`, which withdraw what was
asked for before, but do not prevent benchmarks (`test_only_benchmarks`), and after `--bench-all`, which prevents
them (`bench_all_hashes_stdin`); and options to exclude sizes do nothing (`exclusion_ignored`). -/
theorem sizes_chosen_partial {t : ToolBuild} {e : Env} {args : List String} {r : ToolRun} (h : Benches t e args r)
    (release : t.debug = false)
    (plain : "--test-quiet" ∉ args ∧ "--test-only" ∉ args ∧ "--no-bench" ∉ args)
    {name : String} {size : Nat} (known : (name, size) ∈ keySizes) :
    ToolRun.Benchmarks r size ↔
      "--" ++ name ∈ args ∨ "--all-sizes" ∈ args ∨
      (∀ n s, (n, s) ∈ keySizes → "--" ++ n ∉ args) ∧ (name = "tiny" ∨ name = "large") := by
  obtain ⟨fl, before, h1, h2, h3⟩ := h.flags
  obtain ⟨k, hk⟩ : ∃ k, (name, k, size) ∈ sizeNames := by
    simp only [keySizes, List.mem_cons, Prod.mk.injEq, List.not_mem_nil, or_false] at known
    rcases known with ⟨rfl, rfl⟩ | ⟨rfl, rfl⟩ | ⟨rfl, rfl⟩ | ⟨rfl, rfl⟩ | ⟨rfl, rfl⟩
    · exact ⟨16, by decide⟩
    · exact ⟨17, by decide⟩
    · exact ⟨18, by decide⟩
    · exact ⟨19, by decide⟩
    · exact ⟨20, by decide⟩
  have hk28 : k < 28 := by
    have c : ∀ z ∈ sizeNames, z.2.1 < 28 := by decide
    exact c _ hk
  unfold ToolRun.Benchmarks
  rw [h1, List.mem_append, or_iff_right (not_before h2 size), benchFor_mem release hk, aesFlags_bit _ _ _ hk28]
  rcases h3 with ⟨rfl, rfl⟩ | ⟨ha, f, hf, rfl⟩
  · have c : ∀ z ∈ sizeNames, default_option_flags.getLsbD z.2.1 = true ↔ (z.1 = "tiny" ∨ z.1 = "large") := by
      decide +kernel
    rw [c _ hk]
    simp
  · have bit : ∀ z ∈ sizeNames, f.option_flags.getLsbD z.2.1 = args.any (fun a => a = "--" ++ z.1 || a = "--all-sizes") := by
      intro z hz
      rw [size_bit hz (fun a ha hm => ?_) hf, zero_bit, Bool.false_or]
      simp only [List.mem_cons, List.not_mem_nil, or_false] at hm
      have := h.noStrings
      have := h.noBenchAll
      rcases hm with rfl | rfl | rfl | rfl | rfl <;> tauto
    have asked : ∀ z ∈ sizeNames, (args.any (fun a => a = "--" ++ z.1 || a = "--all-sizes") = true ↔
        "--" ++ z.1 ∈ args ∨ "--all-sizes" ∈ args) := by
      intro z hz
      simp only [List.any_eq_true, Bool.or_eq_true, decide_eq_true_eq]
      constructor
      · rintro ⟨a, ha, rfl | rfl⟩
        · exact Or.inl ha
        · exact Or.inr ha
      · rintro (h | h)
        · exact ⟨_, h, Or.inl rfl⟩
        · exact ⟨_, h, Or.inr rfl⟩
    have any : anySize f = true ↔ "--all-sizes" ∈ args ∨ ∃ n s, (n, s) ∈ keySizes ∧ "--" ++ n ∈ args := by
      rw [anySize_eq, List.any_eq_true]
      constructor
      · rintro ⟨z, hz, hb⟩
        rw [bit z hz, asked z hz] at hb
        rcases hb with hb | hb
        · refine Or.inr ⟨z.1, z.2.2, ?_, hb⟩
          have c : ∀ z ∈ sizeNames, (z.1, z.2.2) ∈ keySizes := by decide
          exact c z hz
        · exact Or.inl hb
      · rintro (hb | ⟨n, s, hn, hb⟩)
        · refine ⟨("tiny", 16, 7), by decide, ?_⟩
          rw [bit _ (by decide), asked _ (by decide)]
          exact Or.inr hb
        · have c : ∀ y ∈ keySizes, ∃ z ∈ sizeNames, z.1 = y.1 := by decide
          obtain ⟨z, hz, e⟩ := c _ hn
          refine ⟨z, hz, ?_⟩
          rw [bit z hz, asked z hz, e]
          exact Or.inl hb
    have def_ := withDefaults_size f hk
    simp only at def_
    rw [def_]
    have bk := bit _ hk
    simp only at bk
    cases hany : anySize f with
    | true =>
      rw [if_pos rfl, bk, asked _ hk]
      constructor
      · rintro (h | h)
        · exact Or.inl h
        · exact Or.inr (Or.inl h)
      · rintro (h | h | ⟨h, -⟩)
        · exact Or.inl h
        · exact Or.inr h
        · rcases any.1 hany with h' | ⟨n, s, hn, h'⟩
          · exact Or.inr h'
          · exact absurd h' (h n s hn)
    | false =>
      have none : ¬ ("--all-sizes" ∈ args ∨ ∃ n s, (n, s) ∈ keySizes ∧ "--" ++ n ∈ args) := by
        rw [← any, hany]; simp
      simp only [not_or, not_exists, not_and] at none
      simp only [Bool.false_eq_true, if_false, Bool.or_eq_true, decide_eq_true_eq]
      constructor
      · intro h; exact Or.inr (Or.inr ⟨none.2, h⟩)
      · rintro (h | h | ⟨-, h⟩)
        · exact absurd h (none.2 name size known)
        · exact absurd h none.1
        · exact h

/-- C58, negation: an option to exclude a size does nothing, wherever it is (unless it is the only argument, so
that the other defaults are not used). -/
theorem exclusion_ignored (t : ToolBuild) (e : Env) (before after : List String) (others : before ++ after ≠ [])
    {name : String} {size : Nat} (known : (name, size) ∈ keySizes) :
    toolMain t e (before ++ ["--no-" ++ name] ++ after) = toolMain t e (before ++ after) := by
  have hz : ∃ k, (name, k, size) ∈ sizeNames := by
    simp only [keySizes, List.mem_cons, Prod.mk.injEq, List.not_mem_nil, or_false] at known
    rcases known with ⟨rfl, rfl⟩ | ⟨rfl, rfl⟩ | ⟨rfl, rfl⟩ | ⟨rfl, rfl⟩ | ⟨rfl, rfl⟩
    · exact ⟨16, by decide⟩
    · exact ⟨17, by decide⟩
    · exact ⟨18, by decide⟩
    · exact ⟨19, by decide⟩
    · exact ⟨20, by decide⟩
  obtain ⟨k, hk⟩ := hz
  rw [toolMain_args t e others, toolMain_args t e (show before ++ ["--no-" ++ name] ++ after ≠ [] by simp),
    List.append_assoc, parseArgs_append, parseArgs_append]
  cases parseArgs t.build e.validGHz before ⟨0, 0⟩ with
  | error r => rfl
  | ok f =>
    obtain ⟨f', h1, h2⟩ := parse_no_size (b := t.build) (v := e.validGHz) hk f
    have h1 : parseArg t.build e.validGHz f ("--no-" ++ name) = .ok f' := h1
    simp only [List.singleton_append, parseArgs, h1]
    rcases h2.parse (b := t.build) (v := e.validGHz) after with ⟨r, g1, g2⟩ | ⟨f1, f2, g1, g2, g3⟩
    · rw [g1, g2]
    · rw [g1, g2]
      exact g3.defaults.run t e

/-- C58, negation: whatever is said about sizes or tests, there are benchmarks. -/
theorem always_benchmarks {t : ToolBuild} {e : Env} {args : List String} {r : ToolRun} (h : Benches t e args r) :
    ∃ size, ToolRun.Benchmarks r size := by
  obtain ⟨fl, before, h1, h2, h3⟩ := h.flags
  unfold ToolRun.Benchmarks
  cases hd : t.debug with
  | true =>
    refine ⟨1, ?_⟩
    rw [h1]
    refine List.mem_append_right _ ?_
    unfold benchEvents
    rw [hd, if_pos rfl]
    exact List.mem_append_left _ (mem_bench_size.2 (Or.inl rfl))
  | false =>
    have any : anySize fl = true := by
      rcases h3 with ⟨-, rfl⟩ | ⟨-, f, -, rfl⟩
      · unfold anySize; simp only; decide
      · exact withDefaults_any f
    rw [anySize_eq, List.any_eq_true] at any
    obtain ⟨z, hz, hb⟩ := any
    refine ⟨z.2.2, ?_⟩
    rw [h1]
    refine List.mem_append_right _ ((benchFor_mem hd hz).2 ?_)
    have c : ∀ z ∈ sizeNames, z.2.1 < 28 := by decide
    rw [aesFlags_bit _ _ _ (c z hz)]
    exact hb

/-- C58, negation: `--test-only` ("perform tests, but don't benchmarking"), `--no-bench` and `--test-quiet`
("quiet perform tests and exit") end with benchmarks, unless there is no clock. -/
theorem test_only_benchmarks {t : ToolBuild} {e : Env} (healthy : e.selfcheck = 0) (clock : e.mera_init = true)
    (release : t.debug = false) {arg : String} (ha : arg ∈ ["--test-only", "--no-bench", "--test-quiet"]) :
    ∃ r, toolMain t e [arg] = some r ∧ r.status = .success ∧ ToolRun.Benchmarks r 7 ∧ ToolRun.Benchmarks r 16384 ∧
      ∃ f, .bench 7 f ∈ r.events := by
  have run : ∀ fl : Flags, fl.is_option_set hash_stdin_strings = false → fl.is_option_set bench_tiny = true →
      fl.is_option_set bench_large = true → fl.is_selected bench_stadtx = true → ∃ r, toolRun t e fl = some r ∧
      r.status = .success ∧ ToolRun.Benchmarks r 7 ∧ ToolRun.Benchmarks r 16384 ∧ ∃ f, .bench 7 f ∈ r.events := by
    intro fl q1 q2 q3 q4
    unfold toolRun
    rw [if_neg (not_not.2 healthy)]
    unfold hash_stdin_strings at q1 ⊢
    unfold bench_tiny at q2
    unfold bench_large at q3
    unfold bench_stadtx at q4
    rw [is_option_set_bit _ _ (by decide)] at q1 q2 q3
    rw [is_selected_bit _ _ (by decide)] at q4
    simp only [is_option_set_bit _ _ (show 2 < 32 by decide), aesFlags_bit _ _ _ (show 2 < 28 by decide), q1,
      Bool.false_eq_true, if_false, clock, if_true]
    refine ⟨_, rfl, rfl, ?_, ?_, .stadtx, ?_⟩
    · refine List.mem_append_right _ ((benchFor_mem (z := ("tiny", 16, 7)) release (by decide)).2 ?_)
      rw [aesFlags_bit _ _ _ (by decide)]; exact q2
    · refine List.mem_append_right _ ((benchFor_mem (z := ("large", 19, 16384)) release (by decide)).2 ?_)
      rw [aesFlags_bit _ _ _ (by decide)]; exact q3
    · refine List.mem_append_right _ ((mem_benchEvents release).2 ⟨("tiny", 16, 7), by decide, ?_, ?_⟩)
      · rw [aesFlags_bit _ _ _ (by decide)]; exact q2
      · refine mem_bench_size.2 (Or.inr ⟨_, ?_, rfl⟩)
        have : (aesFlags t.build (featuresAtTests t.build e.cpu) fl).is_selected bench_stadtx = true := by
          unfold bench_stadtx
          rw [is_selected_bit _ _ (by decide), aesFlags_bit _ _ _ (by decide), aesFlags_disabled]
          exact q4
        unfold benchFns
        simp only [this, if_true, List.mem_append]
        simp
  simp only [List.mem_cons, List.not_mem_nil, or_false] at ha
  rw [toolMain_args t e (by simp)]
  rcases ha with rfl | rfl | rfl
  · exact run ⟨default_option_flags, 0⟩ (by decide) (by decide) (by decide) (by decide)
  · exact run ⟨default_option_flags, 0⟩ (by decide) (by decide) (by decide) (by decide)
  · exact run ⟨default_option_flags ||| test_quiet, 0⟩ (by decide) (by decide) (by decide) (by decide)

/-- C58, negation: `--help` says that tiny keys have 5 bytes and small keys have 31 bytes, but no run benchmarks
keys of these sizes. -/
theorem help_sizes_wrong {t : ToolBuild} {e : Env} {args : List String} {r : ToolRun} (h : Benches t e args r) :
    ¬ ToolRun.Benchmarks r 5 ∧ ¬ ToolRun.Benchmarks r 31 := by
  obtain ⟨fl, before, h1, h2, -⟩ := h.flags
  have key : ∀ n, n ≠ 1 → n ∉ sizeNames.map (fun z => z.2.2) → ¬ ToolRun.Benchmarks r n := by
    intro n n1 n2 hn
    unfold ToolRun.Benchmarks at hn
    rw [h1, List.mem_append, or_iff_right (not_before h2 n)] at hn
    cases hd : t.debug with
    | true =>
      unfold benchEvents at hn
      rw [hd, if_pos rfl, List.mem_append, mem_bench_size] at hn
      simp only [Event.print.injEq, Text.benchFor.injEq, List.mem_singleton, reduceCtorEq, or_false, and_false,
        exists_false] at hn
      exact n1 hn
    | false =>
      rw [mem_benchEvents hd] at hn
      obtain ⟨z, hz, -, hm⟩ := hn
      rw [mem_bench_size] at hm
      simp only [Event.print.injEq, Text.benchFor.injEq, reduceCtorEq, and_false, exists_false, or_false] at hm
      exact n2 (List.mem_map.2 ⟨z, hz, hm.symm⟩)
  exact ⟨key 5 (by decide) (by decide), key 31 (by decide) (by decide)⟩

/-! ### Examples -/

end T1ha.Props

namespace T1ha.Examples

open Model Props

/-- A tool for Linux on x86-64. -/
def tool : ToolBuild := ⟨linux64, true, 2048, false⟩

/-- Everything is fine, the processor has AES-NI, AVX and AVX2. -/
def fine : Env where
  validGHz := fun _ => true
  selfcheck := 0
  verifyFails := fun _ => false
  wyhashFails := false
  cpu := someCpu 7 0x1A080000 32
  mera_init := true
  stdin := []
  hash := fun _ m seed => seed + BitVec.ofNat 64 m.length

end T1ha.Examples

namespace T1ha.Props

open Model Examples

/-- `sizes_chosen_partial`, `always_benchmarks` and `help_sizes_wrong`: the hypotheses can be met, and
`--small --no-tiny` benchmarks keys of 63 bytes only. -/
example : ∃ r, Benches tool fine ["--small", "--no-tiny"] r ∧ ToolRun.Benchmarks r 63 ∧ ¬ ToolRun.Benchmarks r 7 := by
  obtain ⟨r, h⟩ : ∃ r, Benches tool fine ["--small", "--no-tiny"] r :=
    ⟨_, rfl, rfl, rfl, ⟨by decide, by decide⟩, by decide, by decide⟩
  refine ⟨r, h, ?_, ?_⟩
  · rw [sizes_chosen_partial h rfl (by decide) (name := "small") (by decide)]; exact Or.inl (by decide)
  · rw [sizes_chosen_partial h rfl (by decide) (name := "tiny") (by decide)]
    rintro (h | h | ⟨h, -⟩)
    · revert h; decide
    · revert h; decide
    · exact h "small" 63 (by decide) (by decide)

/-- `exclusion_ignored`: `--2 --no-large` still benchmarks large keys. -/
example : ∃ r, toolMain tool fine ["--2", "--no-large"] = some r ∧ ToolRun.Benchmarks r 16384 := by
  have h : Benches tool fine ["--2"] _ := ⟨rfl, rfl, rfl, ⟨by decide, by decide⟩, by decide, by decide⟩
  refine ⟨_, (exclusion_ignored tool fine ["--2"] [] (by decide) (name := "large") (size := 16384)
    (by decide)).trans h.run, ?_⟩
  rw [sizes_chosen_partial h rfl (by decide) (name := "large") (by decide)]
  refine Or.inr (Or.inr ⟨?_, Or.inr rfl⟩)
  intro n s hn
  have c : ∀ y ∈ keySizes, "--" ++ y.1 ∉ ["--2"] := by decide
  exact c _ hn

/-- `test_only_benchmarks` -/
example : ∃ r, toolMain tool fine ["--test-only"] = some r ∧ r.status = .success ∧ ToolRun.Benchmarks r 7 :=
  (test_only_benchmarks (t := tool) (e := fine) rfl rfl rfl (by decide)).imp fun _ h => ⟨h.1, h.2.1, h.2.2.1⟩

/-! ## C59 -/

/-- C59: if the self-check fails, then the tool fails (unless help is asked for). -/
theorem selfcheck_failure_partial {t : ToolBuild} {e : Env} {args : List String} {r : ToolRun}
    (h : toolMain t e args = some r) (noHelp : NoHelp args) (bad : e.selfcheck ≠ 0) : r.status = .failure := by
  have run : ∀ fl, toolRun t e fl = some r → r.status = .failure := by
    intro fl g
    unfold toolRun at g
    rw [if_pos bad] at g
    cases g
    rfl
  rcases toolMain_cases h with g | ⟨g, g'⟩ | ⟨g, g'⟩ | ⟨g, f, g', g''⟩
  · exact g.1
  · exact absurd g' (by unfold NoHelp at noHelp; tauto)
  · exact run _ g'
  · exact run _ g''

/-- C59: so a function of the library which gives a wrong answer to one of the probes makes the tool fail: it is
either told by `t1ha_selfcheck__all_enabled`, or this stops the tool with a failed assertion. Missing: this does
not hold for the other verifications (`verification_failure_succeeds`). -/
theorem wrong_library_fails_partial {t : ToolBuild} {e : Env} {args : List String} {r : ToolRun} {w : World} {s s' : Sys}
    {st : Statics} {fr : Checked → Frame} {lib : Library} {T : Table → List U64} {answers : Checked → Nat → U64}
    {scratches : Checked → Nat → Prop}
    (mem : AllMem t.build e.cpu w s.ov st fr lib T answers scratches)
    (builds : t.build.no0 = false → t.build.arch = .other → t.build.aesni ≠ some true)
    (wrong : ∃ f, Covered t.build e.cpu f ∧ ¬ PassesAll (answers f) (T f.table))
    (told : t1ha_selfcheck__all_enabled t.build e.cpu st fr lib w s = .ok (e.selfcheck, s'))
    (h : toolMain t e args = some r) (noHelp : NoHelp args) : r.status = .failure := by
  refine selfcheck_failure_partial h noHelp ?_
  obtain ⟨-, h2, h3⟩ := all_enabled_correct mem builds
  obtain ⟨f, hf, hbad⟩ := wrong
  have hno : ¬ (∀ f, Covered t.build e.cpu f → PassesAll (answers f) (T f.table)) := fun hall => hbad (hall f hf)
  cases hn : t.build.cfg.ndebug with
  | true =>
    obtain ⟨s1, t1, g⟩ := h2 hno hn
    rw [g.1] at told
    simp only [Except.ok.injEq, Prod.mk.injEq] at told
    rw [← told.1]
    decide
  | false =>
    rw [h3 hno hn] at told
    cases told

/-- C59: without arguments, the status tells the result of the self-check, and nothing else. -/
theorem default_status_iff {t : ToolBuild} {e : Env} {r : ToolRun} (h : toolMain t e [] = some r) :
    r.status = .success ↔ e.selfcheck = 0 := by
  have h : toolRun t e ⟨default_option_flags, default_disabled_option_flags t.build⟩ = some r := h
  unfold toolRun at h
  by_cases hs : e.selfcheck = 0
  · simp only [hs, iff_true]
    rw [if_neg (not_not.2 hs)] at h
    unfold hash_stdin_strings at h
    simp only [is_option_set_bit _ _ (show 2 < 32 by decide), aesFlags_bit _ _ _ (show 2 < 28 by decide),
      show default_option_flags.getLsbD 2 = false by decide, Bool.false_eq_true, if_false] at h
    split at h <;> (cases h; rfl)
  · simp only [hs, iff_false]
    rw [if_pos hs] at h
    cases h
    decide

/-- C59, negation: the status does not depend on the results of verification. -/
theorem status_ignores_verification (t : ToolBuild) (e : Env) (args : List String) (fails : ToolHash → Bool)
    (wyhash : Bool) :
    (toolMain t { e with verifyFails := fails, wyhashFails := wyhash } args).map ToolRun.status =
      (toolMain t e args).map ToolRun.status := by
  unfold toolMain
  simp only
  cases options t.build e.validGHz args with
  | error r => rfl
  | ok fl =>
    simp only
    unfold toolRun
    split
    · rfl
    · simp only
      split
      · split
        · rfl
        · rw [Option.map_map, Option.map_map]
          rfl
      · split <;> rfl

/-- C59, negation: if everything which is verified fails, the tool says so, and succeeds: without options, and with
`--test-quiet` ("quiet perform tests and exit with status"). -/
theorem verification_failure_succeeds {t : ToolBuild} {e : Env} (healthy : e.selfcheck = 0)
    (all : ∀ f, e.verifyFails f = true) {args : List String} (ha : args = [] ∨ args = ["--test-quiet"]) :
    ∃ r, toolMain t e args = some r ∧ r.status = .success ∧ .print .verificationFailed ∈ r.events := by
  have run : ∀ fl : Flags, fl.is_option_set hash_stdin_strings = false → ∃ r, toolRun t e fl = some r ∧
      r.status = .success ∧ .print .verificationFailed ∈ r.events := by
    intro fl q1
    unfold toolRun
    rw [if_neg (not_not.2 healthy)]
    unfold hash_stdin_strings at q1 ⊢
    rw [is_option_set_bit _ _ (by decide)] at q1
    have ht : Event.print .verificationFailed ∈ testEvents t.build e fl := by
      unfold testEvents
      refine List.mem_append_right _ ?_
      simp [all]
    simp only [is_option_set_bit _ _ (show 2 < 32 by decide), aesFlags_bit _ _ _ (show 2 < 28 by decide), q1,
      Bool.false_eq_true, if_false]
    split
    · refine ⟨_, rfl, rfl, ?_⟩
      simp only [List.mem_append]
      exact Or.inl (Or.inl (Or.inr ht))
    · refine ⟨_, rfl, rfl, ?_⟩
      simp only [List.mem_append]
      exact Or.inl (Or.inr ht)
  rcases ha with rfl | rfl
  · exact run ⟨default_option_flags, default_disabled_option_flags t.build⟩
      (show (default_option_flags &&& hash_stdin_strings != 0) = false by decide)
  · rw [toolMain_args t e (by simp)]
    exact run ⟨default_option_flags ||| test_quiet, 0⟩ (by decide)

/-- `selfcheck_failure_partial` -/
example : ∃ r, toolMain tool { fine with selfcheck := -1 } ["--test-quiet"] = some r ∧ r.status = .failure :=
  ⟨_, rfl, selfcheck_failure_partial (t := tool) (e := { fine with selfcheck := -1 }) (args := ["--test-quiet"]) rfl
    ⟨by decide, by decide⟩ (by decide)⟩

/-- `wrong_library_fails_partial`: with functions which return the seed, and without assertions, the self-check
returns -1, and the tool fails. -/
example : ∃ (b : Build) (lib : Library) (v : CInt) (s' : Sys),
    t1ha_selfcheck__all_enabled b (someCpu 7 0x1A080000 32) place (fun _ => stackFrame) lib
      (rom (image b.cfg)) start = .ok (v, s') ∧
    ∃ r, toolMain { tool with build := b } { fine with selfcheck := v } [] = some r ∧ r.status = .failure := by
  let b : Build := { linux64 with cfg := { amd64 with ndebug := true } }
  have here := placed_rom b (someCpu 7 0x1A080000 32) rfl (by decide)
  have mem : AllMem b (someCpu 7 0x1A080000 32) (rom (image b.cfg)) start.ov place (fun _ => stackFrame)
      (fun _ _ _ seed => pure seed) Table.values (fun _ k => (probeAt k).seed) (fun _ _ => False) := by
    refine ⟨fun f hf => (here.each f hf).mem, fun f hf => ?_, fun f g hf hg => ⟨fun a ha => ha.elim,
      (here.apart f g hf hg).2⟩⟩
    intro k _ s _ _
    exact ⟨s, [], Returns.pure _, fun _ h => h, fun _ _ => rfl⟩
  have wrong : ∃ f, Covered b (someCpu 7 0x1A080000 32) f ∧ ¬ PassesAll (fun k => (probeAt k).seed) f.table.values :=
    ⟨.t1ha2_atonce, rfl, fun h => absurd (h 1 (by decide)) (by decide)⟩
  obtain ⟨s', t', h, -⟩ := (all_enabled_correct mem (by decide)).2.1
    (fun h => wrong.elim fun f hf => hf.2 (h f hf.1)) rfl
  refine ⟨b, _, -1, s', h, _, rfl, ?_⟩
  exact wrong_library_fails_partial (t := { tool with build := b }) (e := { fine with selfcheck := -1 }) mem
    (by decide) wrong h (args := []) rfl ⟨by decide, by decide⟩

/-- `default_status_iff` -/
example : ∃ r, toolMain tool fine [] = some r ∧ r.status = .success := 
  ⟨_, rfl, (default_status_iff (t := tool) (e := fine) rfl).2 rfl⟩

/-- `verification_failure_succeeds` -/
example : ∃ r, toolMain tool { fine with verifyFails := fun _ => true } ["--test-quiet"] = some r ∧
    r.status = .success :=
  (verification_failure_succeeds (t := tool) (e := { fine with verifyFails := fun _ => true }) rfl (fun _ => rfl)
    (Or.inr rfl)).imp fun _ h => ⟨h.1, h.2.1⟩

end T1ha.Props
