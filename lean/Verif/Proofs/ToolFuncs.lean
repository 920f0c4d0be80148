import Verif.Proofs.Tool

/-!
# The tool `test`: the choice of functions
-/

namespace T1ha.Model

variable {b : Build} {v : String → Bool} {f f' : Flags} {args : List String}

/-- The options for functions: their names and the bit of their flag. -/
def funcNames : List (List String × Nat) :=
  [(["xxhash"], 4), (["highway", "highwayhash"], 5), (["stadtx"], 6), (["wyhash"], 7), (["0"], 8), (["1"], 9),
    (["2"], 10), (["32"], 24), (["64"], 25), (["le"], 26), (["be"], 27)]

/-- `--name` is among the arguments, for one of the names. -/
def asked (args names : List String) : Bool := args.any fun a => names.any fun n => a = "--" ++ n

/-- `--no-name` is among the arguments, for one of the names. -/
def refused (args names : List String) : Bool := args.any fun a => names.any fun n => a = "--no-" ++ n

theorem asked_iff {names : List String} : asked args names = true ↔ ∃ n ∈ names, "--" ++ n ∈ args := by
  simp only [asked, List.any_eq_true, decide_eq_true_eq]
  constructor
  · rintro ⟨a, ha, n, hn, rfl⟩; exact ⟨n, hn, ha⟩
  · rintro ⟨n, hn, ha⟩; exact ⟨_, ha, n, hn, rfl⟩

theorem refused_iff {names : List String} : refused args names = true ↔ ∃ n ∈ names, "--no-" ++ n ∈ args := by
  simp only [refused, List.any_eq_true, decide_eq_true_eq]
  constructor
  · rintro ⟨a, ha, n, hn, rfl⟩; exact ⟨n, hn, ha⟩
  · rintro ⟨n, hn, ha⟩; exact ⟨_, ha, n, hn, rfl⟩

private theorem names_ghz : ∀ z ∈ funcNames, ∀ n ∈ z.1, ¬ "--GHz=".toList <+: ("--" ++ n).toList ∧
    ¬ "--GHz=".toList <+: ("--no-" ++ n).toList := by decide +kernel

theorem func_bit {z : List String × Nat} (hz : z ∈ funcNames)
    (hr : ∀ a ∈ args, a ∉ ["--test-quiet", "--test-only", "--no-bench", "--bench-all", "--all-funcs"])
    (h : parseArgs b v args f = .ok f') :
    f'.option_flags.getLsbD z.2 = (f.option_flags.getLsbD z.2 || asked args z.1) := by
  induction args generalizing f with
  | nil => cases h; simp [asked]
  | cons a l ih =>
    unfold parseArgs at h
    cases h1 : parseArg b v f a with
    | error r => rw [h1] at h; cases h
    | ok f1 =>
      rw [h1] at h
      rw [ih (fun a ha => hr a (List.mem_cons_of_mem _ ha)) h]
      unfold asked
      rw [List.any_cons, ← Bool.or_assoc]
      congr 1
      have hra := hr a List.mem_cons_self
      have c0 : ∀ z ∈ funcNames, z.2 < 28 := by decide
      have h28 := c0 z hz
      have c1 : ∀ o ∈ allOptions, ∀ z ∈ funcNames, o.2.getLsbD z.2 =
          z.1.any (fun n => "--" ++ o.1 = "--" ++ n) := by decide +kernel
      have c2 : ∀ o ∈ allOptions, ∀ z ∈ funcNames, z.1.any (fun n => "--no-" ++ o.1 = "--" ++ n) = false := by
        decide +kernel
      have c3 : ∀ z ∈ funcNames, test_verbose.getLsbD z.2 = false ∧ bench_verbose.getLsbD z.2 = false ∧
          bench_funcs_flags.getLsbD z.2 = true ∧ bench_size_flags.getLsbD z.2 = false ∧
          test_quiet.getLsbD z.2 = false ∧ hash_stdin_strings.getLsbD z.2 = false := by decide +kernel
      have c4 : ∀ z ∈ funcNames, ∀ a ∈ ["--test-verbose", "--bench-verbose", "--verbose", "-v", "--all-sizes",
          "--aes", "--no-aes", "--hash-stdin-strings"], z.1.any (fun n => a = "--" ++ n) = false := by
        decide +kernel
      obtain ⟨d1, d2, d3, d4, d5, d6⟩ := c3 z hz
      have h2 := parseArg_ok h1
      cases h2 with
      | benchAll => exact absurd (by decide) hra
      | testQuiet => exact absurd (by decide) hra
      | testOnly => exact absurd (by decide) hra
      | noBench => exact absurd (by decide) hra
      | allFuncs => exact absurd (by decide) hra
      | strings =>
        simp only [BitVec.getLsbD_or, BitVec.getLsbD_and, d3, d5, d6, Bool.and_true, Bool.or_false]
        rw [c4 z hz _ (by decide), Bool.or_false]
      | yes o ho => simp only [BitVec.getLsbD_or, c1 o ho z hz]
      | no o ho => rw [c2 o ho z hz, Bool.or_false]
      | aes => simp only [BitVec.getLsbD_or, eas_bit b h28]; rw [c4 z hz _ (by decide)]
      | testVerbose => simp only [BitVec.getLsbD_or, d1]; rw [c4 z hz _ (by decide)]
      | benchVerbose => simp only [BitVec.getLsbD_or, d2]; rw [c4 z hz _ (by decide)]
      | verbose => simp only [BitVec.getLsbD_or, d1, d2, Bool.or_self]; rw [c4 z hz _ (by decide)]
      | v => simp only [BitVec.getLsbD_or, d1, d2, Bool.or_self]; rw [c4 z hz _ (by decide)]
      | allSizes => simp only [BitVec.getLsbD_or, d4]; rw [c4 z hz _ (by decide)]
      | noAes => rw [c4 z hz _ (by decide), Bool.or_false]
      | noAes' => rw [c4 z hz _ (by decide), Bool.or_false]
      | ghz _ hg =>
        have : z.1.any (fun n => a = "--" ++ n) = false := by
          rw [List.any_eq_false]
          intro n hn
          simp only [decide_eq_true_eq]
          intro e; subst e; exact (names_ghz z hz n hn).1 hg
        rw [this, Bool.or_false]

theorem disabled_bit {z : List String × Nat} (hz : z ∈ funcNames)
    (hr : ∀ a ∈ args, a ∉ ["--bench-all", "--all-funcs"]) (h : parseArgs b v args f = .ok f') :
    f'.disabled_option_flags.getLsbD z.2 = (f.disabled_option_flags.getLsbD z.2 || refused args z.1) := by
  induction args generalizing f with
  | nil => cases h; simp [refused]
  | cons a l ih =>
    unfold parseArgs at h
    cases h1 : parseArg b v f a with
    | error r => rw [h1] at h; cases h
    | ok f1 =>
      rw [h1] at h
      rw [ih (fun a ha => hr a (List.mem_cons_of_mem _ ha)) h]
      unfold refused
      rw [List.any_cons, ← Bool.or_assoc]
      congr 1
      have hra := hr a List.mem_cons_self
      have c0 : ∀ z ∈ funcNames, z.2 < 28 := by decide
      have h28 := c0 z hz
      have c1 : ∀ o ∈ allOptions, ∀ z ∈ funcNames, o.2.getLsbD z.2 =
          z.1.any (fun n => "--no-" ++ o.1 = "--no-" ++ n) := by decide +kernel
      have c2 : ∀ o ∈ allOptions, ∀ z ∈ funcNames, z.1.any (fun n => "--" ++ o.1 = "--no-" ++ n) = false := by
        decide +kernel
      have c3 : ∀ z ∈ funcNames, (~~~bench_size_flags).getLsbD z.2 = true := by decide +kernel
      have c4 : ∀ z ∈ funcNames, ∀ a ∈ ["--test-verbose", "--bench-verbose", "--verbose", "-v", "--all-sizes",
          "--aes", "--no-aes", "--hash-stdin-strings", "--test-quiet", "--test-only", "--no-bench"],
          z.1.any (fun n => a = "--no-" ++ n) = false := by
        decide +kernel
      have h2 := parseArg_ok h1
      cases h2 with
      | benchAll => exact absurd (by decide) hra
      | allFuncs => exact absurd (by decide) hra
      | testQuiet => rw [c4 z hz _ (by decide), Bool.or_false]
      | testOnly => rw [c4 z hz _ (by decide), Bool.or_false]
      | noBench => rw [c4 z hz _ (by decide), Bool.or_false]
      | strings => rw [c4 z hz _ (by decide), Bool.or_false]
      | yes o ho => rw [c2 o ho z hz, Bool.or_false]
      | no o ho => simp only [BitVec.getLsbD_or, c1 o ho z hz]
      | aes => rw [c4 z hz _ (by decide), Bool.or_false]
      | testVerbose => rw [c4 z hz _ (by decide), Bool.or_false]
      | benchVerbose => rw [c4 z hz _ (by decide), Bool.or_false]
      | verbose => rw [c4 z hz _ (by decide), Bool.or_false]
      | v => rw [c4 z hz _ (by decide), Bool.or_false]
      | allSizes =>
        simp only [BitVec.getLsbD_and, c3 z hz, Bool.and_true]
        rw [c4 z hz _ (by decide), Bool.or_false]
      | noAes =>
        simp only [BitVec.getLsbD_or, eas_bit b h28, Bool.or_false]
        rw [c4 z hz _ (by decide), Bool.or_false]
      | noAes' => rw [c4 z hz _ (by decide), Bool.or_false]
      | ghz _ hg =>
        have : z.1.any (fun n => a = "--no-" ++ n) = false := by
          rw [List.any_eq_false]
          intro n hn
          simp only [decide_eq_true_eq]
          intro e; subst e; exact (names_ghz z hz n hn).2 hg
        rw [this, Bool.or_false]

/-! ## AES-NI -/

theorem aes_available (h : parseArg b v f "--aes" = .ok f') : b.aesniAvailable = true := by
  by_contra hb
  have : available_eas_flags b = 0 := by
    unfold available_eas_flags; rw [if_neg hb]
  have e : parseArg b v f "--aes" = .error ⟨[], .failure⟩ := by
    unfold parseArg
    rw [this]
    rfl
  rw [e] at h
  cases h

private theorem eas_set (hb : b.aesniAvailable = true) :
    (available_eas_flags b).getLsbD 28 = true ∧ (available_eas_flags b).getLsbD 29 = true ∧
    (available_eas_flags b).getLsbD 30 = !(b.arch = .e2k : Bool) ∧
    (available_eas_flags b).getLsbD 31 = true := by
  unfold available_eas_flags
  rw [if_pos hb]
  by_cases h : b.arch = .e2k
  · simp only [h, if_true]; decide
  · simp only [h, if_false]; decide

/-- Whether functions with AES-NI are asked for. -/
theorem aes_bit (hr : ∀ a ∈ args, a ∉ ["--test-quiet", "--test-only", "--no-bench", "--bench-all", "--all-funcs"])
    (h : parseArgs b v args f = .ok f') {k : Nat} (hk : 28 ≤ k) (hk' : k < 32) (he : k = 30 → b.arch ≠ .e2k) :
    f'.option_flags.getLsbD k = (f.option_flags.getLsbD k || asked args ["aes"]) := by
  induction args generalizing f with
  | nil => cases h; simp [asked]
  | cons a l ih =>
    unfold parseArgs at h
    cases h1 : parseArg b v f a with
    | error r => rw [h1] at h; cases h
    | ok f1 =>
      rw [h1] at h
      rw [ih (fun a ha => hr a (List.mem_cons_of_mem _ ha)) h]
      unfold asked
      rw [List.any_cons, ← Bool.or_assoc]
      congr 1
      have hra := hr a List.mem_cons_self
      have c1 : ∀ o ∈ allOptions, ∀ k < 32, 28 ≤ k → o.2.getLsbD k = false ∧
          (["aes"].any (fun n => "--" ++ o.1 = "--" ++ n)) = false ∧
          (["aes"].any (fun n => "--no-" ++ o.1 = "--" ++ n)) = false := by decide +kernel
      have c3 : ∀ k < 32, 28 ≤ k → test_verbose.getLsbD k = false ∧ bench_verbose.getLsbD k = false ∧
          bench_funcs_flags.getLsbD k = true ∧ bench_size_flags.getLsbD k = false ∧
          test_quiet.getLsbD k = false ∧ hash_stdin_strings.getLsbD k = false := by decide +kernel
      have c4 : ∀ a ∈ ["--test-verbose", "--bench-verbose", "--verbose", "-v", "--all-sizes",
          "--no-aes", "--hash-stdin-strings"], ["aes"].any (fun n => a = "--" ++ n) = false := by
        decide +kernel
      obtain ⟨d1, d2, d3, d4, d5, d6⟩ := c3 k hk' hk
      have h2 := parseArg_ok h1
      cases h2 with
      | benchAll => exact absurd (by decide) hra
      | testQuiet => exact absurd (by decide) hra
      | testOnly => exact absurd (by decide) hra
      | noBench => exact absurd (by decide) hra
      | allFuncs => exact absurd (by decide) hra
      | strings =>
        simp only [BitVec.getLsbD_or, BitVec.getLsbD_and, d3, d5, d6, Bool.and_true, Bool.or_false]
        rw [c4 _ (by decide), Bool.or_false]
      | yes o ho => simp only [BitVec.getLsbD_or, (c1 o ho k hk' hk).1, (c1 o ho k hk' hk).2.1]
      | no o ho => rw [(c1 o ho k hk' hk).2.2, Bool.or_false]
      | aes =>
        obtain ⟨g1, g2, g3, g4⟩ := eas_set (aes_available h1)
        have : (available_eas_flags b).getLsbD k = true := by
          have : k = 28 ∨ k = 29 ∨ k = 30 ∨ k = 31 := by omega
          rcases this with rfl | rfl | rfl | rfl
          · exact g1
          · exact g2
          · rw [g3]; simpa using he rfl
          · exact g4
        simp only [BitVec.getLsbD_or, this, Bool.or_true]
        simp
      | testVerbose => simp only [BitVec.getLsbD_or, d1]; rw [c4 _ (by decide)]
      | benchVerbose => simp only [BitVec.getLsbD_or, d2]; rw [c4 _ (by decide)]
      | verbose => simp only [BitVec.getLsbD_or, d1, d2, Bool.or_self]; rw [c4 _ (by decide)]
      | v => simp only [BitVec.getLsbD_or, d1, d2, Bool.or_self]; rw [c4 _ (by decide)]
      | allSizes => simp only [BitVec.getLsbD_or, d4]; rw [c4 _ (by decide)]
      | noAes => rw [c4 _ (by decide), Bool.or_false]
      | noAes' => rw [c4 _ (by decide), Bool.or_false]
      | ghz _ hg =>
        have : ["aes"].any (fun n => a = "--" ++ n) = false := by
          rw [List.any_eq_false]
          intro n hn
          simp only [List.mem_singleton] at hn
          subst hn
          simp only [decide_eq_true_eq]
          intro e; subst e; revert hg; decide +kernel
        rw [this, Bool.or_false]

/-- Whether functions with AES-NI are refused. -/
theorem disabled_aes (hb : b.aesniAvailable = true) (hr : ∀ a ∈ args, a ∉ ["--bench-all", "--all-funcs"])
    (h : parseArgs b v args f = .ok f') {k : Nat} (hk : 28 ≤ k) (hk' : k < 32) (he : k = 30 → b.arch ≠ .e2k) :
    f'.disabled_option_flags.getLsbD k = (f.disabled_option_flags.getLsbD k || refused args ["aes"]) := by
  have hv : (available_eas_flags b).getLsbD k = true := by
    obtain ⟨g1, g2, g3, g4⟩ := eas_set hb
    have : k = 28 ∨ k = 29 ∨ k = 30 ∨ k = 31 := by omega
    rcases this with rfl | rfl | rfl | rfl
    · exact g1
    · exact g2
    · rw [g3]; simpa using he rfl
    · exact g4
  have hv0 : (available_eas_flags b != 0) = true := by
    rw [bne_iff_ne]
    intro e
    rw [e, zero_bit] at hv
    cases hv
  induction args generalizing f with
  | nil => cases h; simp [refused]
  | cons a l ih =>
    unfold parseArgs at h
    cases h1 : parseArg b v f a with
    | error r => rw [h1] at h; cases h
    | ok f1 =>
      rw [h1] at h
      rw [ih (fun a ha => hr a (List.mem_cons_of_mem _ ha)) h]
      unfold refused
      rw [List.any_cons, ← Bool.or_assoc]
      congr 1
      have hra := hr a List.mem_cons_self
      have c1 : ∀ o ∈ allOptions, ∀ k < 32, 28 ≤ k → o.2.getLsbD k = false ∧
          (["aes"].any (fun n => "--" ++ o.1 = "--no-" ++ n)) = false ∧
          (["aes"].any (fun n => "--no-" ++ o.1 = "--no-" ++ n)) = false := by decide +kernel
      have c3 : ∀ k < 32, 28 ≤ k → (~~~bench_size_flags).getLsbD k = true := by decide +kernel
      have c4 : ∀ a ∈ ["--test-verbose", "--bench-verbose", "--verbose", "-v", "--all-sizes",
          "--aes", "--hash-stdin-strings", "--test-quiet", "--test-only", "--no-bench"],
          ["aes"].any (fun n => a = "--no-" ++ n) = false := by
        decide +kernel
      by_cases hna : a = "--no-aes"
      · subst hna
        have e : parseArg b v f "--no-aes" =
            .ok { f with disabled_option_flags := f.disabled_option_flags ||| available_eas_flags b } := by
          unfold parseArg
          rw [if_neg (by decide), if_neg (by decide), if_neg (by decide), if_neg (by decide), if_neg (by decide),
            if_neg (by decide), if_neg (by decide +kernel), if_neg (by decide), if_neg (by decide),
            if_neg (by decide), if_neg (by decide), if_pos rfl, if_pos hv0]
        rw [e] at h1
        cases h1
        simp only [BitVec.getLsbD_or, hv, Bool.or_true]
        simp
      have h2 := parseArg_ok h1
      cases h2 with
      | benchAll => exact absurd (by decide) hra
      | allFuncs => exact absurd (by decide) hra
      | noAes => exact absurd rfl hna
      | noAes' => exact absurd rfl hna
      | testQuiet => rw [c4 _ (by decide), Bool.or_false]
      | testOnly => rw [c4 _ (by decide), Bool.or_false]
      | noBench => rw [c4 _ (by decide), Bool.or_false]
      | strings => rw [c4 _ (by decide), Bool.or_false]
      | yes o ho => rw [(c1 o ho k hk' hk).2.1, Bool.or_false]
      | no o ho => simp only [BitVec.getLsbD_or, (c1 o ho k hk' hk).1, (c1 o ho k hk' hk).2.2]
      | aes => rw [c4 _ (by decide), Bool.or_false]
      | testVerbose => rw [c4 _ (by decide), Bool.or_false]
      | benchVerbose => rw [c4 _ (by decide), Bool.or_false]
      | verbose => rw [c4 _ (by decide), Bool.or_false]
      | v => rw [c4 _ (by decide), Bool.or_false]
      | allSizes =>
        simp only [BitVec.getLsbD_and, c3 k hk' hk, Bool.and_true]
        rw [c4 _ (by decide), Bool.or_false]
      | ghz _ hg =>
        have : ["aes"].any (fun n => a = "--no-" ++ n) = false := by
          rw [List.any_eq_false]
          intro n hn
          simp only [List.mem_singleton] at hn
          subst hn
          simp only [decide_eq_true_eq]
          exact hna
        rw [this, Bool.or_false]

/-- The flags `bench_3` ... `bench_7`, which no option sets by itself. -/
theorem unused_bit (hr : ∀ a ∈ args, a ∉ ["--bench-all", "--all-funcs"]) (h : parseArgs b v args f = .ok f')
    {k : Nat} (hk : 11 ≤ k) (hk' : k < 16) (h0 : f.option_flags.getLsbD k = false) :
    f'.option_flags.getLsbD k = false := by
  refine parseArgs_inv (P := fun f => f.option_flags.getLsbD k = false) (fun a ha g g' hg harg => ?_) h h0
  have c0 : ∀ k < 16, 11 ≤ k → ∀ o ∈ allOptions, o.2.getLsbD k = false := by decide +kernel
  have c := c0 k hk' hk
  have d0 : ∀ k < 16, 11 ≤ k → test_quiet.getLsbD k = false ∧ hash_stdin_strings.getLsbD k = false ∧
      test_verbose.getLsbD k = false ∧ bench_verbose.getLsbD k = false ∧ bench_size_flags.getLsbD k = false := by
    decide +kernel
  obtain ⟨d1, d2, d3, d4, d5⟩ := d0 k hk' hk
  have hra := hr a ha
  cases harg with
  | allFuncs => exact absurd (by decide) hra
  | benchAll => exact absurd (by decide) hra
  | aes => simp only [BitVec.getLsbD_or, hg, eas_bit b (show k < 28 by omega), Bool.or_false]
  | testQuiet => exact d1
  | testOnly => simp only [BitVec.getLsbD_and, hg, Bool.false_and]
  | noBench => simp only [BitVec.getLsbD_and, hg, Bool.false_and]
  | strings => simp only [BitVec.getLsbD_or, BitVec.getLsbD_and, hg, Bool.false_and, d1, d2, Bool.or_self]
  | yes o ho => simp only [BitVec.getLsbD_or, hg, c o ho, Bool.or_false]
  | testVerbose => simp only [BitVec.getLsbD_or, hg, d3, Bool.or_self]
  | benchVerbose => simp only [BitVec.getLsbD_or, hg, d4, Bool.or_self]
  | verbose => simp only [BitVec.getLsbD_or, hg, d3, d4, Bool.or_self]
  | v => simp only [BitVec.getLsbD_or, hg, d3, d4, Bool.or_self]
  | allSizes => simp only [BitVec.getLsbD_or, hg, d5, Bool.or_self]
  | ghz _ _ => exact hg
  | noAes => exact hg
  | noAes' => exact hg
  | no o ho => exact hg

/-! ## Defaults -/

/-- A function has been chosen. -/
def anyFunc (f : Flags) : Bool := (f.option_flags &&& bench_funcs_flags) != 0

theorem anyFunc_eq (f : Flags) : anyFunc f =
    (List.range 32).any (fun k => f.option_flags.getLsbD k && bench_funcs_flags.getLsbD k) := by
  unfold anyFunc
  rw [Bool.eq_iff_iff, bne_iff_ne, List.any_eq_true]
  constructor
  · intro h
    by_contra hc
    refine h (BitVec.eq_of_getLsbD_eq fun i hi => ?_)
    rw [BitVec.getLsbD_and, zero_bit]
    by_contra hn
    exact hc ⟨i, List.mem_range.2 hi, by simpa using hn⟩
  · rintro ⟨k, hk, h⟩ e
    have := congrArg (fun x : U32 => x.getLsbD k) e
    simp only [BitVec.getLsbD_and, zero_bit] at this
    rw [this] at h
    cases h

/-- Which functions are chosen by default. -/
theorem withDefaults_func (f : Flags) {z : List String × Nat} (hz : z ∈ funcNames) :
    (withDefaults f).option_flags.getLsbD z.2 =
      if anyFunc f then f.option_flags.getLsbD z.2
      else if f.option_flags.getLsbD 2 then (z.2 = 10 : Bool) else (z.2 < 16 : Bool) := by
  have c : ∀ z ∈ funcNames, bench_size_flags.getLsbD z.2 = false ∧ bench_2.getLsbD z.2 = (z.2 = 10 : Bool) ∧
      (default_option_flags &&& bench_funcs_flags).getLsbD z.2 = (z.2 < 16 : Bool) ∧ z.2 < 32 ∧
      bench_funcs_flags.getLsbD z.2 = true := by
    decide +kernel
  obtain ⟨c1, c2, c3, c4, c5⟩ := c z hz
  have h2 : ((f.option_flags &&& hash_stdin_strings) != 0) = f.option_flags.getLsbD 2 := set_bit _ _ (by decide)
  have second : ∀ g : Flags, (if ((g.option_flags &&& bench_size_flags) == 0) = true then
      { g with option_flags := g.option_flags ||| (default_option_flags &&& bench_size_flags) }
      else g).option_flags.getLsbD z.2 = g.option_flags.getLsbD z.2 := by
    intro g
    split
    · simp only [BitVec.getLsbD_or, BitVec.getLsbD_and, c1, Bool.and_false, Bool.or_false]
    · rfl
  unfold withDefaults
  simp only
  rw [second, clear_eq, show ((f.option_flags &&& bench_funcs_flags) != 0) = anyFunc f from rfl]
  cases ha : anyFunc f with
  | true => rfl
  | false =>
    have h0 : f.option_flags.getLsbD z.2 = false := by
      rw [anyFunc_eq, List.any_eq_false] at ha
      have := ha z.2 (List.mem_range.2 c4)
      rw [c5, Bool.and_true] at this
      simpa using this
    simp only [Bool.not_false, if_true, Bool.false_eq_true, if_false, BitVec.getLsbD_or, h0, Bool.false_or, h2]
    split
    · exact c2
    · exact c3

/-- Whether a function is chosen. -/
theorem anyFunc_iff (hr : ∀ a ∈ args, a ∉ ["--test-quiet", "--test-only", "--no-bench", "--bench-all", "--all-funcs"])
    (h : parseArgs b v args ⟨0, 0⟩ = .ok f) :
    anyFunc f = true ↔ (∃ z ∈ funcNames, asked args z.1 = true) ∨ asked args ["aes"] = true := by
  have hr2 : ∀ a ∈ args, a ∉ ["--bench-all", "--all-funcs"] := by
    intro a ha hm
    refine hr a ha ?_
    simp only [List.mem_cons, List.not_mem_nil, or_false] at hm ⊢
    tauto
  rw [anyFunc_eq, List.any_eq_true]
  constructor
  · rintro ⟨k, hk, hb⟩
    rw [Bool.and_eq_true] at hb
    obtain ⟨hb1, hb2⟩ := hb
    have cover : ∀ k < 32, bench_funcs_flags.getLsbD k = true → (∃ z ∈ funcNames, z.2 = k) ∨ (11 ≤ k ∧ k < 16) ∨
        28 ≤ k := by decide +kernel
    rw [List.mem_range] at hk
    rcases cover k hk hb2 with ⟨z, hz, rfl⟩ | ⟨g1, g2⟩ | g
    · rw [func_bit hz hr h, zero_bit, Bool.false_or] at hb1
      exact Or.inl ⟨z, hz, hb1⟩
    · rw [unused_bit hr2 h g1 g2 (zero_bit _)] at hb1
      cases hb1
    · right
      by_contra hn
      rw [asked_iff] at hn
      have g1 : "--aes" ∉ args := fun hm => hn ⟨"aes", by simp, hm⟩
      rw [no_aes_wanted g1 (fun hm => hr _ hm (by decide)) (fun hm => hr _ hm (by decide)) h g hk (zero_bit _)] at hb1
      cases hb1
  · rintro (⟨z, hz, ha⟩ | ha)
    · have c : ∀ z ∈ funcNames, z.2 < 32 ∧ bench_funcs_flags.getLsbD z.2 = true := by decide +kernel
      refine ⟨z.2, List.mem_range.2 (c z hz).1, ?_⟩
      rw [func_bit hz hr h, ha, (c z hz).2]
      simp
    · refine ⟨28, by decide, ?_⟩
      rw [aes_bit hr h (by omega) (by omega) (by omega), ha, Bool.or_true]
      decide

theorem selected_or (f : Flags) (m n : U32) :
    f.is_selected (m ||| n) = ((f.is_option_set m || f.is_option_set n) &&
      ((f.disabled_option_flags &&& m) == 0 && (f.disabled_option_flags &&& n) == 0)) := by
  unfold Flags.is_selected
  rw [is_option_set_or, clear_eq, clear_eq, clear_eq, set_or, Bool.not_or]

/-! ## The benchmarked functions -/

/-- When a function is benchmarked, by flags. -/
def benchCond (b : Build) (cpu : Cpu) (fl : Flags) : ToolHash → Bool
  | .t1ha2_atonce | .t1ha2_atonce128 | .t1ha2_stream | .t1ha2_stream128 =>
    !b.no2 && fl.is_selected (bench_64 ||| bench_2)
  | .t1ha1_le => !b.no1 && fl.is_selected (bench_64 ||| bench_le ||| bench_1)
  | .t1ha1_be => !b.no1 && fl.is_selected (bench_64 ||| bench_be ||| bench_1)
  | .t1ha0 => !b.no0 && fl.is_selected bench_0
  | .t1ha0_32le => !b.no0 && fl.is_selected (bench_32 ||| bench_le ||| bench_0)
  | .t1ha0_32be => !b.no0 && fl.is_selected (bench_32 ||| bench_be ||| bench_0)
  | .noavx_a | .noavx_b | .noavx => !b.no0 && (b.aesniAvailable && fl.is_selected bench_aes)
  | .avx_a | .avx_b | .avx => !b.no0 && (b.aesniAvailable && fl.is_selected bench_aes && fl.is_selected bench_avx)
  | .avx2_a | .avx2_b | .avx2 =>
    !b.no0 && (b.aesniAvailable && fl.is_selected bench_aes && (!(b.arch = .e2k) && fl.is_selected bench_avx2))
  | .xxhash32 | .xxhash64 | .xxh3_64 | .xxh3_128 => fl.is_selected bench_xxhash
  | .stadtx => fl.is_selected bench_stadtx
  | .highway_pure_c | .highway_portable => fl.is_selected bench_highwayhash
  | .highway_sse41 =>
    fl.is_selected bench_highwayhash && (highwayFns b (ia32_fetch_cpu_features cpu)).contains .highway_sse41
  | .highway_avx2 =>
    fl.is_selected bench_highwayhash && (highwayFns b (ia32_fetch_cpu_features cpu)).contains .highway_avx2
  | .wyhash => fl.is_selected bench_wyhash

private theorem mem_if {α : Type} {c : Bool} {x : α} {l : List α} : x ∈ (if c = true then l else []) ↔ c = true ∧ x ∈ l := by
  cases c <;> simp

private theorem mem_if' {α : Type} {c : Bool} {x : α} {l : List α} :
    x ∈ (if c = true then [] else l) ↔ c = false ∧ x ∈ l := by
  cases c <;> simp

theorem highwayFns_sub {b : Build} {ft : Features} {x : ToolHash} (h : x ∈ highwayFns b ft) :
    x = .highway_sse41 ∨ x = .highway_avx2 := by
  unfold highwayFns at h
  split at h
  · rw [List.mem_append, mem_if, mem_if] at h
    simp only [List.mem_singleton] at h
    tauto
  · simp only [List.mem_singleton] at h; exact Or.inl h
  · cases h

theorem mem_benchFns (b : Build) (cpu : Cpu) (fl : Flags) (f : ToolHash) :
    f ∈ benchFns b cpu fl ↔ benchCond b cpu fl f = true := by
  unfold benchFns
  simp only [List.mem_append, mem_if, mem_if', Bool.and_eq_true]
  cases f
  case highway_sse41 => simp [benchCond]
  case highway_avx2 => simp [benchCond]
  all_goals
    rw [or_iff_left_of_imp (b := _ ∈ highwayFns _ _) (a := _ ∈ _)
      (fun h => by rcases highwayFns_sub h with h | h <;> cases h)]
    simp [benchCond, and_assoc]

/-! ## Names of functions -/

theorem asked_append (l₁ l₂ : List String) : asked args (l₁ ++ l₂) = (asked args l₁ || asked args l₂) := by
  rw [Bool.eq_iff_iff, Bool.or_eq_true, asked_iff, asked_iff, asked_iff]
  simp only [List.mem_append]
  constructor
  · rintro ⟨n, h | h, h'⟩
    · exact Or.inl ⟨n, h, h'⟩
    · exact Or.inr ⟨n, h, h'⟩
  · rintro (⟨n, h, h'⟩ | ⟨n, h, h'⟩)
    · exact ⟨n, Or.inl h, h'⟩
    · exact ⟨n, Or.inr h, h'⟩

theorem refused_append (l₁ l₂ : List String) : refused args (l₁ ++ l₂) = (refused args l₁ || refused args l₂) := by
  rw [Bool.eq_iff_iff, Bool.or_eq_true, refused_iff, refused_iff, refused_iff]
  simp only [List.mem_append]
  constructor
  · rintro ⟨n, h | h, h'⟩
    · exact Or.inl ⟨n, h, h'⟩
    · exact Or.inr ⟨n, h, h'⟩
  · rintro (⟨n, h, h'⟩ | ⟨n, h, h'⟩)
    · exact ⟨n, Or.inl h, h'⟩
    · exact ⟨n, Or.inr h, h'⟩

/-- The flags say what the arguments say; `dflt`: what is chosen in addition. -/
structure Says (fl : Flags) (args : List String) (dflt : Nat → Bool) : Prop where
  opt : ∀ z ∈ funcNames, fl.option_flags.getLsbD z.2 = (asked args z.1 || dflt z.2)
  dis : ∀ z ∈ funcNames, fl.disabled_option_flags.getLsbD z.2 = refused args z.1

theorem Says.one {fl : Flags} {dflt : Nat → Bool} (h : Says fl args dflt) {n₁ : List String} {k₁ : Nat}
    (h₁ : (n₁, k₁) ∈ funcNames) :
    fl.is_selected (1#32 <<< k₁) = ((asked args n₁ || dflt k₁) && !refused args n₁) := by
  have c : ∀ z ∈ funcNames, z.2 < 32 := by decide
  rw [is_selected_bit _ _ (c _ h₁)]
  have o1 := h.opt _ h₁
  have d1 := h.dis _ h₁
  simp only at o1 d1
  rw [o1, d1]

theorem Says.two {fl : Flags} {dflt : Nat → Bool} (h : Says fl args dflt) {n₁ n₂ : List String} {k₁ k₂ : Nat}
    (h₁ : (n₁, k₁) ∈ funcNames) (h₂ : (n₂, k₂) ∈ funcNames) :
    fl.is_selected (1#32 <<< k₁ ||| 1#32 <<< k₂) =
      ((asked args (n₁ ++ n₂) || (dflt k₁ || dflt k₂)) && !refused args (n₁ ++ n₂)) := by
  have c : ∀ z ∈ funcNames, z.2 < 32 := by decide
  have o1 := h.opt _ h₁
  have d1 := h.dis _ h₁
  have o2 := h.opt _ h₂
  have d2 := h.dis _ h₂
  simp only at o1 d1 o2 d2
  rw [selected_or, is_option_set_bit _ _ (c _ h₁), is_option_set_bit _ _ (c _ h₂), clear_eq, clear_eq,
    set_bit _ _ (c _ h₁), set_bit _ _ (c _ h₂), o1, o2, d1, d2, asked_append, refused_append]
  generalize asked args n₁ = a
  generalize asked args n₂ = a'
  generalize dflt k₁ = b
  generalize dflt k₂ = b'
  generalize refused args n₁ = c
  generalize refused args n₂ = c'
  revert a a' b b' c c'
  decide

theorem Says.three {fl : Flags} {dflt : Nat → Bool} (h : Says fl args dflt) {n₁ n₂ n₃ : List String} {k₁ k₂ k₃ : Nat}
    (h₁ : (n₁, k₁) ∈ funcNames) (h₂ : (n₂, k₂) ∈ funcNames) (h₃ : (n₃, k₃) ∈ funcNames) :
    fl.is_selected (1#32 <<< k₁ ||| 1#32 <<< k₂ ||| 1#32 <<< k₃) =
      ((asked args (n₁ ++ n₂ ++ n₃) || (dflt k₁ || dflt k₂ || dflt k₃)) && !refused args (n₁ ++ n₂ ++ n₃)) := by
  have c : ∀ z ∈ funcNames, z.2 < 32 := by decide
  have o1 := h.opt _ h₁
  have d1 := h.dis _ h₁
  have o2 := h.opt _ h₂
  have d2 := h.dis _ h₂
  have o3 := h.opt _ h₃
  have d3 := h.dis _ h₃
  simp only at o1 d1 o2 d2 o3 d3
  rw [selected_or, is_option_set_or, is_option_set_bit _ _ (c _ h₁), is_option_set_bit _ _ (c _ h₂),
    is_option_set_bit _ _ (c _ h₃), clear_eq, clear_eq, set_or,
    set_bit _ _ (c _ h₁), set_bit _ _ (c _ h₂), set_bit _ _ (c _ h₃), o1, o2, o3, d1, d2, d3, asked_append,
    asked_append, refused_append, refused_append]
  generalize asked args n₁ = a
  generalize asked args n₂ = a'
  generalize asked args n₃ = a''
  generalize dflt k₁ = b
  generalize dflt k₂ = b'
  generalize dflt k₃ = b''
  generalize refused args n₁ = c
  generalize refused args n₂ = c'
  generalize refused args n₃ = c''
  revert a a' a'' b b' b'' c c' c''
  decide

/-- All flags together, for the arguments of `main`. -/
theorem says_main (hr : ∀ a ∈ args, a ∉ ["--test-quiet", "--test-only", "--no-bench", "--bench-all", "--all-funcs"])
    (h : parseArgs b v args ⟨0, 0⟩ = .ok f) (ft : Features) :
    Says (aesFlags b ft (withDefaults f)) args
      (fun k => !anyFunc f && (if f.option_flags.getLsbD 2 then (k = 10 : Bool) else (k < 16 : Bool))) := by
  have hr2 : ∀ a ∈ args, a ∉ ["--bench-all", "--all-funcs"] := by
    intro a ha hm
    refine hr a ha ?_
    simp only [List.mem_cons, List.not_mem_nil, or_false] at hm ⊢
    tauto
  have c : ∀ z ∈ funcNames, z.2 < 28 := by decide
  refine ⟨fun z hz => ?_, fun z hz => ?_⟩
  · rw [aesFlags_bit _ _ _ (c z hz), withDefaults_func f hz, func_bit hz hr h, zero_bit, Bool.false_or]
    cases ha : anyFunc f with
    | true => simp
    | false =>
      have : asked args z.1 = false := by
        by_contra hn
        rw [Bool.not_eq_false] at hn
        have := (anyFunc_iff hr h).2 (Or.inl ⟨z, hz, hn⟩)
        rw [ha] at this
        cases this
      simp [this]
  · rw [aesFlags_disabled, withDefaults_disabled, disabled_bit hz hr2 h, zero_bit, Bool.false_or]

/-- Flags for functions are kept, whatever follows except some options. -/
theorem func_kept (h1 : "--test-quiet" ∉ args) (h2 : "--test-only" ∉ args) (h3 : "--no-bench" ∉ args)
    (h : parseArgs b v args f = .ok f') {k : Nat} (hk : bench_funcs_flags.getLsbD k = true)
    (h0 : f.option_flags.getLsbD k = true) : f'.option_flags.getLsbD k = true := by
  refine parseArgs_inv (P := fun f => f.option_flags.getLsbD k = true) (fun a ha g g' hg harg => ?_) h h0
  cases harg with
  | testQuiet => exact absurd ha h1
  | testOnly => exact absurd ha h2
  | noBench => exact absurd ha h3
  | strings => simp only [BitVec.getLsbD_or, BitVec.getLsbD_and, hg, hk, Bool.true_and, Bool.true_or]
  | yes o ho => simp only [BitVec.getLsbD_or, hg, Bool.true_or]
  | aes => simp only [BitVec.getLsbD_or, hg, Bool.true_or]
  | testVerbose => simp only [BitVec.getLsbD_or, hg, Bool.true_or]
  | benchVerbose => simp only [BitVec.getLsbD_or, hg, Bool.true_or]
  | verbose => simp only [BitVec.getLsbD_or, hg, Bool.true_or]
  | v => simp only [BitVec.getLsbD_or, hg, Bool.true_or]
  | benchAll => simp only [BitVec.getLsbD_or, hg, Bool.true_or]
  | allFuncs => simp only [BitVec.getLsbD_or, hg, Bool.true_or]
  | allSizes => simp only [BitVec.getLsbD_or, hg, Bool.true_or]
  | ghz _ _ => exact hg
  | noAes => exact hg
  | noAes' => exact hg
  | no o ho => exact hg

/-- After `--all-funcs` or `--bench-all`. -/
theorem says_all {pre post : List String} {a : String} (ha : a = "--all-funcs" ∨ a = "--bench-all")
    (h1 : "--test-quiet" ∉ post) (h2 : "--test-only" ∉ post)
    (h3 : "--no-bench" ∉ post) (h4 : "--all-funcs" ∉ post) (h5 : "--bench-all" ∉ post)
    (h : parseArgs b v (pre ++ a :: post) ⟨0, 0⟩ = .ok f) (ft : Features) :
    Says (aesFlags b ft (withDefaults f)) post (fun _ => true) := by
  rw [parseArgs_append] at h
  cases hp : parseArgs b v pre ⟨0, 0⟩ with
  | error r => rw [hp] at h; cases h
  | ok f1 =>
    rw [hp] at h
    simp only [parseArgs] at h
    cases hq : parseArg b v f1 a with
    | error r => rw [hq] at h; cases h
    | ok f2 =>
      rw [hq] at h
      simp only at h
      have c : ∀ z ∈ funcNames, z.2 < 28 ∧ bench_funcs_flags.getLsbD z.2 = true ∧
          (~~~(test_verbose ||| bench_verbose)).getLsbD z.2 = true ∧ (~~~bench_funcs_flags).getLsbD z.2 = false := by
        decide +kernel
      have start : ∀ z ∈ funcNames, f2.option_flags.getLsbD z.2 = true ∧
          f2.disabled_option_flags.getLsbD z.2 = false := by
        intro z hz
        obtain ⟨-, c1, c2, c3⟩ := c z hz
        rcases ha with rfl | rfl
        · have e : parseArg b v f1 "--all-funcs" = .ok ⟨f1.option_flags ||| bench_funcs_flags,
              f1.disabled_option_flags &&& ~~~bench_funcs_flags⟩ := rfl
          rw [e] at hq
          cases hq
          simp only [BitVec.getLsbD_or, BitVec.getLsbD_and, c1, c3, Bool.or_true, Bool.and_false, and_self]
        · have e : parseArg b v f1 "--bench-all" = .ok ⟨f1.option_flags ||| ~~~(test_verbose ||| bench_verbose), 0⟩ :=
            rfl
          rw [e] at hq
          cases hq
          simp only [BitVec.getLsbD_or, c2, zero_bit, Bool.or_true, and_self]
      have hr2 : ∀ a ∈ post, a ∉ ["--bench-all", "--all-funcs"] := by
        intro a ha hm
        simp only [List.mem_cons, List.not_mem_nil, or_false] at hm
        rcases hm with rfl | rfl
        · exact h5 ha
        · exact h4 ha
      refine ⟨fun z hz => ?_, fun z hz => ?_⟩
      · have hk := func_kept h1 h2 h3 h (c z hz).2.1 (start z hz).1
        have hany : anyFunc f = true := by
          rw [anyFunc_eq, List.any_eq_true]
          exact ⟨z.2, List.mem_range.2 (by have := (c z hz).1; omega), by rw [hk, (c z hz).2.1]; rfl⟩
        rw [aesFlags_bit _ _ _ (c z hz).1, withDefaults_func f hz, hany, hk]
        simp
      · rw [aesFlags_disabled, withDefaults_disabled, disabled_bit hz hr2 h, (start z hz).2, Bool.false_or]

end T1ha.Model
