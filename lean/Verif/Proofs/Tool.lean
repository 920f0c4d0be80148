import Verif.Model.Tool
import Mathlib.Tactic.ByContra
import Mathlib.Tactic.Tauto

/-!
# The tool `test`: options
-/

namespace T1ha.Model

/-! ## Bits of flags -/

theorem zero_bit (i : Nat) : BitVec.getLsbD (0 : U32) i = false := BitVec.getLsbD_zero

theorem set_bit (x : U32) (k : Nat) (hk : k < 32) : ((x &&& (1#32 <<< k)) != 0) = x.getLsbD k := by
  rw [Bool.eq_iff_iff, bne_iff_ne]
  constructor
  · intro h
    by_contra hb
    refine h (BitVec.eq_of_getLsbD_eq fun i hi => ?_)
    simp only [BitVec.getLsbD_and, BitVec.getLsbD_shiftLeft, BitVec.getLsbD_one, zero_bit]
    by_cases e : i = k
    · subst e; simp [hb]
    · by_cases h1 : i < k
      · simp [h1]
      · simp [show ¬ i - k = 0 by omega]
  · intro h e
    have := congrArg (fun y : U32 => y.getLsbD k) e
    simp [hk] at this
    rw [BitVec.getLsbD_eq_getElem hk, this] at h
    cases h

theorem set_or (x a b : U32) : ((x &&& (a ||| b)) != 0) = (((x &&& a) != 0) || ((x &&& b) != 0)) := by
  rw [Bool.eq_iff_iff, Bool.or_eq_true, bne_iff_ne, bne_iff_ne, bne_iff_ne]
  have e : x &&& (a ||| b) = (x &&& a) ||| (x &&& b) := by
    apply BitVec.eq_of_getLsbD_eq; intro i hi
    simp only [BitVec.getLsbD_and, BitVec.getLsbD_or, Bool.and_or_distrib_left]
  rw [e]
  constructor
  · intro h
    by_contra hc
    simp only [not_or, not_not] at hc
    rw [hc.1, hc.2] at h
    exact h (by decide)
  · rintro (h | h) hz <;> refine h (BitVec.eq_of_getLsbD_eq fun i hi => ?_)
    · have := congrArg (fun y : U32 => y.getLsbD i) hz
      simp only [BitVec.getLsbD_or, zero_bit, Bool.or_eq_false_iff] at this
      rw [this.1, zero_bit]
    · have := congrArg (fun y : U32 => y.getLsbD i) hz
      simp only [BitVec.getLsbD_or, zero_bit, Bool.or_eq_false_iff] at this
      rw [this.2, zero_bit]

theorem clear_eq (x a : U32) : ((x &&& a) == 0) = !((x &&& a) != 0) := by simp [bne]

/-- Write statements about flags as statements about bits. -/
theorem is_option_set_or (f : Flags) (a b : U32) :
    f.is_option_set (a ||| b) = (f.is_option_set a || f.is_option_set b) := set_or _ _ _

theorem is_option_set_bit (f : Flags) (k : Nat) (hk : k < 32) :
    f.is_option_set (1#32 <<< k) = f.option_flags.getLsbD k := set_bit _ _ hk

theorem is_selected_bit (f : Flags) (k : Nat) (hk : k < 32) :
    f.is_selected (1#32 <<< k) = (f.option_flags.getLsbD k && !f.disabled_option_flags.getLsbD k) := by
  unfold Flags.is_selected
  rw [is_option_set_bit f k hk, clear_eq, set_bit _ _ hk]

/-! ## Arguments -/

/-- All options with a flag each. -/
def allOptions : List (String × U32) :=
  [("xxhash", bench_xxhash), ("stadtx", bench_stadtx), ("wyhash", bench_wyhash),
    ("highwayhash", bench_highwayhash), ("highway", bench_highwayhash), ("0", bench_0), ("1", bench_1),
    ("2", bench_2), ("le", bench_le), ("be", bench_be), ("32", bench_32), ("64", bench_64), ("tiny", bench_tiny),
    ("small", bench_small), ("medium", bench_medium), ("large", bench_large), ("huge", bench_huge)]

private theorem sub (no0 no1 no2 : Bool) :
    ∀ o ∈ [("xxhash", bench_xxhash), ("stadtx", bench_stadtx), ("wyhash", bench_wyhash),
      ("highwayhash", bench_highwayhash), ("highway", bench_highwayhash)] ++
      (if no0 then [] else [("0", bench_0)]) ++ (if no1 then [] else [("1", bench_1)]) ++
      (if no2 then [] else [("2", bench_2)]) ++
      [("le", bench_le), ("be", bench_be), ("32", bench_32), ("64", bench_64), ("tiny", bench_tiny),
        ("small", bench_small), ("medium", bench_medium), ("large", bench_large), ("huge", bench_huge)],
      o ∈ allOptions := by
  revert no0 no1 no2; decide +kernel

theorem flagOptions_sub {b : Build} {o : String × U32} (h : o ∈ flagOptions b) : o ∈ allOptions :=
  sub b.no0 b.no1 b.no2 o h

variable {b : Build} {v : String → Bool} {f f' : Flags} {arg : String}

/-- What an argument does, if `main` goes on. -/
inductive Arg (b : Build) (f : Flags) : String → Flags → Prop
  | testQuiet : Arg b f "--test-quiet" { f with option_flags := test_quiet }
  | strings : Arg b f "--hash-stdin-strings"
      { f with option_flags := (f.option_flags &&& bench_funcs_flags) ||| test_quiet ||| hash_stdin_strings }
  | testOnly : Arg b f "--test-only" { f with option_flags := f.option_flags &&& test_verbose }
  | noBench : Arg b f "--no-bench" { f with option_flags := f.option_flags &&& test_verbose }
  | testVerbose : Arg b f "--test-verbose" { f with option_flags := f.option_flags ||| test_verbose }
  | benchVerbose : Arg b f "--bench-verbose" { f with option_flags := f.option_flags ||| bench_verbose }
  | verbose : Arg b f "--verbose" { f with option_flags := f.option_flags ||| (bench_verbose ||| test_verbose) }
  | v : Arg b f "-v" { f with option_flags := f.option_flags ||| (bench_verbose ||| test_verbose) }
  | ghz (arg : String) : "--GHz=".toList <+: arg.toList → Arg b f arg f
  | benchAll : Arg b f "--bench-all" ⟨f.option_flags ||| ~~~(test_verbose ||| bench_verbose), 0⟩
  | allFuncs : Arg b f "--all-funcs"
      ⟨f.option_flags ||| bench_funcs_flags, f.disabled_option_flags &&& ~~~bench_funcs_flags⟩
  | allSizes : Arg b f "--all-sizes"
      ⟨f.option_flags ||| bench_size_flags, f.disabled_option_flags &&& ~~~bench_size_flags⟩
  | aes : Arg b f "--aes" { f with option_flags := f.option_flags ||| available_eas_flags b }
  | noAes : Arg b f "--no-aes"
      { f with disabled_option_flags := f.disabled_option_flags ||| available_eas_flags b }
  | noAes' : Arg b f "--no-aes" f
  | yes (o : String × U32) : o ∈ allOptions → Arg b f ("--" ++ o.1) { f with option_flags := f.option_flags ||| o.2 }
  | no (o : String × U32) : o ∈ allOptions →
      Arg b f ("--no-" ++ o.1) { f with disabled_option_flags := f.disabled_option_flags ||| o.2 }

theorem parseArg_ok (h : parseArg b v f arg = .ok f') : Arg b f arg f' := by
  unfold parseArg at h
  by_cases e : arg = "--test-quiet"
  · rw [if_pos e] at h; subst e; cases h; exact .testQuiet
  rw [if_neg e] at h; clear e
  by_cases e : arg = "--hash-stdin-strings"
  · rw [if_pos e] at h; subst e; cases h; exact .strings
  rw [if_neg e] at h; clear e
  by_cases e : arg = "--test-only" ∨ arg = "--no-bench"
  · rw [if_pos e] at h; cases h; rcases e with e | e <;> subst e
    · exact .testOnly
    · exact .noBench
  rw [if_neg e] at h; clear e
  by_cases e : arg = "--test-verbose"
  · rw [if_pos e] at h; subst e; cases h; exact .testVerbose
  rw [if_neg e] at h; clear e
  by_cases e : arg = "--bench-verbose"
  · rw [if_pos e] at h; subst e; cases h; exact .benchVerbose
  rw [if_neg e] at h; clear e
  by_cases e : arg = "--verbose" ∨ arg = "-v"
  · rw [if_pos e] at h; cases h; rcases e with e | e <;> subst e
    · exact .verbose
    · exact .v
  rw [if_neg e] at h; clear e
  by_cases e : "--GHz=".toList <+: arg.toList
  · rw [if_pos e] at h
    cases hv : v arg with
    | true => rw [hv, if_pos rfl] at h; cases h; exact .ghz _ e
    | false => rw [hv] at h; cases h
  rw [if_neg e] at h; clear e
  by_cases e : arg = "--bench-all"
  · rw [if_pos e] at h; subst e; cases h; exact .benchAll
  rw [if_neg e] at h; clear e
  by_cases e : arg = "--all-funcs"
  · rw [if_pos e] at h; subst e; cases h; exact .allFuncs
  rw [if_neg e] at h; clear e
  by_cases e : arg = "--all-sizes"
  · rw [if_pos e] at h; subst e; cases h; exact .allSizes
  rw [if_neg e] at h; clear e
  by_cases e : arg = "--aes"
  · rw [if_pos e] at h; subst e
    cases hv : available_eas_flags b != 0 with
    | true => rw [hv, if_pos rfl] at h; cases h; exact .aes
    | false => rw [hv] at h; cases h
  rw [if_neg e] at h; clear e
  by_cases e : arg = "--no-aes"
  · rw [if_pos e] at h; subst e
    cases hv : available_eas_flags b != 0 with
    | true => rw [hv, if_pos rfl] at h; cases h; exact .noAes
    | false => rw [hv] at h; cases h; exact .noAes'
  rw [if_neg e] at h; clear e
  cases hs : (flagOptions b).findSome? (fun o => option arg o.1 o.2 f) with
  | some f'' =>
    rw [hs] at h
    cases h
    obtain ⟨o, ho, he⟩ := List.exists_of_findSome?_eq_some hs
    unfold option at he
    by_cases e : arg = "--" ++ o.1
    · rw [if_pos e] at he; subst e; cases he; exact .yes o (flagOptions_sub ho)
    rw [if_neg e] at he
    by_cases e : arg = "--no-" ++ o.1
    · rw [if_pos e] at he; subst e; cases he; exact .no o (flagOptions_sub ho)
    rw [if_neg e] at he; cases he
  | none =>
    rw [hs] at h
    by_cases e : arg = "--help" ∨ arg = "-h"
    · simp only [if_pos e] at h; cases h
    · simp only [if_neg e] at h; cases h

/-- An invariant of the loop. -/
theorem parseArgs_inv {P : Flags → Prop} {args : List String}
    (step : ∀ a ∈ args, ∀ f f', P f → Arg b f a f' → P f') (h : parseArgs b v args f = .ok f') (h0 : P f) :
    P f' := by
  induction args generalizing f with
  | nil => cases h; exact h0
  | cons a l ih =>
    unfold parseArgs at h
    split at h
    · rename_i f1 h1
      exact ih (fun a ha => step a (List.mem_cons_of_mem _ ha)) h
        (step a List.mem_cons_self f f1 h0 (parseArg_ok h1))
    · cases h

/-- If `main` returns while it looks at the arguments, then with a failure or because it is asked for help. -/
theorem parseArg_error {r : ToolRun} (h : parseArg b v f arg = .error r) :
    (r.status = .failure ∧ (r.events = [] ∨ r.events = [.print .usage])) ∨
    r = ⟨[.print .usage], .success⟩ ∧ (arg = "--help" ∨ arg = "-h") := by
  unfold parseArg at h
  by_cases e : arg = "--test-quiet"
  · rw [if_pos e] at h; cases h
  rw [if_neg e] at h; clear e
  by_cases e : arg = "--hash-stdin-strings"
  · rw [if_pos e] at h; cases h
  rw [if_neg e] at h; clear e
  by_cases e : arg = "--test-only" ∨ arg = "--no-bench"
  · rw [if_pos e] at h; cases h
  rw [if_neg e] at h; clear e
  by_cases e : arg = "--test-verbose"
  · rw [if_pos e] at h; cases h
  rw [if_neg e] at h; clear e
  by_cases e : arg = "--bench-verbose"
  · rw [if_pos e] at h; cases h
  rw [if_neg e] at h; clear e
  by_cases e : arg = "--verbose" ∨ arg = "-v"
  · rw [if_pos e] at h; cases h
  rw [if_neg e] at h; clear e
  by_cases e : "--GHz=".toList <+: arg.toList
  · rw [if_pos e] at h
    cases hv : v arg with
    | true => rw [hv, if_pos rfl] at h; cases h
    | false => rw [hv] at h; cases h; exact Or.inl ⟨rfl, Or.inl rfl⟩
  rw [if_neg e] at h; clear e
  by_cases e : arg = "--bench-all"
  · rw [if_pos e] at h; cases h
  rw [if_neg e] at h; clear e
  by_cases e : arg = "--all-funcs"
  · rw [if_pos e] at h; cases h
  rw [if_neg e] at h; clear e
  by_cases e : arg = "--all-sizes"
  · rw [if_pos e] at h; cases h
  rw [if_neg e] at h; clear e
  by_cases e : arg = "--aes"
  · rw [if_pos e] at h
    cases hv : available_eas_flags b != 0 with
    | true => rw [hv, if_pos rfl] at h; cases h
    | false => rw [hv] at h; cases h; exact Or.inl ⟨rfl, Or.inl rfl⟩
  rw [if_neg e] at h; clear e
  by_cases e : arg = "--no-aes"
  · rw [if_pos e] at h
    cases hv : available_eas_flags b != 0 with
    | true => rw [hv, if_pos rfl] at h; cases h
    | false => rw [hv] at h; cases h
  rw [if_neg e] at h; clear e
  cases hs : (flagOptions b).findSome? (fun o => option arg o.1 o.2 f) with
  | some f'' => rw [hs] at h; cases h
  | none =>
    rw [hs] at h
    by_cases e : arg = "--help" ∨ arg = "-h"
    · simp only [if_pos e] at h; cases h; exact Or.inr ⟨rfl, e⟩
    · simp only [if_neg e] at h; cases h; exact Or.inl ⟨rfl, Or.inr rfl⟩

theorem parseArgs_error {r : ToolRun} {args : List String} (h : parseArgs b v args f = .error r) :
    (r.status = .failure ∧ (r.events = [] ∨ r.events = [.print .usage])) ∨
    r = ⟨[.print .usage], .success⟩ ∧ ("--help" ∈ args ∨ "-h" ∈ args) := by
  induction args generalizing f with
  | nil => cases h
  | cons a l ih =>
    unfold parseArgs at h
    cases h1 : parseArg b v f a with
    | ok f1 =>
      rw [h1] at h
      rcases ih h with h | ⟨h, h'⟩
      · exact Or.inl h
      · exact Or.inr ⟨h, h'.imp (List.mem_cons_of_mem _) (List.mem_cons_of_mem _)⟩
    | error r1 =>
      rw [h1] at h
      cases h
      rcases parseArg_error h1 with h | ⟨h, h'⟩
      · exact Or.inl h
      · refine Or.inr ⟨h, ?_⟩
        rcases h' with e | e <;> subst e
        · exact Or.inl List.mem_cons_self
        · exact Or.inr List.mem_cons_self

/-- The flags which are set at the end. -/
def withDefaults (f : Flags) : Flags :=
  let f := if (f.option_flags &&& bench_funcs_flags) == 0 then
      { f with option_flags := f.option_flags |||
          (if (f.option_flags &&& hash_stdin_strings) != 0 then bench_2
           else default_option_flags &&& bench_funcs_flags) }
    else f
  if (f.option_flags &&& bench_size_flags) == 0 then
    { f with option_flags := f.option_flags ||| (default_option_flags &&& bench_size_flags) }
  else f

/-- What `main` does. -/
theorem toolMain_cases {t : ToolBuild} {e : Env} {args : List String} {r : ToolRun} (h : toolMain t e args = some r) :
    (r.status = .failure ∧ (r.events = [] ∨ r.events = [.print .usage])) ∨
    (r = ⟨[.print .usage], .success⟩ ∧ ("--help" ∈ args ∨ "-h" ∈ args)) ∨
    (args = [] ∧ toolRun t e ⟨default_option_flags, default_disabled_option_flags t.build⟩ = some r) ∨
    (args ≠ [] ∧ ∃ f, parseArgs t.build e.validGHz args ⟨0, 0⟩ = .ok f ∧ toolRun t e (withDefaults f) = some r) := by
  unfold toolMain options at h
  by_cases ha : args = []
  · subst ha
    exact Or.inr (Or.inr (Or.inl ⟨rfl, h⟩))
  · have hl : 0 < args.length := List.length_pos_iff.2 ha
    rw [if_pos (show args.length + 1 > 1 by omega)] at h
    cases hp : parseArgs t.build e.validGHz args ⟨0, 0⟩ with
    | error r' =>
      rw [hp] at h
      cases h
      rcases parseArgs_error hp with g | g
      · exact Or.inl g
      · exact Or.inr (Or.inl g)
    | ok f =>
      rw [hp] at h
      exact Or.inr (Or.inr (Or.inr ⟨ha, f, rfl, h⟩))

/-! ## Invariants -/

theorem eas_bits (b : Build) : (available_eas_flags b) &&& 0x0fffffff#32 = 0 := by
  unfold available_eas_flags
  by_cases h : b.arch = .e2k <;> cases b.aesniAvailable <;> simp only [h, if_true, if_false] <;> decide

theorem eas_bit (b : Build) {k : Nat} (hk : k < 28) : (available_eas_flags b).getLsbD k = false := by
  have h := congrArg (fun y : U32 => y.getLsbD k) (eas_bits b)
  simp only [BitVec.getLsbD_and, zero_bit] at h
  have : ∀ k < 28, (0x0fffffff#32).getLsbD k = true := by decide
  rwa [this k hk, Bool.and_true] at h

theorem no_strings {args : List String} (hs : "--hash-stdin-strings" ∉ args) (hb : "--bench-all" ∉ args)
    (h : parseArgs b v args f = .ok f') (h0 : f.option_flags.getLsbD 2 = false) :
    f'.option_flags.getLsbD 2 = false := by
  refine parseArgs_inv (P := fun f => f.option_flags.getLsbD 2 = false) (fun a ha g g' hg harg => ?_) h h0
  have c : ∀ o ∈ allOptions, o.2.getLsbD 2 = false := by decide +kernel
  cases harg with
  | strings => exact absurd ha hs
  | benchAll => exact absurd ha hb
  | yes o ho => simp only [BitVec.getLsbD_or, hg, c o ho, Bool.or_false]
  | aes => simp only [BitVec.getLsbD_or, hg, eas_bit b (show 2 < 28 by omega), Bool.or_false]
  | testQuiet => show test_quiet.getLsbD 2 = false; decide
  | testOnly => simp only [BitVec.getLsbD_and, hg, Bool.false_and]
  | noBench => simp only [BitVec.getLsbD_and, hg, Bool.false_and]
  | testVerbose => simp only [BitVec.getLsbD_or, hg, Bool.false_or]; rfl
  | benchVerbose => simp only [BitVec.getLsbD_or, hg, Bool.false_or]; rfl
  | verbose => simp only [BitVec.getLsbD_or, hg, Bool.false_or]; rfl
  | v => simp only [BitVec.getLsbD_or, hg, Bool.false_or]; rfl
  | allFuncs => simp only [BitVec.getLsbD_or, hg, Bool.false_or]; rfl
  | allSizes => simp only [BitVec.getLsbD_or, hg, Bool.false_or]; rfl
  | ghz _ _ => exact hg
  | noAes => exact hg
  | noAes' => exact hg
  | no o ho => exact hg

/-- The key sizes and their names. -/
def sizeNames : List (String × Nat × Nat) :=
  [("tiny", 16, 7), ("small", 17, 63), ("medium", 18, 1024), ("large", 19, 16384), ("huge", 20, 262144)]

theorem size_bit {args : List String} {z : String × Nat × Nat} (hz : z ∈ sizeNames)
    (hr : ∀ a ∈ args, a ∉ ["--test-quiet", "--hash-stdin-strings", "--test-only", "--no-bench", "--bench-all"])
    (h : parseArgs b v args f = .ok f') :
    f'.option_flags.getLsbD z.2.1 =
      (f.option_flags.getLsbD z.2.1 || args.any (fun a => a = "--" ++ z.1 || a = "--all-sizes")) := by
  induction args generalizing f with
  | nil => cases h; simp
  | cons a l ih =>
    unfold parseArgs at h
    cases h1 : parseArg b v f a with
    | error r => rw [h1] at h; cases h
    | ok f1 =>
      rw [h1] at h
      rw [ih (fun a ha => hr a (List.mem_cons_of_mem _ ha)) h, List.any_cons, ← Bool.or_assoc]
      congr 1
      have hra := hr a List.mem_cons_self
      have c0 : ∀ z ∈ sizeNames, z.2.1 < 28 := by decide
      have h28 := c0 z hz
      have c1 : ∀ o ∈ allOptions, ∀ z ∈ sizeNames, o.2.getLsbD z.2.1 =
          (("--" ++ o.1 = "--" ++ z.1 : Bool) || ("--" ++ o.1 = "--all-sizes" : Bool)) := by decide +kernel
      have c2 : ∀ o ∈ allOptions, ∀ z ∈ sizeNames, (("--no-" ++ o.1 = "--" ++ z.1 : Bool) ||
          ("--no-" ++ o.1 = "--all-sizes" : Bool)) = false := by decide +kernel
      have c3 : ∀ z ∈ sizeNames, test_verbose.getLsbD z.2.1 = false ∧ bench_verbose.getLsbD z.2.1 = false ∧
          bench_funcs_flags.getLsbD z.2.1 = false ∧ bench_size_flags.getLsbD z.2.1 = true := by decide +kernel
      have c4 : ∀ z ∈ sizeNames, ∀ a ∈ ["--test-verbose", "--bench-verbose", "--verbose", "-v", "--all-funcs",
          "--aes", "--no-aes"], ((a = "--" ++ z.1 : Bool) || (a = "--all-sizes" : Bool)) = false := by
        decide +kernel
      obtain ⟨d1, d2, d3, d4⟩ := c3 z hz
      have h2 := parseArg_ok h1
      cases h2 with
      | strings => exact absurd (by decide) hra
      | benchAll => exact absurd (by decide) hra
      | testQuiet => exact absurd (by decide) hra
      | testOnly => exact absurd (by decide) hra
      | noBench => exact absurd (by decide) hra
      | yes o ho => simp only [BitVec.getLsbD_or, c1 o ho z hz]
      | no o ho => rw [c2 o ho z hz, Bool.or_false]
      | aes => simp only [BitVec.getLsbD_or, eas_bit b h28]; rw [c4 z hz _ (by decide)]
      | testVerbose => simp only [BitVec.getLsbD_or, d1]; rw [c4 z hz _ (by decide)]
      | benchVerbose => simp only [BitVec.getLsbD_or, d2]; rw [c4 z hz _ (by decide)]
      | verbose => simp only [BitVec.getLsbD_or, d1, d2, Bool.or_self]; rw [c4 z hz _ (by decide)]
      | v => simp only [BitVec.getLsbD_or, d1, d2, Bool.or_self]; rw [c4 z hz _ (by decide)]
      | allFuncs => simp only [BitVec.getLsbD_or, d3]; rw [c4 z hz _ (by decide)]
      | allSizes => simp only [BitVec.getLsbD_or, d4]; simp
      | noAes => rw [c4 z hz _ (by decide), Bool.or_false]
      | noAes' => rw [c4 z hz _ (by decide), Bool.or_false]
      | ghz _ hg =>
        have : ((a = "--" ++ z.1 : Bool) || (a = "--all-sizes" : Bool)) = false := by
          have c5 : ∀ z ∈ sizeNames, ¬ "--GHz=".toList <+: ("--" ++ z.1).toList := by decide +kernel
          rw [Bool.or_eq_false_iff, decide_eq_false_iff_not, decide_eq_false_iff_not]
          constructor
          · intro e; subst e; exact c5 z hz hg
          · intro e; subst e; revert hg; decide +kernel
        rw [this, Bool.or_false]

/-! ## Defaults -/

/-- One of the key sizes has been chosen. -/
def anySize (f : Flags) : Bool := (f.option_flags &&& bench_size_flags) != 0

theorem anySize_eq (f : Flags) : anySize f = sizeNames.any (fun z => f.option_flags.getLsbD z.2.1) := by
  unfold anySize bench_size_flags
  simp only [set_or]
  unfold bench_tiny bench_small bench_medium bench_large bench_huge
  rw [set_bit _ _ (by decide), set_bit _ _ (by decide), set_bit _ _ (by decide), set_bit _ _ (by decide),
    set_bit _ _ (by decide)]
  simp [sizeNames, Bool.or_assoc]

private def stage (f : Flags) : Flags :=
  if (f.option_flags &&& bench_funcs_flags) == 0 then
    { f with option_flags := f.option_flags |||
        (if (f.option_flags &&& hash_stdin_strings) != 0 then bench_2
         else default_option_flags &&& bench_funcs_flags) }
  else f

private theorem stage_bit (f : Flags) {k : Nat} (hk : bench_funcs_flags.getLsbD k = false) :
    (stage f).option_flags.getLsbD k = f.option_flags.getLsbD k := by
  have hk2 : bench_2.getLsbD k = false := by
    have h : bench_2 &&& bench_funcs_flags = bench_2 := by decide
    rw [← h, BitVec.getLsbD_and, hk, Bool.and_false]
  unfold stage
  split
  · split <;> simp only [BitVec.getLsbD_or, BitVec.getLsbD_and, hk, hk2, Bool.and_false, Bool.or_false]
  · rfl

private theorem withDefaults_eq (f : Flags) : withDefaults f =
    if anySize (stage f) then stage f
    else { stage f with option_flags := (stage f).option_flags ||| (default_option_flags &&& bench_size_flags) } := by
  unfold withDefaults
  show (if ((stage f).option_flags &&& bench_size_flags) == 0 then _ else _) = _
  rw [clear_eq, show ((stage f).option_flags &&& bench_size_flags != 0) = anySize (stage f) from rfl]
  cases anySize (stage f) <;> rfl

theorem withDefaults_disabled (f : Flags) : (withDefaults f).disabled_option_flags = f.disabled_option_flags := by
  have h : (stage f).disabled_option_flags = f.disabled_option_flags := by unfold stage; split <;> rfl
  rw [withDefaults_eq]
  cases anySize (stage f) <;> exact h

/-- Flags which are not about sizes or functions. -/
theorem withDefaults_other (f : Flags) {k : Nat} (hk : bench_funcs_flags.getLsbD k = false)
    (hs : bench_size_flags.getLsbD k = false) :
    (withDefaults f).option_flags.getLsbD k = f.option_flags.getLsbD k := by
  rw [withDefaults_eq]
  cases anySize (stage f) with
  | true => exact stage_bit f hk
  | false =>
    simp only [Bool.false_eq_true, if_false]
    rw [BitVec.getLsbD_or, BitVec.getLsbD_and, hs, stage_bit f hk, Bool.and_false, Bool.or_false]

theorem withDefaults_size (f : Flags) {z : String × Nat × Nat} (hz : z ∈ sizeNames) :
    (withDefaults f).option_flags.getLsbD z.2.1 =
      if anySize f then f.option_flags.getLsbD z.2.1 else (z.1 = "tiny" || z.1 = "large" : Bool) := by
  have c : ∀ z ∈ sizeNames, bench_funcs_flags.getLsbD z.2.1 = false ∧
      (default_option_flags &&& bench_size_flags).getLsbD z.2.1 = (z.1 = "tiny" || z.1 = "large" : Bool) := by
    decide +kernel
  have h1 : anySize (stage f) = anySize f := by
    rw [anySize_eq, anySize_eq]
    simp only [sizeNames, List.any_cons, List.any_nil]
    rw [stage_bit f (by decide), stage_bit f (by decide), stage_bit f (by decide), stage_bit f (by decide),
      stage_bit f (by decide)]
  rw [withDefaults_eq, h1]
  cases ha : anySize f with
  | true => exact stage_bit f (c z hz).1
  | false =>
    simp only [Bool.false_eq_true, if_false]
    rw [BitVec.getLsbD_or, (c z hz).2, stage_bit f (c z hz).1]
    rw [anySize_eq, List.any_eq_false] at ha
    have := ha z hz
    simp only [Bool.not_eq_true] at this
    rw [this, Bool.false_or]

/-- There is always a size. -/
theorem withDefaults_any (f : Flags) : anySize (withDefaults f) = true := by
  rw [anySize_eq, List.any_eq_true]
  cases ha : anySize f with
  | true =>
    rw [anySize_eq, List.any_eq_true] at ha
    obtain ⟨z, hz, h⟩ := ha
    refine ⟨z, hz, ?_⟩
    rw [withDefaults_size f hz, anySize_eq, List.any_eq_true.2 ⟨z, hz, h⟩]
    exact h
  | false =>
    refine ⟨("tiny", 16, 7), by decide, ?_⟩
    rw [withDefaults_size f (by decide), ha]
    rfl

theorem aesFlags_bit (b : Build) (ft : Features) (fl : Flags) {k : Nat} (hk : k < 28) :
    (aesFlags b ft fl).option_flags.getLsbD k = fl.option_flags.getLsbD k := by
  have c : ∀ k < 28, (~~~bench_aes).getLsbD k = true ∧ (~~~bench_avx).getLsbD k = true ∧
      (~~~bench_avx2).getLsbD k = true := by decide +kernel
  obtain ⟨c1, c2, c3⟩ := c k hk
  unfold aesFlags
  split
  · simp only
    split <;> split <;> split <;> simp only [BitVec.getLsbD_and, c1, c2, c3, Bool.and_true]
  · rfl

theorem aesFlags_disabled (b : Build) (ft : Features) (fl : Flags) :
    (aesFlags b ft fl).disabled_option_flags = fl.disabled_option_flags := by
  unfold aesFlags
  split <;> rfl

/-! ## Events -/

/-- Events of the tests. -/
def OfTests : Event → Prop
  | .verify _ => True
  | .print (.testing _) | .print (.patterns _) | .print (.outcome _) | .print .aesUnavailable
  | .print .wyhashFailed | .print .verificationFailed => True
  | _ => False

theorem ofTests_verify (e : Env) (fl : Flags) (f : ToolHash) : ∀ x ∈ verifyEvents e fl f, OfTests x := by
  intro x hx
  unfold verifyEvents at hx
  simp only [List.mem_append, List.mem_singleton] at hx
  rcases hx with ((hx | hx) | hx) | hx
  · split at hx
    · cases hx
    · rw [List.mem_singleton] at hx; subst hx; trivial
  · subst hx; trivial
  · split at hx
    · rw [List.mem_singleton] at hx; subst hx; trivial
    · cases hx
  · split at hx
    · cases hx
    · rw [List.mem_singleton] at hx; subst hx; trivial

theorem ofTests_highway (e : Env) (fl : Flags) (f : ToolHash) : ∀ x ∈ highwayEvents e fl f, OfTests x := by
  intro x hx
  unfold highwayEvents at hx
  simp only [List.mem_append, List.mem_singleton] at hx
  rcases hx with ((hx | hx) | hx) | hx
  · split at hx
    · cases hx
    · rw [List.mem_singleton] at hx; subst hx; trivial
  · subst hx; trivial
  · split at hx
    · rw [List.mem_singleton] at hx; subst hx; trivial
    · cases hx
  · split at hx
    · cases hx
    · rw [List.mem_singleton] at hx; subst hx; trivial

theorem ofTests (b : Build) (e : Env) (fl : Flags) : ∀ x ∈ testEvents b e fl, OfTests x := by
  intro x hx
  unfold testEvents at hx
  simp only [List.mem_append, List.mem_flatMap] at hx
  rcases hx with (((((hx | hx) | hx) | hx) | hx) | hx) | hx
  · obtain ⟨f, -, hf⟩ := hx; exact ofTests_verify e fl f x hf
  · unfold aesMessage at hx
    split at hx
    · rw [List.mem_singleton] at hx; subst hx; trivial
    · cases hx
  · obtain ⟨f, -, hf⟩ := hx; exact ofTests_highway e fl f x hf
  · exact ofTests_verify e fl _ x hx
  · split at hx
    · rw [List.mem_singleton] at hx; subst hx; trivial
    · cases hx
  · exact ofTests_verify e fl _ x hx
  · split at hx
    · rw [List.mem_singleton] at hx; subst hx; trivial
    · cases hx

theorem mem_bench_size {b : Build} {cpu : Cpu} {fl : Flags} {n : Nat} {x : Event} :
    x ∈ bench_size b cpu fl n ↔ x = .print (.benchFor n) ∨ ∃ g ∈ benchFns b cpu fl, x = .bench n g := by
  unfold bench_size
  rw [List.mem_cons, List.mem_map]
  simp only [eq_comm]

theorem mem_benchEvents {t : ToolBuild} {cpu : Cpu} {fl : Flags} {x : Event} (hd : t.debug = false) :
    x ∈ benchEvents t cpu fl ↔
      ∃ z ∈ sizeNames, fl.option_flags.getLsbD z.2.1 = true ∧ x ∈ bench_size t.build cpu fl z.2.2 := by
  unfold benchEvents
  rw [hd]
  simp only [Bool.false_eq_true, if_false, List.mem_append]
  unfold bench_tiny bench_small bench_medium bench_large bench_huge
  rw [is_option_set_bit _ _ (by decide), is_option_set_bit _ _ (by decide), is_option_set_bit _ _ (by decide),
    is_option_set_bit _ _ (by decide), is_option_set_bit _ _ (by decide)]
  simp only [sizeNames, List.mem_cons, List.not_mem_nil, or_false, exists_eq_or_imp, exists_eq_left]
  have e : ∀ (c : Bool) (l : List Event), (x ∈ if c then l else []) ↔ c = true ∧ x ∈ l := by
    intro c l; cases c <;> simp
  simp only [e]
  show _ ↔ _ ∨ _ ∨ _ ∨ _ ∨ _
  tauto

theorem benchFor_mem {t : ToolBuild} {cpu : Cpu} {fl : Flags} {z : String × Nat × Nat} (hd : t.debug = false)
    (hz : z ∈ sizeNames) :
    .print (.benchFor z.2.2) ∈ benchEvents t cpu fl ↔ fl.option_flags.getLsbD z.2.1 = true := by
  rw [mem_benchEvents hd]
  constructor
  · rintro ⟨z', hz', h1, h2⟩
    rw [mem_bench_size] at h2
    rcases h2 with h2 | ⟨g, -, h2⟩
    · have c : ∀ z ∈ sizeNames, ∀ z' ∈ sizeNames, z.2.2 = z'.2.2 → z = z' := by decide
      simp only [Event.print.injEq, Text.benchFor.injEq] at h2
      rw [c z hz z' hz' h2]
      exact h1
    · cases h2
  · intro h
    exact ⟨z, hz, h, mem_bench_size.2 (Or.inl rfl)⟩

/-- A run with benchmarks. -/
theorem toolRun_bench {t : ToolBuild} {e : Env} {fl : Flags} {r : ToolRun} (h : toolRun t e fl = some r)
    (hs : r.status = .success) (h2 : fl.option_flags.getLsbD 2 = false) (hc : e.mera_init = true) :
    ∃ before, r.events = before ++ benchEvents t e.cpu (aesFlags t.build (featuresAtTests t.build e.cpu) fl) ∧
      ∀ x ∈ before, OfTests x ∨ x ∈ [.print .buildInfo, .print .selfcheckPassed, .print .preparing, .print .clock] := by
  unfold toolRun at h
  by_cases hsc : e.selfcheck ≠ 0
  · rw [if_pos hsc] at h; cases h; cases hs
  rw [if_neg hsc] at h
  have hq : (aesFlags t.build (featuresAtTests t.build e.cpu) fl).is_option_set hash_stdin_strings = false := by
    unfold hash_stdin_strings
    rw [is_option_set_bit _ _ (by decide), aesFlags_bit _ _ _ (by decide), h2]
  simp only [hq, Bool.false_eq_true, if_false, hc, if_true] at h
  cases h
  refine ⟨_, rfl, fun x hx => ?_⟩
  simp only [List.mem_append] at hx
  rcases hx with (hx | hx) | hx
  · right
    split at hx
    · cases hx
    · simp only [List.mem_cons, List.not_mem_nil, or_false] at hx ⊢; tauto
  · exact Or.inl (ofTests _ _ _ x hx)
  · right; simp only [List.mem_cons, List.not_mem_nil, or_false] at hx ⊢; tauto

/-! ## Arguments as actions -/

/-- What an argument does to the flags: which are kept, and which are set. -/
structure Act where
  keep : U32
  set : U32
  keepD : U32
  setD : U32

def Act.apply (a : Act) (f : Flags) : Flags :=
  ⟨(f.option_flags &&& a.keep) ||| a.set, (f.disabled_option_flags &&& a.keepD) ||| a.setD⟩

private theorem keep_all (x : U32) : x &&& (-1#32) = x := by
  rw [show (-1#32 : U32) = BitVec.allOnes 32 by decide, BitVec.and_allOnes]

private theorem keep_none (x : U32) : x ||| 0#32 = x := BitVec.or_zero

private theorem act_option (arg : String) (l : List (String × U32)) :
    ∃ x : Option Act, ∀ f, l.findSome? (fun o => option arg o.1 o.2 f) = x.map (·.apply f) := by
  induction l with
  | nil => exact ⟨none, fun f => rfl⟩
  | cons o l ih =>
    by_cases e : arg = "--" ++ o.1
    · refine ⟨some ⟨-1#32, o.2, -1#32, 0#32⟩, fun f => ?_⟩
      have : option arg o.1 o.2 f = some { f with option_flags := f.option_flags ||| o.2 } := by
        unfold option; rw [if_pos e]
      rw [List.findSome?_cons, this]
      simp only [Act.apply, Option.map_some, keep_all, keep_none]
    by_cases e' : arg = "--no-" ++ o.1
    · refine ⟨some ⟨-1#32, 0#32, -1#32, o.2⟩, fun f => ?_⟩
      have : option arg o.1 o.2 f = some { f with disabled_option_flags := f.disabled_option_flags ||| o.2 } := by
        unfold option; rw [if_neg e, if_pos e']
      rw [List.findSome?_cons, this]
      simp only [Act.apply, Option.map_some, keep_all, keep_none]
    · obtain ⟨x, hx⟩ := ih
      refine ⟨x, fun f => ?_⟩
      have : option arg o.1 o.2 f = none := by
        unfold option; rw [if_neg e, if_neg e']
      rw [List.findSome?_cons, this]
      exact hx f

theorem parseArg_act (b : Build) (v : String → Bool) (arg : String) :
    ∃ x : Except ToolRun Act, ∀ f, parseArg b v f arg = x.map (·.apply f) := by
  unfold parseArg
  by_cases e : arg = "--test-quiet"
  · exact ⟨.ok ⟨0, test_quiet, -1#32, 0#32⟩, fun f => by
      rw [if_pos e]; simp only [Except.map, Act.apply, keep_all, keep_none]; congr 2
      rw [show (0 : U32) = 0#32 from rfl, BitVec.and_zero, BitVec.zero_or]⟩
  simp only [if_neg e]; clear e
  by_cases e : arg = "--hash-stdin-strings"
  · exact ⟨.ok ⟨bench_funcs_flags, test_quiet ||| hash_stdin_strings, -1#32, 0#32⟩, fun f => by
      rw [if_pos e]; simp only [Except.map, Act.apply, keep_all, keep_none, BitVec.or_assoc]⟩
  simp only [if_neg e]; clear e
  by_cases e : arg = "--test-only" ∨ arg = "--no-bench"
  · exact ⟨.ok ⟨test_verbose, 0#32, -1#32, 0#32⟩, fun f => by
      rw [if_pos e]; simp only [Except.map, Act.apply, keep_all, keep_none]⟩
  simp only [if_neg e]; clear e
  by_cases e : arg = "--test-verbose"
  · exact ⟨.ok ⟨-1#32, test_verbose, -1#32, 0#32⟩, fun f => by
      rw [if_pos e]; simp only [Except.map, Act.apply, keep_all, keep_none]⟩
  simp only [if_neg e]; clear e
  by_cases e : arg = "--bench-verbose"
  · exact ⟨.ok ⟨-1#32, bench_verbose, -1#32, 0#32⟩, fun f => by
      rw [if_pos e]; simp only [Except.map, Act.apply, keep_all, keep_none]⟩
  simp only [if_neg e]; clear e
  by_cases e : arg = "--verbose" ∨ arg = "-v"
  · exact ⟨.ok ⟨-1#32, bench_verbose ||| test_verbose, -1#32, 0#32⟩, fun f => by
      rw [if_pos e]; simp only [Except.map, Act.apply, keep_all, keep_none]⟩
  simp only [if_neg e]; clear e
  by_cases e : "--GHz=".toList <+: arg.toList
  · simp only [if_pos e]
    cases v arg with
    | true => exact ⟨.ok ⟨-1#32, 0#32, -1#32, 0#32⟩, fun f => by
        simp only [if_true, Except.map, Act.apply, keep_all, keep_none]⟩
    | false => exact ⟨.error ⟨[], .failure⟩, fun f => rfl⟩
  simp only [if_neg e]; clear e
  by_cases e : arg = "--bench-all"
  · exact ⟨.ok ⟨-1#32, ~~~(test_verbose ||| bench_verbose), 0#32, 0#32⟩, fun f => by
      rw [if_pos e]; simp only [Except.map, Act.apply, keep_all, BitVec.and_zero, keep_none]; rfl⟩
  simp only [if_neg e]; clear e
  by_cases e : arg = "--all-funcs"
  · exact ⟨.ok ⟨-1#32, bench_funcs_flags, ~~~bench_funcs_flags, 0#32⟩, fun f => by
      rw [if_pos e]; simp only [Except.map, Act.apply, keep_all, keep_none]⟩
  simp only [if_neg e]; clear e
  by_cases e : arg = "--all-sizes"
  · exact ⟨.ok ⟨-1#32, bench_size_flags, ~~~bench_size_flags, 0#32⟩, fun f => by
      rw [if_pos e]; simp only [Except.map, Act.apply, keep_all, keep_none]⟩
  simp only [if_neg e]; clear e
  by_cases e : arg = "--aes"
  · simp only [if_pos e]
    cases available_eas_flags b != 0 with
    | true => exact ⟨.ok ⟨-1#32, available_eas_flags b, -1#32, 0#32⟩, fun f => by
        simp only [if_true, Except.map, Act.apply, keep_all, keep_none]⟩
    | false => exact ⟨.error ⟨[], .failure⟩, fun f => rfl⟩
  simp only [if_neg e]; clear e
  by_cases e : arg = "--no-aes"
  · simp only [if_pos e]
    cases available_eas_flags b != 0 with
    | true => exact ⟨.ok ⟨-1#32, 0#32, -1#32, available_eas_flags b⟩, fun f => by
        simp only [if_true, Except.map, Act.apply, keep_all, keep_none]⟩
    | false => exact ⟨.ok ⟨-1#32, 0#32, -1#32, 0#32⟩, fun f => by
        simp only [Bool.false_eq_true, if_false, Except.map, Act.apply, keep_all, keep_none]⟩
  simp only [if_neg e]; clear e
  obtain ⟨x, hx⟩ := act_option arg (flagOptions b)
  simp only [hx]
  cases x with
  | some a => exact ⟨.ok a, fun f => rfl⟩
  | none =>
    by_cases e : arg = "--help" ∨ arg = "-h"
    · exact ⟨.error ⟨[.print .usage], .success⟩, fun f => by simp only [Option.map_none, if_pos e]; rfl⟩
    · exact ⟨.error ⟨[.print .usage], .failure⟩, fun f => by simp only [Option.map_none, if_neg e]; rfl⟩

/-! ## Options which exclude a size do nothing -/

/-- The same flags, except for the exclusion of sizes. -/
def SameBut (f g : Flags) : Prop :=
  f.option_flags = g.option_flags ∧
  f.disabled_option_flags &&& ~~~bench_size_flags = g.disabled_option_flags &&& ~~~bench_size_flags

private theorem and_swap (a b c : U32) : (a &&& b) &&& c = (a &&& c) &&& b := by
  rw [BitVec.and_assoc, BitVec.and_comm b c, ← BitVec.and_assoc]

private theorem or_and (a b c : U32) : (a ||| b) &&& c = (a &&& c) ||| (b &&& c) := by
  apply BitVec.eq_of_getLsbD_eq; intro i hi
  simp only [BitVec.getLsbD_and, BitVec.getLsbD_or, Bool.and_or_distrib_right]

theorem SameBut.apply {f g : Flags} (h : SameBut f g) (a : Act) : SameBut (a.apply f) (a.apply g) := by
  obtain ⟨h1, h2⟩ := h
  refine ⟨?_, ?_⟩
  · simp only [Act.apply, h1]
  · simp only [Act.apply]
    rw [or_and, or_and, and_swap, h2, and_swap g.disabled_option_flags]

theorem SameBut.parse {f g : Flags} (h : SameBut f g) (args : List String) :
    (∃ r, parseArgs b v args f = .error r ∧ parseArgs b v args g = .error r) ∨
    ∃ f' g', parseArgs b v args f = .ok f' ∧ parseArgs b v args g = .ok g' ∧ SameBut f' g' := by
  induction args generalizing f g with
  | nil => exact Or.inr ⟨f, g, rfl, rfl, h⟩
  | cons a l ih =>
    obtain ⟨x, hx⟩ := parseArg_act b v a
    unfold parseArgs
    rw [hx f, hx g]
    cases x with
    | error r => exact Or.inl ⟨r, rfl, rfl⟩
    | ok a => exact ih (h.apply a)

theorem SameBut.selected {f g : Flags} (h : SameBut f g) {m : U32} (hm : m &&& ~~~bench_size_flags = m) :
    f.is_selected m = g.is_selected m := by
  have e : ∀ d : U32, d &&& m = (d &&& ~~~bench_size_flags) &&& m := by
    intro d; rw [BitVec.and_assoc, BitVec.and_comm (~~~bench_size_flags) m, hm]
  unfold Flags.is_selected Flags.is_option_set
  rw [h.1, e f.disabled_option_flags, h.2, ← e]

theorem SameBut.aes {f g : Flags} (h : SameBut f g) (b : Build) (ft : Features) :
    SameBut (aesFlags b ft f) (aesFlags b ft g) := by
  refine ⟨?_, ?_⟩
  · unfold aesFlags
    rw [h.1]
    split
    · rfl
    · exact h.1
  · rw [aesFlags_disabled, aesFlags_disabled]
    exact h.2

theorem SameBut.defaults {f g : Flags} (h : SameBut f g) : SameBut (withDefaults f) (withDefaults g) := by
  refine ⟨?_, ?_⟩
  · unfold withDefaults
    rw [h.1]
    cases hc : (g.option_flags &&& bench_funcs_flags) == 0
    · simp only [Bool.false_eq_true, if_false, h.1]
      split
      · rfl
      · exact h.1
    · simp only [if_true]
      split <;> split <;> rfl
  · rw [withDefaults_disabled, withDefaults_disabled]
    exact h.2

theorem SameBut.run {f g : Flags} (h : SameBut f g) (t : ToolBuild) (e : Env) : toolRun t e f = toolRun t e g := by
  have h' := h.aes t.build (featuresAtTests t.build e.cpu)
  have ho : ∀ m, f.is_option_set m = g.is_option_set m := fun m => by unfold Flags.is_option_set; rw [h.1]
  have ho' : ∀ m, (aesFlags t.build (featuresAtTests t.build e.cpu) f).is_option_set m =
      (aesFlags t.build (featuresAtTests t.build e.cpu) g).is_option_set m :=
    fun m => by unfold Flags.is_option_set; rw [h'.1]
  have ht : testEvents t.build e f = testEvents t.build e g := by
    unfold testEvents verifyEvents highwayEvents aesMessage
    simp only [ho]
  have hs : stringFn t.build (aesFlags t.build (featuresAtTests t.build e.cpu) f) =
      stringFn t.build (aesFlags t.build (featuresAtTests t.build e.cpu) g) := by
    unfold stringFn
    rw [h'.selected (m := bench_highwayhash) (by decide), h'.selected (m := bench_64 ||| bench_xxhash) (by decide),
      h'.selected (m := bench_32 ||| bench_xxhash) (by decide), h'.selected (m := bench_64 ||| bench_stadtx) (by decide),
      h'.selected (m := bench_64 ||| bench_wyhash) (by decide), h'.selected (m := bench_64 ||| bench_2) (by decide),
      h'.selected (m := bench_64 ||| bench_le ||| bench_1) (by decide),
      h'.selected (m := bench_64 ||| bench_be ||| bench_1) (by decide),
      h'.selected (m := bench_32 ||| bench_le ||| bench_0) (by decide),
      h'.selected (m := bench_32 ||| bench_be ||| bench_0) (by decide),
      h'.selected (m := bench_0) (by decide), h'.selected (m := bench_xxhash) (by decide)]
  have hb : benchEvents t e.cpu (aesFlags t.build (featuresAtTests t.build e.cpu) f) =
      benchEvents t e.cpu (aesFlags t.build (featuresAtTests t.build e.cpu) g) := by
    unfold benchEvents bench_size benchFns
    simp only [ho']
    rw [h'.selected (m := bench_highwayhash) (by decide), h'.selected (m := bench_stadtx) (by decide),
      h'.selected (m := bench_wyhash) (by decide), h'.selected (m := bench_64 ||| bench_2) (by decide),
      h'.selected (m := bench_64 ||| bench_le ||| bench_1) (by decide),
      h'.selected (m := bench_64 ||| bench_be ||| bench_1) (by decide),
      h'.selected (m := bench_32 ||| bench_le ||| bench_0) (by decide),
      h'.selected (m := bench_32 ||| bench_be ||| bench_0) (by decide),
      h'.selected (m := bench_aes) (by decide), h'.selected (m := bench_avx) (by decide),
      h'.selected (m := bench_avx2) (by decide),
      h'.selected (m := bench_0) (by decide), h'.selected (m := bench_xxhash) (by decide)]
  unfold toolRun
  simp only [ho, ho', ht, hs, hb]

theorem parseArgs_append (l₁ l₂ : List String) (f : Flags) :
    parseArgs b v (l₁ ++ l₂) f =
      match parseArgs b v l₁ f with
      | .ok f => parseArgs b v l₂ f
      | .error r => .error r := by
  induction l₁ generalizing f with
  | nil => rfl
  | cons a l ih =>
    simp only [List.cons_append, parseArgs]
    cases parseArg b v f a with
    | ok f => exact ih f
    | error r => rfl

theorem parse_no_size {z : String × Nat × Nat} (hz : z ∈ sizeNames) (f : Flags) :
    ∃ f', parseArg b v f ("--no-" ++ z.1) = .ok f' ∧ SameBut f' f := by
  have key : ∀ (n : String) (m : U32), (n, m) ∈ [("tiny", bench_tiny), ("small", bench_small),
      ("medium", bench_medium), ("large", bench_large), ("huge", bench_huge)] →
      parseArg b v f ("--no-" ++ n) = .ok { f with disabled_option_flags := f.disabled_option_flags ||| m } := by
    intro n m h
    simp only [List.mem_cons, List.not_mem_nil, or_false, Prod.mk.injEq] at h
    rcases h with ⟨rfl, rfl⟩ | ⟨rfl, rfl⟩ | ⟨rfl, rfl⟩ | ⟨rfl, rfl⟩ | ⟨rfl, rfl⟩ <;>
      (unfold parseArg flagOptions
       cases b.no0 <;> cases b.no1 <;> cases b.no2 <;> rfl)
  have fin : ∀ m : U32, m &&& ~~~bench_size_flags = 0#32 →
      SameBut { f with disabled_option_flags := f.disabled_option_flags ||| m } f := by
    intro m hm
    refine ⟨rfl, ?_⟩
    simp only [or_and, hm, BitVec.or_zero]
  simp only [sizeNames, List.mem_cons, List.not_mem_nil, or_false] at hz
  rcases hz with rfl | rfl | rfl | rfl | rfl
  · exact ⟨_, key "tiny" bench_tiny (by decide), fin _ (by decide)⟩
  · exact ⟨_, key "small" bench_small (by decide), fin _ (by decide)⟩
  · exact ⟨_, key "medium" bench_medium (by decide), fin _ (by decide)⟩
  · exact ⟨_, key "large" bench_large (by decide), fin _ (by decide)⟩
  · exact ⟨_, key "huge" bench_huge (by decide), fin _ (by decide)⟩

theorem toolMain_args (t : ToolBuild) (e : Env) {args : List String} (h : args ≠ []) :
    toolMain t e args =
      match parseArgs t.build e.validGHz args ⟨0, 0⟩ with
      | .error r => some r
      | .ok f => toolRun t e (withDefaults f) := by
  have hl : 0 < args.length := List.length_pos_iff.2 h
  unfold toolMain options
  rw [if_pos (show args.length + 1 > 1 by omega)]
  cases parseArgs t.build e.validGHz args ⟨0, 0⟩ with
  | error r => rfl
  | ok f => rfl

theorem withDefaults_kept (f : Flags) {k : Nat} (h1 : default_option_flags.getLsbD k = false)
    (h2 : bench_2.getLsbD k = false) : (withDefaults f).option_flags.getLsbD k = f.option_flags.getLsbD k := by
  have hs : (stage f).option_flags.getLsbD k = f.option_flags.getLsbD k := by
    unfold stage
    split
    · split <;> simp only [BitVec.getLsbD_or, BitVec.getLsbD_and, h1, h2, Bool.false_and, Bool.or_false]
    · rfl
  rw [withDefaults_eq]
  split
  · exact hs
  · simp only [BitVec.getLsbD_or, BitVec.getLsbD_and, h1, Bool.false_and, Bool.or_false, hs]

/-! ## Standard input -/

/-- After `--hash-stdin-strings`, and unless this is withdrawn. -/
theorem strings_kept {args : List String} (h1 : "--test-quiet" ∉ args) (h2 : "--test-only" ∉ args)
    (h3 : "--no-bench" ∉ args) (h : parseArgs b v args f = .ok f')
    (h0 : f.option_flags.getLsbD 1 = true ∧ f.option_flags.getLsbD 2 = true) :
    f'.option_flags.getLsbD 1 = true ∧ f'.option_flags.getLsbD 2 = true := by
  refine parseArgs_inv (P := fun f => f.option_flags.getLsbD 1 = true ∧ f.option_flags.getLsbD 2 = true)
    (fun a ha g g' hg harg => ?_) h h0
  obtain ⟨g1, g2⟩ := hg
  cases harg with
  | testQuiet => exact absurd ha h1
  | testOnly => exact absurd ha h2
  | noBench => exact absurd ha h3
  | strings =>
    simp only [BitVec.getLsbD_or, show test_quiet.getLsbD 1 = true by decide,
      show hash_stdin_strings.getLsbD 2 = true by decide, Bool.or_true, Bool.true_or, and_self]
  | yes o ho => simp only [BitVec.getLsbD_or, g1, g2, Bool.true_or, and_self]
  | aes => simp only [BitVec.getLsbD_or, g1, g2, Bool.true_or, and_self]
  | testVerbose => simp only [BitVec.getLsbD_or, g1, g2, Bool.true_or, and_self]
  | benchVerbose => simp only [BitVec.getLsbD_or, g1, g2, Bool.true_or, and_self]
  | verbose => simp only [BitVec.getLsbD_or, g1, g2, Bool.true_or, and_self]
  | v => simp only [BitVec.getLsbD_or, g1, g2, Bool.true_or, and_self]
  | benchAll => simp only [BitVec.getLsbD_or, g1, g2, Bool.true_or, and_self]
  | allFuncs => simp only [BitVec.getLsbD_or, g1, g2, Bool.true_or, and_self]
  | allSizes => simp only [BitVec.getLsbD_or, g1, g2, Bool.true_or, and_self]
  | ghz _ _ => exact ⟨g1, g2⟩
  | noAes => exact ⟨g1, g2⟩
  | noAes' => exact ⟨g1, g2⟩
  | no o ho => exact ⟨g1, g2⟩

theorem not_verbose {args : List String} (h1 : "--test-verbose" ∉ args) (h2 : "--verbose" ∉ args) (h3 : "-v" ∉ args)
    (h : parseArgs b v args f = .ok f') (h0 : f.option_flags.getLsbD 0 = false) :
    f'.option_flags.getLsbD 0 = false := by
  refine parseArgs_inv (P := fun f => f.option_flags.getLsbD 0 = false) (fun a ha g g' hg harg => ?_) h h0
  have c : ∀ o ∈ allOptions, o.2.getLsbD 0 = false := by decide +kernel
  cases harg with
  | testVerbose => exact absurd ha h1
  | verbose => exact absurd ha h2
  | v => exact absurd ha h3
  | testQuiet => show test_quiet.getLsbD 0 = false; decide
  | testOnly => simp only [BitVec.getLsbD_and, hg, Bool.false_and]
  | noBench => simp only [BitVec.getLsbD_and, hg, Bool.false_and]
  | strings =>
    simp only [BitVec.getLsbD_or, BitVec.getLsbD_and, hg, Bool.false_and, Bool.false_or]
    decide
  | yes o ho => simp only [BitVec.getLsbD_or, hg, c o ho, Bool.or_false]
  | aes => simp only [BitVec.getLsbD_or, hg, eas_bit b (show 0 < 28 by omega), Bool.or_false]
  | benchVerbose => simp only [BitVec.getLsbD_or, hg, Bool.false_or]; decide
  | benchAll => simp only [BitVec.getLsbD_or, hg, Bool.false_or]; decide
  | allFuncs => simp only [BitVec.getLsbD_or, hg, Bool.false_or]; decide
  | allSizes => simp only [BitVec.getLsbD_or, hg, Bool.false_or]; decide
  | ghz _ _ => exact hg
  | noAes => exact hg
  | noAes' => exact hg
  | no o ho => exact hg

theorem no_aes_wanted {args : List String} (h1 : "--aes" ∉ args) (h2 : "--all-funcs" ∉ args)
    (h3 : "--bench-all" ∉ args) (h : parseArgs b v args f = .ok f') {k : Nat} (hk : 28 ≤ k) (hk' : k < 32)
    (h0 : f.option_flags.getLsbD k = false) : f'.option_flags.getLsbD k = false := by
  refine parseArgs_inv (P := fun f => f.option_flags.getLsbD k = false) (fun a ha g g' hg harg => ?_) h h0
  have c0 : ∀ k < 32, 28 ≤ k → ∀ o ∈ allOptions, o.2.getLsbD k = false := by decide +kernel
  have c := c0 k hk' hk
  have d0 : ∀ k < 32, 28 ≤ k → test_quiet.getLsbD k = false ∧ hash_stdin_strings.getLsbD k = false ∧
      test_verbose.getLsbD k = false ∧ bench_verbose.getLsbD k = false ∧ bench_size_flags.getLsbD k = false := by
    decide +kernel
  obtain ⟨d1, d2, d3, d4, d5⟩ := d0 k hk' hk
  cases harg with
  | aes => exact absurd ha h1
  | allFuncs => exact absurd ha h2
  | benchAll => exact absurd ha h3
  | testQuiet => exact d1
  | testOnly => simp only [BitVec.getLsbD_and, hg, Bool.false_and]
  | noBench => simp only [BitVec.getLsbD_and, hg, Bool.false_and]
  | strings => simp only [BitVec.getLsbD_or, BitVec.getLsbD_and, hg, Bool.false_and, d1, d2, Bool.or_self]
  | yes o ho => simp only [BitVec.getLsbD_or, hg, c o ho, Bool.or_false]
  | testVerbose => simp only [BitVec.getLsbD_or, hg, d3, Bool.or_self]
  | benchVerbose => simp only [BitVec.getLsbD_or, hg, d4, Bool.or_self]
  | verbose => simp only [BitVec.getLsbD_or, hg, d3, d4, Bool.or_self]
  | v => simp only [BitVec.getLsbD_or, hg, d3, d4, Bool.or_self]
  | allSizes => simp only [BitVec.getLsbD_or, hg, d5, Bool.or_self]
  | ghz _ _ => exact hg
  | noAes => exact hg
  | noAes' => exact hg
  | no o ho => exact hg

/-- A run which hashes standard input. -/
theorem toolRun_strings {t : ToolBuild} {e : Env} {fl : Flags} {r : ToolRun} (h : toolRun t e fl = some r)
    (hs : r.status = .success) (h2 : fl.option_flags.getLsbD 2 = true) :
    ∃ f ls, stringFn t.build (aesFlags t.build (featuresAtTests t.build e.cpu) fl) = some f ∧
      strings t e.stdin = some ls ∧ e.selfcheck = 0 ∧
      r.events = (if fl.is_option_set test_quiet then [] else [.print .buildInfo, .print .selfcheckPassed]) ++
        testEvents t.build e fl ++ .print (.header f) ::
        ls.flatMap (fun l => [.call f l 42, .print (.hash (e.hash f l 42))]) := by
  unfold toolRun at h
  by_cases hsc : e.selfcheck ≠ 0
  · rw [if_pos hsc] at h; cases h; cases hs
  rw [if_neg hsc] at h
  have hq : (aesFlags t.build (featuresAtTests t.build e.cpu) fl).is_option_set hash_stdin_strings = true := by
    unfold hash_stdin_strings
    rw [is_option_set_bit _ _ (by decide), aesFlags_bit _ _ _ (by decide), h2]
  simp only [hq, if_true] at h
  cases hf : stringFn t.build (aesFlags t.build (featuresAtTests t.build e.cpu) fl) with
  | none => rw [hf] at h; cases h; cases hs
  | some f =>
    rw [hf] at h
    simp only [Option.map_eq_some_iff] at h
    obtain ⟨ls, hl, hr⟩ := h
    refine ⟨f, ls, rfl, hl, not_not.1 hsc, ?_⟩
    rw [← hr]
    simp

end T1ha.Model
