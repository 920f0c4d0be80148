import Verif.Props.ToolFuncs
import Verif.Proofs.Lines

/-!
# The tool `test`: hashing the lines of standard input

C60, and C61 for these runs.
-/

namespace T1ha.Props

open Model Examples

/-! ## C60 -/

/-- Standard input is to be hashed: `--hash-stdin-strings` is not followed by an option which withdraws it. -/
def AsksStrings (args : List String) : Prop :=
  ∃ pre post, args = pre ++ "--hash-stdin-strings" :: post ∧
    "--test-quiet" ∉ post ∧ "--test-only" ∉ post ∧ "--no-bench" ∉ post

/-- What is printed. -/
def ToolRun.output (r : ToolRun) : List Text := r.events.filterMap fun
  | .print x => some x
  | _ => none

/-- Flags which no argument, and no default, removes from such a run. -/
theorem kept_flags {b : Build} {v : String → Bool} {pre post : List String} {a : String} {f : Flags}
    (ha : a = "--hash-stdin-strings" ∨ a = "--bench-all") (h1 : "--test-quiet" ∉ post) (h2 : "--test-only" ∉ post)
    (h3 : "--no-bench" ∉ post) (h : parseArgs b v (pre ++ a :: post) ⟨0, 0⟩ = .ok f) :
    f.option_flags.getLsbD 1 = true ∧ f.option_flags.getLsbD 2 = true := by
  rw [parseArgs_append] at h
  cases hp : parseArgs b v pre ⟨0, 0⟩ with
  | error r => rw [hp] at h; cases h
  | ok f1 =>
    rw [hp] at h
    simp only [parseArgs] at h
    cases hq : parseArg b v f1 a with
    | error r => rw [hq] at h; cases h
    | ok f2 =>
      rw [hq] at h
      simp only at h
      refine strings_kept h1 h2 h3 h ?_
      rcases ha with rfl | rfl
      · have e : parseArg b v f1 "--hash-stdin-strings" = .ok { f1 with option_flags :=
            (f1.option_flags &&& bench_funcs_flags) ||| test_quiet ||| hash_stdin_strings } := rfl
        rw [e] at hq
        cases hq
        simp only [BitVec.getLsbD_or, show test_quiet.getLsbD 1 = true by decide,
          show hash_stdin_strings.getLsbD 2 = true by decide, Bool.or_true, Bool.true_or, and_self]
      · have e : parseArg b v f1 "--bench-all" = .ok ⟨f1.option_flags ||| ~~~(test_verbose ||| bench_verbose), 0⟩ := rfl
        rw [e] at hq
        cases hq
        simp only [BitVec.getLsbD_or, show (~~~(test_verbose ||| bench_verbose)).getLsbD 1 = true by decide,
          show (~~~(test_verbose ||| bench_verbose)).getLsbD 2 = true by decide, Bool.or_true, and_self]

theorem strings_flags {t : ToolBuild} {e : Env} {args : List String} {r : ToolRun} (h : toolMain t e args = some r)
    (hs : r.status = .success) (noHelp : NoHelp args) (asks : AsksStrings args) :
    ∃ f, parseArgs t.build e.validGHz args ⟨0, 0⟩ = .ok f ∧ f.option_flags.getLsbD 1 = true ∧
      f.option_flags.getLsbD 2 = true ∧ toolRun t e (withDefaults f) = some r := by
  obtain ⟨pre, post, rfl, h1, h2, h3⟩ := asks
  rcases toolMain_cases h with g1 | ⟨g1, g2⟩ | ⟨g1, g2⟩ | ⟨g1, f, g2, g3⟩
  · rw [hs] at g1; cases g1.1
  · exact absurd g2 (by unfold NoHelp at noHelp; tauto)
  · simp at g1
  · obtain ⟨k1, k2⟩ := kept_flags (Or.inl rfl) h1 h2 h3 g2
    exact ⟨f, g2, k1, k2, g3⟩

/-- Such a run, in terms of the strings which are read. -/
theorem strings_run {t : ToolBuild} {e : Env} {args : List String} {r : ToolRun} (h : toolMain t e args = some r)
    (hs : r.status = .success) (noHelp : NoHelp args) (asks : AsksStrings args) :
    ∃ f ls before, strings t e.stdin = some ls ∧ (∀ x ∈ before, OfTests x) ∧
      r.events = before ++ .print (.header f) ::
        ls.flatMap (fun l => [.call f l 42, .print (.hash (e.hash f l 42))]) := by
  obtain ⟨g, -, k1, k2, hr⟩ := strings_flags h hs noHelp asks
  have k1' : (withDefaults g).option_flags.getLsbD 1 = true := by
    rw [withDefaults_other g (by decide) (by decide), k1]
  have k2' : (withDefaults g).option_flags.getLsbD 2 = true := by
    rw [withDefaults_other g (by decide) (by decide), k2]
  obtain ⟨f, ls, -, hl, -, he⟩ := toolRun_strings hr hs k2'
  have hq : (withDefaults g).is_option_set test_quiet = true := by
    unfold test_quiet
    rw [is_option_set_bit _ _ (by decide), k1']
  rw [hq, if_pos rfl, List.nil_append] at he
  exact ⟨f, ls, _, hl, ofTests t.build e _, he⟩

/-- C60: every line of standard input is hashed, in order and with its line feed, by one function with the seed 42,
and the result is printed; nothing else happens except for the tests before. -/
theorem lines_hashed {t : ToolBuild} {e : Env} {args : List String} {r : ToolRun} (h : toolMain t e args = some r)
    (hs : r.status = .success) (noHelp : NoHelp args) (asks : AsksStrings args) (posix : t.posix2008 = true) :
    ∃ f ls before, IsLines e.stdin ls ∧ (∀ x ∈ before, OfTests x) ∧
      r.events = before ++ .print (.header f) ::
        ls.flatMap (fun l => [.call f l 42, .print (.hash (e.hash f l 42))]) := by
  obtain ⟨f, ls, before, hl, h1, h2⟩ := strings_run h hs noHelp asks
  obtain ⟨ls', hl', hi⟩ := getline_lines (e.stdin.length + 2) e.stdin (Nat.le_refl _)
  unfold strings at hl
  rw [posix, if_pos rfl, hl'] at hl
  cases hl
  exact ⟨f, _, before, hi, h1, h2⟩

/-- C60: the same where there is no `getline`, if the lines are short and contain no zero bytes. Missing: other lines
(`fgets_ignores_rest`, `fgets_splits`). -/
theorem lines_hashed_fgets_partial {t : ToolBuild} {e : Env} {args : List String} {r : ToolRun}
    (h : toolMain t e args = some r) (hs : r.status = .success) (noHelp : NoHelp args) (asks : AsksStrings args)
    (noGetline : t.posix2008 = false) (buffer : 2 ≤ t.buffer_size) {ls : List (List Byte)} (hi : IsLines e.stdin ls)
    (short : ∀ l ∈ ls, l.length < t.buffer_size ∧ 0 ∉ l) :
    ∃ f before, (∀ x ∈ before, OfTests x) ∧
      r.events = before ++ .print (.header f) ::
        ls.flatMap (fun l => [.call f l 42, .print (.hash (e.hash f l 42))]) := by
  obtain ⟨f, ls', before, hl, h1, h2⟩ := strings_run h hs noHelp asks
  obtain ⟨m, hm⟩ : ∃ m, t.buffer_size = m + 1 := ⟨t.buffer_size - 1, by omega⟩
  unfold strings at hl
  rw [noGetline, if_neg (by simp), hm] at hl
  have hlen : ls.length ≤ e.stdin.length := by
    rw [← hi.all]
    have : ∀ ls : List (List Byte), [] ∉ ls → ls.length ≤ ls.flatten.length := by
      intro ls
      induction ls with
      | nil => simp
      | cons l ls ih =>
        intro hn
        have h1 : 1 ≤ l.length := by
          cases l with
          | nil => exact absurd List.mem_cons_self hn
          | cons _ _ => simp
        have := ih (fun hm => hn (List.mem_cons_of_mem _ hm))
        simp only [List.flatten_cons, List.length_append, List.length_cons]
        omega
    exact this ls hi.nonempty
  rw [fgets_lines (by omega) ls _ e.stdin (by omega) hi
    (fun l hl => ⟨by have := (short l hl).1; omega, (short l hl).2⟩)] at hl
  cases hl
  exact ⟨f, before, h1, h2⟩

/-- C60: the tool ends, whatever the arguments and the input are. -/
theorem tool_terminates (t : ToolBuild) (e : Env) (args : List String)
    (buffer : t.posix2008 = true ∨ 2 ≤ t.buffer_size) : ∃ r, toolMain t e args = some r := by
  have hl : ∃ ls, strings t e.stdin = some ls := by
    unfold strings
    cases hp : t.posix2008 with
    | true =>
      obtain ⟨ls, h, -⟩ := getline_lines (e.stdin.length + 2) e.stdin (Nat.le_refl _)
      exact ⟨ls, h⟩
    | false =>
      have hb : 2 ≤ t.buffer_size := by
        rcases buffer with h | h
        · rw [hp] at h; cases h
        · exact h
      obtain ⟨m, hm⟩ : ∃ m, t.buffer_size = m + 1 := ⟨t.buffer_size - 1, by omega⟩
      rw [hm]
      exact fgets_ends (by omega) _ _ (Nat.le_refl _)
  obtain ⟨ls, hl⟩ := hl
  have run : ∀ fl, ∃ r, toolRun t e fl = some r := by
    intro fl
    unfold toolRun
    by_cases hsc : e.selfcheck ≠ 0
    · rw [if_pos hsc]; exact ⟨_, rfl⟩
    rw [if_neg hsc]
    simp only [hl, Option.map_some]
    split
    · split <;> exact ⟨_, rfl⟩
    · split <;> exact ⟨_, rfl⟩
  unfold toolMain
  cases options t.build e.validGHz args with
  | error r => exact ⟨r, rfl⟩
  | ok fl => exact run fl

/-- C60: if no test fails, and no option asks for more, the output is the name of the function and the hash values,
and nothing else. -/
theorem output_hashes {t : ToolBuild} {e : Env} {args : List String} {r : ToolRun} (h : toolMain t e args = some r)
    (hs : r.status = .success) (noHelp : NoHelp args) (asks : AsksStrings args) (posix : t.posix2008 = true)
    (fine : (∀ f, e.verifyFails f = false) ∧ e.wyhashFails = false)
    (terse : "--test-verbose" ∉ args ∧ "--verbose" ∉ args ∧ "-v" ∉ args)
    (noAes : "--aes" ∉ args ∧ "--all-funcs" ∉ args ∧ "--bench-all" ∉ args) :
    ∃ f ls, IsLines e.stdin ls ∧ ToolRun.output r = .header f :: ls.map (fun l => .hash (e.hash f l 42)) := by
  obtain ⟨g, hg, k1, k2, hr⟩ := strings_flags h hs noHelp asks
  have k1' : (withDefaults g).option_flags.getLsbD 1 = true := by
    rw [withDefaults_other g (by decide) (by decide), k1]
  have k2' : (withDefaults g).option_flags.getLsbD 2 = true := by
    rw [withDefaults_other g (by decide) (by decide), k2]
  have k0' : (withDefaults g).option_flags.getLsbD 0 = false := by
    rw [withDefaults_other g (by decide) (by decide), not_verbose terse.1 terse.2.1 terse.2.2 hg (zero_bit _)]
  have k31' : (withDefaults g).option_flags.getLsbD 31 = false := by
    rw [withDefaults_kept g (by decide) (by decide),
      no_aes_wanted noAes.1 noAes.2.1 noAes.2.2 hg (by decide) (by decide) (zero_bit _)]
  obtain ⟨f, ls, -, hl, -, he⟩ := toolRun_strings hr hs k2'
  generalize withDefaults g = fl at *
  have q1 : fl.is_option_set test_quiet = true := by
    unfold test_quiet; rw [is_option_set_bit _ _ (by decide), k1']
  have q0 : fl.is_option_set test_verbose = false := by
    rw [show test_verbose = 1#32 <<< 0 by decide, is_option_set_bit _ _ (by decide), k0']
  have q31 : fl.is_option_set user_wanna_aes = false := by
    unfold user_wanna_aes; rw [is_option_set_bit _ _ (by decide), k31']
  have v1 : ∀ f, verifyEvents e fl f = [.verify f] := by
    intro f; unfold verifyEvents; simp [q1, q0, fine.1 f]
  have v2 : ∀ f, highwayEvents e fl f = [.verify f] := by
    intro f; unfold highwayEvents; simp [q1, q0]
  have silent : ∀ l : List ToolHash, (l.flatMap (verifyEvents e fl)).filterMap (fun
      | .print x => some x
      | _ => none) = ([] : List Text) := by
    intro l
    induction l with
    | nil => rfl
    | cons f l ih => rw [List.flatMap_cons, v1 f, List.filterMap_append, ih]; rfl
  have silent2 : ∀ l : List ToolHash, (l.flatMap (highwayEvents e fl)).filterMap (fun
      | .print x => some x
      | _ => none) = ([] : List Text) := by
    intro l
    induction l with
    | nil => rfl
    | cons f l ih => rw [List.flatMap_cons, v2 f, List.filterMap_append, ih]; rfl
  have hm : aesMessage t.build (featuresAtTests t.build e.cpu) fl = [] := by
    unfold aesMessage; simp [q31]
  have hany : ∀ l : List ToolHash, l.any e.verifyFails = false := by
    intro l; rw [List.any_eq_false]; intro x _; rw [fine.1 x]; simp
  have htests : (testEvents t.build e fl).filterMap (fun
      | .print x => some x
      | _ => none) = ([] : List Text) := by
    unfold testEvents
    simp only [hm, fine.1, fine.2, hany, Bool.or_self, Bool.false_eq_true, if_false, List.append_nil,
      List.filterMap_append, silent, silent2, v1, List.nil_append]
    rfl
  obtain ⟨ls', hl', hi⟩ := getline_lines (e.stdin.length + 2) e.stdin (Nat.le_refl _)
  unfold strings at hl
  rw [posix, if_pos rfl, hl'] at hl
  cases hl
  refine ⟨f, _, hi, ?_⟩
  unfold ToolRun.output
  rw [he, q1, if_pos rfl, List.nil_append, List.filterMap_append, htests, List.nil_append, List.filterMap_cons]
  simp only [List.cons.injEq, true_and]
  clear * -
  induction ls with
  | nil => rfl
  | cons l ls ih => rw [List.flatMap_cons, List.filterMap_append, ih]; rfl

/-- C60, negation: without `getline`, what follows a zero byte in a line does not matter. -/
theorem fgets_ignores_rest {t : ToolBuild} {e : Env} (noGetline : t.posix2008 = false) (buffer : 4 ≤ t.buffer_size)
    (x y : Byte) (hx : x ≠ 10) (hy : y ≠ 10) (rest : List Byte) (args : List String) :
    toolMain t { e with stdin := 0 :: x :: 10 :: rest } args = toolMain t { e with stdin := 0 :: y :: 10 :: rest } args := by
  have hstr : strings t (0 :: x :: 10 :: rest) = strings t (0 :: y :: 10 :: rest) := by
    obtain ⟨m, hm⟩ : ∃ m, t.buffer_size = m + 4 := ⟨t.buffer_size - 4, by omega⟩
    unfold strings
    rw [noGetline, if_neg (by simp), hm]
    have first : ∀ z : Byte, z ≠ 10 → fgets (m + 4) ⟨0 :: z :: 10 :: rest, false⟩ = (some [], ⟨rest, false⟩) := by
      intro z hz
      have hz' : ¬ z = 10#8 := hz
      unfold fgets
      simp [takeLine, hz']
    show stringLoop _ ((rest.length + 4) + 1) _ = stringLoop _ ((rest.length + 4) + 1) _
    unfold stringLoop
    rw [first x hx, first y hy]
  unfold toolMain
  show (match options t.build e.validGHz args with | .error r => some r | .ok fl => _) =
    (match options t.build e.validGHz args with | .error r => some r | .ok fl => _)
  cases options t.build e.validGHz args with
  | error r => rfl
  | ok fl =>
    simp only
    unfold toolRun testEvents verifyEvents highwayEvents
    simp only [hstr]

/-- C60, negation: without `getline`, a line of as many bytes as the buffer has is hashed in two pieces. -/
theorem fgets_splits {t : ToolBuild} {e : Env} {args : List String} {r : ToolRun} (h : toolMain t e args = some r)
    (hs : r.status = .success) (noHelp : NoHelp args) (asks : AsksStrings args) (noGetline : t.posix2008 = false)
    {l : List Byte} (hl : l ≠ []) (buffer : t.buffer_size = l.length + 1) (hz : 0 ∉ l) (hn : 10 ∉ l)
    (hin : e.stdin = l ++ [10]) :
    IsLines e.stdin [l ++ [10]] ∧ ∃ f before, (∀ x ∈ before, OfTests x) ∧
      r.events = before ++ .print (.header f) ::
        [l, [10]].flatMap (fun l => [.call f l 42, .print (.hash (e.hash f l 42))]) := by
  constructor
  · refine ⟨by simp [hin], by simp, ?_, by simp⟩
    intro x hx
    rw [List.mem_singleton] at hx
    subst hx
    rw [List.dropLast_concat]
    exact hn
  obtain ⟨f, ls, before, hl', h1, h2⟩ := strings_run h hs noHelp asks
  have key : strings t e.stdin = some [l, [10]] := by
    unfold strings
    rw [noGetline, if_neg (by simp), buffer, hin]
    obtain ⟨k, hk⟩ : ∃ k, l.length = k + 1 := by
      cases l with
      | nil => exact absurd rfl hl
      | cons _ l => exact ⟨l.length, rfl⟩
    have take : ∀ (l r : List Byte), 10 ∉ l → takeLine l.length (l ++ r) = (l, r, false) := by
      intro l
      induction l with
      | nil => intro r _; cases r <;> rfl
      | cons c l ih =>
        intro r hc
        simp only [List.mem_cons, not_or] at hc
        rw [List.length_cons, List.cons_append, takeLine, if_neg (Ne.symm hc.1), ih r hc.2]
    have whole : l.takeWhile (· ≠ 0) = l := by
      clear * - hz
      induction l with
      | nil => rfl
      | cons c l ih =>
        simp only [List.mem_cons, not_or] at hz
        rw [List.takeWhile_cons, if_pos (by simpa using Ne.symm hz.1), ih hz.2]
    have first : fgets (l.length + 1) ⟨l ++ [10], false⟩ = (some l, ⟨[10], false⟩) := by
      unfold fgets
      simp only [Nat.add_sub_cancel, take l [10] hn, Bool.false_eq_true, and_false, if_false, whole]
    have second : fgets (l.length + 1) ⟨[10], false⟩ = (some [10], ⟨[], false⟩) := by
      unfold fgets
      rw [hk]
      rfl
    have third : fgets (l.length + 1) ⟨[], false⟩ = (none, ⟨[], true⟩) := by
      unfold fgets
      rw [hk]
      rfl
    have hlen : (l ++ [10]).length + 2 = (k + 1) + 1 + 1 + 1 := by simp [hk]
    rw [hlen]
    simp only [stringLoop, Bool.false_eq_true, if_false, first, second, third, Option.map_some]
  rw [key] at hl'
  cases hl'
  exact ⟨f, before, h1, h2⟩

/-- `lines_hashed`, `output_hashes`: the hypotheses can be met; with two lines, of which the last one has no line feed,
and the test function of `fine` (seed and length). -/
example : ∃ r f, toolMain tool { fine with stdin := [65, 10, 66] } ["--hash-stdin-strings"] = some r ∧
    ToolRun.output r = [.header f, .hash 44, .hash 43] := by
  obtain ⟨r, h, hs⟩ : ∃ r, toolMain tool { fine with stdin := [65, 10, 66] } ["--hash-stdin-strings"] = some r ∧
      r.status = .success := ⟨_, rfl, rfl⟩
  obtain ⟨f, ls, hi, ho⟩ := output_hashes h hs ⟨by decide, by decide⟩ ⟨[], [], rfl, by decide, by decide, by decide⟩ rfl
    ⟨fun _ => rfl, rfl⟩ (by decide) (by decide)
  have hl : ls = [[65, 10], [66]] := hi.unique ⟨rfl, by decide, by decide, by decide⟩
  subst hl
  exact ⟨r, f, h, ho⟩

/-- `lines_hashed_fgets_partial`, `tool_terminates` -/
example : ∃ r f before, toolMain { tool with posix2008 := false } { fine with stdin := [65, 10, 66] }
      ["--hash-stdin-strings"] = some r ∧
    r.events = before ++ [.print (.header f), .call f [65, 10] 42, .print (.hash 44), .call f [66] 42,
      .print (.hash 43)] := by
  obtain ⟨r, h⟩ := tool_terminates { tool with posix2008 := false } { fine with stdin := [65, 10, 66] }
    ["--hash-stdin-strings"] (Or.inr (by decide))
  have hs : r.status = .success := by
    have : (toolMain { tool with posix2008 := false } { fine with stdin := [65, 10, 66] }
      ["--hash-stdin-strings"]).map (·.status) = some .success := rfl
    rw [h] at this
    exact Option.some.inj this
  obtain ⟨f, before, -, he⟩ := lines_hashed_fgets_partial h hs ⟨by decide, by decide⟩
    ⟨[], [], rfl, by decide, by decide, by decide⟩ rfl (by decide) (ls := [[65, 10], [66]])
    ⟨rfl, by decide, by decide, by decide⟩ (by decide)
  exact ⟨r, f, before, h, he⟩

/-- `fgets_ignores_rest` -/
example : toolMain { tool with posix2008 := false } { fine with stdin := [0, 1, 10] } ["--hash-stdin-strings"] =
    toolMain { tool with posix2008 := false } { fine with stdin := [0, 2, 10] } ["--hash-stdin-strings"] :=
  fgets_ignores_rest rfl (by decide) 1 2 (by decide) (by decide) [] _

/-- `fgets_splits` -/
example : ∃ r f, toolMain { tool with posix2008 := false, buffer_size := 3 } { fine with stdin := [65, 66, 10] }
      ["--hash-stdin-strings"] = some r ∧ .call f [65, 66] 42 ∈ r.events := by
  obtain ⟨r, h, hs⟩ : ∃ r, toolMain { tool with posix2008 := false, buffer_size := 3 }
      { fine with stdin := [65, 66, 10] } ["--hash-stdin-strings"] = some r ∧ r.status = .success := ⟨_, rfl, rfl⟩
  obtain ⟨-, f, before, -, he⟩ := fgets_splits h hs ⟨by decide, by decide⟩
    ⟨[], [], rfl, by decide, by decide, by decide⟩ rfl (l := [65, 66]) (by simp) rfl (by decide) (by decide) rfl
  exact ⟨r, f, h, by rw [he]; simp⟩

/-! ## C61: the function which hashes the lines -/

/-- The functions which may hash the lines, in the order in which they are considered, with the options which include
or exclude them. -/
def stringFunctions : List (ToolHash × List String) :=
  [(.highway_pure_c, ["highway", "highwayhash"]), (.xxhash64, ["64", "xxhash"]), (.xxhash32, ["32", "xxhash"]),
    (.stadtx, ["64", "stadtx"]), (.wyhash, ["64", "wyhash"]), (.t1ha2_atonce, ["64", "2"]),
    (.t1ha1_le, ["64", "le", "1"]), (.t1ha1_be, ["64", "be", "1"]), (.t1ha0_32le, ["32", "le", "0"]),
    (.t1ha0_32be, ["32", "be", "0"]), (.t1ha0, ["0"]), (.xxh3_64, ["xxhash"])]

/-- The function is part of the build and chosen: none of its options is refused, and one of them is given, or no
function is chosen at all and it belongs to t1ha2. -/
def StringChosen (b : Build) (args : List String) (z : ToolHash × List String) : Prop :=
  Compiled b z.1 ∧ (∀ n ∈ z.2, "--no-" ++ n ∉ args) ∧
  ((∃ n ∈ z.2, "--" ++ n ∈ args) ∨ "2" ∈ z.2 ∧ ∀ n ∈ functionOptions, "--" ++ n ∉ args)

theorem stringChosen_iff (b : Build) (args : List String) (z : ToolHash × List String) : StringChosen b args z ↔
    Compiled b z.1 ∧ ((asked args z.2 || !asked args functionOptions && ("2" ∈ z.2 : Bool)) &&
      !refused args z.2) = true := by
  unfold StringChosen
  rw [Bool.and_eq_true, Bool.or_eq_true, Bool.and_eq_true, Bool.not_eq_true', Bool.not_eq_true', decide_eq_true_eq,
    asked_iff (names := z.2)]
  have h1 : refused args z.2 = false ↔ ∀ n ∈ z.2, "--no-" ++ n ∉ args := by
    rw [← Bool.not_eq_true, refused_iff]; push Not; rfl
  have h2 : asked args functionOptions = false ↔ ∀ n ∈ functionOptions, "--" ++ n ∉ args := by
    rw [← Bool.not_eq_true, asked_iff]; push Not; rfl
  rw [h1, h2]
  constructor
  · rintro ⟨a, b, c | ⟨d, e⟩⟩
    · exact ⟨a, Or.inl c, b⟩
    · exact ⟨a, Or.inr ⟨e, d⟩, b⟩
  · rintro ⟨a, c | ⟨e, d⟩, b⟩
    · exact ⟨a, b, Or.inl c⟩
    · exact ⟨a, b, Or.inr ⟨d, e⟩⟩

/-- The first one of a list. -/
def IsFirst {α : Type} (P : α → Prop) (l : List α) (x : α) : Prop :=
  ∃ before after, l = before ++ x :: after ∧ P x ∧ ∀ y ∈ before, ¬ P y

theorem isFirst_cons_pos {α : Type} {P : α → Prop} {x y : α} {l : List α} (h : P x) :
    IsFirst P (x :: l) y ↔ y = x := by
  constructor
  · rintro ⟨before, after, e, hy, hb⟩
    cases before with
    | nil => cases e; rfl
    | cons z before =>
      simp only [List.cons_append, List.cons.injEq] at e
      exact absurd h (by rw [e.1]; exact hb z List.mem_cons_self)
  · rintro rfl
    exact ⟨[], l, rfl, h, by simp⟩

theorem isFirst_cons_neg {α : Type} {P : α → Prop} {x y : α} {l : List α} (h : ¬ P x) :
    IsFirst P (x :: l) y ↔ IsFirst P l y := by
  constructor
  · rintro ⟨before, after, e, hy, hb⟩
    cases before with
    | nil => cases e; exact absurd hy h
    | cons z before =>
      simp only [List.cons_append, List.cons.injEq] at e
      exact ⟨before, after, e.2, hy, fun w hw => hb w (List.mem_cons_of_mem _ hw)⟩
  · rintro ⟨before, after, rfl, hy, hb⟩
    refine ⟨x :: before, after, rfl, hy, fun w hw => ?_⟩
    rcases List.mem_cons.1 hw with rfl | hw
    · exact h
    · exact hb w hw

/-- The choice, by conditions. -/
theorem first_of {P : ToolHash × List String → Prop} {f : ToolHash} {n : List String} {c : Bool}
    {l : List (ToolHash × List String)} {o : Option ToolHash} (hc : c = true ↔ P (f, n)) {g : ToolHash}
    (ih : o = some g → ∃ n, IsFirst P l (g, n)) (h : (if c then some f else o) = some g) :
    ∃ m, IsFirst P ((f, n) :: l) (g, m) := by
  cases c with
  | true => cases h; exact ⟨n, (isFirst_cons_pos (hc.1 rfl)).2 rfl⟩
  | false =>
    obtain ⟨m, hm⟩ := ih h
    exact ⟨m, (isFirst_cons_neg (fun hp => by have := hc.2 hp; cases this)).2 hm⟩

theorem one_header {b : Build} {e : Env} {fl : Flags} {r : ToolRun} {f : ToolHash} {ls : List (List Byte)}
    (h : r.events = (if fl.is_option_set test_quiet then [] else [.print .buildInfo, .print .selfcheckPassed]) ++
      testEvents b e fl ++ .print (.header f) ::
        ls.flatMap (fun l => [.call f l 42, .print (.hash (e.hash f l 42))])) (g : ToolHash) :
    .print (.header g) ∈ r.events ↔ g = f := by
  have h1 : Event.print (.header g) ∉ testEvents b e fl := fun hm => ofTests b e fl _ hm
  have h2 : Event.print (.header g) ∉
      (if fl.is_option_set test_quiet = true then [] else [Event.print .buildInfo, .print .selfcheckPassed]) := by
    split <;> simp
  rw [h]
  simp [h1, h2]

/-- C61: the lines are hashed by the first function of the list which the arguments choose. -/
theorem string_function {t : ToolBuild} {e : Env} {args : List String} {r : ToolRun} (h : toolMain t e args = some r)
    (hs : r.status = .success) (noHelp : NoHelp args) (strings : "--hash-stdin-strings" ∈ args) (plain : PlainRun args)
    (noBenchAll : "--bench-all" ∉ args) :
    ∃ f names, IsFirst (StringChosen t.build args) stringFunctions (f, names) ∧
      ∀ g, .print (.header g) ∈ r.events ↔ g = f := by
  have asks : AsksStrings args := by
    obtain ⟨pre, post, rfl⟩ := List.append_of_mem strings
    obtain ⟨p1, p2, p3, -⟩ := plain
    exact ⟨pre, post, rfl, fun hm => p1 (by simp [hm]), fun hm => p2 (by simp [hm]), fun hm => p3 (by simp [hm])⟩
  obtain ⟨g, hg, k1, k2, hr⟩ := strings_flags h hs noHelp asks
  have k2' : (withDefaults g).option_flags.getLsbD 2 = true := by
    rw [withDefaults_other g (by decide) (by decide), k2]
  obtain ⟨f, ls, hf, -, -, he⟩ := toolRun_strings hr hs k2'
  have hh := one_header (e := e) (f := f) (ls := ls) he
  suffices ∃ names, IsFirst (StringChosen t.build args) stringFunctions (f, names) by
    obtain ⟨n, hn⟩ := this
    exact ⟨f, n, hn, hh⟩
  clear hh he hr h hs ls
  have hreset := plain.reset noBenchAll
  have S := says_main hreset hg (featuresAtTests t.build e.cpu)
  rw [k2, anyFunc_options hreset hg] at S
  simp only [if_true] at S
  generalize aesFlags t.build (featuresAtTests t.build e.cpu) (withDefaults g) = fl at S hf
  have two := @Says.two _ _ _ S
  have three := @Says.three _ _ _ S
  have one := @Says.one _ _ _ S
  have highway := @one ["highway", "highwayhash"] 5 (by decide)
  have x64 := @two ["64"] ["xxhash"] 25 4 (by decide) (by decide)
  have x32 := @two ["32"] ["xxhash"] 24 4 (by decide) (by decide)
  have stadtx := @two ["64"] ["stadtx"] 25 6 (by decide) (by decide)
  have wyhash := @two ["64"] ["wyhash"] 25 7 (by decide) (by decide)
  have t2 := @two ["64"] ["2"] 25 10 (by decide) (by decide)
  have t1l := @three ["64"] ["le"] ["1"] 25 26 9 (by decide) (by decide) (by decide)
  have t1b := @three ["64"] ["be"] ["1"] 25 27 9 (by decide) (by decide) (by decide)
  have t0l := @three ["32"] ["le"] ["0"] 24 26 8 (by decide) (by decide) (by decide)
  have t0b := @three ["32"] ["be"] ["0"] 24 27 8 (by decide) (by decide) (by decide)
  have zero := @one ["0"] 8 (by decide)
  have xxh := @one ["xxhash"] 4 (by decide)
  clear one two three
  simp only [List.cons_append, List.nil_append, Nat.reduceEqDiff, decide_true, decide_false, Bool.and_true,
    Bool.and_false, Bool.or_false, Bool.false_or] at xxh highway x64 x32 stadtx wyhash zero t2 t1l t1b t0l t0b
  unfold stringFn at hf
  revert hf
  unfold stringFunctions
  refine first_of (by rw [show bench_highwayhash = 1#32 <<< 5 from rfl, highway, stringChosen_iff]; simp [Compiled]) ?_
  refine first_of (by
    rw [show bench_64 ||| bench_xxhash = 1#32 <<< 25 ||| 1#32 <<< 4 from rfl, x64, stringChosen_iff]
    simp [Compiled]) ?_
  refine first_of (by
    rw [show bench_32 ||| bench_xxhash = 1#32 <<< 24 ||| 1#32 <<< 4 from rfl, x32, stringChosen_iff]
    simp [Compiled]) ?_
  refine first_of (by
    rw [show bench_64 ||| bench_stadtx = 1#32 <<< 25 ||| 1#32 <<< 6 from rfl, stadtx, stringChosen_iff]
    simp [Compiled]) ?_
  refine first_of (by
    rw [show bench_64 ||| bench_wyhash = 1#32 <<< 25 ||| 1#32 <<< 7 from rfl, wyhash, stringChosen_iff]
    simp [Compiled]) ?_
  refine first_of (by
    rw [show bench_64 ||| bench_2 = 1#32 <<< 25 ||| 1#32 <<< 10 from rfl, t2, stringChosen_iff]
    simp [Compiled]) ?_
  refine first_of (by
    rw [show bench_64 ||| bench_le ||| bench_1 = 1#32 <<< 25 ||| 1#32 <<< 26 ||| 1#32 <<< 9 from rfl, t1l,
      stringChosen_iff]
    simp [Compiled]) ?_
  refine first_of (by
    rw [show bench_64 ||| bench_be ||| bench_1 = 1#32 <<< 25 ||| 1#32 <<< 27 ||| 1#32 <<< 9 from rfl, t1b,
      stringChosen_iff]
    simp [Compiled]) ?_
  refine first_of (by
    rw [show bench_32 ||| bench_le ||| bench_0 = 1#32 <<< 24 ||| 1#32 <<< 26 ||| 1#32 <<< 8 from rfl, t0l,
      stringChosen_iff]
    simp [Compiled]) ?_
  refine first_of (by
    rw [show bench_32 ||| bench_be ||| bench_0 = 1#32 <<< 24 ||| 1#32 <<< 27 ||| 1#32 <<< 8 from rfl, t0b,
      stringChosen_iff]
    simp [Compiled]) ?_
  refine first_of (by rw [show bench_0 = 1#32 <<< 8 from rfl, zero, stringChosen_iff]; simp [Compiled]) ?_
  refine first_of (by rw [show bench_xxhash = 1#32 <<< 4 from rfl, xxh, stringChosen_iff]; simp [Compiled]) ?_
  intro hf
  cases hf

/-- C61: if no function is named, `t1ha2_atonce` hashes the lines. -/
theorem default_string_function {t : ToolBuild} {e : Env} {args : List String} {r : ToolRun}
    (h : toolMain t e args = some r) (hs : r.status = .success) (noHelp : NoHelp args)
    (strings : "--hash-stdin-strings" ∈ args) (plain : PlainRun args) (noBenchAll : "--bench-all" ∉ args)
    (default : ∀ n ∈ functionOptions, "--" ++ n ∉ args) : .print (.header .t1ha2_atonce) ∈ r.events := by
  obtain ⟨f, names, hf, hu⟩ := string_function h hs noHelp strings plain noBenchAll
  rw [hu]
  obtain ⟨before, after, e1, ⟨-, -, hc⟩, -⟩ := hf
  have hm : (f, names) ∈ stringFunctions := by rw [e1]; simp
  rcases hc with ⟨n, hn, ha⟩ | ⟨hc, -⟩
  · have c : ∀ z ∈ stringFunctions, ∀ n ∈ z.2, n ∈ functionOptions := by decide
    exact absurd ha (default n (c _ hm n hn))
  · have c : ∀ z ∈ stringFunctions, "2" ∈ z.2 → z.1 = .t1ha2_atonce := by decide
    exact (c _ hm hc).symm

/-- C61, negation: `--0` includes t1ha0, but `t1ha0` hashes the lines only if the 32-bit functions are excluded. -/
theorem t1ha0_avoided {t : ToolBuild} {e : Env} {args : List String} {r : ToolRun} (h : toolMain t e args = some r)
    (hs : r.status = .success) (noHelp : NoHelp args) (strings : "--hash-stdin-strings" ∈ args) (plain : PlainRun args)
    (noBenchAll : "--bench-all" ∉ args) (used : .print (.header .t1ha0) ∈ r.events) :
    "--no-32" ∈ args ∨ "--no-le" ∈ args ∧ "--no-be" ∈ args := by
  obtain ⟨f, names, hf, hu⟩ := string_function h hs noHelp strings plain noBenchAll
  rw [hu] at used
  subst used
  by_contra hc
  push Not at hc
  unfold stringFunctions at hf
  have len : ∀ {P : ToolHash × List String → Prop} {l : List (ToolHash × List String)} {x},
      IsFirst P l x → x ∈ l ∧ P x := by
    rintro P l x ⟨before, after, rfl, hx, -⟩
    exact ⟨by simp, hx⟩
  obtain ⟨hm, h0, hno, hyes⟩ := len hf
  have hn : names = ["0"] := by
    simp only [List.mem_cons, Prod.mk.injEq, reduceCtorEq, false_and, List.not_mem_nil, or_false, false_or,
      true_and] at hm
    exact hm
  subst hn
  have h32 : ∀ n, n = "le" ∨ n = "be" → "--no-" ++ n ∉ args → Compiled t.build .t1ha0_32le →
      (∀ m ∈ ["32", n, "0"], "--no-" ++ m ∉ args) ∧ ∃ m ∈ ["32", n, "0"], "--" ++ m ∈ args := by
    intro n _ hn _
    constructor
    · intro m hm
      simp only [List.mem_cons, List.not_mem_nil, or_false] at hm
      rcases hm with rfl | rfl | rfl
      · exact hc.1
      · exact hn
      · exact hno "0" (by simp)
    · refine ⟨"0", by simp, ?_⟩
      rcases hyes with ⟨m, hm, ha⟩ | ⟨hm, -⟩
      · simp only [List.mem_singleton] at hm; subst hm; exact ha
      · simp at hm
  -- one of the two functions before it is chosen
  obtain ⟨before, after, e1, -, hb⟩ := hf
  have hle : (ToolHash.t1ha0_32le, ["32", "le", "0"]) ∈ before ∧ (ToolHash.t1ha0_32be, ["32", "be", "0"]) ∈ before := by
    have hlen : before.length = 10 := by
      have hi := congrArg (fun l => l.map Prod.fst) e1
      simp only [List.map_cons, List.map_append, List.map_nil] at hi
      have hnot : ∀ i < 12, i ≠ 10 → (stringFunctions.map Prod.fst)[i]? ≠ some .t1ha0 := by decide
      have hlt : before.length < 12 := by
        have := congrArg List.length e1
        simp only [List.length_cons, List.length_append, List.length_nil] at this
        omega
      by_contra hne
      refine hnot _ hlt hne ?_
      show [ToolHash.highway_pure_c, .xxhash64, .xxhash32, .stadtx, .wyhash, .t1ha2_atonce, .t1ha1_le, .t1ha1_be,
        .t1ha0_32le, .t1ha0_32be, .t1ha0, .xxh3_64][before.length]? = _
      rw [hi, List.getElem?_append_right (by simp), List.length_map, Nat.sub_self]
      rfl
    have hb' : before = stringFunctions.take 10 := by
      unfold stringFunctions
      rw [e1, ← hlen, List.take_left]
    rw [hb']
    decide
  by_cases hl : "--no-le" ∈ args
  · have := h32 "be" (Or.inr rfl) (hc.2 hl) h0
    exact hb _ hle.2 ⟨h0, this.1, Or.inl this.2⟩
  · have := h32 "le" (Or.inl rfl) hl h0
    exact hb _ hle.1 ⟨h0, this.1, Or.inl this.2⟩

/-- C58, C61, negation: after `--bench-all` nothing is benchmarked, and the lines of standard input are hashed
instead, though nothing asks for this: by HighwayHash64, unless this is excluded. -/
theorem bench_all_hashes_stdin {t : ToolBuild} {e : Env} {pre post : List String} {r : ToolRun}
    (h : toolMain t e (pre ++ "--bench-all" :: post) = some r) (hs : r.status = .success)
    (noHelp : NoHelp (pre ++ "--bench-all" :: post)) (plain : PlainRun post) (noBenchAll : "--bench-all" ∉ post) :
    (∀ size, ¬ ToolRun.Benchmarks r size) ∧ (∀ size f, .bench size f ∉ r.events) ∧
    ∃ f ls, strings t e.stdin = some ls ∧ .print (.header f) ∈ r.events ∧ (∀ l ∈ ls, .call f l 42 ∈ r.events) ∧
      ("--no-highway" ∉ post → "--no-highwayhash" ∉ post → f = .highway_pure_c) := by
  obtain ⟨p1, p2, p3, p4⟩ := plain
  rcases toolMain_cases h with g1 | ⟨g1, g2⟩ | ⟨g1, g2⟩ | ⟨g1, g, hg, hr⟩
  · rw [hs] at g1; cases g1.1
  · exact absurd g2 (by unfold NoHelp at noHelp; tauto)
  · simp at g1
  obtain ⟨k1, k2⟩ := kept_flags (Or.inr rfl) p1 p2 p3 hg
  have k2' : (withDefaults g).option_flags.getLsbD 2 = true := by
    rw [withDefaults_other g (by decide) (by decide), k2]
  obtain ⟨f, ls, hf, hl, -, he⟩ := toolRun_strings hr hs k2'
  have tests : ∀ x ∈ testEvents t.build e (withDefaults g), OfTests x := ofTests _ _ _
  refine ⟨?_, ?_, f, ls, hl, ?_, ?_, ?_⟩
  · intro size hb
    have h1 : Event.print (.benchFor size) ∉ testEvents t.build e (withDefaults g) := fun hm => tests _ hm
    unfold ToolRun.Benchmarks at hb
    rw [he] at hb
    split at hb <;> simp [h1] at hb
  · intro size f' hb
    have h1 : Event.bench size f' ∉ testEvents t.build e (withDefaults g) := fun hm => tests _ hm
    rw [he] at hb
    split at hb <;> simp [h1] at hb
  · rw [he]; simp
  · intro l hl
    rw [he]
    refine List.mem_append_right _ (List.mem_cons_of_mem _ (List.mem_flatMap.2 ⟨l, hl, by simp⟩))
  · intro n1 n2
    have S := says_all (Or.inr rfl) p1 p2 p3 p4 noBenchAll hg (featuresAtTests t.build e.cpu)
    have hw := S.one (n₁ := ["highway", "highwayhash"]) (k₁ := 5) (by decide)
    have hr : refused post ["highway", "highwayhash"] = false := by
      rw [← Bool.not_eq_true, refused_iff]
      rintro ⟨n, hn, hm⟩
      simp only [List.mem_cons, List.not_mem_nil, or_false] at hn
      rcases hn with rfl | rfl
      · exact n1 hm
      · exact n2 hm
    rw [hr, Bool.or_true] at hw
    unfold stringFn at hf
    rw [show bench_highwayhash = 1#32 <<< 5 from rfl, hw] at hf
    cases hf
    rfl

/-- `string_function`, `t1ha0_avoided`: the hypotheses can be met, and `--0` leads to `t1ha0_32le`. -/
example : ∃ r, toolMain tool fine ["--0", "--hash-stdin-strings"] = some r ∧
    .print (.header .t1ha0) ∉ r.events ∧ .print (.header .t1ha0_32le) ∈ r.events := by
  obtain ⟨r, h, hs, hm⟩ : ∃ r, toolMain tool fine ["--0", "--hash-stdin-strings"] = some r ∧ r.status = .success ∧
      .print (.header .t1ha0_32le) ∈ r.events := ⟨_, rfl, rfl, by decide⟩
  refine ⟨r, h, fun hc => ?_, hm⟩
  have := t1ha0_avoided h hs ⟨by decide, by decide⟩ (by decide) (by unfold PlainRun; decide) (by decide) hc
  revert this
  decide

/-- `t1ha0` can be used. -/
example : ∃ r, toolMain tool fine ["--0", "--no-32", "--hash-stdin-strings"] = some r ∧
    .print (.header .t1ha0) ∈ r.events := ⟨_, rfl, by decide⟩

/-- `default_string_function` -/
example : ∃ r, toolMain tool fine ["--hash-stdin-strings"] = some r ∧
    .print (.header .t1ha2_atonce) ∈ r.events := by
  obtain ⟨r, h, hs⟩ : ∃ r, toolMain tool fine ["--hash-stdin-strings"] = some r ∧ r.status = .success := ⟨_, rfl, rfl⟩
  exact ⟨r, h, default_string_function h hs ⟨by decide, by decide⟩ (by decide) (by unfold PlainRun; decide) (by decide)
    (by decide)⟩

/-- `bench_all_hashes_stdin` -/
example : ∃ r, toolMain tool { fine with stdin := [65, 10] } ["--tiny", "--bench-all"] = some r ∧
    ∃ f, .call f [65, 10] 42 ∈ r.events := by
  obtain ⟨r, h, hs⟩ : ∃ r, toolMain tool { fine with stdin := [65, 10] } ["--tiny", "--bench-all"] = some r ∧
      r.status = .success := ⟨_, rfl, rfl⟩
  obtain ⟨-, -, f, ls, hl, -, hc, -⟩ := bench_all_hashes_stdin (pre := ["--tiny"]) (post := []) h hs
    ⟨by decide, by decide⟩ (by unfold PlainRun; decide) (by decide)
  have : ls = [[65, 10]] := by
    have e : strings tool [65, 10] = some [[65, 10]] := rfl
    rw [e] at hl
    exact (Option.some.inj hl).symm
  subst this
  exact ⟨r, h, f, hc _ (by simp)⟩

end T1ha.Props
