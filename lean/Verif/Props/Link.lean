import Verif.Model.Link
import Verif.Props.Target

/-!
# Linking: C45-C47
-/

namespace T1ha.Props

open Model Examples

/-- The symbol is defined by exactly one of the files. -/
def DefinedOnce (files : List Src) (k : Sections) (s : Symbol) : Prop :=
  (files.flatMap (Src.defines k)).count s = 1

/-- None of the files defines the symbol. -/
def Undefined (files : List Src) (k : Sections) (s : Symbol) : Prop :=
  s ∉ files.flatMap (Src.defines k)

instance (files : List Src) (k : Sections) (s : Symbol) : Decidable (DefinedOnce files k s) := by
  unfold DefinedOnce; infer_instance

instance (files : List Src) (k : Sections) (s : Symbol) : Decidable (Undefined files k s) := by
  unfold Undefined; infer_instance

/-- A program which uses anything that t1ha.h declares can be linked with these files. -/
def Complete (files : List Src) (k : Sections) : Prop :=
  (∀ s ∈ declaredApi k ++ declaredPlain k ++ callsT1ha0 k, DefinedOnce files k s) ∧
  (∀ f ∈ files, ∀ s ∈ f.refers k, DefinedOnce files k s)

instance (files : List Src) (k : Sections) : Decidable (Complete files k) := by
  unfold Complete; infer_instance

private def choice (big wide n1 n2 : Bool) : Fn :=
  if wide && (!n1 || !n2) then
    if n1 then .t1ha2_atonce else if big then .t1ha1_be else .t1ha1_le
  else if big then .t1ha0_32be else .t1ha0_32le

private def flags (n0 n1 n2 a : Bool) (arch : Arch) (rt : Bool) (k : Binding) (wide big : Bool) : Sections :=
  ⟨n0, n1, n2, a, arch, rt, k, wide, choice big wide n1 n2, choice big wide n1 n2⟩

private theorem sections_eq (b : Build) (k : Binding) :
    b.sections k = flags b.no0 b.no1 b.no2 b.aesniAvailable b.arch b.runtimeSelect k b.cfg.word64
      (b.cfg.endian == .big) := by
  unfold Build.sections flags t1ha0_resolve_portable t1ha0_static choice
  cases b.cfg.endian <;> cases b.no1 <;> cases b.no2 <;> cases b.cfg.word64 <;> simp

private theorem all_makefile (n0 n1 n2 a : Bool) (arch : Arch) (rt : Bool) (k : Binding) (wide big : Bool)
    (h : arch = .other → a = false) : Complete (makefile arch) (flags n0 n1 n2 a arch rt k wide big) := by
  cases arch with
  | other =>
    cases h rfl
    revert n0 n1 n2 rt wide big
    cases k <;> decide +kernel
  | _ =>
    clear h
    revert n0 n1 n2 a rt wide big
    cases k <;> decide +kernel

/-- C45, Makefile: if Makefile recognises the processor, everything which the header declares, and everything
which the files of the library need, is defined exactly once: for all processors, compilers and options,
except for AES-NI forced on a processor without it (that does not compile). -/
theorem makefile_links (b : Build) (k : Binding) (compiles : b.arch = .other → b.aesni ≠ some true) :
    Complete (makefile b.arch) (b.sections k) := by
  rw [sections_eq]
  exact all_makefile _ _ _ _ _ _ _ _ _ (no_aes b compiles)

/-- GCC for x86-64: `t1ha0` is an indirect function, `t1ha0_resolve` needs all the implementations. -/
example : Complete (makefile (gccAmd64.build amd64).arch) ((gccAmd64.build amd64).sections gccAmd64.binding) ∧
    Src.refers ((gccAmd64.build amd64).sections gccAmd64.binding) .t1ha0 =
      [.t1ha0_ia32aes_avx2, .t1ha0_ia32aes_avx, .t1ha0_ia32aes_noavx, .t1ha1_le] :=
  ⟨makefile_links _ _ (fun h => absurd h (by decide +kernel)), by decide +kernel⟩

private theorem all_visualStudio (n0 n1 n2 a : Bool) (arch : Arch) (rt : Bool) (wide big : Bool)
    (h : arch = .other → a = false) (h' : arch ≠ .e2k) :
    Complete visualStudio (flags n0 n1 n2 a arch rt .proxy wide big) := by
  cases arch with
  | e2k => exact absurd rfl h'
  | other =>
    cases h rfl
    revert n0 n1 n2 rt wide big
    decide +kernel
  | ia32 =>
    clear h h'
    revert n0 n1 n2 a rt wide big
    decide +kernel

/-- C45, Visual Studio: likewise. -/
theorem visual_studio_links (b : Build) (compiles : b.arch = .other → b.aesni ≠ some true)
    (windows : b.arch ≠ .e2k) : Complete visualStudio (b.sections .proxy) := by
  rw [sections_eq]
  exact all_visualStudio _ _ _ _ _ _ _ _ (no_aes b compiles) windows

example : Complete visualStudio ((msvcX86.build { mips32 with endian := .little }).sections .proxy) :=
  visual_studio_links _ (fun h => absurd h (by decide +kernel)) (by decide +kernel)

/-- The functions of the self-check. -/
def IsSelfcheck (s : Symbol) : Prop :=
  s ∈ [.t1ha_selfcheck__all_enabled, .t1ha_selfcheck__t1ha2_atonce, .t1ha_selfcheck__t1ha2_atonce128,
    .t1ha_selfcheck__t1ha2_stream, .t1ha_selfcheck__t1ha2, .t1ha_selfcheck__t1ha1_le,
    .t1ha_selfcheck__t1ha1_be, .t1ha_selfcheck__t1ha1, .t1ha_selfcheck__t1ha0_32le,
    .t1ha_selfcheck__t1ha0_32be, .t1ha_selfcheck__t1ha0, .t1ha_selfcheck__t1ha0_ia32aes_noavx,
    .t1ha_selfcheck__t1ha0_ia32aes_avx, .t1ha_selfcheck__t1ha0_ia32aes_avx2]

instance (s : Symbol) : Decidable (IsSelfcheck s) := by unfold IsSelfcheck; infer_instance

private theorem all_meson_selfcheck (n0 n1 n2 a : Bool) (arch : Arch) (rt : Bool) (k : Binding)
    (wide big x86 : Bool) (s : Symbol) (hs : IsSelfcheck s) :
    Undefined (meson x86) (flags n0 n1 n2 a arch rt k wide big) s := by
  unfold Undefined meson
  intro h
  have hd : ∀ f ∈ ([.t1ha0, .t1ha1, .t1ha2] ++
      sect x86 [.t1ha0_ia32aes_noavx, .t1ha0_ia32aes_avx, .t1ha0_ia32aes_avx2] : List Src),
      ∀ s ∈ f.defines (flags n0 n1 n2 a arch rt k wide big), ¬ IsSelfcheck s := by
    cases arch <;> cases k <;> clear h hs <;> revert n0 n1 n2 a rt wide big x86 <;> decide +kernel
  obtain ⟨f, hf, h⟩ := List.mem_flatMap.1 h
  exact hd f hf s h hs

/-- C45 is false for the library of meson: the header declares the self-check, and no file defines it. -/
theorem meson_lacks_selfcheck (b : Build) (k : Binding) (x86 : Bool) :
    Symbol.t1ha_selfcheck__all_enabled ∈ declaredApi (b.sections k) ∧
    ∀ s ∈ declaredApi (b.sections k), IsSelfcheck s → Undefined (meson x86) (b.sections k) s := by
  refine ⟨by simp [declaredApi], fun s _ hs => ?_⟩
  rw [sections_eq]
  exact all_meson_selfcheck _ _ _ _ _ _ _ _ _ _ s hs

private theorem all_meson (n0 n1 n2 a : Bool) (arch : Arch) (rt : Bool) (k : Binding) (wide big : Bool)
    (h : arch ≠ .ia32 → a = false) :
    (∀ s ∈ declaredApi (flags n0 n1 n2 a arch rt k wide big) ++ declaredPlain (flags n0 n1 n2 a arch rt k wide big) ++
        callsT1ha0 (flags n0 n1 n2 a arch rt k wide big), ¬ IsSelfcheck s →
        DefinedOnce (meson (arch = .ia32)) (flags n0 n1 n2 a arch rt k wide big) s) ∧
    (∀ f ∈ meson (arch = .ia32), ∀ s ∈ f.refers (flags n0 n1 n2 a arch rt k wide big),
        DefinedOnce (meson (arch = .ia32)) (flags n0 n1 n2 a arch rt k wide big) s) := by
  cases arch with
  | ia32 =>
    clear h
    revert n0 n1 n2 a rt wide big
    cases k <;> decide +kernel
  | _ =>
    cases h (by decide)
    revert n0 n1 n2 rt wide big
    cases k <;> decide +kernel

/-- C45, in part, for the library of meson: everything but the self-check is there. Missing: the self-check
(`meson_lacks_selfcheck`), and Elbrus with AES, whose functions meson does not compile. -/
theorem meson_links_partial (b : Build) (k : Binding) (compiles : b.arch = .other → b.aesni ≠ some true)
    (elbrus : b.arch = .e2k → b.aesni = some false) :
    (∀ s ∈ declaredApi (b.sections k) ++ declaredPlain (b.sections k) ++ callsT1ha0 (b.sections k),
      ¬ IsSelfcheck s → DefinedOnce (meson (b.arch = .ia32)) (b.sections k) s) ∧
    (∀ f ∈ meson (b.arch = .ia32), ∀ s ∈ f.refers (b.sections k),
      DefinedOnce (meson (b.arch = .ia32)) (b.sections k) s) := by
  rw [sections_eq]
  refine all_meson _ _ _ _ _ _ _ _ _ fun h => ?_
  cases ha : b.arch with
  | ia32 => exact absurd ha h
  | other => exact no_aes b compiles ha
  | e2k => simp [Build.aesniAvailable, elbrus ha]

example : ∀ s ∈ [Symbol.t1ha0_resolve, .t1ha0, .t1ha1_le, .t1ha2_final],
    DefinedOnce (meson true) ((gccAmd64.build amd64).sections .ifunc) s := by
  have h := (meson_links_partial (gccAmd64.build amd64) .ifunc (by decide +kernel) (by decide +kernel)).1
  intro s hs
  refine h s ?_ ?_ <;> revert s <;> decide +kernel

/-- C45 needs that Makefile recognises the processor. If the compiler is for x86 but says so in a way which
Makefile does not know, the files of the library need functions which are not defined. -/
theorem makefile_must_recognise (b : Build) (k : Binding) (lines : List (List Char))
    (unknown : makefileTarget lines = .other) (x86 : b.arch = .ia32) (aes : Build.OffersAes b)
    (runtime : Build.SelectsAtRunTime b) (enabled : b.no0 = false) :
    ∃ f ∈ makefile (makefileTarget lines), ∃ s ∈ f.refers (b.sections k),
      Undefined (makefile (makefileTarget lines)) (b.sections k) s := by
  rw [unknown, sections_eq, x86, (offersAes_iff b).2 aes, (selectsAtRunTime_iff b).2 runtime, enabled]
  refine ⟨.t1ha0, by decide, .t1ha0_ia32aes_avx2, ?_, ?_⟩
  · simp [Src.refers, refers0, sect, flags]
  · generalize b.no1 = n1
    generalize b.no2 = n2
    generalize b.cfg.word64 = wide
    generalize (b.cfg.endian == .big) = big
    revert n1 n2 wide big
    cases k <;> decide +kernel

/-- The hypotheses about the build are those of a default build for x86-64. -/
example : let b := gccAmd64.build amd64
    b.arch = .ia32 ∧ Build.OffersAes b ∧ Build.SelectsAtRunTime b ∧ b.no0 = false := by decide +kernel

/-- What clang says on OpenBSD for x86-64. -/
def openbsd : List (List Char) :=
  ["OpenBSD clang version 16.0.6".toList, "Target: amd64-unknown-openbsd7.5".toList, "Thread model: posix".toList]

/-- C45 is false on OpenBSD: Makefile does not recognise the processor, so the library, built with the default
options, needs functions which are not defined. -/
theorem makefile_overlooks_openbsd :
    let b := gccAmd64.build amd64
    ∃ f ∈ makefile (makefileTarget openbsd), ∃ s ∈ f.refers (b.sections .ifunc),
      Undefined (makefile (makefileTarget openbsd)) (b.sections .ifunc) s :=
  makefile_must_recognise _ _ _ (by decide +kernel) (by decide +kernel) (by decide +kernel) (by decide +kernel)
    (by decide +kernel)

/-- The text contains the word, in upper or lower case. -/
def Mentions (word : String) (line : List Char) : Prop := word.toList <:+: line.map Char.toLower

private theorem hasWord_iff (word line : List Char) :
    hasWord word line = true ↔ word <:+: line.map Char.toLower := by
  induction line with
  | nil => simp [hasWord]
  | cons c line ih =>
    rw [hasWord, Bool.or_eq_true, ih, beginsWith, List.isPrefixOf_iff_prefix, List.map_cons, List.infix_cons_iff]

/-- C45: Makefile recognises compilers for x86 which say so in a line `Target: x86_64…` or `Target: i386-…` to
`Target: i686-…`, if the name of Elbrus, `e2k`, is in none of the lines (as part of a path, for example). It
recognises no other processor as x86 unless a line looks like that of an x86 compiler. -/
theorem makefile_recognises (lines : List (List Char)) (elbrus : ∀ l ∈ lines, ¬ Mentions "e2k" l) :
    (∀ rest, "Target: x86_64".toList ++ rest ∈ lines → makefileTarget lines = .ia32) ∧
    (∀ n ∈ ['3', '4', '5', '6'], ∀ rest, "Target: i".toList ++ n :: "86-".toList ++ rest ∈ lines →
      makefileTarget lines = .ia32) ∧
    ((∀ l ∈ lines, ¬ Mentions "x86_64" l ∧ ¬ Mentions "86-" l) → makefileTarget lines = .other) := by
  have h0 : lines.any (hasWord "e2k".toList) = false := by
    rw [List.any_eq_false]
    intro l hl h
    exact elbrus l hl ((hasWord_iff _ _).1 h)
  unfold makefileTarget
  rw [h0]
  simp only [Bool.false_eq_true, if_false]
  refine ⟨fun rest hm => ?_, fun n hn rest hm => ?_, fun h => ?_⟩
  · rw [if_pos]
    refine List.any_eq_true.2 ⟨_, hm, ?_⟩
    rw [Bool.or_eq_true]
    left
    rw [beginsWith, List.isPrefixOf_iff_prefix, List.map_append]
    exact ⟨rest.map Char.toLower, by congr 1⟩
  · rw [if_pos]
    refine List.any_eq_true.2 ⟨_, hm, ?_⟩
    rw [Bool.or_eq_true]
    right
    refine List.any_eq_true.2 ⟨String.ofList ('i' :: n :: "86-".toList), ?_, ?_⟩
    · clear hm; revert n; decide +kernel
    · rw [hasWord_iff]
      refine ⟨"target: ".toList, rest.map Char.toLower, ?_⟩
      rw [List.map_append]
      congr 1
      clear hm
      revert n; decide +kernel
  · rw [if_neg]
    intro ha
    obtain ⟨l, hl, hx⟩ := List.any_eq_true.1 ha
    obtain ⟨h1, h2⟩ := h l hl
    rw [Bool.or_eq_true] at hx
    rcases hx with hx | hx
    · rw [beginsWith, List.isPrefixOf_iff_prefix] at hx
      exact h1 (List.IsInfix.trans (by exact ⟨"target: ".toList, [], by decide⟩) hx.isInfix)
    · obtain ⟨x, hx1, hx2⟩ := List.any_eq_true.1 hx
      rw [hasWord_iff] at hx2
      refine h2 (List.IsInfix.trans ?_ hx2)
      revert x
      intro x hx1 _
      simp only [List.mem_cons, List.not_mem_nil, or_false] at hx1
      rcases hx1 with rfl | rfl | rfl | rfl <;> decide +kernel

instance (word : String) (line : List Char) : Decidable (Mentions word line) := by
  unfold Mentions; infer_instance

/-- What GCC says on Linux, for a 64-bit and for a 32-bit processor, and for another one. -/
example : makefileTarget ["gcc (GCC) 12.2.0".toList, "Target: x86_64-linux-gnu".toList] = .ia32 ∧
    makefileTarget ["gcc (GCC) 12.2.0".toList, "Target: i686-linux-gnu".toList] = .ia32 ∧
    makefileTarget ["gcc (GCC) 12.2.0".toList, "Target: arm-linux-gnueabihf".toList] = .other :=
  ⟨(makefile_recognises _ (by decide +kernel)).1 "-linux-gnu".toList (by decide +kernel),
    (makefile_recognises _ (by decide +kernel)).2.1 '6' (by decide) "linux-gnu".toList (by decide +kernel),
    (makefile_recognises _ (by decide +kernel)).2.2 (by decide +kernel)⟩

/-! ## C46 -/

/-- A compiler for a system which uses ELF, GCC 4 or one which claims to be compatible with it. -/
structure ElfGcc (t : Target) : Prop where
  elf : (t.macros "__ELF__").isSome
  gcc : ∃ v, t.macros "__GNUC__" = some v ∧ 4 ≤ v
  minor : (t.macros "__GNUC_MINOR__").isSome

/-- The compiler of the shared library: Makefile and meson.build say `-Dt1ha_EXPORTS`. -/
def Exporting (t : Target) : Prop := (t.macros "t1ha_EXPORTS").isSome

/-- The compiler of a program has been told that t1ha is a shared library. -/
def Importing (t : Target) : Prop := (t.macros "t1ha_IMPORTS").isSome

/-- A program, compiled by `p` with the declarations `kp`, can use the symbol from a shared library, compiled by
`t` with the sections `k`: the program allows that the symbol is in a shared library, and the library exports
it. -/
def Usable (p : Target) (kp : Sections) (t : Target) (files : List Src) (k : Sections) (s : Symbol) : Prop :=
  visibility p kp s = .default ∧ s ∈ exported t files k

theorem ElfGcc.pragma {t : Target} (h : ElfGcc t) : t.pragmaVisibility = .hidden := by
  obtain ⟨v, hv, h4⟩ := h.gcc
  obtain ⟨m, hm⟩ := Option.isSome_iff_exists.1 h.minor
  unfold Target.pragmaVisibility Target.gnucPrereq Target.defd Target.num
  simp only [hv, hm, Option.isSome_some, Option.getD_some, Bool.and_self, Bool.true_and, decide_eq_true_eq]
  rw [if_pos]
  simp only [Nat.shiftLeft_eq]
  omega

theorem ElfGcc.api {t : Target} (h : ElfGcc t) (he : Exporting t ∨ Importing t) : t.apiAttribute = some .default := by
  obtain ⟨v, hv, h4⟩ := h.gcc
  unfold Target.apiAttribute Target.defd
  rcases he with he | he
  · unfold Exporting at he; simp [he, hv]
  · unfold Importing at he; simp [he, hv]

theorem no_attribute {t : Target} (h1 : ¬ Exporting t) (h2 : ¬ Importing t) : t.apiAttribute = none := by
  unfold Exporting Importing at *
  unfold Target.apiAttribute Target.defd
  simp [h1, h2]

/-- What is exported if the declarations with `T1HA_API` are visible and all others hidden. -/
private def shown (files : List Src) (k : Sections) : List Symbol :=
  (files.flatMap (Src.defines k)).filter (· ∈ declaredApi k)

private theorem exported_eq {t : Target} (h : ElfGcc t) (he : Exporting t) (files : List Src) (k : Sections) :
    exported t files k = shown files k := by
  unfold exported shown visibility
  rw [h.api (Or.inl he), h.pragma]
  congr 1
  funext s
  by_cases hs : s ∈ declaredApi k <;> simp [hs]

/-- All of the symbols are exported. -/
private def Shown (files : List Src) (k : Sections) (l : List Symbol) : Prop :=
  ∀ s ∈ l, s ∈ shown files k ∧ s ∈ declaredApi k

/-- The library has the symbols, but none of them is exported. -/
private def Kept (files : List Src) (k : Sections) (l : List Symbol) : Prop :=
  ∀ s ∈ l, DefinedOnce files k s ∧ s ∉ shown files k

private instance (files : List Src) (k : Sections) (l : List Symbol) : Decidable (Shown files k l) := by
  unfold Shown; infer_instance

private instance (files : List Src) (k : Sections) (l : List Symbol) : Decidable (Kept files k l) := by
  unfold Kept; infer_instance

private def wants (rt wide n1 n2 : Bool) : Bool := rt || (wide && !(n1 && n2))

private theorem all_exported (n0 n1 n2 a : Bool) (arch : Arch) (rt : Bool) (k : Binding) (wide big : Bool)
    (h : arch = .other → a = false) :
    Shown (makefile arch) (flags n0 n1 n2 a arch rt k wide big)
      (declaredApi (flags n0 n1 n2 a arch rt k wide big)) ∧
    (if wants rt wide n1 n2 = true
      then Shown (makefile arch) (flags n0 n1 n2 a arch rt k wide big)
        (callsT1ha0 (flags n0 n1 n2 a arch rt k wide big))
      else Kept (makefile arch) (flags n0 n1 n2 a arch rt k wide big)
        (callsT1ha0 (flags n0 n1 n2 a arch rt k wide big))) := by
  cases arch with
  | other =>
    cases h rfl
    revert n0 n1 n2 rt wide big
    cases k <;> decide +kernel
  | _ =>
    clear h
    revert n0 n1 n2 a rt wide big
    cases k <;> decide +kernel

/-- C46, where it holds: programs which define `t1ha_IMPORTS` can use everything which is declared with
`T1HA_API`, and can call `t1ha0` if the implementation is selected at run time, or on 64-bit targets (unless
both `t1ha1` and `t1ha2` are disabled). -/
theorem shared_usable_partial (b : Build) (k : Binding) (compiles : b.arch = .other → b.aesni ≠ some true)
    (t : Target) (library : ElfGcc t) (exporting : Exporting t)
    (p : Target) (program : ElfGcc p) (importing : Importing p) :
    (∀ s ∈ declaredApi (b.sections k), Usable p (b.sections k) t (makefile b.arch) (b.sections k) s) ∧
    (Build.SelectsAtRunTime b ∨ b.cfg.word64 = true ∧ ¬ (b.no1 = true ∧ b.no2 = true) →
      ∀ s ∈ callsT1ha0 (b.sections k), Usable p (b.sections k) t (makefile b.arch) (b.sections k) s) := by
  have hu : ∀ l, Shown (makefile b.arch) (b.sections k) l →
      ∀ s ∈ l, Usable p (b.sections k) t (makefile b.arch) (b.sections k) s := by
    intro l hl s hs
    obtain ⟨h1, h2⟩ := hl s hs
    refine ⟨?_, by rw [exported_eq library exporting]; exact h1⟩
    unfold visibility
    rw [if_pos h2, program.api (Or.inr importing)]
    rfl
  have := all_exported b.no0 b.no1 b.no2 b.aesniAvailable b.arch b.runtimeSelect k b.cfg.word64
    (b.cfg.endian == .big) (no_aes b compiles)
  rw [← sections_eq] at this
  refine ⟨hu _ this.1, fun h => hu _ ?_⟩
  have h2 := this.2
  rwa [if_pos] at h2
  rw [← selectsAtRunTime_iff] at h
  revert h
  unfold wants
  cases b.runtimeSelect <;> cases b.cfg.word64 <;> cases b.no1 <;> cases b.no2 <;> decide

/-- GCC 12 for x86-64 with an additional macro on the command line. -/
def gccWith (x : String) : Target :=
  { gccAmd64 with macros := fun y => if y = x then some 1 else gccAmd64.macros y }

theorem gccAmd64_elf : ElfGcc gccAmd64 := ⟨by decide +kernel, ⟨12, by decide +kernel, by decide⟩, by decide +kernel⟩

theorem gccExports_elf : ElfGcc (gccWith "t1ha_EXPORTS") :=
  ⟨by decide +kernel, ⟨12, by decide +kernel, by decide⟩, by decide +kernel⟩

theorem gccImports_elf : ElfGcc (gccWith "t1ha_IMPORTS") :=
  ⟨by decide +kernel, ⟨12, by decide +kernel, by decide⟩, by decide +kernel⟩

example : ∀ s ∈ [Symbol.t1ha0, .t1ha0_resolve, .t1ha2_atonce],
    Usable (gccWith "t1ha_IMPORTS") ((gccAmd64.build amd64).sections .ifunc) (gccWith "t1ha_EXPORTS")
      (makefile .ia32) ((gccAmd64.build amd64).sections .ifunc) s := by
  intro s hs
  refine (shared_usable_partial (gccAmd64.build amd64) .ifunc (fun h => absurd h (by decide +kernel)) _ gccExports_elf
    (by unfold Exporting; decide +kernel) _ gccImports_elf (by unfold Importing; decide +kernel)).1 s ?_
  revert s; decide +kernel

/-- C46 is false for programs which do not define `t1ha_IMPORTS` (the header does not say that they have to): to
them all functions are hidden, so none can be used from a shared library, however it was built. -/
theorem imports_needed (p : Target) (program : ElfGcc p) (imports : ¬ Importing p) (exports : ¬ Exporting p)
    (kp : Sections) (t : Target) (files : List Src) (k : Sections) (s : Symbol) :
    ¬ Usable p kp t files k s := by
  rintro ⟨h, -⟩
  unfold visibility at h
  rw [no_attribute exports imports, program.pragma] at h
  simp at h

example : ¬ Usable gccAmd64 ((gccAmd64.build amd64).sections .ifunc) (gccWith "t1ha_EXPORTS") (makefile .ia32)
    ((gccAmd64.build amd64).sections .ifunc) .t1ha2_atonce :=
  imports_needed _ gccAmd64_elf (by unfold Importing; decide +kernel) (by unfold Exporting; decide +kernel) _ _ _ _ _

/-- C46 is false for default builds for 32-bit processors other than x86: a program which calls `t1ha0` refers
to a function (`t1ha0_32le` or `t1ha0_32be`) which the shared library has, but does not export. -/
theorem shared_t1ha0_hidden (b : Build) (k : Binding) (other : b.arch = .other) (aesni : b.aesni = none)
    (runtime : b.runtime = none) (narrow : b.cfg.word64 = false) (enabled : b.no0 = false)
    (t : Target) (library : ElfGcc t) (exporting : Exporting t) (p : Target) (kp : Sections) :
    ∃ s, callsT1ha0 (b.sections k) = [s] ∧ DefinedOnce (makefile b.arch) (b.sections k) s ∧
      ¬ Usable p kp t (makefile b.arch) (b.sections k) s := by
  have ha : b.aesniAvailable = false := by simp [Build.aesniAvailable, aesni, other]
  have hr : b.runtimeSelect = false := by simp [Build.runtimeSelect, runtime, ha]
  have h := (all_exported b.no0 b.no1 b.no2 b.aesniAvailable b.arch b.runtimeSelect k b.cfg.word64
    (b.cfg.endian == .big) (fun _ => ha)).2
  rw [if_neg (by simp [wants, hr, narrow]), ← sections_eq] at h
  have hc : callsT1ha0 (b.sections k) = [b.sections k |>.bound.symbol] := by
    simp [callsT1ha0, Build.sections, hr, enabled, sect]
  refine ⟨_, hc, ?_⟩
  obtain ⟨h1, h2⟩ := h _ (by rw [hc]; exact List.mem_singleton.2 rfl)
  refine ⟨h1, ?_⟩
  rintro ⟨-, h3⟩
  rw [exported_eq library exporting] at h3
  exact h2 h3

/-- GCC for 32-bit MIPS, with `-Dt1ha_EXPORTS`. -/
def gccMipsExports : Target :=
  { gccMips with macros := fun y => if y = "t1ha_EXPORTS" then some 1 else gccMips.macros y }

example : callsT1ha0 ((gccMips.build mips32).sections gccMips.binding) = [.t1ha0_32be] ∧
    ∃ s, callsT1ha0 ((gccMips.build mips32).sections gccMips.binding) = [s] ∧
      DefinedOnce (makefile .other) ((gccMips.build mips32).sections gccMips.binding) s ∧
      ¬ Usable gccMipsExports ((gccMips.build mips32).sections gccMips.binding) gccMipsExports (makefile .other)
        ((gccMips.build mips32).sections gccMips.binding) s :=
  ⟨by decide +kernel, shared_t1ha0_hidden (gccMips.build mips32) _ (by decide +kernel) (by decide +kernel)
    (by decide +kernel) (by decide +kernel) (by decide +kernel) gccMipsExports
    ⟨by decide +kernel, ⟨4, by decide +kernel, by decide⟩, by decide +kernel⟩
    (by unfold Exporting; decide +kernel) _ _⟩

/-! ## C47 -/

/-- Two builds for one machine, by compilers which may differ, with the same options for what is in the library.
They may differ in all else (for example in compiler, sanitizers, optimisation). -/
structure SameLibrary (b b' : Build) : Prop where
  arch : b.arch = b'.arch
  aesni : Build.OffersAes b ↔ Build.OffersAes b'
  runtime : Build.SelectsAtRunTime b ↔ Build.SelectsAtRunTime b'
  word64 : b.cfg.word64 = b'.cfg.word64
  endian : b.cfg.endian = b'.cfg.endian
  disabled : b.no0 = b'.no0 ∧ b.no1 = b'.no1 ∧ b.no2 = b'.no2

theorem SameLibrary.sections {b b' : Build} (h : SameLibrary b b') (k : Binding) : b.sections k = b'.sections k := by
  have h1 := h.aesni
  have h2 := h.runtime
  rw [← offersAes_iff, ← offersAes_iff, ← Bool.eq_iff_iff] at h1
  rw [← selectsAtRunTime_iff, ← selectsAtRunTime_iff, ← Bool.eq_iff_iff] at h2
  rw [sections_eq, sections_eq, h.arch, h1, h2, h.word64, h.endian, h.disabled.1, h.disabled.2.1,
    h.disabled.2.2]

private theorem all_mixed (n0 n1 n2 a : Bool) (arch : Arch) (rt : Bool) (k kp : Binding) (wide big : Bool)
    (h : arch = .other → a = false) (hk : k = .ifunc ↔ kp = .ifunc) :
    ∀ s ∈ declaredApi (flags n0 n1 n2 a arch rt kp wide big) ++ declaredPlain (flags n0 n1 n2 a arch rt kp wide big) ++
      callsT1ha0 (flags n0 n1 n2 a arch rt kp wide big),
      DefinedOnce (makefile arch) (flags n0 n1 n2 a arch rt k wide big) s := by
  have hf : declaredApi (flags n0 n1 n2 a arch rt kp wide big) = declaredApi (flags n0 n1 n2 a arch rt k wide big) ∧
      declaredPlain (flags n0 n1 n2 a arch rt kp wide big) = declaredPlain (flags n0 n1 n2 a arch rt k wide big) ∧
      callsT1ha0 (flags n0 n1 n2 a arch rt kp wide big) = callsT1ha0 (flags n0 n1 n2 a arch rt k wide big) := by
    revert hk
    cases k <;> cases kp <;> intro hk <;> first | exact ⟨rfl, rfl, rfl⟩ | simp at hk
  rw [hf.1, hf.2.1, hf.2.2]
  exact (all_makefile n0 n1 n2 a arch rt k wide big h).1

/-- C47, where it holds: a program, compiled by another compiler than the library, can be linked with the
library of Makefile, and finds everything which the header declares to it, if the header makes the same choice
between an indirect function and a pointer in both cases. -/
theorem other_compiler_links_partial (b bp : Build) (same : SameLibrary b bp)
    (compiles : b.arch = .other → b.aesni ≠ some true) (t p : Target)
    (binding : UsesIndirect t ↔ UsesIndirect p) :
    ∀ s ∈ declaredApi (bp.sections p.binding) ++ declaredPlain (bp.sections p.binding) ++
      callsT1ha0 (bp.sections p.binding), DefinedOnce (makefile b.arch) (b.sections t.binding) s := by
  rw [← same.sections, sections_eq, sections_eq]
  refine all_mixed _ _ _ _ _ _ _ _ _ _ (no_aes b compiles) ?_
  unfold Target.binding
  rw [← usesIndirect_iff, ← usesIndirect_iff, ← Bool.eq_iff_iff] at binding
  rw [binding]
  cases p.indirect
  · simp only [Bool.false_eq_true, if_false]
    constructor <;> (intro h; split at h <;> exact absurd h (by decide))
  · simp

private theorem all_mismatch (n1 n2 a : Bool) (arch : Arch) (k kp : Binding) (wide big : Bool)
    (hk : ¬ (k = .ifunc ↔ kp = .ifunc)) :
    ∃ s, callsT1ha0 (flags false n1 n2 a arch true kp wide big) = [s] ∧
      Undefined (makefile arch) (flags false n1 n2 a arch true k wide big) s := by
  refine ⟨if kp = .ifunc then .t1ha0 else .t1ha0_funcptr, by cases kp <;> rfl, ?_⟩
  revert hk
  cases arch <;> cases k <;> cases kp <;> intro hk <;> first | (exfalso; revert hk; decide) | skip
  all_goals clear hk; revert n1 n2 a wide big; decide +kernel

/-- C47 is false in general: if the compiler of the program and that of the library lead to different choices,
a program which calls `t1ha0` refers to a symbol which the library does not have. -/
theorem other_compiler_fails (b bp : Build) (same : SameLibrary b bp) (t p : Target)
    (binding : ¬ (UsesIndirect t ↔ UsesIndirect p)) (runtime : Build.SelectsAtRunTime b) (enabled : b.no0 = false) :
    ∃ s, callsT1ha0 (bp.sections p.binding) = [s] ∧ Undefined (makefile b.arch) (b.sections t.binding) s := by
  rw [← same.sections, sections_eq, sections_eq, (selectsAtRunTime_iff b).2 runtime, enabled]
  refine all_mismatch _ _ _ _ _ _ _ _ ?_
  intro h
  have hb : ∀ t : Target, t.binding = .ifunc ↔ t.indirect = true := by
    intro t
    unfold Target.binding
    cases t.indirect
    · simp only [Bool.false_eq_true, if_false, iff_false]
      split <;> decide
    · simp
  rw [hb, hb] at h
  rw [usesIndirect_iff, usesIndirect_iff] at h
  exact binding h

/-- Clang 14 for x86-64 Linux. -/
def clangAmd64 : Target :=
  { gccAmd64 with
    macros := table [("__clang__", 1), ("__GNUC__", 4), ("__GNUC_MINOR__", 2), ("__x86_64__", 1), ("__amd64__", 1),
      ("__ELF__", 1), ("__BYTE_ORDER__", 1234), ("__ORDER_LITTLE_ENDIAN__", 1234), ("__ORDER_BIG_ENDIAN__", 4321),
      ("__SIZEOF_INT128__", 16), ("NDEBUG", 1)] }

/-- GCC 4.8 for x86-64 Linux, with `-fsanitize=address`. It has no `__has_attribute`. -/
def gcc48Asan : Target :=
  { gccAmd64 with
    macros := table [("__GNUC__", 4), ("__GNUC_MINOR__", 8), ("__x86_64__", 1), ("__amd64__", 1), ("__ELF__", 1),
      ("__BYTE_ORDER__", 1234), ("__ORDER_LITTLE_ENDIAN__", 1234), ("__ORDER_BIG_ENDIAN__", 4321),
      ("__SIZEOF_INT128__", 16), ("__SANITIZE_ADDRESS__", 1)]
    hasAttribute := fun _ => false }

instance (b b' : Build) : Decidable (SameLibrary b b') :=
  decidable_of_iff (b.arch = b'.arch ∧ (Build.OffersAes b ↔ Build.OffersAes b') ∧
    (Build.SelectsAtRunTime b ↔ Build.SelectsAtRunTime b') ∧
    b.cfg.word64 = b'.cfg.word64 ∧ b.cfg.endian = b'.cfg.endian ∧ b.no0 = b'.no0 ∧ b.no1 = b'.no1 ∧ b.no2 = b'.no2)
    ⟨fun ⟨h1, h2, h3, h4, h5, h6, h7, h8⟩ => ⟨h1, h2, h3, h4, h5, h6, h7, h8⟩,
      fun ⟨h1, h2, h3, h4, h5, h6, h7, h8⟩ => ⟨h1, h2, h3, h4, h5, h6, h7, h8⟩⟩

/-- A program compiled by clang, with a library compiled by GCC. -/
example : ∀ s ∈ [Symbol.t1ha0, .t1ha1_le, .t1ha2_final],
    DefinedOnce (makefile .ia32) ((gccAmd64.build amd64).sections gccAmd64.binding) s := by
  have h := other_compiler_links_partial (gccAmd64.build amd64) (clangAmd64.build amd64) (by decide +kernel)
    (fun h => absurd h (by decide +kernel)) gccAmd64 clangAmd64
    (by rw [← usesIndirect_iff, ← usesIndirect_iff]; decide +kernel)
  intro s hs
  refine h s ?_
  revert s; decide +kernel

/-- A program compiled by GCC 4.8 with the address sanitizer, with a library compiled by GCC without it. -/
example : ∃ s, callsT1ha0 ((gcc48Asan.build { amd64 with asan := true }).sections gcc48Asan.binding) = [s] ∧
    Undefined (makefile .ia32) ((gccAmd64.build amd64).sections gccAmd64.binding) s :=
  other_compiler_fails (gccAmd64.build amd64) (gcc48Asan.build { amd64 with asan := true }) (by decide +kernel)
    gccAmd64 gcc48Asan (by rw [← usesIndirect_iff, ← usesIndirect_iff]; decide +kernel) (by decide +kernel)
    (by decide +kernel)

end T1ha.Props
