import Verif.Model.Target
import Verif.Props.Dispatch
import Verif.Props.OneShot

/-!
# Properties of all builds of the library: C41-C43, C35

The statements are about the macros which a compiler defines (`Target`, `Verif/Model/Target.lean`).
-/

namespace T1ha.Props

open Model Examples

/-- Nobody has asked for anything unusual. -/
structure Plain (t : Target) : Prop where
  unaligned : t.macros "T1HA_SYS_UNALIGNED_ACCESS" = none
  kernel : t.macros "CONFIG_HAVE_EFFICIENT_UNALIGNED_ACCESS" = none
  oneshot : t.macros "T1HA_USE_FAST_ONESHOT_READ" = none
  page : t.macros "PAGESIZE" = none ∧ t.header "PAGESIZE" = none
  indirect : t.macros "T1HA_USE_INDIRECT_FUNCTIONS" = none

/-- Pointers or `unsigned long` have 64 bits. -/
def Wide (t : Target) : Prop := 0xffffFFFF < t.uintptrMax ∨ 0xffffFFFF < t.ulongMax

/-- The address sanitizer is on. -/
def Sanitized (t : Target) : Prop := (t.macros "__SANITIZE_ADDRESS__").isSome ∨ t.asanFeature = true

/-- No compiler of Microsoft, or not too old a one. -/
def ModernMsvc (t : Target) : Prop :=
  t.macros "_MSC_VER" = none ∨ ∃ v, t.macros "_MSC_FULL_VER" = some v ∧ 180040629 ≤ v

theorem modern_ok {t : Target} (h : ModernMsvc t) :
    (t.mscBranch && decide (t.num "_MSC_FULL_VER" < 180040629)) = false := by
  rcases h with h | ⟨v, h, hv⟩
  · simp [Target.mscBranch, Target.defd, h]
  · simp [Target.num, h, hv]

theorem Plain.underside {t : Target} (h : Plain t) (e : Endian) :
    ((t.cfg e).canReadUnderside = true ↔ t.unaligned ≠ .unable ∧ ¬ Sanitized t) ∧
    ((t.cfg e).word64 = true ↔ Wide t) ∧ ((t.cfg e).alignedOneshot = true ↔ ¬ Sanitized t) := by
  unfold Cfg.canReadUnderside Cfg.word64 Cfg.alignedOneshot Target.cfg Sanitized Wide
  simp [Target.defd, Target.defdH, h.oneshot, h.page.1, h.page.2]

/-! ## C41 -/

/-- C41, where it holds: if nobody asks for anything unusual and the byte order is known, the library
compiles on little-endian targets, on targets which have to avoid unaligned accesses, and on 64-bit targets
without the address sanitizer. (The full statement, without the last hypothesis, is false:
`big_endian_arm_does_not_build`.) -/
theorem default_builds_partial (t : Target) (h : Plain t) {e : Endian} (known : t.byteOrder = some e)
    (msvc : ModernMsvc t)
    (good : e = .little ∨ (t.ia32 = false ∧ t.macros "__ARM_FEATURE_UNALIGNED" = none) ∨
      (Wide t ∧ ¬ Sanitized t)) :
    ∃ cfg, t.config = .ok cfg ∧ cfg.endian = e := by
  have hb : (t.cfg e).Buildable := by
    intro hn
    obtain ⟨h1, h2, h3⟩ := hn
    obtain ⟨hu, hw, -⟩ := h.underside e
    rcases good with hg | ⟨hg1, hg2⟩ | ⟨hg1, hg2⟩
    · subst hg; exact absurd h1 (by simp [Target.cfg])
    · refine absurd h2 ?_
      simp only [Target.cfg, Target.unaligned, Target.defd, h.unaligned, h.kernel, hg1, hg2]
      simp only [Option.isSome_none, Bool.false_eq_true, if_false]
      split <;> simp
    · refine h3 ⟨?_, ?_⟩
      · refine hu.2 ⟨?_, hg2⟩
        have : t.unaligned = .efficient := h2
        rw [this]; simp
      · exact hw.2 hg1
  refine ⟨t.cfg e, ?_, rfl⟩
  unfold Target.config
  rw [known]
  simp only [modern_ok msvc, Bool.false_eq_true, if_false]
  rw [if_pos hb]

/-- C41 is false: for big-endian ARM processors which support unaligned accesses, the default build does not
compile if it is for 32 bits, or with the address sanitizer. -/
theorem big_endian_arm_does_not_build (t : Target) (h : Plain t) (known : t.byteOrder = some .big)
    (msvc : ModernMsvc t) (arm : (t.macros "__ARM_FEATURE_UNALIGNED").isSome)
    (notE2k : t.macros "__e2k__" = none) (bad : ¬ Wide t ∨ Sanitized t) :
    t.config = .error .undeclared := by
  have hb : ¬ (t.cfg .big).Buildable := by
    intro hn
    refine hn ⟨rfl, ?_, ?_⟩
    · simp only [Target.cfg, Target.unaligned, Target.defd, h.unaligned, h.kernel, arm, notE2k]
      simp
    · obtain ⟨hu, hw, -⟩ := h.underside .big
      rintro ⟨h1, h2⟩
      rcases bad with hb | hb
      · exact hb (hw.1 h2)
      · exact (hu.1 h1).2 hb
  unfold Target.config
  rw [known]
  simp only [modern_ok msvc, Bool.false_eq_true, if_false]
  rw [if_neg hb]

/-- C41, what is wrong with those builds: `t1ha1_be` of any 4 bytes gets to the call of the function
`fetch32_be`, which is declared nowhere. (With `t1ha1_be_correct`: the builds in which `t1ha1_be` runs
correctly are exactly those which `Cfg.Buildable` allows.) -/
theorem undeclared_call {cfg : Cfg} (h : ¬ cfg.Buildable) (data : Nat) (seed : U64) (w : World) (s : Sys) :
    OneShot.t1ha1_be.run cfg data 4 seed w s = .error .undeclared := by
  unfold Cfg.Buildable at h
  obtain ⟨hb, he, hu⟩ := Decidable.of_not_not h
  show t1ha1 cfg .big data 4 seed w s = _
  unfold t1ha1
  simp only [if_pos he]
  unfold t1ha1_body
  rw [if_neg (by decide), t1ha1_tail_eq]
  simp only [steps]
  rw [if_neg (by decide), pure_bind, if_neg (by decide), pure_bind, if_neg (by decide), pure_bind,
    if_pos (by decide)]
  have ht : tail64 cfg .big .unaligned data 4 = fail .undeclared := by
    show tail64_be_unaligned cfg data 4 = _
    unfold tail64_be_unaligned
    rw [if_neg (by simpa using hu)]
    simp only [if_pos (And.intro he hb)]
    rfl
  rw [ht]
  rfl

/-- Macros given by a list. -/
def table (l : List (String × Nat)) : String → Option Nat := fun x => l.lookup x

/-- GCC 12 for x86-64 Linux. -/
def gccAmd64 : Target where
  macros := table [("__GNUC__", 12), ("__GNUC_MINOR__", 2), ("__x86_64__", 1), ("__amd64__", 1), ("__ELF__", 1),
    ("__BYTE_ORDER__", 1234), ("__ORDER_LITTLE_ENDIAN__", 1234), ("__ORDER_BIG_ENDIAN__", 4321),
    ("__SIZEOF_INT128__", 16), ("NDEBUG", 1)]
  header := table []
  hasBuiltin := fun x => x == "__builtin_bswap16"
  hasAttribute := fun x => x == "__ifunc__" || x == "__constructor__"
  asanFeature := false
  uintptrMax := 2 ^ 64 - 1
  ulongMax := 2 ^ 64 - 1
  u64Align4 := false

/-- GCC 4.6 for 32-bit MIPS, big endian. -/
def gccMips : Target where
  macros := table [("__GNUC__", 4), ("__GNUC_MINOR__", 6), ("__MIPSEB__", 1), ("__ELF__", 1)]
  header := table [("__BYTE_ORDER", 4321), ("__LITTLE_ENDIAN", 1234), ("__BIG_ENDIAN", 4321)]
  hasBuiltin := fun _ => false
  hasAttribute := fun _ => false
  asanFeature := false
  uintptrMax := 2 ^ 32 - 1
  ulongMax := 2 ^ 32 - 1
  u64Align4 := false

/-- GCC 12 for ARMv7, big endian. -/
def gccArmeb : Target where
  macros := table [("__GNUC__", 12), ("__GNUC_MINOR__", 2), ("__ARMEB__", 1), ("__ELF__", 1),
    ("__ARM_FEATURE_UNALIGNED", 1), ("__BYTE_ORDER__", 4321), ("__ORDER_LITTLE_ENDIAN__", 1234),
    ("__ORDER_BIG_ENDIAN__", 4321)]
  header := table []
  hasBuiltin := fun x => x == "__builtin_bswap16"
  hasAttribute := fun _ => true
  asanFeature := false
  uintptrMax := 2 ^ 32 - 1
  ulongMax := 2 ^ 32 - 1
  u64Align4 := false

/-- Visual Studio 2019 for 32-bit x86. -/
def msvcX86 : Target where
  macros := table [("_MSC_VER", 1920), ("_MSC_FULL_VER", 192027508), ("_M_IX86", 600), ("_WIN32", 1),
    ("_INTEGRAL_MAX_BITS", 64)]
  header := table []
  hasBuiltin := fun _ => false
  hasAttribute := fun _ => false
  asanFeature := false
  uintptrMax := 2 ^ 32 - 1
  ulongMax := 2 ^ 32 - 1
  u64Align4 := false

/-- What these compilers make of the library. -/
example : gccAmd64.config = .ok { amd64 with ndebug := true, carry := .plain } ∧
    gccMips.config = .ok { mips32 with bswap := .builtin, bswap32 := .builtin } ∧
    msvcX86.config = .ok { amd64 with
      ptr64 := false, ulong64 := false, carry := .msvc32, mul := .portable } := by
  decide +kernel

theorem plain_examples : Plain gccAmd64 ∧ Plain gccMips ∧ Plain gccArmeb ∧ Plain msvcX86 := by
  refine ⟨⟨?_, ?_, ?_, ?_, ?_⟩, ⟨?_, ?_, ?_, ?_, ?_⟩, ⟨?_, ?_, ?_, ?_, ?_⟩, ⟨?_, ?_, ?_, ?_, ?_⟩⟩ <;>
    decide +kernel

/-- `default_builds_partial`: MIPS -/
example : ∃ cfg, gccMips.config = .ok cfg ∧ cfg.endian = .big :=
  default_builds_partial gccMips plain_examples.2.1 (by decide +kernel) (Or.inl (by decide +kernel))
    (Or.inr (Or.inl ⟨by decide +kernel, by decide +kernel⟩))

/-- `undeclared_call` -/
example (data : Nat) (seed : U64) (w : World) (s : Sys) :
    OneShot.t1ha1_be.run (gccArmeb.cfg .big) data 4 seed w s = .error .undeclared :=
  undeclared_call (by decide +kernel) data seed w s

/-- `big_endian_arm_does_not_build` -/
example : gccArmeb.config = .error .undeclared :=
  big_endian_arm_does_not_build gccArmeb plain_examples.2.2.1 (by decide +kernel) (Or.inl (by decide +kernel))
    (by decide +kernel) (by decide +kernel) (Or.inl (by unfold Wide; decide +kernel))

/-! ## C42 -/

theorem config_ok {t : Target} {cfg : Cfg} (h : t.config = .ok cfg) :
    ∃ e, t.byteOrder = some e ∧ cfg = t.cfg e ∧ cfg.Buildable := by
  unfold Target.config at h
  cases ho : t.byteOrder with
  | none => rw [ho] at h; exact absurd h (by simp)
  | some e =>
    rw [ho] at h
    refine ⟨e, rfl, ?_⟩
    revert h
    simp only []
    split
    · intro h; exact absurd h (by simp)
    · split
      · rename_i hb
        intro h
        have := Except.ok.inj h
        subst this
        exact ⟨rfl, hb⟩
      · intro h; exact absurd h (by simp)

/-- C42: on x86, on 64-bit targets, and with the address sanitizer, no default build reads outside of the
pages of the buffer: no `Mapped` hypothesis is needed (see `Ready.slack`). -/
theorem default_safe (t : Target) (h : Plain t) {cfg : Cfg} (built : t.config = .ok cfg)
    (good : t.ia32 = true ∨ Wide t ∨ Sanitized t) : cfg.SafeTail := by
  obtain ⟨e, -, rfl, -⟩ := config_ok built
  obtain ⟨-, hw, ha⟩ := h.underside e
  rcases good with hg | hg | hg
  · refine Or.inr (Or.inl ?_)
    simp [Target.cfg, Target.unaligned, Target.defd, h.unaligned, h.kernel, hg]
  · exact Or.inl (hw.2 hg)
  · refine Or.inr (Or.inr ?_)
    cases hh : (t.cfg e).alignedOneshot with
    | false => rfl
    | true => exact absurd hg (ha.1 hh)

/-- C42: these are the only exceptions. A default build for another target which is not ARM with unaligned
accesses does read outside: a short key at the end of a page crashes each of the functions. -/
theorem default_unsafe (t : Target) (h : Plain t) {cfg : Cfg} (built : t.config = .ok cfg)
    (notX86 : t.ia32 = false) (narrow : ¬ Wide t) (plain : ¬ Sanitized t)
    (notArm : t.macros "__ARM_FEATURE_UNALIGNED" = none)
    (f : OneShot) (hf : f = .t1ha1_le ∨ f = .t1ha1_be ∨
      (∃ g, f = .t1ha2_atonce g) ∨ ∃ g p, f = .t1ha2_atonce128 g p)
    (m : List Byte) (h0 : 0 < m.length) (h3 : m.length ≤ 3) (seed : U64) :
    Buf cfg (memory 4096 8192 8188 m) start.ov 4096 8188 m ∧
      f.run cfg 8188 m.length seed (memory 4096 8192 8188 m) start = .error .fault := by
  obtain ⟨e, -, rfl, -⟩ := config_ok built
  obtain ⟨-, hw, ha⟩ := h.underside e
  refine page_overread f hf ?_ ?_ m h0 h3 seed
  · rintro (hs | hs | hs)
    · exact narrow (hw.1 hs)
    · revert hs
      simp only [Target.cfg, Target.unaligned, Target.defd, h.unaligned, h.kernel, notX86, notArm]
      simp only [Option.isSome_none, Bool.false_eq_true, if_false]
      split <;> simp
    · rw [ha.2 plain] at hs
      exact absurd hs (by simp)
  · simp [Target.cfg, Target.defdH, Target.defd, h.page.1, h.page.2]

/-- C42: whatever compilers two builds were made with, and for whatever targets: if both were made without
an error, the same function returns the same value for equal messages. -/
theorem builds_agree {t t' : Target} {cfg cfg' : Cfg} (built : t.config = .ok cfg)
    (built' : t'.config = .ok cfg') (f : OneShot)
    (hf : f = .t1ha1_le ∨ f = .t1ha1_be ∨ (∃ g, f = .t1ha2_atonce g) ∨ f = .t1ha0_32le ∨ f = .t1ha0_32be)
    {w w' : World} {s s' : Sys} {page page' data data' : Nat} {m : List Byte}
    (buf : Buf cfg w s.ov page data m) (buf' : Buf cfg' w' s'.ov page' data' m)
    (slack : f.words64 = true → cfg.SafeTail ∨ Mapped w (data + m.length) 8)
    (slack' : f.words64 = true → cfg'.SafeTail ∨ Mapped w' (data' + m.length) 8) (seed : U64) :
    ∃ v s1 s1' t1 t1', Returns (f.run cfg data m.length seed) w s v s1 t1 ∧
      Returns (f.run cfg' data' m.length seed) w' s' v s1' t1' ∧ v = f.hash m seed := by
  obtain ⟨-, -, -, hb⟩ := config_ok built
  obtain ⟨-, -, -, hb'⟩ := config_ok built'
  have hno : f.output = none ∧ (∀ ac, f ≠ .t1ha0_ia32aes_noavx ac) ∧ (∀ ac, f ≠ .t1ha0_ia32aes_avx ac) ∧
      ∀ ac, f ≠ .t1ha0_ia32aes_avx2 ac := by
    rcases hf with rfl | rfl | ⟨g, rfl⟩ | rfl | rfl <;> simp [OneShot.output]
  have r : f.Ready cfg w data m.length :=
    ⟨slack, fun _ => hb, fun p hp => absurd hp (by simp [hno.1]),
      fun ac h => absurd h (by simp [hno.2.1 ac, hno.2.2.1 ac]), fun ac h => absurd h (hno.2.2.2 ac),
      fun ac h => absurd h (hno.2.2.2 ac)⟩
  have r' : f.Ready cfg' w' data' m.length :=
    ⟨slack', fun _ => hb', fun p hp => absurd hp (by simp [hno.1]),
      fun ac h => absurd h (by simp [hno.2.1 ac, hno.2.2.1 ac]), fun ac h => absurd h (hno.2.2.2 ac),
      fun ac h => absurd h (hno.2.2.2 ac)⟩
  obtain ⟨t1, h1, -⟩ := OneShot.returns f buf r seed
  obtain ⟨t1', h1', -⟩ := OneShot.returns f buf' r' seed
  exact ⟨_, _, _, t1, t1', h1, h1', rfl⟩

/-- `default_safe`, `builds_agree`: x86-64 Linux and 32-bit Windows, both with the message at the end of the
last mapped page. -/
example : ∃ cfg cfg', gccAmd64.config = .ok cfg ∧ msvcX86.config = .ok cfg' ∧
    ∃ v s1 s1' t1 t1',
      Returns (OneShot.t1ha1_be.run cfg (8192 - 43) (msg 43).length 7) (atEnd 43) start v s1 t1 ∧
      Returns (OneShot.t1ha1_be.run cfg' (8192 - 43) (msg 43).length 7) (atEnd 43) start v s1' t1' := by
  obtain ⟨h1, -, -, h4⟩ := plain_examples
  obtain ⟨cfg, c1, -⟩ := default_builds_partial gccAmd64 h1 (e := .little) (by decide +kernel)
    (Or.inl (by decide +kernel)) (Or.inl rfl)
  obtain ⟨cfg', c1', -⟩ := default_builds_partial msvcX86 h4 (e := .little) (by decide +kernel)
    (Or.inr ⟨192027508, by decide +kernel, by decide⟩) (Or.inl rfl)
  have p1 : cfg.pageSize = 4096 := by
    obtain ⟨e, -, rfl, -⟩ := config_ok c1
    clear c1
    cases e <;> decide +kernel
  have p2 : cfg'.pageSize = 4096 := by
    obtain ⟨e, -, rfl, -⟩ := config_ok c1'
    clear c1'
    cases e <;> decide +kernel
  obtain ⟨v, s1, s1', t1, t1', g, g', -⟩ := builds_agree c1 c1' .t1ha1_be (Or.inr (Or.inl rfl))
    (buf_atEnd cfg p1 43 (by decide)) (buf_atEnd cfg' p2 43 (by decide))
    (fun _ => Or.inl (default_safe _ h1 c1 (Or.inl (by decide +kernel))))
    (fun _ => Or.inl (default_safe _ h4 c1' (Or.inl (by decide +kernel)))) 7
  exact ⟨cfg, cfg', c1, c1', v, s1, s1', t1, t1', g, g'⟩

/-- `default_unsafe`: MIPS -/
example : ∃ cfg, gccMips.config = .ok cfg ∧
    OneShot.t1ha1_le.run cfg 8188 3 7 (memory 4096 8192 8188 [1, 2, 3]) start = .error .fault := by
  obtain ⟨-, h2, -, -⟩ := plain_examples
  obtain ⟨cfg, c1, -⟩ := default_builds_partial gccMips h2 (e := .big) (by decide +kernel)
    (Or.inl (by decide +kernel)) (Or.inr (Or.inl ⟨by decide +kernel, by decide +kernel⟩))
  exact ⟨cfg, c1, (default_unsafe gccMips h2 c1 (by decide +kernel) (by unfold Wide; decide +kernel)
    (by unfold Sanitized; decide +kernel) (by decide +kernel) .t1ha1_le (Or.inl rfl) [1, 2, 3] (by decide)
    (by decide) 7).2⟩

/-! ## C43 -/

/-- Neither the compiler nor a header has macros for the two byte orders and the current one. -/
structure Unnamed (t : Target) : Prop where
  gcc : t.macros "__BYTE_ORDER__" = none
  glibc : t.macros "__BYTE_ORDER" = none ∧ t.header "__BYTE_ORDER" = none
  bsd : t.macros "_BYTE_ORDER" = none ∧ t.header "_BYTE_ORDER" = none

theorem Unnamed.order {t : Target} (h : Unnamed t) :
    t.byteOrder = if t.littleList then some .little else if t.bigList then some .big else none := by
  unfold Target.byteOrder
  simp [Target.defd, Target.defdH, h.gcc, h.glibc.1, h.glibc.2, h.bsd.1, h.bsd.2]

/-- The macro is defined, by the compiler or by a header. -/
def Has (t : Target) (x : String) : Prop := (t.macros x).isSome ∨ (t.header x).isSome

/-- The macro has this value; a header may redefine macros of the compiler. -/
def Value (t : Target) (x : String) (v : Nat) : Prop :=
  t.header x = some v ∨ (t.header x = none ∧ t.macros x = some v)

/-- Macros which say that a target is big-endian, or are only defined for processors which are. -/
def bigMacros : List String :=
  ["__BIG_ENDIAN__", "_BIG_ENDIAN", "__ARMEB__", "__THUMBEB__", "__AARCH64EB__", "__MIPSEB__", "_MIPSEB", "__MIPSEB",
    "__m68k__", "M68000", "__hppa__", "__hppa", "__HPPA__", "__sparc__", "__sparc", "__370__", "__THW_370__",
    "__s390__", "__s390x__", "__SYSC_ZARCH__"]

/-- Macros from which t1ha.h concludes that a target is little-endian. -/
def littleMacros : List String :=
  ["__LITTLE_ENDIAN__", "_LITTLE_ENDIAN", "__ARMEL__", "__THUMBEL__", "__AARCH64EL__", "__MIPSEL__",
    "_MIPSEL", "__MIPSEL", "_M_ARM", "_M_ARM64", "__e2k__", "__elbrus_4c__", "__elbrus_8c__", "__bfin__",
    "__BFIN__", "__ia64__", "_IA64", "__IA64__", "__ia64", "_M_IA64", "__itanium__", "__CYGWIN__",
    "_WIN64", "_WIN32", "__TOS_WIN__", "__WINDOWS__"]

/-- Macros of compilers for x86. -/
def x86Macros : List String :=
  ["__ia32__", "i386", "__386", "__i386", "__i386__", "i486", "__i486", "__i486__", "i586", "__i586",
    "__i586__", "i686", "__i686", "__i686__", "_M_IX86", "_X86_", "__THW_INTEL__", "__I86__", "__INTEL__",
    "__x86_64", "__x86_64__", "__amd64__", "__amd64", "_M_X64", "_M_AMD64", "__IA32__"]

/-- The compiler or a header names the byte orders and the current one: the compiler as GCC does; a header as
that of glibc, if the compiler does not; a header as those of the BSDs, if there is neither. -/
def Named (t : Target) (cur little big : Nat) : Prop :=
  (t.macros "__BYTE_ORDER__" = some cur ∧ t.macros "__ORDER_LITTLE_ENDIAN__" = some little ∧
    t.macros "__ORDER_BIG_ENDIAN__" = some big) ∨
  (t.macros "__BYTE_ORDER__" = none ∧ Value t "__BYTE_ORDER" cur ∧ Value t "__LITTLE_ENDIAN" little ∧
    Value t "__BIG_ENDIAN" big) ∨
  (t.macros "__BYTE_ORDER__" = none ∧ ¬ Has t "__BYTE_ORDER" ∧ Value t "_BYTE_ORDER" cur ∧
    Value t "_LITTLE_ENDIAN" little ∧ Value t "_BIG_ENDIAN" big)

theorem has_iff {t : Target} {x : String} : t.defdH x = true ↔ Has t x := by
  simp [Target.defdH, Target.defd, Has, or_comm]

theorem Value.spec {t : Target} {x : String} {v : Nat} (h : Value t x v) : t.defdH x = true ∧ t.numH x = v := by
  unfold Target.defdH Target.numH Target.defd Target.num
  rcases h with h | ⟨h, h'⟩
  · simp [h]
  · simp [h, h']

theorem Named.byteOrder {t : Target} {cur little big : Nat} (h : Named t cur little big) :
    t.byteOrder = Target.order cur little big := by
  unfold Target.byteOrder
  rcases h with ⟨h1, h2, h3⟩ | ⟨h1, h2, h3, h4⟩ | ⟨h1, h2, h3, h4, h5⟩
  · simp [Target.defd, Target.num, h1, h2, h3]
  · have := h2.spec; have := h3.spec; have := h4.spec
    simp_all [Target.defd]
  · have := h3.spec; have := h4.spec; have := h5.spec
    rw [← has_iff] at h2
    simp_all [Target.defd]

/-- C43, where it holds: a target which is big-endian according to the macros by which the compiler or a
header names the byte orders is compiled as such. So is a target without such macros, if it has one of the
macros for big endian, and none for little endian or for a processor or system which t1ha.h takes to be always
little-endian. (The full statement, without this last condition, is false: `itanium_taken_for_little`.) -/
theorem big_endian_found_partial (t : Target)
    (h : (∃ little big, Named t big little big ∧ little ≠ big) ∨
      (Unnamed t ∧ (∃ x ∈ bigMacros, Has t x) ∧ (∀ x ∈ littleMacros, ¬ Has t x) ∧
        ∀ x ∈ x86Macros, t.macros x = none)) :
    t.byteOrder = some .big := by
  rcases h with ⟨l, b, h1, h2⟩ | ⟨h1, h2, h3, h4⟩
  · rw [h1.byteOrder, Target.order, if_neg h2, if_neg (Ne.symm h2), if_pos rfl]
  · rw [h1.order]
    simp only [littleMacros, ← has_iff, List.forall_mem_cons, List.not_mem_nil, false_imp_iff, implies_true,
      and_true, Bool.not_eq_true] at h3
    simp only [x86Macros, List.forall_mem_cons, List.not_mem_nil, false_imp_iff, implies_true, and_true] at h4
    have hi : t.ia32 = false := by
      unfold Target.ia32
      simp [Target.any, Target.defd, h4]
    have hl : t.littleList = false := by
      unfold Target.littleList
      simp [Target.anyH, h3, hi]
    have hb : t.bigList = true := by
      simp only [← has_iff] at h2
      have h2 := List.any_eq_true.2 h2
      simp only [bigMacros, List.any_cons, List.any_nil, Bool.or_false, Bool.or_eq_true] at h2
      unfold Target.bigList
      simp only [h3, Target.anyH, List.any_cons, List.any_nil, Bool.or_false, Bool.not_false, Bool.and_true,
        Bool.or_eq_true]
      simpa only [or_assoc] using h2
    simp [hl, hb]

/-- C43 for little endian: a target which is little-endian according to such macros is compiled as such. -/
theorem little_endian_found (t : Target)
    (h : (∃ little big, Named t little little big ∧ little ≠ big) ∨
      (Unnamed t ∧ ((∃ x ∈ littleMacros, x ≠ "_LITTLE_ENDIAN" ∧ Has t x) ∨ (∃ x ∈ x86Macros, (t.macros x).isSome) ∨
        (Has t "_LITTLE_ENDIAN" ∧ ¬ Has t "_BIG_ENDIAN")))) :
    t.byteOrder = some .little := by
  rcases h with ⟨l, b, h1, h2⟩ | ⟨h1, h2⟩
  · rw [h1.byteOrder, Target.order, if_neg h2, if_pos rfl]
  · rw [h1.order]
    have hl : t.littleList = true := by
      rcases h2 with h2 | h2 | ⟨h2, h3⟩
      · obtain ⟨x, hx, hn, h2⟩ := h2
        rw [← has_iff] at h2
        have h2 : (littleMacros.filter (· ≠ "_LITTLE_ENDIAN")).any t.defdH = true :=
          List.any_eq_true.2 ⟨x, List.mem_filter.2 ⟨hx, by simpa using hn⟩, h2⟩
        rw [show littleMacros.filter (· ≠ "_LITTLE_ENDIAN") = "__LITTLE_ENDIAN__" :: littleMacros.drop 2 by
          decide +kernel] at h2
        simp only [littleMacros, List.drop_succ_cons, List.drop_zero, List.any_cons, List.any_nil, Bool.or_false] at h2
        unfold Target.littleList
        simp only [Target.anyH, List.any_cons, List.any_nil, Bool.or_false]
        revert h2
        generalize t.ia32 = i
        generalize (t.defdH "_LITTLE_ENDIAN" && !t.defdH "_BIG_ENDIAN") = j
        intro h2
        simp only [Bool.or_assoc, Bool.or_eq_true] at h2 ⊢
        rcases h2 with h2 | h2
        · exact Or.inl h2
        · refine Or.inr (Or.inr ?_)
          simp only [← or_assoc] at h2 ⊢
          iterate 5 (rcases h2 with h2 | h2; swap; exact Or.inr h2; refine Or.inl ?_)
          exact Or.inl h2
      · have hi : t.ia32 = true := by
          have h2 : x86Macros.any t.defd = true := List.any_eq_true.2 h2
          simp only [x86Macros, Target.defd, List.any_cons, List.any_nil, Bool.or_false, Bool.or_eq_true] at h2
          unfold Target.ia32
          simp only [Target.any, Target.defd, List.any_cons, List.any_nil, Bool.or_false, Bool.or_eq_true]
          simpa only [or_assoc] using h2
        unfold Target.littleList
        simp [hi]
      · rw [← has_iff] at h2 h3
        unfold Target.littleList
        simp [h2, h3]
    simp [hl]

/-- C43 is false: a target for Itanium without macros for the byte orders is compiled for little endian, even
if it says that it is big-endian (as HP-UX on Itanium is). -/
theorem itanium_taken_for_little (t : Target) (h : Unnamed t) (ia64 : (t.macros "__ia64").isSome) :
    t.byteOrder = some .little := by
  rw [h.order]
  have hl : t.littleList = true := by
    unfold Target.littleList
    simp [Target.anyH, Target.defdH, Target.defd, ia64]
  simp [hl]

/-- `big_endian_found_partial`: ARM, with the macros of GCC; MIPS, with those of glibc; PowerPC with a compiler
which has neither; SPARC, where only the processor is known. -/
example : gccArmeb.byteOrder = some .big :=
  big_endian_found_partial _ (Or.inl ⟨1234, 4321, Or.inl (by decide +kernel), by decide⟩)

example : gccMips.byteOrder = some .big :=
  big_endian_found_partial _ (Or.inl ⟨1234, 4321, Or.inr (Or.inl ⟨by decide +kernel, Or.inl (by decide +kernel),
    Or.inl (by decide +kernel), Or.inl (by decide +kernel)⟩), by decide⟩)

instance (t : Target) (x : String) : Decidable (Has t x) := by unfold Has; infer_instance

example : ({ gccMips with macros := table [("_ARCH_PPC", 1), ("__BIG_ENDIAN__", 1)],
                          header := table [] } : Target).byteOrder = some .big :=
  big_endian_found_partial _ (Or.inr ⟨⟨by decide +kernel, by decide +kernel, by decide +kernel⟩, by decide +kernel,
    by decide +kernel, by decide +kernel⟩)

example : ({ gccMips with macros := table [("sun", 1), ("__sparc", 1)],
                          header := table [] } : Target).byteOrder = some .big :=
  big_endian_found_partial _ (Or.inr ⟨⟨by decide +kernel, by decide +kernel, by decide +kernel⟩, by decide +kernel,
    by decide +kernel, by decide +kernel⟩)

/-- `little_endian_found`: x86-64 with GCC; Visual Studio -/
example : gccAmd64.byteOrder = some .little :=
  little_endian_found _ (Or.inl ⟨1234, 4321, Or.inl (by decide +kernel), by decide⟩)

example : msvcX86.byteOrder = some .little :=
  little_endian_found _ (Or.inr ⟨⟨by decide +kernel, by decide +kernel, by decide +kernel⟩,
    Or.inl ⟨"_WIN32", by decide +kernel, by decide +kernel, by decide +kernel⟩⟩)

/-- `itanium_taken_for_little` -/
example : ({ gccMips with macros := table [("__ia64", 1), ("__hpux", 1), ("_BIG_ENDIAN", 1), ("__BIG_ENDIAN__", 1)],
                          header := table [] } : Target).byteOrder = some .little :=
  itanium_taken_for_little _ ⟨by decide +kernel, by decide +kernel, by decide +kernel⟩ (by decide +kernel)

/-! ## C35: which builds are affected -/

/-- The macros which say that the target is x86-64. -/
def amd64Macros : List String := ["__amd64__", "__x86_64", "__x86_64__", "__amd64", "_M_X64"]

/-- Where the header says it uses indirect functions (t1ha.h:388-391): if it is told so, or (by default) on x86-64
systems with ELF, if the attribute is available or with GCC 4 and newer without `-fsanitize=address` and
`-fstack-protector-all`. -/
def UsesIndirect (t : Target) : Prop :=
  t.macros "T1HA_USE_INDIRECT_FUNCTIONS" = none ∧ (t.macros "__ELF__").isSome ∧
    (∃ x ∈ amd64Macros, (t.macros x).isSome) ∧
    (t.hasAttribute "__ifunc__" = true ∨
      (t.macros "__clang__" = none ∧ (∃ v, t.macros "__GNUC__" = some v ∧ 4 ≤ v) ∧
        t.macros "__SANITIZE_ADDRESS__" = none ∧ t.macros "__SSP_ALL__" = none)) ∨
  ∃ v, t.macros "T1HA_USE_INDIRECT_FUNCTIONS" = some v ∧ v ≠ 0

theorem usesIndirect_iff (t : Target) : t.indirect = true ↔ UsesIndirect t := by
  unfold Target.indirect UsesIndirect
  rcases hm : t.macros "T1HA_USE_INDIRECT_FUNCTIONS" with _ | v
  · have ha : t.amd64 = true ↔ ∃ x ∈ amd64Macros, (t.macros x).isSome := by
      unfold Target.amd64 Target.any
      rw [List.any_eq_true]
      rfl
    have hg : (t.defd "__GNUC__" = true ∧ 4 ≤ t.num "__GNUC__") ↔ ∃ v, t.macros "__GNUC__" = some v ∧ 4 ≤ v := by
      unfold Target.defd Target.num
      rcases t.macros "__GNUC__" with _ | v <;> simp
    rw [← ha, ← hg]
    simp [Target.defd, hm, and_assoc, Option.isSome_iff_ne_none]
  · simp [Target.defd, Target.num, hm]

/-- C35: `t1ha0` is bound by the loader exactly where the header says so; else by a constructor with GCC 4 and newer
and with compilers which know the attribute, and by the first call with all others. -/
theorem binding_found (t : Target) :
    (t.binding = .ifunc ↔ UsesIndirect t) ∧
    (t.binding = .constructor ↔ ¬ UsesIndirect t ∧
      ((∃ v r, t.macros "__GNUC__" = some v ∧ t.macros "__GNUC_MINOR__" = some r ∧ 4 * 2 ^ 16 ≤ v * 2 ^ 16 + r) ∨
        t.hasAttribute "__constructor__" = true)) := by
  have hg : t.gnucPrereq 4 0 = true ↔
      ∃ v r, t.macros "__GNUC__" = some v ∧ t.macros "__GNUC_MINOR__" = some r ∧ 4 * 2 ^ 16 ≤ v * 2 ^ 16 + r := by
    unfold Target.gnucPrereq Target.defd Target.num
    rcases t.macros "__GNUC__" with _ | v <;> rcases t.macros "__GNUC_MINOR__" with _ | r <;>
      simp [Nat.shiftLeft_eq]
  rw [← usesIndirect_iff, ← hg]
  unfold Target.binding
  cases t.indirect <;> cases t.gnucPrereq 4 0 <;> cases t.hasAttribute "__constructor__" <;> decide

-- GCC for MIPS uses no indirect functions but a constructor
example : gccMips.binding = .constructor :=
  (binding_found gccMips).2.2 ⟨by rw [← usesIndirect_iff]; decide, Or.inl ⟨_, _, rfl, rfl, by decide⟩⟩

/-- C35: in the default build for x86-64 ELF systems (with the `ifunc` attribute, or GCC 4 and newer without
special options) `t1ha0` can be called at any time. -/
theorem elf_amd64_callable (t : Target) (h : Plain t) (elf : (t.macros "__ELF__").isSome)
    (amd64 : (t.macros "__x86_64__").isSome)
    (ifunc : t.hasAttribute "__ifunc__" = true ∨
      (t.macros "__clang__" = none ∧ (∃ v, t.macros "__GNUC__" = some v ∧ 4 ≤ v) ∧
        t.macros "__SANITIZE_ADDRESS__" = none ∧ t.macros "__SSP_ALL__" = none))
    (f : Fn) {c : Conc} (steps : Steps t.binding f (Conc.initial t.binding f) c) :
    (∀ d ∈ c.done, d.executed = f) ∧ ∀ i, c.threads i ≠ .crashed := by
  refine callable_any_time_partial t.binding ?_ f steps
  have hi : t.indirect = true := by
    unfold Target.indirect Target.amd64 Target.any
    rcases ifunc with hf | ⟨h1, ⟨v, h2, h3⟩, h4, h5⟩
    · simp [Target.defd, h.indirect, elf, amd64, hf]
    · simp [Target.defd, Target.num, h.indirect, elf, amd64, h1, h2, h3, h4, h5]
  simp [Target.binding, hi]

/-- C35 is false in the default builds with GCC (or a compiler which says it is GCC 4) for other systems: a
call before the constructor of the library has run jumps to a null pointer. -/
theorem others_crash (t : Target) (h : Plain t)
    (other : t.macros "__ELF__" = none ∨ ∀ x ∈ amd64Macros, t.macros x = none)
    (gnuc : ∃ v r, t.macros "__GNUC__" = some v ∧ t.macros "__GNUC_MINOR__" = some r ∧ 4 ≤ v)
    (f : Fn) (a : Args) :
    ∃ c, Steps t.binding f (Conc.initial t.binding f) c ∧ c.threads 0 = .crashed := by
  have hb : t.binding = .constructor := by
    have hi : t.indirect = false := by
      unfold Target.indirect
      rcases other with ho | ho
      · simp [Target.defd, h.indirect, ho]
      · have ha : t.amd64 = false := by
          rw [Target.amd64, Target.any, List.any_eq_false]
          intro x hx
          rw [Target.defd, ho x hx]
          decide
        simp [Target.defd, h.indirect, ha]
    obtain ⟨v, r, h1, h2, h3⟩ := gnuc
    have hg : t.gnucPrereq 4 0 = true := by
      simp only [Target.gnucPrereq, Target.defd, Target.num, h1, h2, Option.isSome_some, Bool.true_and,
        Option.getD_some, decide_eq_true_eq, Nat.shiftLeft_eq]
      omega
    simp [Target.binding, hi, hg]
  rw [hb]
  exact call_before_constructor_crashes f a

example : gccAmd64.binding = .ifunc ∧ gccMips.binding = .constructor ∧ msvcX86.binding = .proxy := by
  decide +kernel

example (f : Fn) (a : Args) :
    ∃ c, Steps gccMips.binding f (Conc.initial gccMips.binding f) c ∧ c.threads 0 = .crashed :=
  others_crash gccMips plain_examples.2.1 (Or.inr (by decide +kernel))
    ⟨4, 6, by decide +kernel, by decide +kernel, by decide⟩ f a

example (f : Fn) {c : Conc} (steps : Steps gccAmd64.binding f (Conc.initial gccAmd64.binding f) c) :
    ∀ i, c.threads i ≠ .crashed :=
  (elf_amd64_callable gccAmd64 plain_examples.1 (by decide +kernel) (by decide +kernel)
    (Or.inl (by decide +kernel)) f steps).2

end T1ha.Props
