import Verif.Model.Dispatch
import Verif.Proofs.OneShot
import Verif.Props.Examples

/-!
# Properties of the selection of `t1ha0`: C22, C23, C24, C34, C35
-/

namespace T1ha.Props

open Model Examples

variable {b : Build} {cpu : Cpu}

/-! ## What CPUID says (Intel SDM, volume 2A, CPUID) -/

/-- Leaf 1, ECX, bit 25: AES instructions. -/
def HasAes (cpu : Cpu) : Prop := 1 ≤ (cpu.cpuid 0 0).eax.toNat ∧ (cpu.cpuid 1 0).ecx.getLsbD 25 = true
/-- Leaf 1, ECX, bit 27: the operating system uses XSAVE. -/
def HasOsxsave (cpu : Cpu) : Prop := 1 ≤ (cpu.cpuid 0 0).eax.toNat ∧ (cpu.cpuid 1 0).ecx.getLsbD 27 = true
/-- Leaf 1, ECX, bit 28: AVX instructions. -/
def HasAvx (cpu : Cpu) : Prop := 1 ≤ (cpu.cpuid 0 0).eax.toNat ∧ (cpu.cpuid 1 0).ecx.getLsbD 28 = true
/-- Leaf 7, EBX, bit 5: AVX2 instructions. -/
def HasAvx2 (cpu : Cpu) : Prop := 7 ≤ (cpu.cpuid 0 0).eax.toNat ∧ (cpu.cpuid 7 0).ebx.getLsbD 5 = true

/-- The library has the functions which use AES: if the user wants them (`T1HA0_AESNI_AVAILABLE` = 1), or if the
user does not say and the target is Elbrus, or x86 and not Visual C++ 2013 or older in 32-bit mode. -/
def Build.OffersAes (b : Build) : Prop :=
  b.aesni = some true ∨ b.aesni = none ∧ (b.arch = .e2k ∨ b.arch = .ia32 ∧ b.oldMsvc32 = false)

/-- `t1ha0` is selected at run time: if the user wants it (`T1HA0_RUNTIME_SELECT` = 1), or if the user does not
say and there is a choice. -/
def Build.SelectsAtRunTime (b : Build) : Prop :=
  b.runtime = some true ∨ b.runtime = none ∧ Build.OffersAes b ∧ b.arch ≠ .e2k

instance (b : Build) : Decidable (Build.OffersAes b) := by unfold Build.OffersAes; infer_instance
instance (b : Build) : Decidable (Build.SelectsAtRunTime b) := by unfold Build.SelectsAtRunTime; infer_instance

/-- The build looks for AES-NI at run time. -/
def Build.LooksForAes (b : Build) : Prop :=
  Build.OffersAes b ∧ b.arch = .ia32 ∧ b.compiler ≠ .other

/-- What should be used without AES-NI: on 64-bit platforms `t1ha1` in the native byte order, or
`t1ha2_atonce` if `t1ha1` is disabled; else the 32-bit function in the native byte order. -/
def portableChoice (b : Build) : Fn :=
  if b.cfg.word64 ∧ ¬ b.no1 then
    match b.cfg.endian with
    | .little => .t1ha1_le
    | .big => .t1ha1_be
  else if b.cfg.word64 ∧ ¬ b.no2 then .t1ha2_atonce
  else
    match b.cfg.endian with
    | .little => .t1ha0_32le
    | .big => .t1ha0_32be

/-! ## Helpers -/

theorem offersAes_iff (b : Build) : b.aesniAvailable = true ↔ Build.OffersAes b := by
  unfold Build.aesniAvailable Build.OffersAes
  cases b.aesni with
  | none => cases b.arch <;> cases b.oldMsvc32 <;> simp
  | some a => cases a <;> simp

theorem selectsAtRunTime_iff (b : Build) : b.runtimeSelect = true ↔ Build.SelectsAtRunTime b := by
  unfold Build.runtimeSelect Build.SelectsAtRunTime
  rw [← offersAes_iff]
  cases b.runtime with
  | none => simp
  | some a => cases a <;> simp

/-- Nobody forces AES-NI on a processor without it. -/
theorem no_aes (b : Build) (h : b.arch = .other → b.aesni ≠ some true) (ho : b.arch = .other) :
    b.aesniAvailable = false := by
  rw [Bool.eq_false_iff, ne_eq, offersAes_iff]
  rintro (h1 | ⟨-, h1 | ⟨h1, -⟩⟩)
  · exact h ho h1
  all_goals (rw [ho] at h1; cases h1)

theorem portable_eq (b : Build) : t1ha0_resolve_portable b = portableChoice b := by
  unfold t1ha0_resolve_portable portableChoice
  cases b.cfg.endian <;> cases b.cfg.word64 <;> cases b.no1 <;> cases b.no2 <;> rfl

theorem single_bit (x : U64) (i : Nat) (c : U64) (hi : i < 64) (hc : c = BitVec.twoPow 64 i) :
    ((x &&& c) != 0) = x.getLsbD i := by
  subst hc
  rw [BitVec.and_twoPow]
  cases h : x.getLsbD i
  · rfl
  · simp only [if_true, bne_iff_ne, ne_eq]
    intro h0
    have := congrArg (fun v : U64 => v.getLsbD i) h0
    simp [hi] at this

theorem three_bits (x : U64) : ((x &&& 0x1A000000) == (0x1A000000 : U64)) =
    (x.getLsbD 25 && x.getLsbD 27 && x.getLsbD 28) := by
  have hc : ∀ i < 64, (0x1A000000 : U64).getLsbD i = (decide (i = 25) || decide (i = 27) || decide (i = 28)) := by
    decide
  rw [Bool.eq_iff_iff, beq_iff_eq]
  simp only [Bool.and_eq_true]
  constructor
  · intro h
    have hb : ∀ i, i < 64 → (decide (i = 25) || decide (i = 27) || decide (i = 28)) = true →
        x.getLsbD i = true := by
      intro i hi ht
      have h1 : (x &&& 0x1A000000).getLsbD i = (0x1A000000 : U64).getLsbD i := by rw [h]
      rw [BitVec.getLsbD_and, hc i hi, ht, Bool.and_true] at h1
      exact h1
    exact ⟨⟨hb 25 (by decide) rfl, hb 27 (by decide) rfl⟩, hb 28 (by decide) rfl⟩
  · intro ⟨⟨h1, h2⟩, h3⟩
    apply BitVec.eq_of_getLsbD_eq
    intro i hi
    rw [BitVec.getLsbD_and, hc i hi]
    by_cases a1 : i = 25
    · subst a1; rw [h1]; rfl
    · by_cases a2 : i = 27
      · subst a2; rw [h2]; rfl
      · by_cases a3 : i = 28
        · subst a3; rw [h3]; rfl
        · simp [a1, a2, a3]

theorem features_bits (b : Build) (cpu : Cpu) (hc : b.compiler ≠ .other) :
    (∀ i, i < 32 → ((t1ha_ia32cpu_features b cpu).getLsbD i = true ↔
      1 ≤ (cpu.cpuid 0 0).eax.toNat ∧ (cpu.cpuid 1 0).ecx.getLsbD i = true)) ∧
    (∀ i, i < 32 → (((t1ha_ia32cpu_features b cpu) >>> 32).getLsbD i = true ↔
      7 ≤ (cpu.cpuid 0 0).eax.toNat ∧ (cpu.cpuid 7 0).ebx.getLsbD i = true)) := by
  have e1 : ((cpu.cpuid 0 0).eax ≥ 1) ↔ 1 ≤ (cpu.cpuid 0 0).eax.toNat := BitVec.le_def
  have e7 : ((cpu.cpuid 0 0).eax ≥ 7) ↔ 7 ≤ (cpu.cpuid 0 0).eax.toNat := BitVec.le_def
  have key : t1ha_ia32cpu_features b cpu =
      (if 1 ≤ (cpu.cpuid 0 0).eax.toNat then (cpu.cpuid 1 0).ecx else 0).setWidth 64 |||
      ((if 7 ≤ (cpu.cpuid 0 0).eax.toNat then (cpu.cpuid 7 0).ebx else 0).setWidth 64 <<< 32) := by
    unfold t1ha_ia32cpu_features
    cases h : b.compiler with
    | other => exact absurd h hc
    | gnuc | msvc =>
      simp only [e1, e7]
      by_cases h1 : 1 ≤ (cpu.cpuid 0 0).eax.toNat
      · by_cases h7 : 7 ≤ (cpu.cpuid 0 0).eax.toNat
        · simp only [if_pos h1, if_pos h7]
        · simp only [if_pos h1, if_neg h7]
      · have h7 : ¬ 7 ≤ (cpu.cpuid 0 0).eax.toNat := by omega
        simp only [if_neg h1, if_neg h7]
  rw [key]
  generalize (cpu.cpuid 0 0).eax.toNat = top
  generalize (cpu.cpuid 1 0).ecx = ecx
  generalize (cpu.cpuid 7 0).ebx = ebx
  constructor
  · intro i hi
    have h64 : i < 64 := by omega
    by_cases h1 : 1 ≤ top
    · simp [h1, hi, h64]
    · simp [h1, hi]
  · intro i hi
    have h1 : 32 + i < 64 := by omega
    by_cases h7 : 7 ≤ top
    · simp [h7, h1]
    · simp [h7]

theorem avail_eq (b : Build) (cpu : Cpu) (hc : b.compiler ≠ .other) :
    (t1ha_ia32_AESNI_avail (t1ha_ia32cpu_features b cpu) = true ↔ HasAes cpu) ∧
    (t1ha_ia32_AVX_avail (t1ha_ia32cpu_features b cpu) = true ↔
      HasAes cpu ∧ HasOsxsave cpu ∧ HasAvx cpu) ∧
    (t1ha_ia32_AVX2_avail (t1ha_ia32cpu_features b cpu) = true ↔ HasAvx2 cpu) := by
  obtain ⟨h1, h2⟩ := features_bits b cpu hc
  refine ⟨?_, ?_, ?_⟩
  · rw [t1ha_ia32_AESNI_avail, single_bit _ 25 _ (by decide) (by decide)]
    exact h1 25 (by decide)
  · rw [t1ha_ia32_AVX_avail, three_bits, Bool.and_eq_true, Bool.and_eq_true, h1 25 (by decide),
      h1 27 (by decide), h1 28 (by decide), and_assoc]
    rfl
  · rw [t1ha_ia32_AVX2_avail, single_bit _ 5 _ (by decide) (by decide)]
    exact h2 5 (by decide)

theorem avail_other (b : Build) (cpu : Cpu) (hc : b.compiler = .other) :
    t1ha_ia32_AESNI_avail (t1ha_ia32cpu_features b cpu) = false := by
  have h : t1ha_ia32cpu_features b cpu = (0 : U32).setWidth 64 ||| ((0 : U32).setWidth 64 <<< 32) := by
    unfold t1ha_ia32cpu_features
    rw [hc]
  rw [h]
  decide

theorem resolve_pos (b : Build) (cpu : Cpu) (h : (b.aesniAvailable && decide (b.arch = .ia32)) = true) :
    t1ha0_resolve b cpu =
      if t1ha_ia32_AESNI_avail (t1ha_ia32cpu_features b cpu) = true then
        if t1ha_ia32_AVX_avail (t1ha_ia32cpu_features b cpu) = true then
          if t1ha_ia32_AVX2_avail (t1ha_ia32cpu_features b cpu) = true then .t1ha0_ia32aes_avx2
          else .t1ha0_ia32aes_avx
        else .t1ha0_ia32aes_noavx
      else t1ha0_resolve_portable b := by
  rw [t1ha0_resolve, if_pos h]

/-! ## C22 -/

/-- C22: `t1ha0_resolve` returns an AES-NI function exactly if the build looks for AES-NI and CPUID
reports what the function needs; the AVX function if CPUID reports AVX and OSXSAVE too but not AVX2; the
AVX2 function if CPUID reports all of them. Otherwise it returns the portable function. -/
theorem resolve_correct (b : Build) (cpu : Cpu) :
    (t1ha0_resolve b cpu = .t1ha0_ia32aes_avx2 ↔
      Build.LooksForAes b ∧ HasAes cpu ∧ HasAvx cpu ∧ HasOsxsave cpu ∧ HasAvx2 cpu) ∧
    (t1ha0_resolve b cpu = .t1ha0_ia32aes_avx ↔
      Build.LooksForAes b ∧ HasAes cpu ∧ HasAvx cpu ∧ HasOsxsave cpu ∧ ¬ HasAvx2 cpu) ∧
    (t1ha0_resolve b cpu = .t1ha0_ia32aes_noavx ↔
      Build.LooksForAes b ∧ HasAes cpu ∧ ¬ (HasAvx cpu ∧ HasOsxsave cpu)) ∧
    (¬ (Build.LooksForAes b ∧ HasAes cpu) → t1ha0_resolve b cpu = portableChoice b) := by
  have hp : portableChoice b ≠ .t1ha0_ia32aes_avx2 ∧ portableChoice b ≠ .t1ha0_ia32aes_avx ∧
      portableChoice b ≠ .t1ha0_ia32aes_noavx := by
    unfold portableChoice
    cases b.cfg.endian <;> refine ⟨?_, ?_, ?_⟩ <;> (repeat' split) <;> simp
  have none (h : t1ha0_resolve b cpu = portableChoice b) (hn : ¬ (Build.LooksForAes b ∧ HasAes cpu)) :
      (t1ha0_resolve b cpu = .t1ha0_ia32aes_avx2 ↔
        Build.LooksForAes b ∧ HasAes cpu ∧ HasAvx cpu ∧ HasOsxsave cpu ∧ HasAvx2 cpu) ∧
      (t1ha0_resolve b cpu = .t1ha0_ia32aes_avx ↔
        Build.LooksForAes b ∧ HasAes cpu ∧ HasAvx cpu ∧ HasOsxsave cpu ∧ ¬ HasAvx2 cpu) ∧
      (t1ha0_resolve b cpu = .t1ha0_ia32aes_noavx ↔
        Build.LooksForAes b ∧ HasAes cpu ∧ ¬ (HasAvx cpu ∧ HasOsxsave cpu)) ∧
      (¬ (Build.LooksForAes b ∧ HasAes cpu) → t1ha0_resolve b cpu = portableChoice b) := by
    rw [h]
    exact ⟨⟨fun e => absurd e hp.1, fun e => absurd ⟨e.1, e.2.1⟩ hn⟩,
      ⟨fun e => absurd e hp.2.1, fun e => absurd ⟨e.1, e.2.1⟩ hn⟩,
      ⟨fun e => absurd e hp.2.2, fun e => absurd ⟨e.1, e.2.1⟩ hn⟩, fun _ => rfl⟩
  by_cases hl : b.aesniAvailable = true ∧ b.arch = .ia32
  · have h0 : (b.aesniAvailable && decide (b.arch = .ia32)) = true := by simp [hl.1, hl.2]
    by_cases hc : b.compiler = .other
    · refine none ?_ (fun h => h.1.2.2 hc)
      rw [resolve_pos b cpu h0, avail_other b cpu hc, if_neg (by simp), portable_eq]
    · obtain ⟨a1, a2, a3⟩ := avail_eq b cpu hc
      have hlook : Build.LooksForAes b := ⟨(offersAes_iff b).1 hl.1, hl.2, hc⟩
      by_cases haes : HasAes cpu
      · rw [resolve_pos b cpu h0, if_pos (a1.2 haes)]
        by_cases h1 : HasAvx cpu ∧ HasOsxsave cpu
        · rw [if_pos (a2.2 ⟨haes, h1.2, h1.1⟩)]
          by_cases h3 : HasAvx2 cpu
          · rw [if_pos (a3.2 h3)]; simp [h1.1, h1.2, h3, haes, hlook]
          · rw [if_neg (fun h => h3 (a3.1 h))]; simp [h1.1, h1.2, h3, haes, hlook]
        · rw [if_neg (fun h => h1 ⟨(a2.1 h).2.2, (a2.1 h).2.1⟩)]
          have h2 : ∀ p, ¬ (HasAvx cpu ∧ HasOsxsave cpu ∧ p) := fun p h => h1 ⟨h.1, h.2.1⟩
          simp [h1, h2, haes, hlook]
      · refine none ?_ (fun h => haes h.2)
        rw [resolve_pos b cpu h0, if_neg (fun h => haes (a1.1 h)), portable_eq]
  · refine none ?_ (fun h => hl ⟨(offersAes_iff b).2 h.1.1, h.1.2.1⟩)
    rw [t1ha0_resolve, if_neg, portable_eq]
    simpa using hl

/-- C22: `t1ha0_resolve` never returns a function of a disabled part of the library. -/
theorem resolve_enabled (b : Build) (cpu : Cpu) :
    (b.no1 = true → t1ha0_resolve b cpu ≠ .t1ha1_le ∧ t1ha0_resolve b cpu ≠ .t1ha1_be) ∧
    (b.no2 = true → t1ha0_resolve b cpu ≠ .t1ha2_atonce) := by
  have hp : (b.no1 = true → portableChoice b ≠ .t1ha1_le ∧ portableChoice b ≠ .t1ha1_be) ∧
      (b.no2 = true → portableChoice b ≠ .t1ha2_atonce) := by
    unfold portableChoice
    cases b.cfg.endian <;> cases b.cfg.word64 <;> cases b.no1 <;> cases b.no2 <;> simp
  by_cases h0 : (b.aesniAvailable && decide (b.arch = .ia32)) = true
  · rw [resolve_pos b cpu h0, portable_eq]
    (repeat' split) <;> first | exact hp | simp
  · rw [t1ha0_resolve, if_neg h0, portable_eq]
    exact hp

/-- A build for x86-64 Linux, defaults everywhere. -/
def linux64 : Build where
  cfg := amd64
  arch := .ia32
  compiler := .gnuc
  oldMsvc32 := false
  aesni := none
  runtime := none
  useDefine := false
  no0 := false
  no1 := false
  no2 := false

/-- A processor with the given leaf 1 ECX and leaf 7 EBX. -/
def someCpu (max ecx ebx : U32) : Cpu where
  cpuid leaf _ :=
    if leaf = 0 then ⟨max, 0, 0, 0⟩
    else if leaf = 1 then ⟨0, 0, ecx, 0⟩
    else if leaf = 7 then ⟨0, ebx, 0, 0⟩
    else ⟨0, 0, 0, 0⟩

/-- A recent processor; the same if CPUID stops at leaf 6; AVX without OSXSAVE; no AES; a build without
AES-NI. -/
example : t1ha0_resolve linux64 (someCpu 13 0x7FFAFBBF 0x209C01A9) = .t1ha0_ia32aes_avx2 ∧
    t1ha0_resolve linux64 (someCpu 6 0x7FFAFBBF 0x209C01A9) = .t1ha0_ia32aes_avx ∧
    t1ha0_resolve linux64 (someCpu 13 0x12000000 0x209C01A9) = .t1ha0_ia32aes_noavx ∧
    t1ha0_resolve linux64 (someCpu 13 0x18000000 0x209C01A9) = .t1ha1_le ∧
    t1ha0_resolve { linux64 with aesni := some false } (someCpu 13 0x7FFAFBBF 0x209C01A9) = .t1ha1_le ∧
    t1ha0_resolve { linux64 with no1 := true } (someCpu 13 0 0) = .t1ha2_atonce ∧
    t1ha0_resolve { linux64 with cfg := mips32, arch := .other } (someCpu 0 0 0) = .t1ha0_32be := by
  decide

/-! ## C34 -/

/-- Whether the instructions in the code of a function can be executed (Intel SDM, volume 1, 14.3): those
of the AVX and AVX2 functions need a processor with AVX, and an operating system which has enabled, in
`XCR0`, saving the SSE and AVX registers (bits 1 and 2). -/
def CanExecute (cpu : Cpu) (xcr0 : U64) : Fn → Prop
  | .t1ha0_ia32aes_noavx => HasAes cpu
  | .t1ha0_ia32aes_avx =>
    HasAes cpu ∧ HasAvx cpu ∧ HasOsxsave cpu ∧ xcr0.getLsbD 1 = true ∧ xcr0.getLsbD 2 = true
  | .t1ha0_ia32aes_avx2 =>
    HasAes cpu ∧ HasAvx cpu ∧ HasAvx2 cpu ∧ HasOsxsave cpu ∧ xcr0.getLsbD 1 = true ∧ xcr0.getLsbD 2 = true
  | _ => True

/-- C34, the part which holds: if every operating system which uses XSAVE enables the AVX registers, the
selected function can be executed. Missing: systems which do not (see `avx_not_enabled`). -/
theorem resolve_executable_partial (b : Build) (cpu : Cpu) (xcr0 : U64)
    (os : HasOsxsave cpu → HasAvx cpu → xcr0.getLsbD 1 = true ∧ xcr0.getLsbD 2 = true) :
    CanExecute cpu xcr0 (t1ha0_resolve b cpu) := by
  obtain ⟨h1, h2, h3, _⟩ := resolve_correct b cpu
  cases h : t1ha0_resolve b cpu with
  | t1ha0_ia32aes_avx2 =>
    obtain ⟨_, a, v, o, v2⟩ := h1.1 h
    exact ⟨a, v, v2, o, os o v⟩
  | t1ha0_ia32aes_avx =>
    obtain ⟨_, a, v, o, _⟩ := h2.1 h
    exact ⟨a, v, o, os o v⟩
  | t1ha0_ia32aes_noavx => exact (h3.1 h).2.1
  | _ => trivial

/-- C34 does not hold in general: the code never looks at `XCR0`, so on a system which uses XSAVE but has
not enabled the AVX registers it selects a function which cannot be executed. -/
theorem avx_not_enabled : ∃ (b : Build) (cpu : Cpu) (xcr0 : U64),
    xcr0.getLsbD 1 = true ∧ xcr0.getLsbD 2 = false ∧ ¬ CanExecute cpu xcr0 (t1ha0_resolve b cpu) := by
  refine ⟨linux64, someCpu 13 0x7FFAFBBF 0x209C01A9, 3, by decide, by decide, ?_⟩
  rw [show t1ha0_resolve linux64 (someCpu 13 0x7FFAFBBF 0x209C01A9) = .t1ha0_ia32aes_avx2 by decide]
  intro h
  exact absurd h.2.2.2.2.2 (by decide)

example : CanExecute (someCpu 13 0x7FFAFBBF 0x209C01A9) 7
    (t1ha0_resolve linux64 (someCpu 13 0x7FFAFBBF 0x209C01A9)) :=
  resolve_executable_partial _ _ _ (fun _ _ => by decide)

/-! ## C24 -/

/-- C24: the header selects the portable function, and so does `t1ha0_resolve` unless an AES-NI function
can be used: with the same options, static and run-time selection agree. -/
theorem static_agrees (b : Build) (cpu : Cpu) :
    t1ha0_static b = portableChoice b ∧
    (¬ (Build.LooksForAes b ∧ HasAes cpu) → t1ha0_resolve b cpu = t1ha0_static b) := by
  have h : t1ha0_static b = portableChoice b := by
    unfold t1ha0_static portableChoice
    cases b.cfg.endian <;> cases b.cfg.word64 <;> cases b.no1 <;> cases b.no2 <;> cases b.useDefine <;> rfl
  exact ⟨h, fun hn => by rw [h]; exact (resolve_correct b cpu).2.2.2 hn⟩

/-- C24: so `t1ha0` hashes alike with static and with run-time selection: a call of the function which
`t1ha0_resolve` returns and a call of the one which the header selects return the same value, on the two
builds which differ only in `T1HA0_RUNTIME_SELECT` and `T1HA0_USE_DEFINE`. -/
theorem static_hashes_alike (b b' : Build) (cpu : Cpu) (hcfg : b'.cfg = b.cfg) (h1 : b'.no1 = b.no1)
    (h2 : b'.no2 = b.no2) (hn : ¬ (Build.LooksForAes b ∧ HasAes cpu)) (stack : State256) (ac : AesCfg)
    (data len : Nat) (seed : U64) :
    ((t1ha0_resolve b cpu).oneShot stack ac).run b.cfg data len seed =
      ((t1ha0_static b').oneShot stack ac).run b'.cfg data len seed := by
  have : portableChoice b' = portableChoice b := by unfold portableChoice; rw [hcfg, h1, h2]
  rw [(static_agrees b' cpu).1, (resolve_correct b cpu).2.2.2 hn, this, hcfg]

/-- A processor without AES-NI. -/
example : ¬ (Build.LooksForAes linux64 ∧ HasAes (someCpu 13 0x18000000 0)) :=
  fun h => absurd h.2.2 (by decide)

/-! ## C23 -/

/-- The state in which the program starts to call `t1ha0`: the loader has bound the indirect function or
run the constructor. -/
def Conc.ready (binding : Binding) (f : Fn) : Conc :=
  match binding with
  | .constructor => { Conc.initial .constructor f with first := .to f }
  | binding => Conc.initial binding f

/-- The calls of thread `i` which have not returned. -/
def pending (i : Nat) : Thread → List (Nat × Args)
  | .reading a _ | .jumping _ a _ | .resolved _ a _ => [(i, a)]
  | _ => []

/-- What holds of a thread; `seen`: it has seen a written value. -/
def ThreadOk (f : Fn) (seen : Bool) : Thread → Prop
  | .idle => True
  | .reading _ n => n = 0 ∨ n = 1 ∧ seen = true
  | .jumping p _ n => p = .proxy ∧ n = 0 ∨ p = .to f ∧ n ≤ 1
  | .resolved g _ n => g = f ∧ n = 1
  | .crashed => False

/-- Invariant of the system. -/
structure Inv (f : Fn) (c : Conc) : Prop where
  first : c.first = .proxy ∨ c.first = .to f
  written : ∀ p ∈ c.written, p = .to f
  seen : ∀ i, c.seen i = true → c.written ≠ []
  thread : ∀ i, ThreadOk f (c.seen i) (c.threads i)
  done : ∀ d ∈ c.done, d.executed = f ∧ d.trips ≤ 1
  account : ∀ i, c.made.filter (fun x => x.1 = i) =
    pending i (c.threads i) ++ (c.done.filter (fun d => d.thread = i)).map (fun d => (d.thread, d.args))

theorem inv_ready (binding : Binding) (f : Fn) : Inv f (Conc.ready binding f) := by
  cases binding <;> exact ⟨by simp [Conc.ready, Conc.initial], fun _ h => (nomatch h), fun _ h => (nomatch h),
    fun i => trivial, fun _ h => (nomatch h), fun i => rfl⟩

theorem inv_step {binding : Binding} {f : Fn} {c d : Conc} (h : Inv f c) (s : Step binding f c d) : Inv f d := by
  cases s with
  | call i a hi =>
    refine ⟨h.first, h.written, h.seen, fun j => ?_, h.done, fun j => ?_⟩
    · by_cases hj : j = i
      · subst hj; simp [Conc.set, ThreadOk]
      · simpa [Conc.set, hj] using h.thread j
    · have := h.account j
      by_cases hj : j = i
      · subst hj
        rw [hi] at this
        simpa [Conc.set, pending] using this
      · have hj' : ¬ i = j := fun e => hj e.symm
        simpa [Conc.set, hj, hj'] using this
  | readFirst i a n hi hs =>
    have ht := h.thread i
    rw [hi, hs] at ht
    refine ⟨h.first, h.written, h.seen, fun j => ?_, h.done, fun j => ?_⟩
    · by_cases hj : j = i
      · subst hj
        simp only [Conc.set, if_true]
        rcases ht with rfl | ⟨_, h2⟩
        · rcases h.first with hp | hp
          · exact Or.inl ⟨hp, rfl⟩
          · exact Or.inr ⟨hp, by decide⟩
        · exact nomatch h2
      · simpa [Conc.set, hj] using h.thread j
    · have := h.account j
      by_cases hj : j = i
      · subst hj
        rw [hi] at this
        simpa [Conc.set, pending] using this
      · simpa [Conc.set, hj] using this
  | readWritten i a n p hi hp =>
    have ht := h.thread i
    rw [hi] at ht
    refine ⟨h.first, h.written, fun j => ?_, fun j => ?_, h.done, fun j => ?_⟩
    · intro _ he
      simp only [Conc.set, Conc.look] at he
      rw [he] at hp
      exact nomatch hp
    · by_cases hj : j = i
      · subst hj
        simp only [Conc.set, Conc.look, if_true]
        refine Or.inr ⟨h.written p hp, ?_⟩
        rcases ht with rfl | ⟨rfl, _⟩ <;> decide
      · simpa [Conc.set, Conc.look, hj] using h.thread j
    · have := h.account j
      by_cases hj : j = i
      · subst hj
        rw [hi] at this
        simpa [Conc.set, Conc.look, pending] using this
      · simpa [Conc.set, Conc.look, hj] using this
  | enter i a n hi =>
    have ht := h.thread i
    rw [hi] at ht
    refine ⟨h.first, h.written, h.seen, fun j => ?_, h.done, fun j => ?_⟩
    · by_cases hj : j = i
      · subst hj
        simp only [Conc.set, if_true]
        rcases ht with ⟨_, rfl⟩ | ⟨h1, _⟩
        · exact ⟨rfl, rfl⟩
        · exact nomatch h1
      · simpa [Conc.set, hj] using h.thread j
    · have := h.account j
      by_cases hj : j = i
      · subst hj
        rw [hi] at this
        simpa [Conc.set, pending] using this
      · simpa [Conc.set, hj] using this
  | write i g a n hi =>
    have ht := h.thread i
    rw [hi] at ht
    obtain ⟨rfl, rfl⟩ := ht
    refine ⟨h.first, ?_, fun j _ => by simp, fun j => ?_, h.done, fun j => ?_⟩
    · intro p hp
      rcases List.mem_cons.1 hp with rfl | hp
      · rfl
      · exact h.written p hp
    · by_cases hj : j = i
      · subst hj
        simp [Conc.set, Conc.look, ThreadOk]
      · simpa [Conc.set, Conc.look, hj] using h.thread j
    · have := h.account j
      by_cases hj : j = i
      · subst hj
        rw [hi] at this
        simpa [Conc.set, Conc.look, pending] using this
      · simpa [Conc.set, Conc.look, hj] using this
  | forward i g a n hi =>
    have ht := h.thread i
    rw [hi] at ht
    obtain ⟨rfl, rfl⟩ := ht
    refine ⟨h.first, ?_, fun j _ => by simp, fun j => ?_, h.done, fun j => ?_⟩
    · intro p hp
      rcases List.mem_cons.1 hp with rfl | hp
      · rfl
      · exact h.written p hp
    · by_cases hj : j = i
      · subst hj
        simp [Conc.set, Conc.look, ThreadOk]
      · simpa [Conc.set, Conc.look, hj] using h.thread j
    · have := h.account j
      by_cases hj : j = i
      · subst hj
        rw [hi] at this
        simpa [Conc.set, Conc.look, pending] using this
      · simpa [Conc.set, Conc.look, hj] using this
  | run i g a n hi =>
    have ht := h.thread i
    rw [hi] at ht
    refine ⟨h.first, h.written, h.seen, fun j => ?_, ?_, fun j => ?_⟩
    · by_cases hj : j = i
      · subst hj; simp [Conc.set, ThreadOk]
      · simpa [Conc.set, hj] using h.thread j
    · intro d hd
      rcases List.mem_cons.1 hd with rfl | hd
      · rcases ht with ⟨h1, _⟩ | ⟨h1, h2⟩
        · exact nomatch h1
        · exact ⟨by injection h1, h2⟩
      · exact h.done d hd
    · have := h.account j
      by_cases hj : j = i
      · subst hj
        rw [hi] at this
        simpa [Conc.set, pending] using this
      · have hj' : ¬ i = j := fun e => hj e.symm
        simpa [Conc.set, hj, hj'] using this
  | crash i a n hi =>
    have ht := h.thread i
    rw [hi] at ht
    rcases ht with ⟨h1, _⟩ | ⟨h1, _⟩ <;> exact nomatch h1
  | construct hb =>
    refine ⟨h.first, ?_, fun j _ => by simp, h.thread, h.done, h.account⟩
    intro p hp
    rcases List.mem_cons.1 hp with rfl | hp
    · rfl
    · exact h.written p hp

theorem inv_steps {binding : Binding} {f : Fn} {c d : Conc} (h : Inv f c) (s : Steps binding f c d) :
    Inv f d := by
  induction s with
  | refl => exact h
  | tail _ s ih => exact inv_step ih s

/-- C23: whatever the number of threads, the calls, the interleaving, and what the threads see of each
other's writes: every finished call has executed the resolved implementation, after at most one trip
through the proxy; no thread crashes. For each thread the finished calls are, in order and with their
arguments, the calls which it has made, except possibly the last one, which is still running. -/
theorem dispatch_correct (binding : Binding) (f : Fn) {c : Conc} (h : Steps binding f (Conc.ready binding f) c) :
    (∀ d ∈ c.done, d.executed = f ∧ d.trips ≤ 1) ∧
    (∀ i, c.threads i ≠ .crashed) ∧
    ∀ i, ∃ running, running.length ≤ 1 ∧ (c.threads i = .idle → running = []) ∧
      c.made.filter (fun x => x.1 = i) =
        running ++ (c.done.filter (fun d => d.thread = i)).map (fun d => (d.thread, d.args)) := by
  have hi := inv_steps (inv_ready binding f) h
  refine ⟨hi.done, fun i hc => ?_, fun i => ⟨_, ?_, ?_, hi.account i⟩⟩
  · have := hi.thread i
    rw [hc] at this
    exact this
  · cases c.threads i <;> simp [pending]
  · intro h
    rw [h]
    rfl

/-- C23: nothing but the resolved implementation is ever stored in the pointer. -/
theorem pointer_values (binding : Binding) (f : Fn) {c : Conc}
    (h : Steps binding f (Conc.ready binding f) c) : ∀ p ∈ c.written, p = .to f :=
  (inv_steps (inv_ready binding f) h).written

/-- Steps which a thread may still need. -/
def cost : Thread → Nat
  | .reading _ 0 => 5
  | .reading _ _ => 2
  | .jumping .proxy _ _ => 4
  | .jumping _ _ _ => 1
  | .resolved _ _ _ => 3
  | .idle | .crashed => 0

/-- C23: calls do not wait for each other. A thread inside a call can always move on, whatever the other
threads do; each of its steps brings it closer to the end of the call (`cost`), and no step of another
thread takes it back. -/
theorem dispatch_wait_free (binding : Binding) (f : Fn) {c : Conc} (h : Steps binding f (Conc.ready binding f) c)
    (i : Nat) (hi : c.threads i ≠ .idle) :
    cost (c.threads i) ≤ 5 ∧
    (∃ d, Step binding f c d ∧ cost (d.threads i) < cost (c.threads i)) ∧
    ∀ d, Step binding f c d →
      d.threads i = c.threads i ∨ cost (d.threads i) < cost (c.threads i) := by
  have hinv := inv_steps (inv_ready binding f) h
  have ht := hinv.thread i
  refine ⟨?_, ?_, ?_⟩
  · cases c.threads i with
    | reading a n => cases n <;> simp [cost]
    | jumping p a n => cases p <;> simp [cost]
    | _ => simp [cost]
  · cases hc : c.threads i with
    | idle => exact absurd hc hi
    | reading a n =>
      rw [hc] at ht
      cases hs : c.seen i with
      | false =>
        rw [hs] at ht
        refine ⟨_, .readFirst i a n hc hs, ?_⟩
        simp only [Conc.set, if_true]
        rcases ht with rfl | ⟨_, h2⟩
        · rcases hinv.first with hp | hp <;> rw [hp] <;> simp [cost]
        · exact nomatch h2
      | true =>
        obtain ⟨p, hp⟩ := List.exists_mem_of_ne_nil _ (hinv.seen i hs)
        refine ⟨_, .readWritten i a n p hc hp, ?_⟩
        rw [hinv.written p hp]
        cases n <;> simp [Conc.set, Conc.look, cost]
    | jumping p a n =>
      rw [hc] at ht
      rcases ht with ⟨rfl, rfl⟩ | ⟨rfl, _⟩
      · exact ⟨_, .enter i a 0 hc, by simp [Conc.set, cost]⟩
      · exact ⟨_, .run i f a n hc, by simp [Conc.set, cost]⟩
    | resolved g a n =>
      rw [hc] at ht
      obtain ⟨rfl, rfl⟩ := ht
      exact ⟨_, .write i g a 1 hc, by simp [Conc.set, Conc.look, cost]⟩
    | crashed => rw [hc] at ht; exact absurd ht id
  · intro d s
    cases s with
    | call j a hj =>
      by_cases e : i = j
      · subst e; exact absurd hj hi
      · exact Or.inl (by simp [Conc.set, e])
    | readFirst j a n hj hs =>
      by_cases e : i = j
      · subst e
        rw [hj, hs] at ht
        right
        simp only [Conc.set, if_true, hj]
        rcases ht with rfl | ⟨_, h2⟩
        · rcases hinv.first with hp | hp <;> rw [hp] <;> simp [cost]
        · exact nomatch h2
      · exact Or.inl (by simp [Conc.set, e])
    | readWritten j a n p hj hp =>
      by_cases e : i = j
      · subst e
        right
        rw [hinv.written p hp]
        cases n <;> simp [Conc.set, Conc.look, cost, hj]
      · exact Or.inl (by simp [Conc.set, Conc.look, e])
    | enter j a n hj =>
      by_cases e : i = j
      · subst e; exact Or.inr (by simp [Conc.set, hj, cost])
      · exact Or.inl (by simp [Conc.set, e])
    | write j g a n hj =>
      by_cases e : i = j
      · subst e
        rw [hj] at ht
        obtain ⟨rfl, rfl⟩ := ht
        exact Or.inr (by simp [Conc.set, Conc.look, hj, cost])
      · exact Or.inl (by simp [Conc.set, Conc.look, e])
    | forward j g a n hj =>
      by_cases e : i = j
      · subst e; exact Or.inr (by simp [Conc.set, Conc.look, hj, cost])
      · exact Or.inl (by simp [Conc.set, Conc.look, e])
    | run j g a n hj =>
      by_cases e : i = j
      · subst e; exact Or.inr (by simp [Conc.set, hj, cost])
      · exact Or.inl (by simp [Conc.set, e])
    | crash j a n hj =>
      by_cases e : i = j
      · subst e; exact Or.inr (by simp [Conc.set, hj, cost])
      · exact Or.inl (by simp [Conc.set, e])
    | construct hb => exact Or.inl rfl

/-- Two threads race through the proxy: the second one reads the pointer before the first one has written
it, and both calls end; a third thread gets the pointer which was written. -/
example : ∃ c, Steps .proxy .t1ha1_le (Conc.ready .proxy .t1ha1_le) c ∧
    c.done = [⟨3, ⟨300, 30, 3⟩, .t1ha1_le, 0⟩, ⟨2, ⟨200, 20, 2⟩, .t1ha1_le, 1⟩, ⟨1, ⟨100, 10, 1⟩, .t1ha1_le, 1⟩] := by
  have s0 := Steps.refl (binding := .proxy) (resolve := .t1ha1_le) (Conc.ready .proxy .t1ha1_le)
  have s1 := s0.tail (.call 1 ⟨100, 10, 1⟩ rfl)
  have s2 := s1.tail (.call 2 ⟨200, 20, 2⟩ rfl)
  have s3 := s2.tail (.readFirst 1 _ _ rfl rfl)
  have s4 := s3.tail (.readFirst 2 _ _ rfl rfl)
  have s5 := s4.tail (.enter 1 _ _ rfl)
  have s6 := s5.tail (.enter 2 _ _ rfl)
  have s7 := s6.tail (.write 1 _ _ _ rfl)
  have s8 := s7.tail (.readWritten 1 _ _ _ rfl (List.mem_singleton.2 rfl))
  have s9 := s8.tail (.forward 2 _ _ _ rfl)
  have s10 := s9.tail (.run 1 _ _ _ rfl)
  have s11 := s10.tail (.run 2 _ _ _ rfl)
  have s12 := s11.tail (.call 3 ⟨300, 30, 3⟩ rfl)
  have s13 := s12.tail (.readWritten 3 _ _ _ rfl (List.mem_cons_self ..))
  exact ⟨_, s13.tail (.run 3 _ _ _ rfl), rfl⟩

/-! ## C35 -/

/-- C35, for two of the three bindings: `t1ha0` can be called at any time, even before the constructors of
the library have run. Missing: the binding by a constructor (see `call_before_constructor_crashes`). -/
theorem callable_any_time_partial (binding : Binding) (hb : binding ≠ .constructor) (f : Fn) {c : Conc}
    (h : Steps binding f (Conc.initial binding f) c) :
    (∀ d ∈ c.done, d.executed = f) ∧ ∀ i, c.threads i ≠ .crashed := by
  have hr : Conc.initial binding f = Conc.ready binding f := by
    cases binding
    · rfl
    · exact absurd rfl hb
    · rfl
  rw [hr] at h
  obtain ⟨h1, h2, _⟩ := dispatch_correct binding f h
  exact ⟨fun d hd => (h1 d hd).1, h2⟩

/-- C35 does not hold for the binding by a constructor: a call which is made before it has run (say, from
the constructor of another object file) jumps to a null pointer. -/
theorem call_before_constructor_crashes (f : Fn) (a : Args) :
    ∃ c, Steps .constructor f (Conc.initial .constructor f) c ∧ c.threads 0 = .crashed := by
  have s0 := Steps.refl (binding := .constructor) (resolve := f) (Conc.initial .constructor f)
  have s1 := s0.tail (.call 0 a rfl)
  have s2 := s1.tail (.readFirst 0 _ _ rfl rfl)
  exact ⟨_, s2.tail (.crash 0 _ _ rfl), rfl⟩

example : ∃ c, Steps .ifunc .t1ha0_32le (Conc.initial .ifunc .t1ha0_32le) c ∧
    c.done = [⟨3, ⟨0, 0, 9⟩, .t1ha0_32le, 0⟩] := by
  have s0 := Steps.refl (binding := .ifunc) (resolve := .t1ha0_32le) (Conc.initial .ifunc .t1ha0_32le)
  have s1 := s0.tail (.call 3 ⟨0, 0, 9⟩ rfl)
  have s2 := s1.tail (.readFirst 3 _ _ rfl rfl)
  exact ⟨_, s2.tail (.run 3 _ _ _ rfl), rfl⟩

end T1ha.Props
