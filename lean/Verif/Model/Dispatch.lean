import Verif.Props.Api

/-!
# Selection of the implementation of `t1ha0`

t1ha.h:459-467, 592-617, 627-709, src/t1ha0.c:358-460, src/t1ha_bits.h:1231-1254.
-/

namespace T1ha.Model

/-- Target architecture, as far as the selection looks at it. -/
inductive Arch
  /-- `__ia32__` is defined (t1ha.h:229-246): x86, 32 or 64 bits -/
  | ia32
  /-- `__e2k__` is defined: Elbrus -/
  | e2k
  | other
  deriving DecidableEq, Repr

/-- Which of the intrinsics for `CPUID` the compiler has (src/t1ha0.c:364, 372). -/
inductive Compiler
  /-- `__GNUC__` -/
  | gnuc
  /-- `_MSC_VER` without `__GNUC__` -/
  | msvc
  | other
  deriving DecidableEq, Repr

/-- The preprocessor inputs of the selection, in addition to those in `Cfg`. -/
structure Build where
  cfg : Cfg
  arch : Arch
  compiler : Compiler
  /-- `defined(_M_IX86) && !(_MSC_VER > 1800)` (t1ha.h:462, 595): 32-bit MSVC 2013 and older -/
  oldMsvc32 : Bool
  /-- `T1HA0_AESNI_AVAILABLE`, if the user defines it -/
  aesni : Option Bool
  /-- `T1HA0_RUNTIME_SELECT`, if the user defines it -/
  runtime : Option Bool
  /-- `T1HA0_USE_DEFINE` (t1ha.h:611-617) -/
  useDefine : Bool
  /-- `T1HA0_DISABLED` -/
  no0 : Bool
  /-- `T1HA1_DISABLED` -/
  no1 : Bool
  /-- `T1HA2_DISABLED` -/
  no2 : Bool
  deriving DecidableEq, Repr

/-- `T1HA0_AESNI_AVAILABLE` (t1ha.h:460-467, 593-600) -/
def Build.aesniAvailable (b : Build) : Bool :=
  b.aesni.getD (b.arch = .e2k || (b.arch = .ia32 && !b.oldMsvc32))

/-- `T1HA0_RUNTIME_SELECT` (t1ha.h:603-609) -/
def Build.runtimeSelect (b : Build) : Bool :=
  b.runtime.getD (b.aesniAvailable && b.arch ≠ .e2k)

/-- The functions which can be selected. -/
inductive Fn
  | t1ha0_ia32aes_avx2
  | t1ha0_ia32aes_avx
  | t1ha0_ia32aes_noavx
  | t1ha1_be
  | t1ha1_le
  | t1ha2_atonce
  | t1ha0_32be
  | t1ha0_32le
  deriving DecidableEq, Repr

/-- The model of the function. -/
def Fn.oneShot (f : Fn) (stack : State256) (ac : AesCfg) : OneShot :=
  match f with
  | .t1ha0_ia32aes_avx2 => .t1ha0_ia32aes_avx2 ac
  | .t1ha0_ia32aes_avx => .t1ha0_ia32aes_avx ac
  | .t1ha0_ia32aes_noavx => .t1ha0_ia32aes_noavx ac
  | .t1ha1_be => .t1ha1_be
  | .t1ha1_le => .t1ha1_le
  | .t1ha2_atonce => .t1ha2_atonce stack
  | .t1ha0_32be => .t1ha0_32be
  | .t1ha0_32le => .t1ha0_32le

/-! ## CPUID -/

/-- The four registers which `CPUID` fills. -/
structure Regs where
  eax : U32
  ebx : U32
  ecx : U32
  edx : U32
  deriving DecidableEq, Repr

/-- A processor: what `CPUID` returns for each leaf and subleaf. (`__get_cpuid_max` also copes with
processors which have no such instruction, and returns 0 then: such a processor is the one whose leaf 0
says 0.) -/
structure Cpu where
  cpuid : U32 → U32 → Regs

/-- `t1ha_ia32cpu_features` (src/t1ha0.c:361-386) -/
def t1ha_ia32cpu_features (b : Build) (cpu : Cpu) : U64 :=
  let features : U32 := 0
  let extended : U32 := 0
  let r : U32 × U32 :=
    match b.compiler with
    | .gnuc =>
      let cpuid_max := (cpu.cpuid 0 0).eax
      if cpuid_max ≥ 1 then
        let features := (cpu.cpuid 1 0).ecx
        if cpuid_max ≥ 7 then (features, (cpu.cpuid 7 0).ebx)
        else (features, extended)
      else (features, extended)
    | .msvc =>
      let cpuid_max := (cpu.cpuid 0 0).eax
      if cpuid_max ≥ 1 then
        let features := (cpu.cpuid 1 0).ecx
        if cpuid_max ≥ 7 then (features, (cpu.cpuid 7 0).ebx)
        else (features, extended)
      else (features, extended)
    | .other => (features, extended)
  r.1.setWidth 64 ||| (r.2.setWidth 64 <<< 32)

/-- `t1ha_ia32_AESNI_avail` (src/t1ha_bits.h:1236-1240) -/
def t1ha_ia32_AESNI_avail (features : U64) : Bool := (features &&& 0x02000000) != 0

/-- `t1ha_ia32_AVX_avail` (src/t1ha_bits.h:1242-1246) -/
def t1ha_ia32_AVX_avail (features : U64) : Bool := (features &&& 0x1A000000) == 0x1A000000

/-- `t1ha_ia32_AVX2_avail` (src/t1ha_bits.h:1248-1252) -/
def t1ha_ia32_AVX2_avail (features : U64) : Bool := ((features >>> 32) &&& 32) != 0

/-! ## Selection -/

/-- The part of `t1ha0_resolve` after the AES-NI variants (src/t1ha0.c:403-425) -/
def t1ha0_resolve_portable (b : Build) : Fn :=
  match b.cfg.endian with
  | .big =>
    if b.cfg.word64 && (!b.no1 || !b.no2) then
      if !b.no1 then .t1ha1_be else .t1ha2_atonce
    else .t1ha0_32be
  | .little =>
    if b.cfg.word64 && (!b.no1 || !b.no2) then
      if !b.no1 then .t1ha1_le else .t1ha2_atonce
    else .t1ha0_32le

/-- `t1ha0_resolve` (src/t1ha0.c:391-426) -/
def t1ha0_resolve (b : Build) (cpu : Cpu) : Fn :=
  if b.aesniAvailable && b.arch = .ia32 then
    let features := t1ha_ia32cpu_features b cpu
    if t1ha_ia32_AESNI_avail features then
      if t1ha_ia32_AVX_avail features then
        if t1ha_ia32_AVX2_avail features then .t1ha0_ia32aes_avx2 else .t1ha0_ia32aes_avx
      else .t1ha0_ia32aes_noavx
    else t1ha0_resolve_portable b
  else t1ha0_resolve_portable b

/-- The function to which the header binds the name `t1ha0` if `T1HA0_RUNTIME_SELECT` is 0
(t1ha.h:643-709): by a macro (`T1HA0_USE_DEFINE`) or by an inline function. -/
def t1ha0_static (b : Build) : Fn :=
  match b.cfg.endian with
  | .big =>
    if b.useDefine then
      if b.cfg.word64 && (!b.no1 || !b.no2) then
        if b.no1 then .t1ha2_atonce else .t1ha1_be
      else .t1ha0_32be
    else
      if b.cfg.word64 && (!b.no1 || !b.no2) then
        if b.no1 then .t1ha2_atonce else .t1ha1_be
      else .t1ha0_32be
  | .little =>
    if b.useDefine then
      if b.cfg.word64 && (!b.no1 || !b.no2) then
        if b.no1 then .t1ha2_atonce else .t1ha1_le
      else .t1ha0_32le
    else
      if b.cfg.word64 && (!b.no1 || !b.no2) then
        if b.no1 then .t1ha2_atonce else .t1ha1_le
      else .t1ha0_32le

/-! ## Calls of `t1ha0` from several threads -/

/-- How `t1ha0` reaches its implementation if `T1HA0_RUNTIME_SELECT` is not 0 (src/t1ha0.c:428-459). -/
inductive Binding
  /-- `T1HA_USE_INDIRECT_FUNCTIONS`: the loader calls `t1ha0_resolve` (src/t1ha0.c:428-439) -/
  | ifunc
  /-- a constructor sets the pointer before `main` (src/t1ha0.c:441-447) -/
  | constructor
  /-- the pointer initially points to a function which sets it (src/t1ha0.c:449-459) -/
  | proxy
  deriving DecidableEq, Repr

/-- Values of `t1ha0_funcptr`. -/
inductive FnPtr
  | null
  | proxy
  | to (f : Fn)
  deriving DecidableEq, Repr

/-- Arguments of a call of `t1ha0`. -/
structure Args where
  data : Nat
  len : Nat
  seed : U64
  deriving DecidableEq, Repr

/-- What a thread is doing. `trips` counts how often the current call went through the proxy. -/
inductive Thread
  /-- outside of `t1ha0` -/
  | idle
  /-- in `t1ha0` (t1ha.h:637-640), or at the end of `t1ha0_proxy` (src/t1ha0.c:454): about to read the
  pointer -/
  | reading (a : Args) (trips : Nat)
  /-- the pointer has been read: about to jump -/
  | jumping (p : FnPtr) (a : Args) (trips : Nat)
  /-- in `t1ha0_proxy` (src/t1ha0.c:453): `t1ha0_resolve` has returned `f` -/
  | resolved (f : Fn) (a : Args) (trips : Nat)
  /-- called through a null pointer -/
  | crashed
  deriving DecidableEq, Repr

/-- A finished call: thread, arguments, the function which was executed, trips through the proxy. -/
structure Done where
  thread : Nat
  args : Args
  executed : Fn
  trips : Nat
  deriving DecidableEq, Repr

/-- The state of the shared pointer `t1ha0_funcptr` and of the threads. The C code uses a plain variable,
so threads need not agree about its value. All that is assumed of the memory is that a value of a pointer
is read and written as a whole (no tearing), and coherence with the first value: a thread which has
written to the variable, or has read a written value, does not get the first value again. Whether and
when it sees what others have written is left open. `made` are the calls (thread and arguments) and `done`
the finished calls, latest first. -/
structure Conc where
  /-- the value of the variable when the threads start -/
  first : FnPtr
  /-- the values written since then -/
  written : List FnPtr
  /-- the thread has seen or written one of them -/
  seen : Nat → Bool
  threads : Nat → Thread
  made : List (Nat × Args)
  done : List Done

/-- State of one thread replaced. -/
def Conc.set (c : Conc) (i : Nat) (t : Thread) : Conc :=
  { c with threads := fun j => if j = i then t else c.threads j }

/-- Thread `i` has seen a written value. -/
def Conc.look (c : Conc) (i : Nat) : Conc :=
  { c with seen := fun j => if j = i then true else c.seen j }

/-- The state before any call: src/t1ha0.c:443 (a null pointer) or src/t1ha0.c:457. -/
def Conc.initial (binding : Binding) (resolve : Fn) : Conc where
  first := match binding with
    | .ifunc => .to resolve
    | .constructor => .null
    | .proxy => .proxy
  written := []
  seen _ := false
  threads _ := .idle
  made := []
  done := []

/-- One step. `resolve` is the result of `t1ha0_resolve`. -/
inductive Step (binding : Binding) (resolve : Fn) : Conc → Conc → Prop
  /-- a thread calls `t1ha0` (t1ha.h:637) -/
  | call {c : Conc} (i : Nat) (a : Args) (h : c.threads i = .idle) :
      Step binding resolve c { c.set i (.reading a 0) with made := (i, a) :: c.made }
  /-- it reads the pointer (t1ha.h:639, src/t1ha0.c:454) and gets the first value -/
  | readFirst {c : Conc} (i : Nat) (a : Args) (n : Nat) (h : c.threads i = .reading a n)
      (hs : c.seen i = false) : Step binding resolve c (c.set i (.jumping c.first a n))
  /-- it reads the pointer (t1ha.h:639, src/t1ha0.c:454) and gets a value which has been written -/
  | readWritten {c : Conc} (i : Nat) (a : Args) (n : Nat) (p : FnPtr) (h : c.threads i = .reading a n)
      (hp : p ∈ c.written) : Step binding resolve c ((c.set i (.jumping p a n)).look i)
  /-- it jumps to the proxy, which calls `t1ha0_resolve` (src/t1ha0.c:451-453) -/
  | enter {c : Conc} (i : Nat) (a : Args) (n : Nat) (h : c.threads i = .jumping .proxy a n) :
      Step binding resolve c (c.set i (.resolved resolve a (n + 1)))
  /-- the proxy stores the pointer (src/t1ha0.c:453) and goes on to read it again -/
  | write {c : Conc} (i : Nat) (f : Fn) (a : Args) (n : Nat) (h : c.threads i = .resolved f a n) :
      Step binding resolve c { (c.set i (.reading a n)).look i with written := .to f :: c.written }
  /-- the same, but the compiler uses the stored value instead of reading it again -/
  | forward {c : Conc} (i : Nat) (f : Fn) (a : Args) (n : Nat) (h : c.threads i = .resolved f a n) :
      Step binding resolve c { (c.set i (.jumping (.to f) a n)).look i with written := .to f :: c.written }
  /-- it jumps to an implementation, which returns -/
  | run {c : Conc} (i : Nat) (f : Fn) (a : Args) (n : Nat) (h : c.threads i = .jumping (.to f) a n) :
      Step binding resolve c { c.set i .idle with done := ⟨i, a, f, n⟩ :: c.done }
  /-- it jumps to a null pointer -/
  | crash {c : Conc} (i : Nat) (a : Args) (n : Nat) (h : c.threads i = .jumping .null a n) :
      Step binding resolve c (c.set i .crashed)
  /-- the loader runs the constructor `t1ha0_init` (src/t1ha0.c:445-447) -/
  | construct {c : Conc} (h : binding = .constructor) :
      Step binding resolve c { c with written := .to resolve :: c.written }

/-- Any number of steps. -/
inductive Steps (binding : Binding) (resolve : Fn) : Conc → Conc → Prop
  | refl (c : Conc) : Steps binding resolve c c
  | tail {c d e : Conc} (h : Steps binding resolve c d) (s : Step binding resolve d e) :
      Steps binding resolve c e

end T1ha.Model
