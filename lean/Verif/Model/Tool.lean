import Verif.Model.Selfcheck

/-!
# The tool `test`

README.md:204-292, tests/main.c, tests/test.c, tests/bench.c:75-158, tests/common.h, and
`ia32_fetch_cpu_features` in tests/mera.c.

Modelled: the options, what is verified, what is benchmarked, what is hashed and printed, in which order, and
the exit status. Not modelled here: how long a benchmark takes (tests/mera.c, see Model/Mera.lean), the functions of
other authors which are compared with t1ha (tests/highwayhash, tests/stadtx, tests/wyhash, tests/xxhash: the results
of their verification are given by `Env`; see Model/Stadtx.lean and so on), and failures of `malloc`, of standard input and of standard output.

A tool with AES-NI for a processor which is neither x86 nor Elbrus does not compile (`ia32_fetch_cpu_features`
is not declared, tests/mera.h:85-114), nor does one for x86 by a compiler which is neither compatible with GNU C
nor with Visual C++ (tests/mera.c:1055). The model of `main` does not care.
-/

namespace T1ha.Model

/-! ## Verification of a function -/

/-- `probe` (tests/test.c:59-74), without what it prints -/
def toolProbe (hash : HashFn) (check : U64) (data len : Nat) (seed : U64) : M Bool := do
  let value ← hash data len seed
  if check = value then pure false else pure true

/-- `failed |= probe(hash, caption, *reference_values++, data, len, seed)` (tests/test.c:83-86, 92-93, 101-102,
110-111): the new values of `reference_values` and `failed` -/
def toolProbeNext (cfg : Cfg) (hash : HashFn) (reference_values : Nat) (failed : Bool) (data len : Nat)
    (seed : U64) : M (Nat × Bool) := do
  let check ← readU64 cfg reference_values
  let reference_values ← ptrAdd cfg reference_values 8
  let r ← toolProbe hash check data len seed
  pure (reference_values, failed || r)

/-- `verify` (tests/test.c:76-117), without what it prints (and without `caption`, which is only printed).
`t1ha_test_pattern` and `pattern_long` are the addresses of the arrays of these names. The loops with `i <= 7`
run while `i < 8` here. -/
def toolVerify (cfg : Cfg) (t1ha_test_pattern pattern_long : Nat) (hash : HashFn) (reference_values : Nat) :
    M Bool := do
  let zero : U64 := 0
  let failed := false
  let r ← toolProbeNext cfg hash reference_values failed 0 0 zero
  let r ← toolProbeNext cfg hash r.1 r.2 0 0 (~~~zero)
  let r ← toolProbeNext cfg hash r.1 r.2 t1ha_test_pattern 64 zero
  let r ← forLoop 64 (fun i (s : Nat × Bool × U64) => do
    let r ← toolProbeNext cfg hash s.1 s.2.1 t1ha_test_pattern i s.2.2
    pure (r.1, r.2, s.2.2 <<< 1)) 64 1 (r.1, r.2, 1)
  let r ← forLoop 8 (fun i (s : Nat × Bool × U64) => do
    let seed := s.2.2 <<< 1
    let data ← ptrAdd cfg t1ha_test_pattern i
    let r ← toolProbeNext cfg hash s.1 s.2.1 data (64 - i) seed
    pure (r.1, r.2, seed)) 8 1 (r.1, r.2.1, ~~~zero)
  forLoop 512 (fun i _ => do
    let p ← ptrAdd cfg pattern_long i
    store p [BitVec.ofNat 8 i]) 513 0 ()
  let seed := r.2.2
  let r ← forLoop 8 (fun i (s : Nat × Bool) => do
    let data ← ptrAdd cfg pattern_long i
    toolProbeNext cfg hash s.1 s.2 data (128 + i * 17) seed) 9 0 (r.1, r.2.1)
  pure r.2

/-- The table to which each function of the library is compared (tests/main.c:309-342). (The thunks of the tool,
tests/test.c:38-56, are those of src/t1ha2_selfcheck.c.) -/
def toolTable : Checked → Table
  | .t1ha2_atonce => .t1ha_refval_2atonce
  | .thunk_atonce128 => .t1ha_refval_2atonce128
  | .thunk_stream => .t1ha_refval_2stream
  | .thunk_stream128 => .t1ha_refval_2stream128
  | .t1ha1_le => .t1ha_refval_64le
  | .t1ha1_be => .t1ha_refval_64be
  | .t1ha0_32le => .t1ha_refval_32le
  | .t1ha0_32be => .t1ha_refval_32be
  | .t1ha0_ia32aes_noavx => .t1ha_refval_ia32aes_a
  | .t1ha0_ia32aes_avx => .t1ha_refval_ia32aes_a
  | .t1ha0_ia32aes_avx2 => .t1ha_refval_ia32aes_b

/-! ## Functions, texts, events -/

/-- The hash functions which the tool calls (tests/bench.c:82-156, tests/main.c:308-428). -/
inductive ToolHash
  | t1ha2_atonce | t1ha2_atonce128 | t1ha2_stream | t1ha2_stream128
  | t1ha1_le | t1ha1_be
  | t1ha0 | t1ha0_32le | t1ha0_32be
  | noavx_a | noavx_b | noavx | avx_a | avx_b | avx | avx2_a | avx2_b | avx2
  | xxhash32 | xxhash64 | xxh3_64 | xxh3_128
  | stadtx
  | highway_pure_c | highway_portable | highway_sse41 | highway_avx2
  | wyhash
  deriving DecidableEq, Repr

/-- What is printed to standard output. -/
inductive Text
  /-- `usage` (tests/main.c:51-101) -/
  | usage
  /-- `print_build_info` (tests/main.c:115-154) -/
  | buildInfo
  /-- tests/main.c:300-302 -/
  | selfcheckFailed
  /-- tests/main.c:305 -/
  | selfcheckPassed
  /-- `Testing ...` (tests/test.c:79, tests/highwayhash/verifier.c:53) -/
  | testing (f : ToolHash)
  /-- about single patterns (tests/test.c:63-72, tests/highwayhash/verifier.c:42-45, 68-69) -/
  | patterns (f : ToolHash)
  /-- the end of the line (tests/test.c:114-115, tests/highwayhash/verifier.c:71-72) -/
  | outcome (f : ToolHash)
  /-- tests/main.c:346 -/
  | aesUnavailable
  /-- tests/main.c:374 -/
  | wyhashFailed
  /-- `Verification FAILED!` (tests/main.c:378) -/
  | verificationFailed
  /-- `# ... '--hash-stdin' using ...` (tests/main.c:450) -/
  | header (f : ToolHash)
  /-- the 16 hexadecimal digits of a hash value (tests/main.c:475-476) -/
  | hash (value : U64)
  /-- tests/main.c:488 -/
  | preparing
  /-- the message that no usable clock is available (tests/main.c:491) -/
  | noClock
  /-- about the clock (tests/main.c:495-530) -/
  | clock
  /-- `Bench for ... keys` (tests/bench.c:76) -/
  | benchFor (size : Nat)
  /-- tests/main.c:535 -/
  | skipBenchmark
  deriving DecidableEq, Repr

/-- What the tool does. -/
inductive Event
  | print (t : Text)
  /-- the function is verified -/
  | verify (f : ToolHash)
  /-- the function is called for a string from standard input -/
  | call (f : ToolHash) (string : List Byte) (seed : U64)
  /-- the function is benchmarked with messages of this size -/
  | bench (size : Nat) (f : ToolHash)
  deriving DecidableEq, Repr

/-- `EXIT_SUCCESS`, `EXIT_FAILURE` -/
inductive Status
  | success
  | failure
  deriving DecidableEq, Repr

/-- A run of the tool. -/
structure ToolRun where
  events : List Event
  status : Status
  deriving DecidableEq, Repr

/-! ## Flags -/

/-- tests/common.h:45 -/
def test_verbose : U32 := 1#32 <<< 0
/-- tests/common.h:46 -/
def test_quiet : U32 := 1#32 <<< 1
/-- tests/common.h:47 -/
def hash_stdin_strings : U32 := 1#32 <<< 2
/-- tests/common.h:48 -/
def bench_verbose : U32 := 1#32 <<< 3
/-- tests/common.h:49 -/
def bench_xxhash : U32 := 1#32 <<< 4
/-- tests/common.h:50 -/
def bench_highwayhash : U32 := 1#32 <<< 5
/-- tests/common.h:51 -/
def bench_stadtx : U32 := 1#32 <<< 6
/-- tests/common.h:52 -/
def bench_wyhash : U32 := 1#32 <<< 7
/-- tests/common.h:54 -/
def bench_0 : U32 := 1#32 <<< 8
/-- tests/common.h:55 -/
def bench_1 : U32 := 1#32 <<< 9
/-- tests/common.h:56 -/
def bench_2 : U32 := 1#32 <<< 10
/-- tests/common.h:57 -/
def bench_3 : U32 := 1#32 <<< 11
/-- tests/common.h:58 -/
def bench_4 : U32 := 1#32 <<< 12
/-- tests/common.h:59 -/
def bench_5 : U32 := 1#32 <<< 13
/-- tests/common.h:60 -/
def bench_6 : U32 := 1#32 <<< 14
/-- tests/common.h:61 -/
def bench_7 : U32 := 1#32 <<< 15
/-- tests/common.h:63 -/
def bench_tiny : U32 := 1#32 <<< 16
/-- tests/common.h:64 -/
def bench_small : U32 := 1#32 <<< 17
/-- tests/common.h:65 -/
def bench_medium : U32 := 1#32 <<< 18
/-- tests/common.h:66 -/
def bench_large : U32 := 1#32 <<< 19
/-- tests/common.h:67 -/
def bench_huge : U32 := 1#32 <<< 20
/-- tests/common.h:69-70 -/
def bench_size_flags : U32 := bench_tiny ||| bench_small ||| bench_medium ||| bench_large ||| bench_huge
/-- tests/common.h:72 -/
def bench_32 : U32 := 1#32 <<< 24
/-- tests/common.h:73 -/
def bench_64 : U32 := 1#32 <<< 25
/-- tests/common.h:74 -/
def bench_le : U32 := 1#32 <<< 26
/-- tests/common.h:75 -/
def bench_be : U32 := 1#32 <<< 27
/-- tests/common.h:77 -/
def bench_aes : U32 := 1#32 <<< 28
/-- tests/common.h:78 -/
def bench_avx : U32 := 1#32 <<< 29
/-- tests/common.h:80 -/
def bench_avx2 : U32 := 1#32 <<< 30
/-- tests/common.h:82 -/
def user_wanna_aes : U32 := 1#32 <<< 31
/-- tests/common.h:85-89 -/
def bench_funcs_flags : U32 :=
  bench_0 ||| bench_1 ||| bench_2 ||| bench_3 ||| bench_4 ||| bench_5 ||| bench_6 ||| bench_7 ||| bench_32 |||
  bench_64 ||| bench_le ||| bench_be ||| (1#32 <<< 28) ||| (1#32 <<< 29) ||| (1#32 <<< 30) ||| (1#32 <<< 31) |||
  bench_xxhash ||| bench_highwayhash ||| bench_stadtx ||| bench_wyhash

/-- The global variables of these names (tests/main.c:48). -/
structure Flags where
  option_flags : U32
  disabled_option_flags : U32
  deriving DecidableEq, Repr

/-- `is_option_set` (tests/common.h:94-96) -/
def Flags.is_option_set (f : Flags) (mask : U32) : Bool := (f.option_flags &&& mask) != 0

/-- `is_selected` (tests/common.h:98-100) -/
def Flags.is_selected (f : Flags) (mask : U32) : Bool :=
  f.is_option_set mask && (f.disabled_option_flags &&& mask) == 0

/-- How the tool is compiled. -/
structure ToolBuild where
  build : Build
  /-- `_POSIX_C_SOURCE >= 200809L` or `_XOPEN_SOURCE >= 700` (tests/main.c:456-457): there is `getline` -/
  posix2008 : Bool
  /-- `buffer_size` (tests/main.c:434-442) -/
  buffer_size : Nat
  /-- `!defined(__OPTIMIZE__) && (defined(_MSC_VER) && defined(_DEBUG))` (tests/main.c:533) -/
  debug : Bool

/-- What the tool finds when it runs. -/
structure Env where
  /-- for `--GHz=...`: `strtod` accepts the whole text, and the value is not below or above the limits -/
  validGHz : String → Bool
  /-- the result of `t1ha_selfcheck__all_enabled` -/
  selfcheck : CInt
  /-- whether `verify` or `HighwayHash64_verify` finds a failure -/
  verifyFails : ToolHash → Bool
  /-- the result of `wyhash_v7_selftest` -/
  wyhashFails : Bool
  cpu : Cpu
  /-- the result of `mera_init` -/
  mera_init : Bool
  stdin : List Byte
  /-- what the hash functions return -/
  hash : ToolHash → List Byte → U64 → U64

/-- tests/main.c:27-29 -/
def default_option_flags : U32 :=
  bench_0 ||| bench_1 ||| bench_2 ||| bench_xxhash ||| bench_highwayhash ||| bench_stadtx ||| bench_wyhash |||
  bench_tiny ||| bench_large

/-- tests/main.c:31-38 -/
def available_eas_flags (b : Build) : U32 :=
  if b.aesniAvailable then
    bench_aes ||| bench_avx ||| user_wanna_aes ||| (if b.arch = .e2k then 0 else bench_avx2)
  else 0

/-- tests/main.c:40-46 -/
def default_disabled_option_flags (b : Build) : U32 :=
  (match b.cfg.endian with
    | .big => bench_le
    | .little => bench_be) |||
  (if b.cfg.word64 then bench_32 else 0)

/-! ## Options -/

/-- `option` (tests/main.c:103-113): the new flags if the argument is this option -/
def option (arg opt : String) (flag : U32) (f : Flags) : Option Flags :=
  if arg = "--" ++ opt then some { f with option_flags := f.option_flags ||| flag }
  else if arg = "--no-" ++ opt then some { f with disabled_option_flags := f.disabled_option_flags ||| flag }
  else none

/-- The options with a flag each (tests/main.c:228-272), as far as they are compiled. -/
def flagOptions (b : Build) : List (String × U32) :=
  [("xxhash", bench_xxhash), ("stadtx", bench_stadtx), ("wyhash", bench_wyhash),
    ("highwayhash", bench_highwayhash), ("highway", bench_highwayhash)] ++
  (if b.no0 then [] else [("0", bench_0)]) ++
  (if b.no1 then [] else [("1", bench_1)]) ++
  (if b.no2 then [] else [("2", bench_2)]) ++
  [("le", bench_le), ("be", bench_be), ("32", bench_32), ("64", bench_64), ("tiny", bench_tiny),
    ("small", bench_small), ("medium", bench_medium), ("large", bench_large), ("huge", bench_huge)]

/-- One round of the loop over the arguments (tests/main.c:159-279): the new flags, or `main` returns. -/
def parseArg (b : Build) (validGHz : String → Bool) (f : Flags) (arg : String) : Except ToolRun Flags :=
  if arg = "--test-quiet" then
    .ok { f with option_flags := test_quiet }
  else if arg = "--hash-stdin-strings" then
    .ok { f with option_flags := (f.option_flags &&& bench_funcs_flags) ||| test_quiet ||| hash_stdin_strings }
  else if arg = "--test-only" ∨ arg = "--no-bench" then
    .ok { f with option_flags := f.option_flags &&& test_verbose }
  else if arg = "--test-verbose" then
    .ok { f with option_flags := f.option_flags ||| test_verbose }
  else if arg = "--bench-verbose" then
    .ok { f with option_flags := f.option_flags ||| bench_verbose }
  else if arg = "--verbose" ∨ arg = "-v" then
    .ok { f with option_flags := f.option_flags ||| (bench_verbose ||| test_verbose) }
  else if "--GHz=".toList <+: arg.toList then
    if validGHz arg then .ok f else .error ⟨[], .failure⟩
  else if arg = "--bench-all" then
    .ok ⟨f.option_flags ||| ~~~(test_verbose ||| bench_verbose), 0⟩
  else if arg = "--all-funcs" then
    .ok ⟨f.option_flags ||| bench_funcs_flags, f.disabled_option_flags &&& ~~~bench_funcs_flags⟩
  else if arg = "--all-sizes" then
    .ok ⟨f.option_flags ||| bench_size_flags, f.disabled_option_flags &&& ~~~bench_size_flags⟩
  else if arg = "--aes" then
    if available_eas_flags b != 0 then .ok { f with option_flags := f.option_flags ||| available_eas_flags b }
    else .error ⟨[], .failure⟩
  else if arg = "--no-aes" then
    if available_eas_flags b != 0 then
      .ok { f with disabled_option_flags := f.disabled_option_flags ||| available_eas_flags b }
    else .ok f
  else
    match (flagOptions b).findSome? (fun o => option arg o.1 o.2 f) with
    | some f => .ok f
    | none =>
      if arg = "--help" ∨ arg = "-h" then .error ⟨[.print .usage], .success⟩
      else .error ⟨[.print .usage], .failure⟩

/-- The loop (tests/main.c:158-280) -/
def parseArgs (b : Build) (validGHz : String → Bool) : List String → Flags → Except ToolRun Flags
  | [], f => .ok f
  | arg :: args, f =>
    match parseArg b validGHz f arg with
    | .ok f => parseArgs b validGHz args f
    | .error r => .error r

/-- The options (tests/main.c:157-290); `args` are the arguments after the name of the program. -/
def options (b : Build) (validGHz : String → Bool) (args : List String) : Except ToolRun Flags :=
  if args.length + 1 > 1 then
    match parseArgs b validGHz args ⟨0, 0⟩ with
    | .error r => .error r
    | .ok f =>
      let f := if (f.option_flags &&& bench_funcs_flags) == 0 then
          { f with option_flags := f.option_flags |||
              (if (f.option_flags &&& hash_stdin_strings) != 0 then bench_2
               else default_option_flags &&& bench_funcs_flags) }
        else f
      let f := if (f.option_flags &&& bench_size_flags) == 0 then
          { f with option_flags := f.option_flags ||| (default_option_flags &&& bench_size_flags) }
        else f
      .ok f
  else .ok ⟨default_option_flags, default_disabled_option_flags b⟩

/-! ## Tests -/

/-- The members of `ia32_cpu_features` which are used (tests/mera.h:86-112): `basic.ecx`, `basic.edx`,
`extended_7.ebx`. Static storage: zero at first. -/
structure Features where
  basic_ecx : U32
  basic_edx : U32
  extended_7_ebx : U32
  deriving DecidableEq, Repr

/-- `ia32_fetch_cpu_features` (tests/mera.c:1000-1057) -/
def ia32_fetch_cpu_features (cpu : Cpu) : Features :=
  let cpuid_max := (cpu.cpuid 0 0).eax
  if cpuid_max ≥ 1 then
    if cpuid_max ≥ 7 then ⟨(cpu.cpuid 1 0).ecx, (cpu.cpuid 1 0).edx, (cpu.cpuid 7 0).ebx⟩
    else ⟨(cpu.cpuid 1 0).ecx, (cpu.cpuid 1 0).edx, 0⟩
  else ⟨0, 0, 0⟩

/-- `verify(title, f, refval)`: what it does and prints (tests/test.c:64-74, 78-79, 114-115) -/
def verifyEvents (e : Env) (fl : Flags) (f : ToolHash) : List Event :=
  (if fl.is_option_set test_quiet then [] else [.print (.testing f)]) ++
  [.verify f] ++
  (if fl.is_option_set test_verbose || e.verifyFails f then [.print (.patterns f)] else []) ++
  (if fl.is_option_set test_quiet then [] else [.print (.outcome f)])

/-- `HighwayHash64_verify(f, title)`: likewise (tests/highwayhash/verifier.c:38-75) -/
def highwayEvents (e : Env) (fl : Flags) (f : ToolHash) : List Event :=
  (if fl.is_option_set test_quiet then [] else [.print (.testing f)]) ++
  [.verify f] ++
  (if fl.is_option_set test_verbose || (e.verifyFails f && !fl.is_option_set test_quiet) then
    [.print (.patterns f)] else []) ++
  (if fl.is_option_set test_quiet then [] else [.print (.outcome f)])

/-- The functions of the library which are verified (tests/main.c:308-343); `ft`: the features of the processor.
-/
def verifiedFns (b : Build) (ft : Features) : List ToolHash :=
  (if b.no2 then [] else [.t1ha2_atonce, .t1ha2_atonce128, .t1ha2_stream, .t1ha2_stream128]) ++
  (if b.no1 then [] else [.t1ha1_le, .t1ha1_be]) ++
  (if b.no0 then [] else
    [.t1ha0_32le, .t1ha0_32be] ++
    (if b.aesniAvailable then
      if b.arch = .e2k then [.noavx, .avx]
      else if (ft.basic_ecx &&& 0x02000000#32) != 0 then
        [.noavx] ++
        (if (ft.basic_ecx &&& 0x1A000000#32) == 0x1A000000#32 then
          [.avx] ++ (if (ft.extended_7_ebx &&& 32#32) != 0 then [.avx2] else [])
        else [])
      else []
    else []))

/-- The flags which are cleared, as the processor has no AES-NI (tests/main.c:344-354) -/
def aesFlags (b : Build) (ft : Features) (fl : Flags) : Flags :=
  if !b.no0 && b.aesniAvailable && !(b.arch = .e2k) then
    let o := fl.option_flags
    let o := if (ft.basic_ecx &&& 0x02000000#32) != 0 then o else o &&& ~~~bench_aes
    let o := if (ft.basic_ecx &&& 0x1A000000#32) != 0x1A000000#32 then o &&& ~~~bench_avx else o
    let o := if (ft.extended_7_ebx &&& 32#32) == 0 then o &&& ~~~bench_avx2 else o
    { fl with option_flags := o }
  else fl

/-- `- AES-NI not available on the current CPU` (tests/main.c:345-346) -/
def aesMessage (b : Build) (ft : Features) (fl : Flags) : List Event :=
  if !b.no0 && b.aesniAvailable && !(b.arch = .e2k) && (ft.basic_ecx &&& 0x02000000#32) == 0 &&
      fl.is_option_set user_wanna_aes then [.print .aesUnavailable]
  else []

/-- The features when `HighwayHash64_SSE41` and `HighwayHash64_AVX2` are verified (tests/main.c:332, 362-364):
they have been fetched only if the functions with AES-NI are to be verified. -/
def featuresAtTests (b : Build) (cpu : Cpu) : Features :=
  if !b.no0 && b.aesniAvailable && !(b.arch = .e2k) then ia32_fetch_cpu_features cpu else ⟨0, 0, 0⟩

/-- The implementations of HighwayHash64 for some processors which are verified (tests/main.c:361-369), and
benchmarked (tests/bench.c:142-151) -/
def highwayFns (b : Build) (ft : Features) : List ToolHash :=
  match b.arch with
  | .ia32 =>
    (if (ft.basic_ecx &&& (1#32 <<< 19)) != 0 then [.highway_sse41] else []) ++
    (if (ft.extended_7_ebx &&& 32#32) != 0 then [.highway_avx2] else [])
  | .e2k => [.highway_sse41]
  | .other => []

/-- The tests (tests/main.c:307-378) -/
def testEvents (b : Build) (e : Env) (fl : Flags) : List Event :=
  let ft := featuresAtTests b e.cpu
  let own := verifiedFns b ft
  let failed := own.any e.verifyFails || e.verifyFails .highway_pure_c || e.verifyFails .highway_portable ||
    e.verifyFails .stadtx || e.verifyFails .wyhash
  own.flatMap (verifyEvents e fl) ++
  aesMessage b ft fl ++
  ([ToolHash.highway_pure_c, .highway_portable] ++ highwayFns b ft).flatMap (highwayEvents e fl) ++
  verifyEvents e fl .stadtx ++
  (if e.wyhashFails then [.print .wyhashFailed] else []) ++
  verifyEvents e fl .wyhash ++
  (if failed then [.print .verificationFailed] else [])

/-! ## `--hash-stdin-strings` -/

/-- Standard input: the bytes which have not been read, and the end-of-file indicator. -/
structure Stdin where
  rest : List Byte
  eof : Bool

/-- Read up to a line feed, to the end, or until there are `n` bytes: these bytes, the other bytes, and whether
the end has been met. -/
def takeLine : Nat → List Byte → List Byte × List Byte × Bool
  | 0, r => ([], r, false)
  | _ + 1, [] => ([], [], true)
  | n + 1, c :: r =>
    if c = 10 then ([c], r, false)
    else
      let (l, r', e) := takeLine n r
      (c :: l, r', e)

/-- `getline(&buffer, &buffer_size, stdin)` (tests/main.c:458): the bytes, or -1 at the end -/
def getline (s : Stdin) : Option (List Byte) × Stdin :=
  let (l, r, e) := takeLine (s.rest.length + 1) s.rest
  (if l = [] then none else some l, ⟨r, e⟩)

/-- `fgets(buffer, buffer_size, stdin)` and `strlen(buffer)` (tests/main.c:466-472): the bytes before the first
byte which is zero, or a null pointer at the end -/
def fgets (buffer_size : Nat) (s : Stdin) : Option (List Byte) × Stdin :=
  let (l, r, e) := takeLine (buffer_size - 1) s.rest
  (if l = [] ∧ e = true then none else some (l.takeWhile (· ≠ 0)), ⟨r, e⟩)

/-- The loop (tests/main.c:455-480): the strings which are hashed, in order; `none` if it is not over after
`fuel` rounds. -/
def stringLoop (read : Stdin → Option (List Byte) × Stdin) : Nat → Stdin → Option (List (List Byte))
  | 0, _ => none
  | fuel + 1, s =>
    if s.eof then some []
    else
      match read s with
      | (none, _) => some []
      | (some l, s) => (stringLoop read fuel s).map (l :: ·)

/-- The function to hash the strings (tests/main.c:383-432) -/
def stringFn (b : Build) (fl : Flags) : Option ToolHash :=
  if fl.is_selected bench_highwayhash then some .highway_pure_c
  else if fl.is_selected (bench_64 ||| bench_xxhash) then some .xxhash64
  else if fl.is_selected (bench_32 ||| bench_xxhash) then some .xxhash32
  else if fl.is_selected (bench_64 ||| bench_stadtx) then some .stadtx
  else if fl.is_selected (bench_64 ||| bench_wyhash) then some .wyhash
  else if !b.no2 && fl.is_selected (bench_64 ||| bench_2) then some .t1ha2_atonce
  else if !b.no1 && fl.is_selected (bench_64 ||| bench_le ||| bench_1) then some .t1ha1_le
  else if !b.no1 && fl.is_selected (bench_64 ||| bench_be ||| bench_1) then some .t1ha1_be
  else if !b.no0 && fl.is_selected (bench_32 ||| bench_le ||| bench_0) then some .t1ha0_32le
  else if !b.no0 && fl.is_selected (bench_32 ||| bench_be ||| bench_0) then some .t1ha0_32be
  else if !b.no0 && fl.is_selected bench_0 then some .t1ha0
  else if fl.is_selected bench_xxhash then some .xxh3_64
  else none

/-- The strings of standard input (tests/main.c:434-480) -/
def strings (t : ToolBuild) (stdin : List Byte) : Option (List (List Byte)) :=
  stringLoop (if t.posix2008 then getline else fgets t.buffer_size) (stdin.length + 2) ⟨stdin, false⟩

/-! ## Benchmarks -/

/-- The functions which `bench_size` benchmarks (tests/bench.c:82-156) -/
def benchFns (b : Build) (cpu : Cpu) (fl : Flags) : List ToolHash :=
  (if !b.no2 && fl.is_selected (bench_64 ||| bench_2) then
    [.t1ha2_atonce, .t1ha2_atonce128, .t1ha2_stream, .t1ha2_stream128] else []) ++
  (if b.no1 then [] else
    (if fl.is_selected (bench_64 ||| bench_le ||| bench_1) then [.t1ha1_le] else []) ++
    (if fl.is_selected (bench_64 ||| bench_be ||| bench_1) then [.t1ha1_be] else [])) ++
  (if b.no0 then [] else
    (if fl.is_selected bench_0 then [.t1ha0] else []) ++
    (if fl.is_selected (bench_32 ||| bench_le ||| bench_0) then [.t1ha0_32le] else []) ++
    (if fl.is_selected (bench_32 ||| bench_be ||| bench_0) then [.t1ha0_32be] else []) ++
    (if b.aesniAvailable && fl.is_selected bench_aes then
      [.noavx_a, .noavx_b, .noavx] ++
      (if fl.is_selected bench_avx then [.avx_a, .avx_b, .avx] else []) ++
      (if !(b.arch = .e2k) && fl.is_selected bench_avx2 then [.avx2_a, .avx2_b, .avx2] else [])
    else [])) ++
  (if fl.is_selected bench_xxhash then [.xxhash32, .xxhash64, .xxh3_64, .xxh3_128] else []) ++
  (if fl.is_selected bench_stadtx then [.stadtx] else []) ++
  (if fl.is_selected bench_highwayhash then
    [.highway_pure_c, .highway_portable] ++ highwayFns b (ia32_fetch_cpu_features cpu) else []) ++
  (if fl.is_selected bench_wyhash then [.wyhash] else [])

/-- `bench_size` (tests/bench.c:75-158). (`ia32_cpu_features` has been fetched by then: by `main`, or by
`mera_init`, tests/mera.c:1390-1391.) -/
def bench_size (b : Build) (cpu : Cpu) (fl : Flags) (size : Nat) : List Event :=
  .print (.benchFor size) :: (benchFns b cpu fl).map (.bench size)

/-- The benchmarks (tests/main.c:533-547) -/
def benchEvents (t : ToolBuild) (cpu : Cpu) (fl : Flags) : List Event :=
  if t.debug then bench_size t.build cpu fl 1 ++ [.print .skipBenchmark]
  else
    (if fl.is_option_set bench_tiny then bench_size t.build cpu fl 7 else []) ++
    (if fl.is_option_set bench_small then bench_size t.build cpu fl 63 else []) ++
    (if fl.is_option_set bench_medium then bench_size t.build cpu fl 1024 else []) ++
    (if fl.is_option_set bench_large then bench_size t.build cpu fl (1024 * 16) else []) ++
    (if fl.is_option_set bench_huge then bench_size t.build cpu fl (1024 * 256) else [])

/-! ## `main` -/

/-- `main` after the options (tests/main.c:294-549); `none` if it does not end. -/
def toolRun (t : ToolBuild) (e : Env) (fl : Flags) : Option ToolRun :=
  if e.selfcheck ≠ 0 then
    -- the text is printed before or after the self-check
    some ⟨[.print .buildInfo, .print .selfcheckFailed], .failure⟩
  else
    let start : List Event :=
      if fl.is_option_set test_quiet then [] else [.print .buildInfo, .print .selfcheckPassed]
    let tests := testEvents t.build e fl
    let fl := aesFlags t.build (featuresAtTests t.build e.cpu) fl
    if fl.is_option_set hash_stdin_strings then
      match stringFn t.build fl with
      | none => some ⟨start ++ tests, .failure⟩
      | some f =>
        (strings t e.stdin).map fun lines =>
          ⟨start ++ tests ++ [.print (.header f)] ++
            lines.flatMap (fun l => [.call f l 42, .print (.hash (e.hash f l 42))]), .success⟩
    else if e.mera_init then
      some ⟨start ++ tests ++ [.print .preparing, .print .clock] ++ benchEvents t e.cpu fl, .success⟩
    else
      some ⟨start ++ tests ++ [.print .preparing, .print .noClock], .success⟩

/-- `main` (tests/main.c:156-550); `args` are the arguments after the name of the program; `none` if it does not
end. -/
def toolMain (t : ToolBuild) (e : Env) (args : List String) : Option ToolRun :=
  match options t.build e.validGHz args with
  | .error r => some r
  | .ok fl => toolRun t e fl

end T1ha.Model
