import Verif.Model.Mera

/-!
# The clocks of the tool `test`

`tests/mera.c:370-954, 1063-1158`: the functions which read the clocks, as far as they compute something;
`mera_init` (`tests/mera.c:1164-1468`), with the clocks of every platform; and `bench` (`tests/bench.c:29-48`), which
prints the result of a measurement.

The processor and the operating system are a parameter (`Device`). Not modelled: the instructions which read a clock,
floating-point rounding (`double` is the set of the rational numbers), what is printed by `mera_init`, failures of
`sigaction`.
-/

namespace T1ha.Model

/-! ## Reading the clocks -/

/-- `union timestamp` (tests/mera.c:372-381): the number which is read from `u64` after `h` and `l` have been written
to `u32.h` and `u32.l`. `order`: `__BYTE_ORDER__ == __ORDER_BIG_ENDIAN__`, so that `h` comes first; `big`: the
processor is big-endian, so that what comes first is the upper half. -/
def union_timestamp (order big : Bool) (h l : U32) : U64 :=
  let first := if order then h else l
  let second := if order then l else h
  if big then first ++ second else second ++ first

/-- `clock_powerpc_mftb` on a 32-bit processor with GNU C (tests/mera.c:566-576): `mftbu`, `mftb`, `mftbu` are
executed one after another, when the time base is `before`, `between` and `after`. -/
def clock_powerpc_mftb (order big : Bool) (before between after : U64) : U64 :=
  let high_before : U32 := (before >>> 32).truncate 32
  let low : U32 := between.truncate 32
  let high_after : U32 := (after >>> 32).truncate 32
  union_timestamp order big high_after (low &&& ~~~(high_before - high_after))

/-- `clock_posix` (tests/mera.c:502-512): `none` if `clock_gettime` fails, else the seconds (`time_t`, signed) and
the nanoseconds (`long`). -/
def clock_posix (ts : Option (Int × Int)) : U64 :=
  let (tv_sec, tv_nsec) := ts.getD (0, 0)
  BitVec.ofInt 64 tv_sec * 1000000000 + BitVec.ofInt 64 tv_nsec

/-- `clock_gettimeofday` (tests/mera.c:452-462): `none` if `gettimeofday` fails, else the seconds and the
microseconds. -/
def clock_gettimeofday (tv : Option (Int × Int)) : U64 :=
  let (tv_sec, tv_usec) := tv.getD (0, 0)
  BitVec.ofInt 64 tv_sec * 1000000 + BitVec.ofInt 64 tv_usec

/-- `clock_alpha` (tests/mera.c:694-705): `*now = cycles & 0xFFFFfffful`. Likewise `clock_pmccntr`
(tests/mera.c:713-724), `clock_mfc0_25_1`, `clock_mfc0_9_0` and `clock_rdhwr` on a 32-bit processor
(tests/mera.c:770-812), whose counters have 32 bits: `cycles` is what a counter without an end would show. -/
def clock_32bit (cycles : Nat) : U64 := BitVec.ofNat 64 cycles &&& 0xFFFFFFFF

/-- `attr.read_format` (tests/mera.c:1091): `PERF_FORMAT_TOTAL_TIME_RUNNING`, which is `1U << 1` in
`linux/perf_event.h` -/
def perf_read_format : U32 := 1#32 <<< 1

/-- What Linux needs for the answer to `read` of a performance counter (outside the repository; the manual page
`perf_event_open(2)`, "Reading results"): eight bytes for the value, and eight for each of the bits
`PERF_FORMAT_TOTAL_TIME_ENABLED`, `PERF_FORMAT_TOTAL_TIME_RUNNING` and `PERF_FORMAT_ID` of the format. -/
def perf_read_size (format : U32) : Nat :=
  8 + (if format.getLsbD 0 then 8 else 0) + (if format.getLsbD 1 then 8 else 0) + (if format.getLsbD 2 then 8 else 0)

/-- `read(perf_fd, now, count)` for a counter whose value is `value`: the result of `read` and the number which is in
`*now` afterwards, if `now` was in it before. If the answer does not fit, `read` fails (`ENOSPC`) and writes nothing. -/
def perf_read (format : U32) (count : Nat) (value now : U64) : U32 × U64 :=
  if count < perf_read_size format then (-1, now) else (BitVec.ofNat 32 (perf_read_size format), value)

/-- `clock_perf` (tests/mera.c:1075-1078): `read(perf_fd, now, sizeof(timestamp_t))` -/
def clock_perf (value : U64) : U32 × U64 := perf_read perf_read_format 8 value 42

/-! ## The clocks of a platform -/

/-- The functions which read a clock (for those which are given as a pair, the pair). -/
inductive ClockFn
  | emscripten | os400 | mach | solaris | posix | windows | gettimeofday | elbrus | powerpc64_mfspr268 | powerpc_mftb
  | sparc | ia64 | hppa | stcke | stckf | stck | alpha | pmccntr | cntvct_el0 | mfc0_9_0 | rdhwr | mfc0_25_1
  | zbustimer | rdpmc | rdtscp | rdtsc | perf | perf_rdpmc | readcyclecounter
  deriving DecidableEq, Repr

/-- `posix_clockid` (tests/mera.c:501) -/
inductive ClockId
  | realtime | sgi_cycle | monotonic_raw | monotonic
  deriving DecidableEq, Repr

/-- The functions `convert_…`. -/
inductive Convert
  | mach | windows | us2ns | os400 | one_to_one | pmccntr_x64 | rdhwr
  deriving DecidableEq, Repr

/-- `mera.units`; `none` is `"void"`, its value at the start (tests/mera.c:1482-1483). -/
inductive Units
  | none | ns | cycle | tick
  deriving DecidableEq, Repr

/-- What the preprocessor finds: the conditions of tests/mera.c:1164-1468, in their order. -/
structure Macros where
  emscripten : Bool := false
  os400 : Bool := false
  apple : Bool := false
  sun : Bool := false
  sgi_cycle : Bool := false
  monotonic_raw : Bool := false
  monotonic : Bool := false
  windows : Bool := false
  native_client : Bool := false
  elbrus : Bool := false
  powerpc64 : Bool := false
  powerpc : Bool := false
  sparc : Bool := false
  ia64 : Bool := false
  hppa : Bool := false
  s390 : Bool := false
  alpha : Bool := false
  /-- `(defined(__ARM_ARCH) && __ARM_ARCH > 5 && __ARM_ARCH < 8) || defined(_M_ARM)` -/
  arm : Bool := false
  aarch64 : Bool := false
  mips : Bool := false
  /-- tests/mera.c:1332-1336 -/
  mips2 : Bool := false
  /-- `defined(PROT_READ) && defined(MAP_SHARED)` -/
  mmap : Bool := false
  ia32 : Bool := false
  /-- `defined(__NR_perf_event_open)` -/
  perf_event : Bool := false
  /-- `__has_builtin(__builtin_readcyclecounter)` -/
  readcyclecounter : Bool := false

/-- The processor and the operating system. -/
structure Device where
  /-- what happens when a clock is tried, for those which depend on no variable -/
  attempt : ClockFn → Nat → Attempt
  /-- what happens when `clock_gettime` is tried -/
  posix : ClockId → Nat → Attempt
  /-- `open("/dev/mem")` and `mmap` of the timer succeed (tests/mera.c:1359-1374) -/
  zbus_mapped : Bool
  /-- what happens when the timer is read at the address at which it is mapped -/
  zbus : Nat → Attempt
  /-- user-mode access to the performance counters of ARM (tests/mera.c:1294-1300) -/
  pmuseren : U32
  /-- tests/mera.c:1301-1307 -/
  pmcntenset : U32
  /-- the cycles in one step of the counter of MIPS (tests/mera.c:1345-1347) -/
  rdhwr_3 : U32
  /-- `ia32_cpu_features.basic.edx` -/
  basic_edx : U32
  /-- `ia32_cpu_features.extended_80000001.edx` -/
  extended_80000001_edx : U32
  /-- `ia32_cpu_features.extended_80000007.edx` -/
  extended_80000007_edx : U32
  /-- `perf_event_open` and `ioctl` succeed (tests/mera.c:1099-1126) -/
  perf_opens : Bool
  /-- the values of the performance counter before and after the sleep, in every round -/
  perf_value : Nat → U64 × U64
  /-- `perf_page` and what it says about `rdpmc` (tests/mera.c:1425-1429) -/
  perf_rdpmc : Bool

/-- The variables of `tests/mera.c` which `mera_init` changes; `clock` is what `mera.start`, `mera.finish` and
`mera.source` say. -/
structure Setup where
  probing : Probing
  clock : Option ClockFn
  convert : Option Convert
  units : Units
  posix_clockid : ClockId
  /-- the variable `mips_tsc_addr` of tests/mera.c:755 is not `NULL` -/
  mips_tsc_addr : Bool
  mips_rdhwr_resolution : U32

/-- What happens when a clock is tried. `clock_posix` reads `posix_clockid`; `clock_zbustimer` reads `*mips_tsc_addr`
(tests/mera.c:756-761), which is a signal if that is `NULL`. -/
def attemptOf (d : Device) (s : Setup) : ClockFn → Nat → Attempt
  | .posix => d.posix s.posix_clockid
  | .zbustimer => if s.mips_tsc_addr then d.zbus else fun _ => .signal
  | .perf => fun n =>
    .read (clock_perf (d.perf_value n).1).1 (clock_perf (d.perf_value n).1).2
      (clock_perf (d.perf_value n).2).1 (clock_perf (d.perf_value n).2).2
  | f => d.attempt f

/-- `probe` (tests/mera.c:289-334), with what `probeClock` leaves out: `mera.convert` and `mera.units`. -/
def probeFn (t : Macros) (d : Device) (f : ClockFn) (convert : Convert) (flags : U32) (time_units : Units)
    (s : Setup) : Bool × Setup :=
  let (ok, p) := probeClock t.windows 0 ⟨fun _ => flags, attemptOf d s f⟩ s.probing
  if ok then
    (true,
      { s with
        probing := p
        clock := some f
        convert := some convert
        units :=
          if flags &&& timestamp_cycles ≠ 0 then .cycle else if flags &&& timestamp_ticks ≠ 0 then .tick
          else time_units })
  else (false, { s with probing := p })

/-- A statement between `#if` and `#endif`. -/
def ifDefined (condition : Bool) (statement : Setup → Setup) (s : Setup) : Setup :=
  if condition then statement s else s

/-- A call of `probe` whose result is not used. -/
def tryClock (t : Macros) (d : Device) (f : ClockFn) (convert : Convert) (flags : U32) (time_units : Units)
    (s : Setup) : Setup :=
  (probeFn t d f convert flags time_units s).2

/-- tests/mera.c:1196-1201, and likewise 1204-1209 and 1212-1217 -/
def tryPosix (t : Macros) (d : Device) (id : ClockId) (s : Setup) : Setup :=
  if s.posix_clockid = .realtime then
    let (ok, s) := probeFn t d .posix .one_to_one 0 .ns { s with posix_clockid := id }
    if ok then s else { s with posix_clockid := .realtime }
  else s

/-- `timestamp_clock_cheap | timestamp_cycles | timestamp_clock_stable` -/
def cycle_flags : U32 := timestamp_clock_cheap ||| timestamp_cycles ||| timestamp_clock_stable

/-- tests/mera.c:1292-1317 -/
def tryPmccntr (t : Macros) (d : Device) (s : Setup) : Setup :=
  if 1 &&& d.pmuseren ≠ 0 then
    if d.pmcntenset &&& 0x80000000 ≠ 0 then tryClock t d .pmccntr .pmccntr_x64 cycle_flags .cycle s else s
  else s

/-- tests/mera.c:1342-1350 -/
def tryRdhwr (t : Macros) (d : Device) (s : Setup) : Setup :=
  let (ok, s) := probeFn t d .rdhwr .rdhwr cycle_flags .cycle s
  if ok then
    let s := { s with mips_rdhwr_resolution := d.rdhwr_3 }
    if s.mips_rdhwr_resolution < 2 then { s with convert := some .one_to_one } else s
  else s

/-- tests/mera.c:1357-1385. The address is stored in a variable of the function (tests/mera.c:1358), which has the
name of the variable which `clock_zbustimer` reads. -/
def tryZbus (t : Macros) (d : Device) (s : Setup) : Setup :=
  let mips_tsc_addr : Bool := d.zbus_mapped
  if mips_tsc_addr then
    tryClock t d .zbustimer .one_to_one (timestamp_clock_stable ||| timestamp_clock_cheap ||| timestamp_ticks) .tick s
  else s

/-- tests/mera.c:1396-1400 -/
def tsc_flags (d : Device) : U32 :=
  if d.extended_80000007_edx &&& (1#32 <<< 8) ≠ 0 then timestamp_clock_cheap ||| timestamp_cycles
  else timestamp_clock_cheap ||| timestamp_cycles ||| timestamp_clock_stable

/-- tests/mera.c:1389-1417 -/
def tryIa32 (t : Macros) (d : Device) (s : Setup) : Setup :=
  if d.basic_edx &&& (1#32 <<< 4) ≠ 0 then
    let s := tryClock t d .rdpmc .one_to_one cycle_flags .cycle s
    let s :=
      if d.extended_80000001_edx &&& (1#32 <<< 27) ≠ 0 then tryClock t d .rdtscp .one_to_one (tsc_flags d) .none s
      else s
    tryClock t d .rdtsc .one_to_one (tsc_flags d) .none s
  else s

/-- tests/mera.c:1419-1452. (`perf_fd` and `perf_page` are closed and unmapped if they are not used.) -/
def tryPerf (t : Macros) (d : Device) (s : Setup) : Setup :=
  if d.perf_opens then
    let s := tryClock t d .perf .one_to_one (timestamp_cycles ||| timestamp_clock_stable) .cycle s
    if t.ia32 && d.perf_rdpmc then tryClock t d .perf_rdpmc .one_to_one cycle_flags .cycle s else s
  else s

/-- tests/mera.c:1456-1465 -/
def tryBuiltin (t : Macros) (d : Device) (s : Setup) : Setup :=
  tryClock t d .readcyclecounter .one_to_one
    (if t.ia32 then
      timestamp_clock_cheap ||| timestamp_cycles ||| (s.probing.flags &&& timestamp_clock_stable)
    else timestamp_clock_cheap ||| timestamp_cycles ||| timestamp_clock_stable)
    .cycle s

/-- The statements of `mera_init` which are not between `#ifndef __native_client__` and `#endif`, before those
(tests/mera.c:1181-1226) -/
def systemClocks (t : Macros) (d : Device) : List (Setup → Setup) :=
  [ ifDefined t.os400 (tryClock t d .os400 .os400 0 .ns),
    ifDefined t.apple (tryClock t d .mach .mach 0 .ns),
    ifDefined t.sun (tryClock t d .solaris .one_to_one 0 .ns),
    ifDefined t.sgi_cycle (tryPosix t d .sgi_cycle),
    ifDefined t.monotonic_raw (tryPosix t d .monotonic_raw),
    ifDefined t.monotonic (tryPosix t d .monotonic),
    if t.windows then tryClock t d .windows .windows 0 .ns
    else tryClock t d .gettimeofday .us2ns 0 .ns ]

/-- The statements between `#ifndef __native_client__` and `#endif` (tests/mera.c:1231-1454) -/
def processorClocks (t : Macros) (d : Device) : List (Setup → Setup) :=
  [ ifDefined t.elbrus (tryClock t d .elbrus .one_to_one cycle_flags .cycle),
    ifDefined t.powerpc64 (tryClock t d .powerpc64_mfspr268 .one_to_one cycle_flags .cycle),
    ifDefined t.powerpc
      (tryClock t d .powerpc_mftb .one_to_one (timestamp_clock_cheap ||| timestamp_ticks) .tick),
    ifDefined t.sparc (tryClock t d .sparc .one_to_one cycle_flags .cycle),
    ifDefined t.ia64 (tryClock t d .ia64 .one_to_one cycle_flags .cycle),
    ifDefined t.hppa (tryClock t d .hppa .one_to_one cycle_flags .cycle),
    ifDefined t.s390 (tryClock t d .stcke .one_to_one cycle_flags .cycle),
    ifDefined t.s390 (tryClock t d .stckf .one_to_one cycle_flags .cycle),
    ifDefined t.s390 (tryClock t d .stck .one_to_one cycle_flags .cycle),
    ifDefined t.alpha (tryClock t d .alpha .one_to_one cycle_flags .cycle),
    ifDefined t.arm (tryPmccntr t d),
    ifDefined t.aarch64
      (tryClock t d .cntvct_el0 .one_to_one (timestamp_clock_stable ||| timestamp_ticks ||| timestamp_clock_cheap)
        .tick),
    ifDefined (t.mips && t.mips2) (tryClock t d .mfc0_9_0 .one_to_one cycle_flags .cycle),
    ifDefined (t.mips && t.mips2) (tryRdhwr t d),
    ifDefined (t.mips && t.mips2) (tryClock t d .mfc0_25_1 .one_to_one cycle_flags .cycle),
    ifDefined (t.mips && t.mmap) (tryZbus t d),
    ifDefined t.ia32 (tryIa32 t d),
    ifDefined t.perf_event (tryPerf t d) ]

/-- One statement after another. -/
def runAll (statements : List (Setup → Setup)) (s : Setup) : Setup := statements.foldl (fun s f => f s) s

/-- `mera_init` (tests/mera.c:1164-1468) on a platform. (`set_single_affinity` and `prctl` are not modelled.) -/
def mera_init_on (t : Macros) (d : Device) (s : Setup) : Bool × Setup :=
  let s := { s with probing := { s.probing with flags := 0 } }
  if t.emscripten then probeFn t d .emscripten .one_to_one 0 .ns s
  else
    let s := runAll (systemClocks t d) s
    let s := if t.native_client then s else runAll (processorClocks t d) s
    let s := ifDefined t.readcyclecounter (tryBuiltin t d) s
    (s.probing.flags &&& timestamp_clock_have != 0, s)

/-- The variables when the program starts (tests/mera.c:501, 755, 804, 1482-1483). -/
def setupAtStart : Setup where
  probing := ⟨0, none, .initial, .initial, .initial⟩
  clock := none
  convert := none
  units := .none
  posix_clockid := .realtime
  mips_tsc_addr := false
  mips_rdhwr_resolution := 0

/-- `mera.convert`, as a factor: what one count of the clock is. `ratio` is the factor of those conversions which ask
the operating system (tests/mera.c:411-422, 437-448, 483-496); `resolution` is `mips_rdhwr_resolution`
(tests/mera.c:464, 710, 726-729, 814-816). -/
def Convert.factor (ratio : ℚ) (resolution : U32) : Convert → ℚ
  | .mach => ratio
  | .windows => ratio
  | .os400 => ratio
  | .us2ns => 1000
  | .one_to_one => 1
  | .pmccntr_x64 => 64
  | .rdhwr => resolution.toNat

/-! ## What is printed -/

/-- The numbers of a line which `bench` prints. -/
structure Report where
  perHash : ℚ
  perByte : ℚ
  bytesPer : ℚ
  /-- before "GiB/s", if that is printed -/
  gibPerSecond : Option ℚ
  /-- after "@", before "GHz" -/
  ghz : Option ℚ
  roughly : Bool

/-- `bench` (tests/bench.c:29-48): `value` is the result of `mera_bench`, `len` the number of bytes. `none`: a
division by zero. (The numbers are printed with three digits after the point, and `GHz_scale` with none or one.) -/
def benchReport (flags : U32) (GHz_scale value : ℚ) (len : Nat) : Option Report :=
  if value = 0 ∨ len = 0 then none
  else some
    { perHash := value
      perByte := value / len
      bytesPer := len / value
      gibPerSecond :=
        if flags &&& timestamp_cycles ≠ 0 then some (GHz_scale * len / value)
        else if flags &&& timestamp_ticks = 0 then some (len / value)
        else none
      ghz := if flags &&& timestamp_cycles ≠ 0 then some GHz_scale else none
      roughly := flags &&& timestamp_clock_stable = 0 }

end T1ha.Model
