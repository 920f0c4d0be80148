import Verif.Model.Clock
import Verif.Clocks

/-!
# What the properties of the clocks say

The clocks of a platform: which of them there are, which of them work, how they are rated, and what they count. (As
in `tests/mera.h:40-46` a greater number is better: most of all, that a clock is stable counts, then that it counts
cycles, ticks, and last that it is cheap to read.)
-/

namespace T1ha.Model

/-- The program has been built with this clock. -/
def Compiled (t : Macros) : ClockFn → Prop
  | .emscripten => t.emscripten
  | .os400 => ¬ t.emscripten ∧ t.os400
  | .mach => ¬ t.emscripten ∧ t.apple
  | .solaris => ¬ t.emscripten ∧ t.sun
  | .posix => ¬ t.emscripten ∧ (t.sgi_cycle ∨ t.monotonic_raw ∨ t.monotonic)
  | .windows => ¬ t.emscripten ∧ t.windows
  | .gettimeofday => ¬ t.emscripten ∧ ¬ t.windows
  | .elbrus => ¬ t.emscripten ∧ ¬ t.native_client ∧ t.elbrus
  | .powerpc64_mfspr268 => ¬ t.emscripten ∧ ¬ t.native_client ∧ t.powerpc64
  | .powerpc_mftb => ¬ t.emscripten ∧ ¬ t.native_client ∧ t.powerpc
  | .sparc => ¬ t.emscripten ∧ ¬ t.native_client ∧ t.sparc
  | .ia64 => ¬ t.emscripten ∧ ¬ t.native_client ∧ t.ia64
  | .hppa => ¬ t.emscripten ∧ ¬ t.native_client ∧ t.hppa
  | .stcke => ¬ t.emscripten ∧ ¬ t.native_client ∧ t.s390
  | .stckf => ¬ t.emscripten ∧ ¬ t.native_client ∧ t.s390
  | .stck => ¬ t.emscripten ∧ ¬ t.native_client ∧ t.s390
  | .alpha => ¬ t.emscripten ∧ ¬ t.native_client ∧ t.alpha
  | .pmccntr => ¬ t.emscripten ∧ ¬ t.native_client ∧ t.arm
  | .cntvct_el0 => ¬ t.emscripten ∧ ¬ t.native_client ∧ t.aarch64
  | .mfc0_9_0 => ¬ t.emscripten ∧ ¬ t.native_client ∧ t.mips ∧ t.mips2
  | .rdhwr => ¬ t.emscripten ∧ ¬ t.native_client ∧ t.mips ∧ t.mips2
  | .mfc0_25_1 => ¬ t.emscripten ∧ ¬ t.native_client ∧ t.mips ∧ t.mips2
  | .zbustimer => ¬ t.emscripten ∧ ¬ t.native_client ∧ t.mips ∧ t.mmap
  | .rdpmc => ¬ t.emscripten ∧ ¬ t.native_client ∧ t.ia32
  | .rdtscp => ¬ t.emscripten ∧ ¬ t.native_client ∧ t.ia32
  | .rdtsc => ¬ t.emscripten ∧ ¬ t.native_client ∧ t.ia32
  | .perf => ¬ t.emscripten ∧ ¬ t.native_client ∧ t.perf_event
  | .perf_rdpmc => ¬ t.emscripten ∧ ¬ t.native_client ∧ t.perf_event ∧ t.ia32
  | .readcyclecounter => ¬ t.emscripten ∧ t.readcyclecounter

/-- The processor and the operating system say that the clock may be used. -/
def Permitted (d : Device) : ClockFn → Prop
  | .pmccntr => d.pmuseren.getLsbD 0 ∧ d.pmcntenset.getLsbD 31
  | .zbustimer => d.zbus_mapped
  | .rdpmc => d.basic_edx.getLsbD 4
  | .rdtscp => d.basic_edx.getLsbD 4 ∧ d.extended_80000001_edx.getLsbD 27
  | .rdtsc => d.basic_edx.getLsbD 4
  | .perf => d.perf_opens
  | .perf_rdpmc => d.perf_opens ∧ d.perf_rdpmc
  | _ => True

/-- The clock advances when it is tried. -/
def Works (t : Macros) (d : Device) : ClockFn → Prop
  | .posix => (t.sgi_cycle ∧ Usable (d.posix .sgi_cycle)) ∨ (t.monotonic_raw ∧ Usable (d.posix .monotonic_raw)) ∨
      (t.monotonic ∧ Usable (d.posix .monotonic))
  | .zbustimer => Usable d.zbus
  | .perf => Usable fun n => .read 0 (d.perf_value n).1 0 (d.perf_value n).2
  | f => Usable (d.attempt f)

/-- There is the clock, and it works. -/
def Available (t : Macros) (d : Device) (f : ClockFn) : Prop := Compiled t f ∧ Permitted d f ∧ Works t d f

/-- The time stamp counter runs at a constant rate, whatever the frequency of the processor is. -/
def InvariantTsc (d : Device) : Prop := d.extended_80000007_edx.getLsbD 8

instance (d : Device) : Decidable (InvariantTsc d) := inferInstanceAs (Decidable (_ = true))

/-- The program has been built for an x86 processor. -/
structure ForIa32 (t : Macros) : Prop where
  ia32 : t.ia32 = true
  elbrus : t.elbrus = false
  powerpc64 : t.powerpc64 = false
  powerpc : t.powerpc = false
  sparc : t.sparc = false
  ia64 : t.ia64 = false
  hppa : t.hppa = false
  s390 : t.s390 = false
  alpha : t.alpha = false
  arm : t.arm = false
  aarch64 : t.aarch64 = false
  mips : t.mips = false

/-- How a clock is rated. -/
def rating (t : Macros) (d : Device) : ClockFn → U32
  | .emscripten | .os400 | .mach | .solaris | .posix | .windows | .gettimeofday => timestamp_clock_have
  | .powerpc_mftb => timestamp_ticks ||| timestamp_clock_cheap ||| timestamp_clock_have
  | .cntvct_el0 | .zbustimer =>
    timestamp_clock_stable ||| timestamp_ticks ||| timestamp_clock_cheap ||| timestamp_clock_have
  | .perf => timestamp_clock_stable ||| timestamp_cycles ||| timestamp_clock_have
  | .rdtsc | .rdtscp =>
    if InvariantTsc d then timestamp_cycles ||| timestamp_clock_cheap ||| timestamp_clock_have
    else timestamp_clock_stable ||| timestamp_cycles ||| timestamp_clock_cheap ||| timestamp_clock_have
  | .readcyclecounter =>
    if t.ia32 then timestamp_cycles ||| timestamp_clock_cheap ||| timestamp_clock_have
    else timestamp_clock_stable ||| timestamp_cycles ||| timestamp_clock_cheap ||| timestamp_clock_have
  | _ => timestamp_clock_stable ||| timestamp_cycles ||| timestamp_clock_cheap ||| timestamp_clock_have

/-- What the results are said to be counted in. -/
def unitsOf : ClockFn → Units
  | .emscripten | .os400 | .mach | .solaris | .posix | .windows | .gettimeofday => .ns
  | .powerpc_mftb | .cntvct_el0 | .zbustimer => .tick
  | _ => .cycle

/-- How many of these units one count of the clock is; `ratio` is what the operating system says, where it is
asked. -/
def unitsPerCount (d : Device) (ratio : ℚ) : ClockFn → ℚ
  | .os400 | .mach | .windows => ratio
  | .gettimeofday => 1000
  | .pmccntr => 64
  | .rdhwr => max 1 d.rdhwr_3.toNat
  | _ => 1

end T1ha.Model
