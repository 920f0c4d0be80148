import Verif.Proofs.Clock
import Verif.Proofs.ClockRead
import Verif.Props.Mera

/-!
# Properties C68 to C71: the clocks of the tool

`Compiled`, `Permitted`, `Works`, `Available`, `rating`, `unitsOf` and `unitsPerCount` are defined in
`Verif/ClockTable.lean`, `Usable` in `Verif/Clocks.lean`.
-/

namespace T1ha.Props

open Model

/-! ## C68: what is read from a clock -/

/-- **C68, PowerPC, the part which holds.** On a 32-bit PowerPC the two halves of the time base are read one after
another. If the upper half changes at most once meanwhile, what is read is not before the first and not after the last
instruction.

Missing: that the upper half changes more than once, because the program is interrupted for long. `mftb_ahead` shows
that the claim is false then, and `mftb_near` by how much. -/
theorem mftb_within_partial (order : Bool) (before between after : U64) (h1 : before ≤ between) (h2 : between ≤ after)
    (h : after.toNat / 2 ^ 32 ≤ before.toNat / 2 ^ 32 + 1) :
    before ≤ clock_powerpc_mftb order order before between after ∧
      clock_powerpc_mftb order order before between after ≤ after := by
  have h1' : before.toNat ≤ between.toNat := h1
  have h2' : between.toNat ≤ after.toNat := h2
  have key := mftb_value order before between after (BitVec.le_trans h1 h2)
  rw [BitVec.le_def, BitVec.le_def, key]
  by_cases e : before.toNat / 2 ^ 32 = after.toNat / 2 ^ 32
  · rw [if_pos e]
    constructor <;> omega
  · rw [if_neg e]
    have e1 : after.toNat / 2 ^ 32 - before.toNat / 2 ^ 32 - 1 = 0 := by omega
    rw [e1, Nat.and_zero]
    constructor <;> omega

/-- **C68, PowerPC.** However often the upper half changes, what is read is not before the first instruction, and
no more units after the last one than the upper half has changed, less one. -/
theorem mftb_near (order : Bool) (before between after : U64) (h1 : before ≤ between) (h2 : between ≤ after) :
    before ≤ clock_powerpc_mftb order order before between after ∧
      (clock_powerpc_mftb order order before between after).toNat ≤
        after.toNat + (after.toNat / 2 ^ 32 - before.toNat / 2 ^ 32 - 1) := by
  have h1' : before.toNat ≤ between.toNat := h1
  have h2' : between.toNat ≤ after.toNat := h2
  have key := mftb_value order before between after (BitVec.le_trans h1 h2)
  rw [BitVec.le_def, key]
  by_cases e : before.toNat / 2 ^ 32 = after.toNat / 2 ^ 32
  · rw [if_pos e]
    constructor <;> omega
  · rw [if_neg e]
    have e1 : (between.toNat % 2 ^ 32 &&& (after.toNat / 2 ^ 32 - before.toNat / 2 ^ 32 - 1)) ≤
      after.toNat / 2 ^ 32 - before.toNat / 2 ^ 32 - 1 := Nat.and_le_right
    generalize (between.toNat % 2 ^ 32 &&& (after.toNat / 2 ^ 32 - before.toNat / 2 ^ 32 - 1)) = z at e1 ⊢
    constructor <;> omega

/-- **C68 does not hold for PowerPC.** If the program is interrupted until the upper half of the time base has changed
twice, a time is read which has not come yet; and a second read, without any interruption, gives an earlier time than
the first one. -/
theorem mftb_ahead (order : Bool) :
    ∃ before between after : U64, before ≤ between ∧ between ≤ after ∧
      after < clock_powerpc_mftb order order before between after ∧
      clock_powerpc_mftb order order after after after < clock_powerpc_mftb order order before between after := by
  refine ⟨0, 1, 0x200000000, by decide, by decide, ?_, ?_⟩ <;> cases order <;> decide

/-- **C68, `clock_gettime`.** What is read is the number of nanoseconds. -/
theorem posix_exact (sec nsec : Int) (h0 : 0 ≤ sec * 10 ^ 9 + nsec) (h : sec * 10 ^ 9 + nsec < 2 ^ 64) :
    ((clock_posix (some (sec, nsec))).toNat : Int) = sec * 10 ^ 9 + nsec := by
  have := seconds_and_parts 1000000000 sec nsec
  show ((BitVec.ofInt 64 sec * 1000000000 + BitVec.ofInt 64 nsec : U64).toNat : Int) = _
  rw [show (1000000000 : U64) = BitVec.ofNat 64 1000000000 from rfl, this]
  exact ofInt_toNat h0 h

/-- **C68, `clock_gettime`.** The difference of two times is right even for times before the epoch. -/
theorem posix_elapsed (sec nsec sec' nsec' : Int) (h0 : sec * 10 ^ 9 + nsec ≤ sec' * 10 ^ 9 + nsec')
    (h : sec' * 10 ^ 9 + nsec' - (sec * 10 ^ 9 + nsec) < 2 ^ 64) :
    ((clock_posix (some (sec', nsec')) - clock_posix (some (sec, nsec))).toNat : Int) =
      sec' * 10 ^ 9 + nsec' - (sec * 10 ^ 9 + nsec) := by
  have e : ∀ s n : Int, clock_posix (some (s, n)) = BitVec.ofInt 64 (s * 10 ^ 9 + n) := fun s n => by
    have := seconds_and_parts 1000000000 s n
    exact this
  have e' : sec' * 10 ^ 9 + nsec' = sec' * 10 ^ 9 + nsec' - (sec * 10 ^ 9 + nsec) + (sec * 10 ^ 9 + nsec) := by omega
  rw [e, e, e', BitVec.ofInt_add, BitVec.add_sub_cancel, ← e']
  exact ofInt_toNat (by omega) h

/-- **C68, `gettimeofday`.** What is read is the number of microseconds. -/
theorem gettimeofday_exact (sec usec : Int) (h0 : 0 ≤ sec * 10 ^ 6 + usec) (h : sec * 10 ^ 6 + usec < 2 ^ 64) :
    ((clock_gettimeofday (some (sec, usec))).toNat : Int) = sec * 10 ^ 6 + usec := by
  have := seconds_and_parts 1000000 sec usec
  show ((BitVec.ofInt 64 sec * 1000000 + BitVec.ofInt 64 usec : U64).toNat : Int) = _
  rw [show (1000000 : U64) = BitVec.ofNat 64 1000000 from rfl, this]
  exact ofInt_toNat h0 h

/-- **C68, counters of 32 bits, the part which holds.** If fewer than `2 ^ 32` cycles pass between two reads, and the
second number is not less than the first one (`mera_bench` does not use it otherwise), their difference is the number
of cycles which have passed.

Missing: a longer time. `counter32_wraps` shows that the claim is false then. -/
theorem counter32_elapsed_partial (start finish : Nat) (h1 : start ≤ finish) (h2 : finish - start < 2 ^ 32)
    (h : clock_32bit start ≤ clock_32bit finish) :
    (clock_32bit finish - clock_32bit start).toNat = finish - start := by
  have h' : (clock_32bit start).toNat ≤ (clock_32bit finish).toNat := h
  rw [BitVec.toNat_sub_of_le h]
  rw [clock_32bit_value, clock_32bit_value] at h' ⊢
  omega

/-- **C68 does not hold for counters of 32 bits.** Whatever the first read finds, `2 ^ 32` cycles later the second one
finds the same: no time seems to have passed. -/
theorem counter32_wraps (start : Nat) : clock_32bit (start + 2 ^ 32) = clock_32bit start := by
  apply BitVec.eq_of_toNat_eq
  rw [clock_32bit_value, clock_32bit_value, Nat.add_mod_right]

/-- The upper half changes between the instructions: what is read is its new value, followed by zeroes. -/
example : (0x2FFFFFFFE : U64) ≤ 0x2FFFFFFFF ∧ (0x2FFFFFFFF : U64) ≤ 0x300000005 ∧
    (0x300000005 : U64).toNat / 2 ^ 32 ≤ (0x2FFFFFFFE : U64).toNat / 2 ^ 32 + 1 ∧
    clock_powerpc_mftb true true 0x2FFFFFFFE 0x2FFFFFFFF 0x300000005 = 0x300000000 := by decide

/-- Half a second before the epoch, and a second later. -/
example : ((clock_posix (some (0, 500000000)) - clock_posix (some (-1, 500000000))).toNat : Int) = 10 ^ 9 :=
  posix_elapsed (-1) 500000000 0 500000000 (by decide) (by decide)

example : ((clock_posix (some (1700000000, 123))).toNat : Int) = 1700000000000000123 :=
  posix_exact 1700000000 123 (by decide) (by decide)

example : ((clock_gettimeofday (some (1700000000, 123))).toNat : Int) = 1700000000000123 :=
  gettimeofday_exact 1700000000 123 (by decide) (by decide)

example : (clock_32bit (2 ^ 32 + 105) - clock_32bit (2 ^ 32 + 5)).toNat = 100 :=
  counter32_elapsed_partial (2 ^ 32 + 5) (2 ^ 32 + 105) (by decide) (by decide) (by decide)

/-! ## C69: which clock is chosen -/

/-- **C69.** The clock which `mera_init` chooses is available, and works with the variables as they are at the
end; and `mera.flags`, `mera.units` and `mera.convert` are those of this clock. (No processor is both an x86 and a
64-bit ARM.) -/
theorem chosen_clock (t : Macros) (d : Device) (hx : ¬ (t.ia32 = true ∧ t.aarch64 = true)) (f : ClockFn)
    (h : (mera_init_on t d setupAtStart).2.clock = some f) :
    Available t d f ∧ Usable (attemptOf d (mera_init_on t d setupAtStart).2 f) ∧
      (mera_init_on t d setupAtStart).2.probing.flags = rating t d f ∧
      (mera_init_on t d setupAtStart).2.units = unitsOf f ∧
      ∃ c, (mera_init_on t d setupAtStart).2.convert = some c ∧
        ∀ ratio, c.factor ratio (mera_init_on t d setupAtStart).2.mips_rdhwr_resolution = unitsPerCount d ratio f :=
  ⟨good_available (mera_init_good hx).1 h, ((mera_init_good hx).1.some f h).2.2⟩

/-- **C69, the part which holds.** No clock which is available is rated better than the one which is chosen.

Missing: the performance counters of Linux, and the timer of MIPS. `perf_never_chosen`, `zbus_never_chosen` and
`better_clock_missed` show that for them the claim is false. -/
theorem best_clock_partial (t : Macros) (d : Device) (hx : ¬ (t.ia32 = true ∧ t.aarch64 = true)) (f : ClockFn)
    (h1 : f ≠ .perf) (h2 : f ≠ .zbustimer) (h : Available t d f) :
    rating t d f ≤ (mera_init_on t d setupAtStart).2.probing.flags :=
  (mera_init_good hx).2 f h1 h2 h

/-- **C69, the part which holds.** `mera_init` succeeds if, and only if, a clock is available.

Missing: the same two clocks. -/
theorem found_on_partial (t : Macros) (d : Device) (hx : ¬ (t.ia32 = true ∧ t.aarch64 = true)) :
    (mera_init_on t d setupAtStart).1 = true ↔ ∃ f, f ≠ .perf ∧ f ≠ .zbustimer ∧ Available t d f := by
  rw [mera_init_fst hx]
  constructor
  · rintro ⟨f, h⟩
    obtain ⟨h1, h2, -⟩ := chosen_clock t d hx f h
    refine ⟨f, ?_, ?_, h1⟩
    · rintro rfl; exact perf_unusable h2
    · rintro rfl; exact zbus_unusable (mera_init_good hx).1.addr h2
  · rintro ⟨f, h1, h2, h3⟩
    have h4 := best_clock_partial t d hx f h1 h2 h3
    cases h : (mera_init_on t d setupAtStart).2.clock with
    | some g => exact ⟨g, rfl⟩
    | none =>
      rw [(mera_init_good hx).1.none h] at h4
      have h5 : rating t d f = 0 := BitVec.eq_of_toNat_eq (Nat.le_zero.1 h4)
      exact absurd (by rw [h5]; decide) (rating_have (t := t) (d := d) f)

/-- **C69 does not hold for the performance counters.** `clock_perf` is never chosen, though the counter may advance:
the answer of the system does not fit into the eight bytes which are read. -/
theorem perf_never_chosen (t : Macros) (d : Device) (hx : ¬ (t.ia32 = true ∧ t.aarch64 = true)) :
    (mera_init_on t d setupAtStart).2.clock ≠ some .perf :=
  fun h => perf_unusable (chosen_clock t d hx .perf h).2.1

/-- **C69 does not hold for the timer of MIPS.** It is never chosen, though it may be mapped and advance: its address
is put into a variable which `clock_zbustimer` does not read. -/
theorem zbus_never_chosen (t : Macros) (d : Device) (hx : ¬ (t.ia32 = true ∧ t.aarch64 = true)) :
    (mera_init_on t d setupAtStart).2.clock ≠ some .zbustimer :=
  fun h => zbus_unusable (mera_init_good hx).1.addr (chosen_clock t d hx .zbustimer h).2.1

end T1ha.Props

namespace T1ha.Examples

open Model

/-- Linux on an x86-64 processor, built with GNU C -/
def linuxPc : Macros := { monotonic_raw := true, monotonic := true, mmap := true, ia32 := true, perf_event := true }

/-- Linux on a MIPS processor -/
def linuxMips : Macros :=
  { monotonic_raw := true, monotonic := true, mips := true, mips2 := true, mmap := true, perf_event := true }

/-- A processor of today: programs may not read the performance counters themselves, but the system reads them for
them; the time stamp counter is invariant. -/
def pc : Device where
  attempt f := if f = .rdpmc ∨ f = .perf_rdpmc then faulting else ticking
  posix _ := ticking
  zbus_mapped := true
  zbus := ticking
  pmuseren := 0
  pmcntenset := 0
  rdhwr_3 := 2
  basic_edx := 0x10
  extended_80000001_edx := 0x8000000
  extended_80000007_edx := 0x100
  perf_opens := true
  perf_value n := (BitVec.ofNat 64 (1000 * n), BitVec.ofNat 64 (1000 * n + 500))
  perf_rdpmc := false

theorem perf_counts : Usable fun n => .read 0 (pc.perf_value n).1 0 (pc.perf_value n).2 :=
  ⟨0, by decide, ⟨0, 0, 500, rfl, by decide⟩, fun _ h => absurd h (by omega)⟩

end T1ha.Examples

namespace T1ha.Props

open Model Examples

/-- **C69 does not hold.** There are machines on which a better clock is available than the one which is chosen: one
with performance counters which advance, where the time stamp counter is used, which is not stable; and one with a
timer which is mapped and advances, where `clock_gettime` is used. -/
theorem better_clock_missed :
    (Available linuxPc pc .perf ∧ (mera_init_on linuxPc pc setupAtStart).2.clock = some .rdtscp ∧
      (mera_init_on linuxPc pc setupAtStart).2.probing.flags < rating linuxPc pc .perf) ∧
    ∃ d : Device, Available linuxMips d .zbustimer ∧
      (mera_init_on linuxMips d setupAtStart).2.clock = some .posix ∧
      (mera_init_on linuxMips d setupAtStart).2.probing.flags < rating linuxMips d .zbustimer := by
  refine ⟨⟨⟨⟨by decide, by decide, by decide⟩, rfl, perf_counts⟩, by decide +kernel, by decide +kernel⟩,
    { pc with attempt := fun _ => faulting },
    ⟨⟨by decide, by decide, by decide, by decide⟩, rfl, ticking_usable⟩, by decide +kernel, by decide +kernel⟩

/-- The clock of this machine, with all that is said of it. -/
example : (mera_init_on linuxPc pc setupAtStart).1 = true ∧
    (mera_init_on linuxPc pc setupAtStart).2.clock = some .rdtscp ∧
    (mera_init_on linuxPc pc setupAtStart).2.units = .cycle := by
  refine ⟨by decide +kernel, by decide +kernel, by decide +kernel⟩

/-- A MIPS processor whose counter counts every second cycle. -/
example : (mera_init_on linuxMips { pc with attempt := fun f => if f = .rdhwr then ticking else faulting }
      setupAtStart).2.clock = some .rdhwr ∧
    unitsPerCount pc 1 .rdhwr = 2 := by
  refine ⟨by decide +kernel, ?_⟩
  simp [unitsPerCount, pc]

/-! ## C70: what is called stable, and a cycle -/

/-- **C70.** On an x86 processor, if the clock is called stable, then it counts the cycles of the processor: it is a
performance counter, or the time stamp counter of a processor on which that is not invariant. So, with an invariant
time stamp counter the results are said to be rough. -/
theorem stable_on_ia32 (d : Device) (t : Macros) (ht : ForIa32 t)
    (h : (mera_init_on t d setupAtStart).2.probing.flags &&& timestamp_clock_stable ≠ 0) :
    (mera_init_on t d setupAtStart).2.clock = some .rdpmc ∨
    (mera_init_on t d setupAtStart).2.clock = some .perf_rdpmc ∨
    (((mera_init_on t d setupAtStart).2.clock = some .rdtsc ∨
      (mera_init_on t d setupAtStart).2.clock = some .rdtscp) ∧ ¬ InvariantTsc d) := by
  have hx : ¬ (t.ia32 = true ∧ t.aarch64 = true) := by simp [ht.aarch64]
  cases hcl : (mera_init_on t d setupAtStart).2.clock with
  | none =>
    rw [(mera_init_good hx).1.none hcl] at h
    exact absurd (by decide) h
  | some f =>
    obtain ⟨⟨h1, h2, -⟩, h3, h4, -⟩ := chosen_clock t d hx f hcl
    rw [h4] at h
    have system : ∀ x : U32, x &&& timestamp_clock_stable = 0 → rating t d f = x → False := by
      intro x hx e
      rw [e] at h
      exact h hx
    cases f
    case emscripten | os400 | mach | solaris | posix | windows | gettimeofday =>
      exact (system timestamp_clock_have (by decide) rfl).elim
    case readcyclecounter =>
      exact (system (timestamp_cycles ||| timestamp_clock_cheap ||| timestamp_clock_have) (by decide)
        (by simp only [rating, ht.ia32]; rfl)).elim
    case perf => exact absurd h3 perf_unusable
    case rdpmc => exact Or.inl rfl
    case perf_rdpmc => exact Or.inr (Or.inl rfl)
    case rdtsc =>
      refine Or.inr (Or.inr ⟨Or.inl rfl, fun hi => ?_⟩)
      exact system (timestamp_cycles ||| timestamp_clock_cheap ||| timestamp_clock_have) (by decide)
        (by simp only [rating, if_pos hi])
    case rdtscp =>
      refine Or.inr (Or.inr ⟨Or.inr rfl, fun hi => ?_⟩)
      exact system (timestamp_cycles ||| timestamp_clock_cheap ||| timestamp_clock_have) (by decide)
        (by simp only [rating, if_pos hi])
    all_goals
      simp [Compiled, ht.elbrus, ht.powerpc64, ht.powerpc, ht.sparc, ht.ia64, ht.hppa, ht.s390, ht.alpha, ht.arm,
        ht.aarch64, ht.mips] at h1

/-- The machine above has an invariant time stamp counter; if it had not, its clock would be called stable. -/
example : ForIa32 linuxPc ∧ InvariantTsc pc ∧
    (mera_init_on linuxPc pc setupAtStart).2.probing.flags &&& timestamp_clock_stable = 0 ∧
    (mera_init_on linuxPc { pc with extended_80000007_edx := 0 } setupAtStart).2.probing.flags &&&
      timestamp_clock_stable ≠ 0 := by
  refine ⟨⟨rfl, rfl, rfl, rfl, rfl, rfl, rfl, rfl, rfl, rfl, rfl, rfl⟩, rfl, by decide +kernel, by decide +kernel⟩

/-- **C70 does not hold on ARM.** Whatever the counter of the cycles has been set up to count, the result is 64 times
what it has counted: if it counts every cycle, 64 times as many cycles are reported as have passed. (The counter counts
every cycle unless bit 3 of the register `PMCR` is set, which the program does not read.) -/
theorem pmccntr_assumed (t : Macros) (d : Device) (hx : ¬ (t.ia32 = true ∧ t.aarch64 = true))
    (h : (mera_init_on t d setupAtStart).2.clock = some .pmccntr) :
    (mera_init_on t d setupAtStart).2.units = .cycle ∧
    ∃ c, (mera_init_on t d setupAtStart).2.convert = some c ∧
      ∀ (ratio : ℚ) (cycles : Nat),
        c.factor ratio (mera_init_on t d setupAtStart).2.mips_rdhwr_resolution * cycles = 64 * cycles := by
  obtain ⟨-, -, -, h5, c, h6, h7⟩ := chosen_clock t d hx .pmccntr h
  exact ⟨h5, c, h6, fun ratio cycles => by rw [h7]; rfl⟩

/-- **C70 does not hold on PowerPC.** On a 64-bit PowerPC the special purpose register 268 is the time base, which does
not count cycles; it is read by `mfspr` as well as by `mftb`. If it can be read by `mfspr`, the results are called
cycles, and stable; if it can be read by `mftb` only, ticks. -/
theorem powerpc_time_base (d : Device) (t : Macros)
    (ht : t = { monotonic_raw := t.monotonic_raw, monotonic := t.monotonic, mmap := t.mmap, powerpc64 := true,
                powerpc := true, perf_event := t.perf_event }) :
    (Usable (d.attempt .powerpc64_mfspr268) → (mera_init_on t d setupAtStart).2.clock = some .powerpc64_mfspr268 ∧
      (mera_init_on t d setupAtStart).2.units = .cycle ∧
      (mera_init_on t d setupAtStart).2.probing.flags &&& timestamp_clock_stable ≠ 0) ∧
    (¬ Usable (d.attempt .powerpc64_mfspr268) → Usable (d.attempt .powerpc_mftb) →
      (mera_init_on t d setupAtStart).2.clock = some .powerpc_mftb ∧
      (mera_init_on t d setupAtStart).2.units = .tick ∧
      (mera_init_on t d setupAtStart).2.probing.flags &&& timestamp_clock_stable = 0) := by
  have hx : ¬ (t.ia32 = true ∧ t.aarch64 = true) := by rw [ht]; simp
  have c1 : Compiled t .powerpc64_mfspr268 := by rw [ht]; simp [Compiled]
  have c2 : Compiled t .powerpc_mftb := by rw [ht]; simp [Compiled]
  have only : ∀ f, Compiled t f → f = .posix ∨ f = .gettimeofday ∨ f = .powerpc64_mfspr268 ∨ f = .powerpc_mftb ∨
      f = .perf := by
    intro f
    rw [ht]
    cases f <;> simp [Compiled]
  have best : ∀ x : U32, x ≤ (mera_init_on t d setupAtStart).2.probing.flags → 0 < x →
      ∃ f, (mera_init_on t d setupAtStart).2.clock = some f ∧ Compiled t f ∧ x ≤ rating t d f ∧
        Usable (attemptOf d (mera_init_on t d setupAtStart).2 f) ∧
        (mera_init_on t d setupAtStart).2.units = unitsOf f ∧
        (mera_init_on t d setupAtStart).2.probing.flags = rating t d f := by
    intro x hx1 hx2
    cases hcl : (mera_init_on t d setupAtStart).2.clock with
    | none =>
      rw [(mera_init_good hx).1.none hcl] at hx1
      exact absurd (bv_lt_of_lt_of_le hx2 hx1) (BitVec.lt_irrefl _)
    | some f =>
      obtain ⟨⟨h1, -⟩, h3, h4, h5, -⟩ := chosen_clock t d hx f hcl
      rw [h4] at hx1
      exact ⟨f, rfl, h1, hx1, h3, h5, h4⟩
  constructor
  · intro hu
    obtain ⟨f, h1, h2, h3, h4, h5, h6⟩ := best _ (best_clock_partial t d hx .powerpc64_mfspr268 (by decide) (by decide)
      ⟨c1, trivial, hu⟩) (by simp only [rating]; decide)
    rcases only f h2 with rfl | rfl | rfl | rfl | rfl
    · exact absurd h3 (by simp only [rating]; decide)
    · exact absurd h3 (by simp only [rating]; decide)
    · exact ⟨h1, h5, by rw [h6]; simp only [rating]; decide⟩
    · exact absurd h3 (by simp only [rating]; decide)
    · exact absurd h4 perf_unusable
  · intro hn hu
    obtain ⟨f, h1, h2, h3, h4, h5, h6⟩ := best _ (best_clock_partial t d hx .powerpc_mftb (by decide) (by decide)
      ⟨c2, trivial, hu⟩) (by simp only [rating]; decide)
    rcases only f h2 with rfl | rfl | rfl | rfl | rfl
    · exact absurd h3 (by simp only [rating]; decide)
    · exact absurd h3 (by simp only [rating]; decide)
    · exact absurd h4 hn
    · exact ⟨h1, h5, by rw [h6]; simp only [rating]; decide⟩
    · exact absurd h4 perf_unusable

/-- Linux on a PowerPC, and a processor on which all works. -/
example : (mera_init_on { monotonic := true, powerpc64 := true, powerpc := true, perf_event := true } pc
    setupAtStart).2.clock = some .powerpc64_mfspr268 :=
  ((powerpc_time_base pc _ rfl).1 ticking_usable).1

/-- A counter of an ARM processor which may be used. -/
example : (mera_init_on { monotonic := true, arm := true } { pc with pmuseren := 1, pmcntenset := 0x80000000 }
    setupAtStart).2.clock = some .pmccntr := by decide +kernel

/-! ## C71: what is printed -/

/-- **C71.** If the function takes a time of `value` units, which is not zero, for `len` bytes, then the first three
numbers which are printed are the time, the time for a byte, and the bytes in a unit; a clock which counts ticks gives
no more than this; the line ends with "roughly" if, and only if, the clock is not stable. -/
theorem report_exact (flags : U32) (ghz value : ℚ) (len : Nat) (hv : value ≠ 0) (hl : len ≠ 0) :
    ∃ r, benchReport flags ghz value len = some r ∧ r.perHash = value ∧ r.perByte * len = value ∧
      r.bytesPer * value = len ∧ (r.roughly = true ↔ flags &&& timestamp_clock_stable = 0) ∧
      (flags &&& timestamp_cycles = 0 → flags &&& timestamp_ticks ≠ 0 → r.gibPerSecond = none) := by
  have hl' : (len : ℚ) ≠ 0 := by exact_mod_cast hl
  unfold benchReport
  rw [if_neg (by rintro (h | h); exacts [hv h, hl h])]
  refine ⟨_, rfl, rfl, ?_, ?_, ?_, ?_⟩
  · exact div_mul_cancel₀ _ hl'
  · exact div_mul_cancel₀ _ hv
  · exact decide_eq_true_iff
  · intro h1 h2
    show (if _ then _ else _) = _
    rw [if_neg (by simp [h1]), if_neg h2]

/-- **C71 does not hold for "GiB/s".** What is printed before "GiB/s" is the number of bytes in a nanosecond, which is
a number of `10 ^ 9` bytes in a second; the number of `2 ^ 30` bytes in a second is smaller. Let `bytes` be the number
of bytes in a second: at the frequency which is printed, if the clock counts cycles; else the unit is a nanosecond. -/
theorem gib_overstated (flags : U32) (ghz value bytes : ℚ) (len : Nat) (hv : 0 < value) (hl : 0 < len)
    (hg : 0 < ghz)
    (hb : bytes * (if flags &&& timestamp_cycles ≠ 0 then value / (ghz * 10 ^ 9) else value / 10 ^ 9) = len)
    (hf : flags &&& timestamp_cycles ≠ 0 ∨ flags &&& timestamp_ticks = 0) :
    ∃ r x, benchReport flags ghz value len = some r ∧ r.gibPerSecond = some x ∧ x = bytes / 10 ^ 9 ∧
      x = bytes / 2 ^ 30 * (2 ^ 30 / 10 ^ 9) ∧ bytes / 2 ^ 30 < x := by
  have hl' : (0 : ℚ) < (len : ℚ) := by exact_mod_cast hl
  unfold benchReport
  rw [if_neg (by rintro (h | h); exacts [hv.ne' h, hl.ne' h])]
  have key : ∀ x : ℚ, x = bytes / 10 ^ 9 → 0 < x → x = bytes / 2 ^ 30 * (2 ^ 30 / 10 ^ 9) ∧ bytes / 2 ^ 30 < x := by
    intro x hx hx0
    have hb0 : 0 < bytes := by
      rw [hx] at hx0
      have := mul_pos hx0 (by norm_num : (0 : ℚ) < 10 ^ 9)
      rwa [div_mul_cancel₀ _ (by norm_num)] at this
    constructor
    · rw [hx]; field_simp
    · rw [hx]
      exact div_lt_div_of_pos_left hb0 (by norm_num) (by norm_num)
  by_cases hc : flags &&& timestamp_cycles ≠ 0
  · rw [if_pos hc] at hb
    have e : ghz * len / value = bytes / 10 ^ 9 := by
      rw [← hb]; field_simp
    refine ⟨_, ghz * len / value, rfl, if_pos hc, e, key _ e ?_⟩
    exact div_pos (mul_pos hg hl') hv
  · rw [if_neg hc] at hb
    have ht : flags &&& timestamp_ticks = 0 := hf.resolve_left hc
    have e : len / value = bytes / 10 ^ 9 := by
      rw [← hb]; field_simp
    refine ⟨_, len / value, rfl, ?_, e, key _ e (div_pos hl' hv)⟩
    show (if _ then _ else _) = _
    rw [if_neg hc, if_pos ht]

/-- 1024 bytes in 512 cycles at 3 GHz: 6 bytes in a nanosecond are called 6 GiB/s. -/
example : (benchReport (timestamp_cycles ||| timestamp_clock_have) 3 512 1024).map
    (fun r => (r.perByte, r.bytesPer, r.gibPerSecond, r.roughly)) = some (1 / 2, 2, some 6, true) := by
  decide +kernel

example : ∃ r x, benchReport timestamp_clock_have 3 512 1024 = some r ∧ r.gibPerSecond = some x ∧
    x = (2 * 10 ^ 9 : ℚ) / 10 ^ 9 ∧ x = (2 * 10 ^ 9 : ℚ) / 2 ^ 30 * (2 ^ 30 / 10 ^ 9) ∧ (2 * 10 ^ 9 : ℚ) / 2 ^ 30 < x :=
  gib_overstated timestamp_clock_have 3 512 (2 * 10 ^ 9) 1024 (by norm_num) (by norm_num) (by norm_num)
    (by rw [if_neg (by decide)]; norm_num) (Or.inr (by decide))

end T1ha.Props
