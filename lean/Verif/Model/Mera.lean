import Verif.Basic
import Mathlib.Data.Rat.Defs
import Mathlib.Algebra.Order.Ring.Rat

/-!
# The measurements of the tool `test`

`tests/mera.c`: the choice of the clock (`do_probe`, `probe`, the end of `mera_init`) and the measurement
(`mera_bench`). The clocks themselves and the processor are a parameter.

Not modelled here: the functions which read the clocks and which of them a platform has (the calls of `probe` in
tests/mera.c:1164-1465 are given as a list; both are in `Verif/Model/Clock.lean`), and floating-point rounding: `double` is the
set of the rational numbers here, with a distinct outcome for a division by zero.
-/

namespace T1ha.Model

/-! ## The choice of the clock -/

/-- tests/mera.h:41 -/
def timestamp_clock_have : U32 := 1#32 <<< 0
/-- tests/mera.h:42 -/
def timestamp_clock_cheap : U32 := 1#32 <<< 1
/-- tests/mera.h:43 -/
def timestamp_ticks : U32 := 1#32 <<< 2
/-- tests/mera.h:44 -/
def timestamp_cycles : U32 := 1#32 <<< 3
/-- tests/mera.h:45 -/
def timestamp_clock_stable : U32 := 1#32 <<< 4

/-- What happens in one round of the loop of `do_probe`: a signal arrives while the clock is read, or the numbers
which are found before and after the sleep. -/
inductive Attempt
  | signal
  | read (core₁ : U32) (start : U64) (core₂ : U32) (finish : U64)
  deriving DecidableEq

/-- The loop of `do_probe` (tests/mera.c:262-273), from round `n` on; `-2`: a signal has arrived
(tests/mera.c:255-260). -/
def probeLoop (attempt : Nat → Attempt) : Nat → Nat → Int
  | 0, _ => 0
  | left + 1, n =>
    match attempt n with
    | .signal => -2
    | .read c₁ s c₂ f =>
      if c₁ ≠ c₂ then probeLoop attempt left (n + 1)
      else if f > s then 1
      else if f = s ∨ n > 5 then 0
      else probeLoop attempt left (n + 1)

/-- How the signals `SIGSEGV`, `SIGILL` and `SIGBUS` are handled: as at the start of the program, or by
`sigaction_handler` (tests/mera.c:214-219), which jumps into a call of `do_probe`. -/
inductive Handling
  | initial
  | handler
  deriving DecidableEq, Repr

/-- The variables which `probe` changes: `mera.flags`, `mera.source` (here the number of the clock, or none), how
the three signals are handled. -/
structure Probing where
  flags : U32
  source : Option Nat
  sigsegv : Handling
  sigill : Handling
  sigbus : Handling
  deriving DecidableEq

/-- `do_probe` (tests/mera.c:234-287): its result, and how the signals are handled afterwards. `windows`: there are
no signals, but `__try` and `__except`. (`sigaction` does not fail.) -/
def do_probe (windows : Bool) (attempt : Nat → Attempt) (s : Probing) : Int × Probing :=
  let rc := probeLoop attempt 42 0
  if windows then (rc, s)
  else
    let prev := s
    let s := { s with sigsegv := .handler, sigill := .handler, sigbus := .handler }
    if rc = 1 then (rc, s)
    else (rc, { s with sigsegv := prev.sigsegv, sigill := prev.sigill, sigbus := prev.sigbus })

/-- A call of `probe` in `mera_init`: the flags which are given, which may depend on `mera.flags`
(tests/mera.c:1459-1464), and how the clock behaves. -/
structure Source where
  flags : U32 → U32
  attempt : Nat → Attempt

/-- `probe` (tests/mera.c:289-334), without what it prints -/
def probeClock (windows : Bool) (number : Nat) (c : Source) (s : Probing) : Bool × Probing :=
  let flags := c.flags s.flags ||| timestamp_clock_have
  if s.flags ≥ flags then (false, s)
  else
    let (rc, s) := do_probe windows c.attempt s
    if rc = 1 then (true, { s with source := some number, flags := flags })
    else (false, s)

/-- The calls of `probe` in `mera_init`, one after another. -/
def probeAll (windows : Bool) : Nat → List Source → Probing → Probing
  | _, [], s => s
  | n, c :: cs, s => probeAll windows (n + 1) cs (probeClock windows n c s).2

/-- `mera_init` (tests/mera.c:1164-1468) -/
def mera_init (windows : Bool) (clocks : List Source) (s : Probing) : Bool × Probing :=
  let s := probeAll windows 0 clocks { s with flags := 0 }
  (s.flags &&& timestamp_clock_have != 0, s)

/-! ## The measurement -/

/-- The machine on which `mera_bench` runs: what `mera.start` and `mera.finish` give (the number of the processor
and the time), what a call of the function to be measured does, `time(NULL)`, `mera.convert` and `mera.flags`. -/
structure Bench (σ : Type) where
  start : σ → (U32 × U64) × σ
  finish : σ → (U32 × U64) × σ
  target : σ → σ
  time : σ → U64
  convert : U64 → ℚ
  flags : U32

/-- The variables of `mera_bench` (tests/mera.c:1490-1519). -/
structure BenchVars where
  target_loops : U32
  retry_count : U32
  restart_count : U32
  overhead_best : U64
  overhead_gate : U64
  overhead_loops_max : U32
  overhead_sum : U64
  overhead_total_count : U32
  overhead_best_count : U32
  overhead_worthless_loops : U32
  overhead_accounted_loops : U32
  target_best : U64
  target_gate : U64
  tail_loops_max : U32
  target_brutto_sum : U64
  target_overhead_count : U32
  target_best_count : U32
  target_total_count : U32
  target_worthless_loops : U32
  target_accounted_loops : U32
  stable : U32
  deriving DecidableEq

/-- `INT64_MAX` -/
def INT64_MAX : U64 := 0x7FFFFFFFFFFFFFFF

/-- From `restart_bottom` on (tests/mera.c:1511-1523) -/
def restart_bottom (v : BenchVars) : BenchVars :=
  { v with
    target_brutto_sum := 0
    target_overhead_count := 0
    target_best_count := 1
    target_total_count := 0
    target_worthless_loops := 0
    target_accounted_loops := 0
    stable := 0
    restart_count := v.restart_count + 1
    retry_count := v.retry_count - 1 + 1 }

/-- From `restart_middle` on (tests/mera.c:1506-1523) -/
def restart_middle (v : BenchVars) : BenchVars :=
  restart_bottom { v with target_best := INT64_MAX, target_gate := 0, tail_loops_max := 0 }

/-- From `restart_top` on (tests/mera.c:1499-1523) -/
def restart_top (v : BenchVars) : BenchVars :=
  restart_middle
    { v with
      overhead_sum := 0
      overhead_total_count := 0
      overhead_best_count := 1
      overhead_worthless_loops := 0
      overhead_accounted_loops := 0 }

/-- From `retry` on (tests/mera.c:1522-1523) -/
def retry (v : BenchVars) : BenchVars := { v with retry_count := v.retry_count + 1 }

/-- The variables when the loop is entered (tests/mera.c:1490-1523). (Those which have not been given a value yet
are given one by `restart_top`.) -/
def benchStart : BenchVars :=
  restart_top
    { target_loops := 1, retry_count := 0, restart_count := 0 - 1, overhead_best := INT64_MAX, overhead_gate := 0,
      overhead_loops_max := 0, overhead_sum := 0, overhead_total_count := 0, overhead_best_count := 0,
      overhead_worthless_loops := 0, overhead_accounted_loops := 0, target_best := 0, target_gate := 0,
      tail_loops_max := 0, target_brutto_sum := 0, target_overhead_count := 0, target_best_count := 0,
      target_total_count := 0, target_worthless_loops := 0, target_accounted_loops := 0, stable := 0 }

variable {σ : Type}

/-- A piece of the loop: `none` if it does not end (within the given number of rounds), `some (none, s)` if it jumps
to `retry`, otherwise its result; and the state of the machine. -/
abbrev BenchPiece (σ α : Type) := σ → Option (Option α × σ)

/-- `do { if (coreid != mera.start(&start) || snap > start) goto retry; } while (snap == start)`
(tests/mera.c:1532-1535, 1581-1584): the value of `start` -/
def waitEdge (m : Bench σ) (coreid : U32) (snap : U64) : Nat → BenchPiece σ U64
  | 0, _ => none
  | fuel + 1, s =>
    let r := m.start s
    if coreid ≠ r.1.1 ∨ snap > r.1.2 then some (none, r.2)
    else if snap = r.1.2 then waitEdge m coreid snap fuel r.2
    else some (some r.1.2, r.2)

/-- `while (start == finish) { ... }` (tests/mera.c:1543-1549): the values of `loops` and `finish` -/
def waitTick (m : Bench σ) (coreid : U32) (start : U64) : Nat → U32 → U64 → BenchPiece σ (U32 × U64)
  | 0, _, _, _ => none
  | fuel + 1, loops, finish, s =>
    if start = finish then
      let loops := loops + 1
      let r := m.start s
      if coreid ≠ r.1.1 ∨ start > r.1.2 then some (none, r.2)
      else
        let snap := r.1.2
        let r := m.finish r.2
        if coreid ≠ r.1.1 ∨ snap > r.1.2 then some (none, r.2)
        else waitTick m coreid start fuel loops r.1.2 r.2
    else some (some (loops, finish), s)

/-- The measurement of the overhead (tests/mera.c:1527-1550): `coreid`, `loops` and `elapsed` -/
def measureOverhead (m : Bench σ) (fuel : Nat) : BenchPiece σ (U32 × U32 × U64) := fun s =>
  let r := m.start s
  let coreid := r.1.1
  match waitEdge m coreid r.1.2 fuel r.2 with
  | none => none
  | some (none, s) => some (none, s)
  | some (some start, s) =>
    let r := m.finish s
    if coreid ≠ r.1.1 ∨ start > r.1.2 then some (none, r.2)
    else
      match waitTick m coreid start fuel 1 r.1.2 r.2 with
      | none => none
      | some (none, s) => some (none, s)
      | some (some (loops, finish), s) => some (some (coreid, loops, finish - start), s)

/-- `do target(...); while (++loops < target_loops)` (tests/mera.c:1586-1589), with `loops` before the round; at
most `left` rounds (which is enough, if `left` is `2^32`). -/
def callTarget (m : Bench σ) (target_loops : U32) : Nat → U32 → σ → σ
  | 0, _, s => s
  | left + 1, loops, s =>
    let s := m.target s
    if loops + 1 < target_loops then callTarget m target_loops left (loops + 1) s else s

/-- `while (true) { ... }` (tests/mera.c:1596-1606): the value of `loops` -/
def waitNext (m : Bench σ) (coreid : U32) (finish : U64) : Nat → U32 → BenchPiece σ U32
  | 0, _, _ => none
  | fuel + 1, loops, s =>
    let r := m.start s
    if coreid ≠ r.1.1 ∨ finish > r.1.2 then some (none, r.2)
    else if finish ≠ r.1.2 then some (some loops, r.2)
    else
      let r := m.finish r.2
      if coreid ≠ r.1.1 ∨ finish > r.1.2 then some (none, r.2)
      else if finish ≠ r.1.2 then some (some loops, r.2)
      else waitNext m coreid finish fuel (loops + 1) r.2

/-- The measurement of the target (tests/mera.c:1577-1608): `loops` and `elapsed` -/
def measureTarget (m : Bench σ) (fuel : Nat) (coreid : U32) (target_loops : U32) : BenchPiece σ (U32 × U64) := fun s =>
  let r := m.start s
  if coreid ≠ r.1.1 then some (none, r.2)
  else
    let snap := r.1.2
    match waitEdge m coreid snap fuel r.2 with
    | none => none
    | some (none, s) => some (none, s)
    | some (some start, s) =>
      let s := callTarget m target_loops (2 ^ 32) 0 s
      let r := m.finish s
      if coreid ≠ r.1.1 ∨ snap > r.1.2 then some (none, r.2)
      else
        let finish := r.1.2
        match waitNext m coreid finish fuel 1 r.2 with
        | none => none
        | some (none, s) => some (none, s)
        | some (some loops, s) => some (some (loops, finish - start), s)

/-- The new value of `overhead_gate` or `target_gate` (tests/mera.c:1553-1557, 1612-1616) -/
def gate (best elapsed : U64) : U64 :=
  let g := best + (best - elapsed + 1) / 2
  let g := if g > elapsed * 129 / 128 then elapsed * 129 / 128 else g
  if g < elapsed * 1025 / 1024 + 1 then elapsed * 1025 / 1024 + 1 else g

/-- Account a measurement of the overhead (tests/mera.c:1551-1572): `.inl` if it jumps to `restart_top`. -/
def accountOverhead (loops : U32) (elapsed : U64) (v : BenchVars) : BenchVars ⊕ BenchVars :=
  if v.overhead_best > elapsed ∨ v.overhead_loops_max < loops then
    let v := if v.overhead_best > elapsed then
        { v with overhead_gate := gate v.overhead_best elapsed, overhead_best := elapsed }
      else v
    .inl { v with overhead_loops_max := if v.overhead_loops_max > loops then v.overhead_loops_max else loops }
  else if elapsed ≤ v.overhead_gate ∧ loops + 1 ≥ v.overhead_loops_max then
    .inr { v with
      overhead_best_count := v.overhead_best_count +
        (if elapsed = v.overhead_best ∧ loops = v.overhead_loops_max then 1 else 0)
      overhead_sum := v.overhead_sum + elapsed
      overhead_total_count := v.overhead_total_count + loops
      overhead_accounted_loops := v.overhead_accounted_loops + 1 }
  else .inr { v with overhead_worthless_loops := v.overhead_worthless_loops + 1 }

/-- Account a measurement of the target (tests/mera.c:1609-1631): `.inl` if it jumps to `restart_bottom`. -/
def accountTarget (loops : U32) (elapsed : U64) (v : BenchVars) : BenchVars ⊕ BenchVars :=
  if v.target_best > elapsed ∨ (v.target_best = elapsed ∧ v.tail_loops_max < loops) then
    let v := if v.target_best > elapsed then
        { v with target_gate := gate v.target_best elapsed, target_best := elapsed }
      else v
    .inl { v with tail_loops_max := loops }
  else if elapsed ≤ v.target_gate ∧ v.tail_loops_max - loops < 2 then
    .inr { v with
      target_best_count := v.target_best_count +
        (if elapsed = v.target_best ∧ loops = v.tail_loops_max then 1 else 0)
      target_total_count := v.target_total_count + v.target_loops
      target_brutto_sum := v.target_brutto_sum + elapsed
      target_overhead_count := v.target_overhead_count + loops
      target_accounted_loops := v.target_accounted_loops + 1 }
  else .inr { v with target_worthless_loops := v.target_worthless_loops + 1 }

/-- Division of `double` numbers; `none`: infinite, or not a number. -/
def divide (x : Option ℚ) (y : ℚ) : Option ℚ := if y = 0 then none else x.map (· / y)

/-- An `unsigned` or a `uint64_t` as a `double` -/
def number {n : Nat} (x : BitVec n) : ℚ := (x.toNat : ℚ)

/-- What `mera_bench` returns, and some members of `mera_bci`. -/
structure BenchResult where
  value : Option ℚ
  spent_seconds : U32
  vars : BenchVars

/-- `measured_overhead` (tests/mera.c:1682-1685) -/
def measuredOverhead (m : Bench σ) (v : BenchVars) : Option ℚ :=
  let enough4avg : U32 := if m.flags &&& timestamp_clock_stable != 0 then 4999 else 29999
  if v.overhead_best_count > 2 ∨ v.overhead_total_count < enough4avg / 2 then
    divide (some (m.convert v.overhead_best)) (number v.overhead_loops_max)
  else divide (some (m.convert v.overhead_sum)) (number v.overhead_total_count)

/-- `measured_target` (tests/mera.c:1697-1704) -/
def measuredTarget (m : Bench σ) (v : BenchVars) : Option ℚ :=
  let enough4avg : U32 := if m.flags &&& timestamp_clock_stable != 0 then 4999 else 29999
  if v.target_best_count > 2 ∨ v.target_total_count < enough4avg / 2 then
    divide ((measuredOverhead m v).map fun o => m.convert v.target_best - o * number v.tail_loops_max)
      (number v.target_loops)
  else
    divide ((measuredOverhead m v).map fun o => m.convert v.target_brutto_sum - o * number v.target_overhead_count)
      (number v.target_total_count)

/-- What follows a round of the loop: another round with these variables, or `mera_bench` returns. -/
inductive Next
  | again (v : BenchVars)
  | done (r : BenchResult)

/-- The checkpoint (tests/mera.c:1634-1707); `target`: whether there is a target; `fuse`: `timeout_fuse`. -/
def checkpoint (m : Bench σ) (target : Bool) (fuse : U64) (v : BenchVars) (s : σ) : Next :=
  let v := { v with stable := v.stable + 1 }
  if v.stable &&& 1023 = 0 then
    let wanna : U64 := 1042 + v.overhead_best * v.overhead_loops_max.setWidth 64
    if target ∧ v.target_best < wanna then
      .again (restart_middle { v with target_loops := v.target_loops + v.target_loops })
    else if target ∧ v.target_loops > 1 ∧ v.target_best > wanna * 4 then
      .again (restart_middle { v with target_loops := v.target_loops >>> 1 })
    else
      let enough4fuse_seconds : U32 := 9
      let enough4best : U32 := if m.flags &&& timestamp_clock_stable != 0 then 499 else 1999
      let enough4avg : U32 := if m.flags &&& timestamp_clock_stable != 0 then 4999 else 29999
      let enough4bailout : U32 := if m.flags &&& timestamp_clock_cheap != 0 then 99999 else 59999
      let spent_seconds : U32 := (m.time s - fuse).setWidth 32
      let enough4overhead : Prop := v.overhead_best_count > enough4best ∨ v.overhead_accounted_loops > enough4avg ∨
        v.overhead_worthless_loops > enough4bailout ∨ spent_seconds > enough4fuse_seconds
      let enough4target : Prop := v.target_best_count > enough4best ∨ v.target_accounted_loops > enough4avg ∨
        v.target_worthless_loops > enough4bailout ∨ spent_seconds > enough4fuse_seconds
      if enough4overhead ∧ (target = false ∨ enough4target) then
        .done ⟨if target then measuredTarget m v else measuredOverhead m v, spent_seconds + 1, v⟩
      else .again v
  else .again v

/-- One round of the loop (tests/mera.c:1525-1708), with the jump which may end it. -/
def benchRound (m : Bench σ) (target : Bool) (fuse : U64) (fuel : Nat) (v : BenchVars) (s : σ) : Option (Next × σ) :=
  match measureOverhead m fuel s with
  | none => none
  | some (none, s) => some (.again (retry v), s)
  | some (some (coreid, loops, elapsed), s) =>
    match accountOverhead loops elapsed v with
    | .inl v => some (.again (restart_top v), s)
    | .inr v =>
      if target then
        match measureTarget m fuel coreid v.target_loops s with
        | none => none
        | some (none, s) => some (.again (retry v), s)
        | some (some (loops, elapsed), s) =>
          match accountTarget loops elapsed v with
          | .inl v => some (.again (restart_bottom v), s)
          | .inr v => some (checkpoint m target fuse v s, s)
      else some (checkpoint m target fuse v s, s)

/-- The loop (tests/mera.c:1525-1708) -/
def benchLoop (m : Bench σ) (target : Bool) (fuse : U64) (inner : Nat) :
    Nat → BenchVars → σ → Option (BenchResult × σ)
  | 0, _, _ => none
  | fuel + 1, v, s =>
    match benchRound m target fuse inner v s with
    | none => none
    | some (.again v, s) => benchLoop m target fuse inner fuel v s
    | some (.done r, s) => some (r, s)

/-- `mera_bench` (tests/mera.c:1489-1709); `target = false`: the pointer to the function is null; `none` if no loop
may have more than `fuel` rounds, but one has. -/
def mera_bench (m : Bench σ) (target : Bool) (fuel : Nat) (s : σ) : Option (BenchResult × σ) :=
  benchLoop m target (m.time s) fuel fuel benchStart s

end T1ha.Model
