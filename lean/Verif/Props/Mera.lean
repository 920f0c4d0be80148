import Verif.Proofs.MeraJitter

/-!
# Properties C64 to C67: the measurements of the tool

`Usable`, `Pace`, `steady`, `Slow` and `Jitter` are defined in `Verif/Clocks.lean`.
-/

namespace T1ha.Props

open Model

/-! ## C64: the clock -/

/-- **C64.** `mera_init` succeeds if, and only if, one of the clocks which are tried is usable. -/
theorem clock_found (windows : Bool) (clocks : List Source) (s : Probing) :
    (mera_init windows clocks s).1 = true ↔ ∃ c ∈ clocks, Usable c.attempt := by
  unfold mera_init
  simp only [bne_iff_ne]
  rw [probeAll_found windows clocks 0 _ (Or.inl rfl)]
  constructor
  · rintro (h | h)
    · exact absurd (show (0 : U32) &&& timestamp_clock_have = 0 by decide) h
    · exact h
  · exact Or.inr

/-- **C64.** If `mera_init` succeeds, and the flags of the clocks are `clocks.map Prod.fst`, then the clock which it
chooses is usable; no other usable clock has greater flags; and no earlier one has the same flags. -/
theorem clock_chosen (windows : Bool) (clocks : List (U32 × (Nat → Attempt))) (s : Probing)
    (h : (mera_init windows (clocks.map fun c => ⟨fun _ => c.1, c.2⟩) s).1 = true) :
    ∃ i c, (mera_init windows (clocks.map fun c => ⟨fun _ => c.1, c.2⟩) s).2.source = some i ∧
      clocks[i]? = some c ∧ Usable c.2 ∧
      (mera_init windows (clocks.map fun c => ⟨fun _ => c.1, c.2⟩) s).2.flags = (c.1 ||| timestamp_clock_have) ∧
      ∀ j c', clocks[j]? = some c' → Usable c'.2 →
        (c'.1 ||| timestamp_clock_have) ≤ (c.1 ||| timestamp_clock_have) ∧
        ((c'.1 ||| timestamp_clock_have) = (c.1 ||| timestamp_clock_have) → i ≤ j) := by
  have key := probeAll_chosen windows clocks [] { s with flags := 0 } (Or.inl ⟨rfl, by simp⟩)
  rw [List.nil_append] at key
  rcases key with ⟨-, h2⟩ | ⟨i, c, h1, h2, h3, h4, h5⟩
  · obtain ⟨c, hc, hu⟩ := (clock_found windows _ s).1 h
    obtain ⟨c', hc', rfl⟩ := List.mem_map.1 hc
    exact absurd hu (h2 c' hc')
  · refine ⟨i, c, h1, h2, h3, h4, fun j c' hj hu => ?_⟩
    have := h5 j c' hj hu
    rw [h4] at this
    exact this

end T1ha.Props

namespace T1ha.Examples

open Model

/-- A clock which counts 100 in every attempt. -/
def ticking : Nat → Attempt := fun _ => .read 0 1000 0 1100

/-- A clock which stands still. -/
def standing : Nat → Attempt := fun _ => .read 0 1000 0 1000

/-- A clock which cannot be read. -/
def faulting : Nat → Attempt := fun _ => .signal

theorem ticking_usable : Usable ticking :=
  ⟨0, by decide, ⟨0, 1000, 1100, rfl, by decide⟩, fun _ h => absurd h (by omega)⟩

theorem standing_unusable : ¬ Usable standing := by
  rintro ⟨n, -, ⟨c, s, f, h1, h2⟩, -⟩
  cases h1
  exact absurd h2 (by decide)

theorem faulting_unusable : ¬ Usable faulting := by
  rintro ⟨n, -, ⟨c, s, f, h1, h2⟩, -⟩
  cases h1

/-- The program has just been started. -/
def untried : Probing := ⟨0, none, .initial, .initial, .initial⟩

end T1ha.Examples

namespace T1ha.Props

open Model Examples

/-- A clock which works, a better one which does not, a better one which does, and another one like it. -/
example : (mera_init false
      ([(0, ticking), (timestamp_cycles, standing), (timestamp_ticks, ticking), (timestamp_ticks, ticking)].map
        fun c => ⟨fun _ => c.1, c.2⟩) untried).1 = true ∧
    (mera_init false
      ([(0, ticking), (timestamp_cycles, standing), (timestamp_ticks, ticking), (timestamp_ticks, ticking)].map
        fun c => ⟨fun _ => c.1, c.2⟩) untried).2.source = some 2 := by
  refine ⟨(clock_found _ _ _).2 ⟨⟨fun _ => 0, ticking⟩, by simp, ticking_usable⟩, ?_⟩
  decide

/-! ## C65: the signals -/

/-- **C65, the part which holds.** Whatever clocks there are: on Windows, or if no clock is found, `mera_init` leaves
the handling of the signals as it was.

Missing: other systems, if a clock is found. `signals_kept` shows that there the claim is false. -/
theorem signals_restored_partial (windows : Bool) (clocks : List Source) (s : Probing)
    (h : windows = true ∨ (mera_init windows clocks s).1 = false) :
    (mera_init windows clocks s).2.sigsegv = s.sigsegv ∧ (mera_init windows clocks s).2.sigill = s.sigill ∧
      (mera_init windows clocks s).2.sigbus = s.sigbus := by
  rcases h with h | h
  · subst h
    exact probeAll_windows clocks 0 { s with flags := 0 }
  · refine probeAll_none windows clocks 0 { s with flags := 0 } fun c hc hu => ?_
    rw [(clock_found windows clocks s).2 ⟨c, hc, hu⟩] at h
    exact absurd h (by decide)

/-- A machine all of whose clocks cannot be read. -/
example : (mera_init false [⟨fun _ => 0, faulting⟩, ⟨fun _ => 6, standing⟩] untried).1 = false := by decide

/-- **C65 is false.** Whenever `mera_init` finds a clock, and not on Windows, the handler of `do_probe` remains in
charge of `SIGSEGV`, `SIGILL` and `SIGBUS`. It jumps into a call of `do_probe` which has returned. -/
theorem signals_kept (clocks : List Source) (s : Probing) (h : (mera_init false clocks s).1 = true) :
    (mera_init false clocks s).2.sigsegv = .handler ∧ (mera_init false clocks s).2.sigill = .handler ∧
      (mera_init false clocks s).2.sigbus = .handler := by
  rcases probeAll_handled clocks 0 { s with flags := 0 } with g | g
  · unfold mera_init at h
    simp only [bne_iff_ne] at h
    rw [g.1] at h
    exact absurd (show (0 : U32) &&& timestamp_clock_have = 0 by decide) h
  · exact g

example : (mera_init false [⟨fun _ => 0, faulting⟩, ⟨fun _ => 6, ticking⟩] untried).1 = true := by decide

/-! ## C66: the result -/

/-- **C66.** On a steady machine (a clock which advances between two reads; everything takes the same time each time,
less than `2^40` units; at least one unit for a call of the function) `mera_bench` ends and returns exactly the time
of a call, whatever the clock costs, and whatever `time` says. -/
theorem bench_exact (p : Pace) (ok : p.Ok) (hc : 0 < p.call) (core : U32) (time : Nat → U64) (unit : ℚ)
    (flags : U32) {s fuel : Nat} (hs : s < 2 ^ 60) (hf : 2 ^ 14 ≤ fuel) :
    ∃ r s', mera_bench (steady p core time unit flags) true fuel s = some (r, s') ∧
      r.value = some (unit * p.call) :=
  steady_bench ok hc ok.call hs hf

/-- **C66.** Without a function, `mera_bench` returns exactly the time between two reads of the clock. -/
theorem overhead_exact (p : Pace) (ok : p.Ok) (core : U32) (time : Nat → U64) (unit : ℚ) (flags : U32)
    {s fuel : Nat} (hs : s < 2 ^ 60) (hf : 2 ^ 14 ≤ fuel) :
    ∃ r s', mera_bench (steady p core time unit flags) false fuel s = some (r, s') ∧
      r.value = some (unit * (p.startAfter + p.finishBefore : Nat)) :=
  steady_bench_overhead ok hs hf

end T1ha.Props

namespace T1ha.Examples

open Model

/-- It takes 10 units before and after the time is taken, and 3 units to call the function. -/
def pace : Pace := ⟨10, 11, 12, 13, 3⟩

theorem pace_ok : pace.Ok :=
  ⟨by decide, by decide, by decide, by decide, by decide, by decide, by decide⟩

end T1ha.Examples

namespace T1ha.Props

open Model Examples

example : ∃ r s', mera_bench (steady pace 0 (fun t => BitVec.ofNat 64 (t / 1000000000)) 1 timestamp_clock_cheap)
    true (2 ^ 14) 12345 = some (r, s') ∧ r.value = some (1 * 3) :=
  bench_exact pace pace_ok (by decide) _ _ _ _ (by omega) (by omega)

/-- **C66.** On a machine on which durations vary (`Jitter`: by less than `ε` units for each read of the clock, by less
than `e` units for each call; the thread may be moved to another processor at any moment, and each processor may have
a clock of its own, with a different time), if `mera_bench` ends within
`2^19` rounds, it returns the time of a call with a relative error of at most `2 ε / (1042 - 2 ε)`: as the function is
called so often that all calls take 1042 units. This holds whichever way it computes the result, from the best
measurements or from the averages. -/
theorem bench_accuracy {σ : Type} (m : Bench σ) (ahead : U32 → U64) (τ : σ → Nat) (p : Pace) (ε e : Nat)
    (unit : ℚ) (h : Jitter m ahead τ p ε e unit) (ok : p.Ok) (hb : 0 < p.startBefore) (hc : 0 < p.call) (hε : 2 * ε < 1042)
    (he : e < 2 ^ 28) {fuel : Nat} (hf : fuel ≤ 2 ^ 19) {s s' : σ} {r : BenchResult}
    (g : mera_bench m true fuel s = some (r, s')) :
    ∃ y : ℚ, r.value = some (unit * y) ∧
      (p.call : ℚ) - 2 * ε * (p.call + e) / (1042 - 2 * ε) ≤ y ∧
      y ≤ p.call + e + 2 * ε * (p.call + e) / (1042 - 2 * ε) :=
  jitter_bench h ok hb hc hε he hf g

end T1ha.Props

namespace T1ha.Examples

open Model

/-- The clock of processor 1 is behind by 5000 units. -/
def elsewhere : U32 → U64 := fun core => if core = 1 then 0 - 5000 else 0

/-- Some reads of the clock, and some calls of the function, take one unit longer; the thread moves from one processor
to another and back again. -/
def shaky : Bench (Nat × Nat) where
  start s := ((BitVec.ofNat 32 (s.2 / 512 % 2), elsewhere (BitVec.ofNat 32 (s.2 / 512 % 2)) + BitVec.ofNat 64 (s.1 + 5)),
    (s.1 + 5 + (10 + s.2 % 3 / 2), s.2 + 1))
  finish s := ((BitVec.ofNat 32 (s.2 / 512 % 2), elsewhere (BitVec.ofNat 32 (s.2 / 512 % 2)) + BitVec.ofNat 64 (s.1 + 10)),
    (s.1 + 10 + 5, s.2 + 1))
  target s := (s.1 + 1100 + (s.2 + 2) % 3 / 2, s.2 + 1)
  time s := BitVec.ofNat 64 (s.1 / 1000000000)
  convert x := 1 * number x
  flags := timestamp_clock_stable

theorem shaky_jitter : Jitter shaky elsewhere Prod.fst ⟨5, 10, 10, 5, 1100⟩ 1 1 1 where
  start s := ⟨5, 10 + s.2 % 3 / 2, rfl, rfl, by decide, by decide, Nat.le_add_right _ _,
    Nat.add_le_add_left (by omega) _⟩
  finish s := ⟨10, 5, rfl, rfl, by decide, by decide, by decide, by decide⟩
  target s := ⟨by show s.1 + 1100 ≤ s.1 + 1100 + (s.2 + 2) % 3 / 2; omega, by show s.1 + 1100 + (s.2 + 2) % 3 / 2 ≤ s.1 + 1100 + 1; omega⟩
  convert _ := rfl

end T1ha.Examples

namespace T1ha.Props

open Model Examples

/-- A benchmark on the shaky machine ends, and its result is wrong by less than one percent. -/
example : ∃ r s' y, mera_bench shaky true 1200 (0, 0) = some (r, s') ∧ r.value = some (1 * y) ∧ 1090 ≤ y ∧ y ≤ 1110 := by
  have h : (mera_bench shaky true 1200 (0, 0)).isSome = true := by decide +kernel
  obtain ⟨⟨r, s'⟩, e⟩ := Option.isSome_iff_exists.1 h
  obtain ⟨y, h1, h2, h3⟩ := bench_accuracy shaky elsewhere Prod.fst _ 1 1 1 shaky_jitter
    ⟨by decide, by decide, by decide, by decide, by decide, by decide, by decide⟩ (by decide) (by decide) (by decide)
    (by decide) (by omega) e
  refine ⟨r, s', y, e, h1, ?_, ?_⟩
  · norm_num at h2; linarith
  · norm_num at h3; linarith

/-! ## C67: the duration -/

/-- **C67, the part which holds.** On a steady machine `mera_bench` ends.

Missing: other machines; and a limit of the duration. `bench_stands_still`, `bench_moved` and `bench_slow` show that
the claim is false for them. -/
theorem bench_ends_partial (p : Pace) (ok : p.Ok) (hc : 0 < p.call) (core : U32) (time : Nat → U64) (unit : ℚ)
    (flags : U32) (target : Bool) {s : Nat} (hs : s < 2 ^ 60) :
    (mera_bench (steady p core time unit flags) target (2 ^ 14) s).isSome := by
  cases target
  · obtain ⟨r, s', h, -⟩ := overhead_exact p ok core time unit flags hs (le_refl (2 ^ 14))
    rw [h]; rfl
  · obtain ⟨r, s', h, -⟩ := bench_exact p ok hc core time unit flags hs (le_refl (2 ^ 14))
    rw [h]; rfl

/-- **C67 is false.** If the clock stands still (it was seen to advance by `mera_init`, but stops), `mera_bench` does
not end, whatever `time` says: the fuse is not looked at. -/
theorem bench_stands_still {σ : Type} (m : Bench σ) (core : U32) (now : U64) (h : ∀ s, (m.start s).1 = (core, now))
    (target : Bool) (fuel : Nat) (s : σ) : mera_bench m target fuel s = none :=
  frozen_bench h target fuel s

/-- **C67 is false.** If the thread is on another processor at each read of the clock, `mera_bench` does not end,
whatever `time` says. -/
theorem bench_moved {σ : Type} (m : Bench σ) (h : ∀ s, (m.start (m.start s).2).1.1 ≠ (m.start s).1.1)
    (target : Bool) (fuel : Nat) (s : σ) : mera_bench m target fuel s = none :=
  moving_bench h target fuel s

/-- A machine whose clock stands still, though the time goes on; and one whose thread moves all the time. -/
example : (∀ s, ((⟨fun s => ((0, 5), s + 1), fun s => ((0, 5), s + 1), id, fun s => BitVec.ofNat 64 s, number, 1⟩ :
      Bench Nat).start s).1 = (0, 5)) ∧
    ∀ s : Bool × Nat, let m : Bench (Bool × Nat) :=
      ⟨fun s => ((if s.1 then 1 else 0, BitVec.ofNat 64 s.2), (!s.1, s.2 + 1)),
        fun s => ((if s.1 then 1 else 0, BitVec.ofNat 64 s.2), (!s.1, s.2 + 1)), id, fun s => BitVec.ofNat 64 s.2,
        number, 1⟩
      (m.start (m.start s).2).1.1 ≠ (m.start s).1.1 := by
  refine ⟨fun _ => rfl, ?_⟩
  rintro ⟨b, n⟩
  cases b <;> simp

/-- **C67 is false.** On every machine: a benchmark of a function which takes the time `d` takes at least `1024 * d`,
though the fuse is to end it after 9 seconds. (`t` is the time; it may be measured in any way.) -/
theorem bench_slow {σ : Type} (m : Bench σ) (t : σ → ℚ) (d : ℚ) (h : Slow m t d) {fuel : Nat} {s s' : σ}
    {r : BenchResult} (e : mera_bench m true fuel s = some (r, s')) : t s + 1024 * d ≤ t s' :=
  bench_time h e

/-- A function which takes 10 seconds, a clock which counts nanoseconds, and `time`, which counts the same seconds:
the benchmark ends after more than two hours. -/
example : ∃ r s', mera_bench (steady ⟨10, 11, 12, 13, 10000000000⟩ 0 (fun t => BitVec.ofNat 64 (t / 1000000000)) 1 1)
    true (2 ^ 14) 0 = some (r, s') ∧ 2 * 3600 * 1000000000 ≤ s' := by
  have ok : (⟨10, 11, 12, 13, 10000000000⟩ : Pace).Ok :=
    ⟨by decide, by decide, by decide, by decide, by decide, by decide, by decide⟩
  obtain ⟨r, s', h, -⟩ := bench_exact _ ok (by decide) 0 (fun t => BitVec.ofNat 64 (t / 1000000000)) 1 1
    (s := 0) (fuel := 2 ^ 14) (by omega) (by omega)
  refine ⟨r, s', h, ?_⟩
  have := bench_slow _ (fun t : Nat => (t : ℚ)) 10000000000 ⟨by norm_num, ?_, ?_, ?_⟩ h
  · have h2 : ((0 + 1024 * 10000000000 : Nat) : ℚ) ≤ ((s' : Nat) : ℚ) := by push_cast; exact_mod_cast this
    have h3 : 0 + 1024 * 10000000000 ≤ s' := by exact_mod_cast h2
    omega
  · intro s
    show (s : ℚ) ≤ ((s + 10 + 11 : Nat) : ℚ)
    exact_mod_cast (by omega)
  · intro s
    show (s : ℚ) ≤ ((s + 12 + 13 : Nat) : ℚ)
    exact_mod_cast (by omega)
  · intro s
    show (s : ℚ) + 10000000000 ≤ ((s + 10000000000 : Nat) : ℚ)
    push_cast
    exact le_refl _

end T1ha.Props
