import Verif.ClockTable
import Verif.Proofs.Mera

/-!
# Lemmas about the clocks of the tool
-/

namespace T1ha.Model

variable {t : Macros} {d : Device}

/-- What a call of `probe` does. -/
theorem probeFn_choice (t : Macros) (d : Device) (f : ClockFn) (c : Convert) (flags : U32) (u : Units) (s : Setup) :
    (s.probing.flags < (flags ||| timestamp_clock_have) ∧ Usable (attemptOf d s f) ∧
      ∃ p : Probing, p.flags = (flags ||| timestamp_clock_have) ∧
        probeFn t d f c flags u s =
          (true, { s with
            probing := p
            clock := some f
            convert := some c
            units := if flags &&& timestamp_cycles ≠ 0 then .cycle
              else if flags &&& timestamp_ticks ≠ 0 then .tick else u })) ∨
    (((flags ||| timestamp_clock_have) ≤ s.probing.flags ∨ ¬ Usable (attemptOf d s f)) ∧
      ∃ p : Probing, p.flags = s.probing.flags ∧ probeFn t d f c flags u s = (false, { s with probing := p })) := by
  unfold probeFn probeClock
  simp only
  by_cases h : s.probing.flags ≥ flags ||| timestamp_clock_have
  · rw [if_pos h]
    right
    exact ⟨Or.inl h, s.probing, rfl, rfl⟩
  · rw [if_neg h]
    by_cases hu : Usable (attemptOf d s f)
    · left
      have e : (do_probe t.windows (attemptOf d s f) s.probing).1 = 1 := by
        rw [do_probe_fst]; exact (usable_iff _).2 hu
      simp only [if_pos e]
      exact ⟨BitVec.not_le.1 h, hu, _, rfl, rfl⟩
    · right
      have e : ¬ (do_probe t.windows (attemptOf d s f) s.probing).1 = 1 := by
        rw [do_probe_fst]; exact fun h => hu ((usable_iff _).1 h)
      simp only [if_neg e]
      exact ⟨Or.inr hu, _, (do_probe_flags _ _ _).1, rfl⟩

/-- The program has been built with this argument of `clock_gettime`. -/
def Declared (t : Macros) : ClockId → Prop
  | .realtime => True
  | .sgi_cycle => t.sgi_cycle
  | .monotonic_raw => t.monotonic_raw
  | .monotonic => t.monotonic

/-- The choice so far is right. -/
structure GoodClock (t : Macros) (d : Device) (s : Setup) : Prop where
  addr : s.mips_tsc_addr = false
  posix : s.clock = some .posix → s.posix_clockid ≠ .realtime
  declared : Declared t s.posix_clockid
  found : s.posix_clockid ≠ .realtime → timestamp_clock_have ≤ s.probing.flags
  none : s.clock = none → s.probing.flags = 0
  some : ∀ f, s.clock = some f → Compiled t f ∧ Permitted d f ∧ Usable (attemptOf d s f) ∧
    s.probing.flags = rating t d f ∧ s.units = unitsOf f ∧
    ∃ c, s.convert = some c ∧ ∀ ratio, c.factor ratio s.mips_rdhwr_resolution = unitsPerCount d ratio f

theorem attemptOf_congr {s s' : Setup} (f : ClockFn) (h : s'.mips_tsc_addr = s.mips_tsc_addr)
    (hp : f = .posix → s'.posix_clockid = s.posix_clockid) : attemptOf d s' f = attemptOf d s f := by
  cases f <;> simp only [attemptOf, h]
  rw [hp rfl]

theorem zbus_unusable {s : Setup} (h : s.mips_tsc_addr = false) : ¬ Usable (attemptOf d s .zbustimer) := by
  simp only [attemptOf, h]
  rintro ⟨n, -, ⟨c, a, b, h1, -⟩, -⟩
  cases h1

theorem perf_unusable {s : Setup} : ¬ Usable (attemptOf d s .perf) := by
  simp only [attemptOf]
  rintro ⟨n, -, ⟨c, a, b, h1, h2⟩, -⟩
  injection h1 with _ h3 _ h4
  rw [← h3, ← h4] at h2
  have : ∀ v, (clock_perf v).2 = 42 := fun v => rfl
  rw [this, this] at h2
  exact BitVec.lt_irrefl _ h2

/-- A statement of `mera_init` keeps the choice right, never takes a worse clock, and considers the clocks `fs`. -/
def Covers (t : Macros) (d : Device) (fs : List ClockFn) (g : Setup → Setup) : Prop :=
  ∀ s, GoodClock t d s → GoodClock t d (g s) ∧ s.probing.flags ≤ (g s).probing.flags ∧
    ∀ f ∈ fs, Available t d f → rating t d f ≤ (g s).probing.flags

theorem good_same {s : Setup} {p : Probing} (g : GoodClock t d s) (h : p.flags = s.probing.flags) :
    GoodClock t d { s with probing := p } := by
  obtain ⟨g1, g2, g5, g0, g3, g4⟩ := g
  refine ⟨g1, g2, g5, fun e => ?_, fun e => ?_, fun f e => ?_⟩
  · show _ ≤ p.flags
    rw [h]; exact g0 e
  · show p.flags = 0
    rw [h]; exact g3 e
  · obtain ⟨a, b, c, e1, e2⟩ := g4 f e
    refine ⟨a, b, ?_, ?_, e2⟩
    · exact (attemptOf_congr (s := s) f rfl (fun _ => rfl)).symm ▸ c
    · show p.flags = _
      rw [h]; exact e1

theorem attemptOf_own {s : Setup} {f : ClockFn} (h : Works t d f) (h1 : f ≠ .posix) (h2 : f ≠ .perf)
    (h3 : f ≠ .zbustimer) : Usable (attemptOf d s f) := by
  cases f <;> first | exact absurd rfl h1 | exact absurd rfl h2 | exact absurd rfl h3 | exact h

/-- A call of `probe` for a clock which depends on no variable. -/
theorem tryClock_covers {f : ClockFn} {c : Convert} {flags : U32} {u : Units}
    (hc : Compiled t f) (hp : Permitted d f) (h1 : f ≠ .posix)
    (hr : (flags ||| timestamp_clock_have) = rating t d f)
    (hu : (if flags &&& timestamp_cycles ≠ 0 then Units.cycle
              else if flags &&& timestamp_ticks ≠ 0 then Units.tick else u) = unitsOf f)
    (hf : ∀ ratio n, c.factor ratio n = unitsPerCount d ratio f) (h2 : f ≠ .perf) (h3 : f ≠ .zbustimer) :
    Covers t d [f] (tryClock t d f c flags u) := by
  intro s g
  unfold tryClock
  rcases probeFn_choice t d f c flags u s with ⟨a1, a2, p, a3, a4⟩ | ⟨a1, p, a2, a3⟩
  · rw [a4]
    simp only [hu]
    rw [hr] at a1 a3
    have le : s.probing.flags ≤ p.flags := by rw [a3]; exact BitVec.le_of_lt a1
    refine ⟨⟨g.addr, fun e => absurd (Option.some.inj e) h1, g.declared, fun e => BitVec.le_trans (g.found e) le,
      fun e => (Option.some_ne_none _ e).elim, ?_⟩, le, ?_⟩
    · intro f' e
      obtain rfl : f = f' := Option.some.inj e
      refine ⟨hc, hp, ?_, a3, rfl, c, rfl, fun ratio => hf ratio _⟩
      exact (attemptOf_congr (s := s) f rfl (fun _ => rfl)).symm ▸ a2
    · intro f' hf' _
      rw [List.mem_singleton.1 hf', ← a3]
      exact BitVec.le_refl _
  · rw [a3]
    refine ⟨good_same g a2, by show s.probing.flags ≤ p.flags; rw [a2]; exact BitVec.le_refl _, ?_⟩
    intro f' hf' av
    rw [List.mem_singleton.1 hf'] at av ⊢
    show _ ≤ p.flags
    rw [a2]
    rcases a1 with a1 | a1
    · rw [← hr]; exact a1
    · exact absurd (attemptOf_own av.2.2 h1 h2 h3) a1

theorem covers_nothing (g : Setup → Setup) (h : ∀ s, GoodClock t d s → ∃ p : Probing, p.flags = s.probing.flags ∧
    g s = { s with probing := p }) : Covers t d [] g := by
  intro s gs
  obtain ⟨p, h1, h2⟩ := h s gs
  rw [h2]
  exact ⟨good_same gs h1, by show s.probing.flags ≤ p.flags; rw [h1]; exact BitVec.le_refl _, by simp⟩

theorem covers_id : Covers t d [] id :=
  covers_nothing _ fun s _ => ⟨s.probing, rfl, rfl⟩

theorem covers_comp {fs fs' : List ClockFn} {g g' : Setup → Setup} (h : Covers t d fs g) (h' : Covers t d fs' g') :
    Covers t d (fs ++ fs') (fun s => g' (g s)) := by
  intro s gs
  obtain ⟨a1, a2, a3⟩ := h s gs
  obtain ⟨b1, b2, b3⟩ := h' _ a1
  refine ⟨b1, BitVec.le_trans a2 b2, fun f hf av => ?_⟩
  rcases List.mem_append.1 hf with hf | hf
  · exact BitVec.le_trans (a3 f hf av) b2
  · exact b3 f hf av

theorem covers_mono {fs fs' : List ClockFn} {g : Setup → Setup} (h : Covers t d fs g)
    (hs : ∀ f ∈ fs', Available t d f → f ∈ fs) : Covers t d fs' g := by
  intro s gs
  obtain ⟨a1, a2, a3⟩ := h s gs
  exact ⟨a1, a2, fun f hf av => a3 f (hs f hf av) av⟩

theorem covers_ifDefined {fs : List ClockFn} {b : Bool} {g : Setup → Setup} (h : b = true → Covers t d fs g)
    (hb : ∀ f ∈ fs, Compiled t f → b = true) : Covers t d fs (ifDefined b g) := by
  cases b with
  | true => exact h rfl
  | false =>
    intro s gs
    refine ⟨gs, BitVec.le_refl _, fun f hf av => ?_⟩
    exact absurd (hb f hf av.1) (by decide)

theorem covers_if {fs : List ClockFn} {b : Prop} [Decidable b] {g : Setup → Setup} (h : b → Covers t d fs g)
    (hb : ∀ f ∈ fs, Available t d f → b) : Covers t d fs (fun s => if b then g s else s) := by
  by_cases hb' : b
  · simp only [if_pos hb']; exact h hb'
  · simp only [if_neg hb']
    intro s gs
    exact ⟨gs, BitVec.le_refl _, fun f hf av => absurd (hb f hf av) hb'⟩

theorem runAll_covers : ∀ {fss : List (List ClockFn)} {gs : List (Setup → Setup)},
    List.Forall₂ (Covers t d) fss gs → Covers t d fss.flatten (runAll gs)
  | _, _, .nil => covers_id
  | _, _, .cons (a := a) (b := b) (l₂ := l) h hs => by
    have := covers_comp h (runAll_covers hs)
    exact this

/-- `tryPosix` -/
theorem tryPosix_covers {s : Setup} {id : ClockId} (h : id ≠ .realtime) (hd : Declared t id) (hc : Compiled t .posix) :
    GoodClock t d s → GoodClock t d (tryPosix t d id s) ∧ s.probing.flags ≤ (tryPosix t d id s).probing.flags ∧
      (Usable (d.posix id) → rating t d .posix ≤ (tryPosix t d id s).probing.flags) := by
  intro g
  unfold tryPosix
  by_cases hr : s.posix_clockid = .realtime
  · rw [if_pos hr]
    have hn : s.clock ≠ some .posix := fun e => g.posix e hr
    rcases probeFn_choice t d .posix .one_to_one 0 .ns { s with posix_clockid := id } with
      ⟨a1, a2, p, a3, a4⟩ | ⟨a1, p, a2, a3⟩
    · rw [a4]
      have a3' : p.flags = rating t d .posix := by rw [a3]; rfl
      refine ⟨⟨g.addr, fun _ => h, hd, fun _ => ?_, fun e => (Option.some_ne_none _ e).elim, ?_⟩, ?_, ?_⟩
      · show _ ≤ p.flags
        rw [a3]; decide
      · intro f e
        obtain rfl := Option.some.inj e
        exact ⟨hc, trivial, a2, a3', rfl, .one_to_one, rfl, fun _ => rfl⟩
      · show s.probing.flags ≤ p.flags
        rw [a3]; exact BitVec.le_of_lt a1
      · intro _
        show _ ≤ p.flags
        rw [a3']; exact BitVec.le_refl _
    · rw [a3]
      have e : ({ s with posix_clockid := ClockId.realtime, probing := p } : Setup) = { s with probing := p } := by
        rw [← hr]
      show GoodClock t d { s with posix_clockid := ClockId.realtime, probing := p } ∧ s.probing.flags ≤ p.flags ∧
        (_ → _ ≤ p.flags)
      rw [e]
      refine ⟨good_same g a2, by rw [a2]; exact BitVec.le_refl _, fun hu => ?_⟩
      rcases a1 with a1 | a1
      · rw [a2]; exact a1
      · exact absurd hu a1
  · rw [if_neg hr]
    exact ⟨g, BitVec.le_refl _, fun _ => g.found hr⟩

theorem covers_same {fs : List ClockFn} {g : Setup → Setup} {x : U32} (h : ∀ f ∈ fs, rating t d f = x)
    (hg : ∀ s, GoodClock t d s → GoodClock t d (g s) ∧ s.probing.flags ≤ (g s).probing.flags ∧
      ((∃ f ∈ fs, Available t d f) → x ≤ (g s).probing.flags)) : Covers t d fs g := by
  intro s gs
  obtain ⟨a1, a2, a3⟩ := hg s gs
  exact ⟨a1, a2, fun f hf av => by rw [h f hf]; exact a3 ⟨f, hf, av⟩⟩

/-- The three calls for `clock_gettime` -/
theorem posix_covers (he : t.emscripten = false) :
    Covers t d [.posix] (fun s => ifDefined t.monotonic (tryPosix t d .monotonic)
      (ifDefined t.monotonic_raw (tryPosix t d .monotonic_raw) (ifDefined t.sgi_cycle (tryPosix t d .sgi_cycle) s))) := by
  have step : ∀ (b : Bool) (id : ClockId) (s : Setup), id ≠ .realtime → (b = true → Declared t id) → (b = true → Compiled t .posix) → GoodClock t d s →
      GoodClock t d (ifDefined b (tryPosix t d id) s) ∧ s.probing.flags ≤ (ifDefined b (tryPosix t d id) s).probing.flags ∧
      (b = true → Usable (d.posix id) → rating t d .posix ≤ (ifDefined b (tryPosix t d id) s).probing.flags) := by
    intro b id s hid hd hb g
    cases b with
    | true =>
      obtain ⟨a1, a2, a3⟩ := tryPosix_covers hid (hd rfl) (hb rfl) g
      exact ⟨a1, a2, fun _ => a3⟩
    | false => exact ⟨g, BitVec.le_refl _, fun h => absurd h (by decide)⟩
  intro s g
  obtain ⟨a1, a2, a3⟩ := step t.sgi_cycle .sgi_cycle s (by decide) (fun h => h) (fun h => ⟨by simp [he], Or.inl h⟩) g
  obtain ⟨b1, b2, b3⟩ := step t.monotonic_raw .monotonic_raw _ (by decide) (fun h => h)
    (fun h => ⟨by simp [he], Or.inr (Or.inl h)⟩) a1
  obtain ⟨c1, c2, c3⟩ := step t.monotonic .monotonic _ (by decide) (fun h => h)
    (fun h => ⟨by simp [he], Or.inr (Or.inr h)⟩) b1
  refine ⟨c1, BitVec.le_trans a2 (BitVec.le_trans b2 c2), fun f hf av => ?_⟩
  obtain rfl := List.mem_singleton.1 hf
  rcases av.2.2 with ⟨h1, h2⟩ | ⟨h1, h2⟩ | ⟨h1, h2⟩
  · exact BitVec.le_trans (a3 h1 h2) (BitVec.le_trans b2 c2)
  · exact BitVec.le_trans (b3 h1 h2) c2
  · exact c3 h1 h2

theorem flag_bit (x : U32) (i : Nat) (hi : i < 32) : x &&& (1#32 <<< i) ≠ 0 ↔ x.getLsbD i = true := by
  constructor
  · intro h
    by_contra hc
    apply h
    apply BitVec.eq_of_getLsbD_eq
    intro j hj
    have h1 : (1#32 <<< i).getLsbD j = decide (j = i) := by
      rw [BitVec.getLsbD_shiftLeft, BitVec.getLsbD_one]
      by_cases e : j = i
      · subst e; simp [hj]
      · by_cases hlt : j < i
        · simp [hlt, e]
        · simp only [hj, hlt, e]
          simp; omega
    rw [BitVec.getLsbD_and, h1, show (0 : U32).getLsbD j = false from BitVec.getLsbD_zero]
    by_cases e : j = i
    · subst e; simp [hc]
    · simp [e]
  · intro h e
    have h1 : (x &&& (1#32 <<< i)).getLsbD i = false := by rw [e]; simp
    rw [BitVec.getLsbD_and, h] at h1
    simp [hi] at h1

theorem flag_bit' (x : U32) (i : Nat) (hi : i < 32) : (1#32 <<< i) &&& x ≠ 0 ↔ x.getLsbD i = true := by
  rw [BitVec.and_comm]; exact flag_bit x i hi

/-- The clock of MIPS whose resolution is asked for. -/
theorem rdhwr_covers (hc : Compiled t .rdhwr) : Covers t d [.rdhwr] (tryRdhwr t d) := by
  intro s g
  unfold tryRdhwr
  rcases probeFn_choice t d .rdhwr .rdhwr cycle_flags .cycle s with ⟨a1, a2, p, a3, a4⟩ | ⟨a1, p, a2, a3⟩
  · rw [a4]
    have a3' : p.flags = rating t d .rdhwr := by rw [a3]; rfl
    have le : s.probing.flags ≤ p.flags := by rw [a3]; exact BitVec.le_of_lt a1
    simp only [if_true]
    by_cases h2 : d.rdhwr_3 < 2
    · rw [if_pos h2]
      refine ⟨⟨g.addr, fun e => absurd (Option.some.inj e) (by decide), g.declared, fun e => BitVec.le_trans (g.found e) le,
        fun e => (Option.some_ne_none _ e).elim, ?_⟩, le, ?_⟩
      · intro f e
        obtain rfl := Option.some.inj e
        refine ⟨hc, trivial, a2, a3', rfl, .one_to_one, rfl, fun ratio => ?_⟩
        show (1 : ℚ) = max 1 (d.rdhwr_3.toNat : ℚ)
        have : d.rdhwr_3.toNat < 2 := h2
        have h3 : (d.rdhwr_3.toNat : ℚ) ≤ 1 := by exact_mod_cast (by omega : d.rdhwr_3.toNat ≤ 1)
        rw [max_eq_left h3]
      · intro f hf _
        obtain rfl := List.mem_singleton.1 hf
        show _ ≤ p.flags
        rw [a3']; exact BitVec.le_refl _
    · rw [if_neg h2]
      refine ⟨⟨g.addr, fun e => absurd (Option.some.inj e) (by decide), g.declared, fun e => BitVec.le_trans (g.found e) le,
        fun e => (Option.some_ne_none _ e).elim, ?_⟩, le, ?_⟩
      · intro f e
        obtain rfl := Option.some.inj e
        refine ⟨hc, trivial, a2, a3', rfl, .rdhwr, rfl, fun ratio => ?_⟩
        show (d.rdhwr_3.toNat : ℚ) = max 1 (d.rdhwr_3.toNat : ℚ)
        have : ¬ d.rdhwr_3.toNat < 2 := h2
        have h3 : (1 : ℚ) ≤ (d.rdhwr_3.toNat : ℚ) := by exact_mod_cast (by omega : 1 ≤ d.rdhwr_3.toNat)
        rw [max_eq_right h3]
      · intro f hf _
        obtain rfl := List.mem_singleton.1 hf
        show _ ≤ p.flags
        rw [a3']; exact BitVec.le_refl _
  · rw [a3]
    refine ⟨good_same g a2, by show s.probing.flags ≤ p.flags; rw [a2]; exact BitVec.le_refl _, ?_⟩
    intro f hf av
    obtain rfl := List.mem_singleton.1 hf
    show _ ≤ p.flags
    rw [a2]
    rcases a1 with a1 | a1
    · exact a1
    · exact absurd av.2.2 a1

/-- A clock which cannot be used is not chosen. -/
theorem unusable_covers {f : ClockFn} {c : Convert} {flags : U32} {u : Units}
    (h : ∀ s, GoodClock t d s → ¬ Usable (attemptOf d s f)) : Covers t d [] (tryClock t d f c flags u) := by
  refine covers_nothing _ fun s g => ?_
  unfold tryClock
  rcases probeFn_choice t d f c flags u s with ⟨-, a2, -⟩ | ⟨-, p, a2, a3⟩
  · exact absurd a2 (h s g)
  · exact ⟨p, a2, by rw [a3]⟩

theorem tsc_rating : (tsc_flags d ||| timestamp_clock_have) = rating t d .rdtsc := by
  unfold tsc_flags rating
  by_cases h : InvariantTsc d
  · simp only [if_pos h]
    rw [if_pos ((flag_bit _ 8 (by decide)).2 h)]
    decide
  · simp only [if_neg h]
    rw [if_neg (fun h' => h ((flag_bit _ 8 (by decide)).1 h'))]
    decide

theorem tsc_units (u : Units) : (if tsc_flags d &&& timestamp_cycles ≠ 0 then Units.cycle
    else if tsc_flags d &&& timestamp_ticks ≠ 0 then Units.tick else u) = .cycle := by
  unfold tsc_flags
  split
  · rfl
  · rfl

theorem system_covers (he : t.emscripten = false) :
    Covers t d [.os400, .mach, .solaris, .posix, .windows, .gettimeofday] (runAll (systemClocks t d)) := by
  have he' : ¬ t.emscripten = true := by simp [he]
  have c1 : Covers t d [.os400] (ifDefined t.os400 (tryClock t d .os400 .os400 0 .ns)) :=
    covers_ifDefined (fun h => tryClock_covers ⟨he', h⟩ trivial (by decide) rfl rfl (fun _ _ => rfl) (by decide)
      (by decide)) (fun f hf hc => by obtain rfl := List.mem_singleton.1 hf; exact hc.2)
  have c2 : Covers t d [.mach] (ifDefined t.apple (tryClock t d .mach .mach 0 .ns)) :=
    covers_ifDefined (fun h => tryClock_covers ⟨he', h⟩ trivial (by decide) rfl rfl (fun _ _ => rfl) (by decide)
      (by decide)) (fun f hf hc => by obtain rfl := List.mem_singleton.1 hf; exact hc.2)
  have c3 : Covers t d [.solaris] (ifDefined t.sun (tryClock t d .solaris .one_to_one 0 .ns)) :=
    covers_ifDefined (fun h => tryClock_covers ⟨he', h⟩ trivial (by decide) rfl rfl (fun _ _ => rfl) (by decide)
      (by decide)) (fun f hf hc => by obtain rfl := List.mem_singleton.1 hf; exact hc.2)
  have c4 := posix_covers (d := d) he
  have c5 : Covers t d [.windows, .gettimeofday]
      (if t.windows then tryClock t d .windows .windows 0 .ns else tryClock t d .gettimeofday .us2ns 0 .ns) := by
    cases hw : t.windows with
    | true =>
      simp only [if_true]
      refine covers_mono (fs := [.windows]) (tryClock_covers ⟨he', hw⟩ trivial (by decide) rfl rfl (fun _ _ => rfl)
        (by decide) (by decide)) ?_
      intro f hf av
      rcases List.mem_cons.1 hf with h | h
      · exact List.mem_singleton.2 h
      · obtain rfl := List.mem_singleton.1 h
        exact absurd hw av.1.2
    | false =>
      have hw' : ¬ t.windows = true := by simp [hw]
      simp only [Bool.false_eq_true, if_false]
      refine covers_mono (fs := [.gettimeofday]) (tryClock_covers ⟨he', hw'⟩ trivial (by decide) rfl rfl (fun _ _ => rfl)
        (by decide) (by decide)) ?_
      intro f hf av
      rcases List.mem_cons.1 hf with h | h
      · subst h
        exact absurd av.1.2 hw'
      · exact h
  exact covers_comp (covers_comp (covers_comp (covers_comp c1 c2) c3) c4) c5

theorem ia32_covers (hc : ¬ t.emscripten = true ∧ ¬ t.native_client = true ∧ t.ia32 = true) :
    Covers t d [.rdpmc, .rdtscp, .rdtsc] (tryIa32 t d) := by
  unfold tryIa32
  refine covers_if (fun h => ?_) ?_
  · have h4 : d.basic_edx.getLsbD 4 = true := (flag_bit _ 4 (by decide)).1 h
    have c1 : Covers t d [.rdpmc] (tryClock t d .rdpmc .one_to_one cycle_flags .cycle) :=
      tryClock_covers hc h4 (by decide) rfl rfl (fun _ _ => rfl) (by decide) (by decide)
    have c2 : Covers t d [.rdtscp] (fun s => if d.extended_80000001_edx &&& (1#32 <<< 27) ≠ 0 then
        tryClock t d .rdtscp .one_to_one (tsc_flags d) .none s else s) := by
      refine covers_if (fun h' => ?_) ?_
      · exact tryClock_covers hc ⟨h4, (flag_bit _ 27 (by decide)).1 h'⟩ (by decide) (tsc_rating (t := t)) (tsc_units _)
          (fun _ _ => rfl) (by decide) (by decide)
      · intro f hf av
        obtain rfl := List.mem_singleton.1 hf
        exact (flag_bit _ 27 (by decide)).2 av.2.1.2
    have c3 : Covers t d [.rdtsc] (tryClock t d .rdtsc .one_to_one (tsc_flags d) .none) :=
      tryClock_covers hc h4 (by decide) (tsc_rating (t := t)) (tsc_units _) (fun _ _ => rfl) (by decide) (by decide)
    exact covers_comp (covers_comp c1 c2) c3
  · intro f hf av
    refine (flag_bit _ 4 (by decide)).2 ?_
    rcases List.mem_cons.1 hf with h | h
    · subst h; exact av.2.1
    rcases List.mem_cons.1 h with h | h
    · subst h; exact av.2.1.1
    · obtain rfl := List.mem_singleton.1 h
      exact av.2.1

theorem perf_covers (hc : ¬ t.emscripten = true ∧ ¬ t.native_client = true ∧ t.perf_event = true) :
    Covers t d [.perf_rdpmc] (tryPerf t d) := by
  unfold tryPerf
  refine covers_if (fun h => ?_) ?_
  · refine covers_comp (fs := []) (unusable_covers fun s _ => perf_unusable)
      (g' := fun s => if t.ia32 && d.perf_rdpmc then tryClock t d .perf_rdpmc .one_to_one cycle_flags .cycle s else s) ?_
    refine covers_if (fun h' => ?_) ?_
    · rw [Bool.and_eq_true] at h'
      exact tryClock_covers ⟨hc.1, hc.2.1, hc.2.2, h'.1⟩ ⟨h, h'.2⟩ (by decide) rfl rfl (fun _ _ => rfl) (by decide)
        (by decide)
    · intro f hf av
      obtain rfl := List.mem_singleton.1 hf
      rw [Bool.and_eq_true]
      exact ⟨av.1.2.2.2, av.2.1.2⟩
  · intro f hf av
    obtain rfl := List.mem_singleton.1 hf
    exact av.2.1.1

theorem pmccntr_covers (hc : ¬ t.emscripten = true ∧ ¬ t.native_client = true ∧ t.arm = true) :
    Covers t d [.pmccntr] (tryPmccntr t d) := by
  unfold tryPmccntr
  refine covers_if (fun h => ?_) ?_
  · refine covers_if (fun h' => ?_) ?_
    · exact tryClock_covers hc ⟨(flag_bit' _ 0 (by decide)).1 h, (flag_bit _ 31 (by decide)).1 h'⟩ (by decide) rfl rfl
        (fun _ _ => rfl) (by decide) (by decide)
    · intro f hf av
      obtain rfl := List.mem_singleton.1 hf
      exact (flag_bit _ 31 (by decide)).2 av.2.1.2
  · intro f hf av
    obtain rfl := List.mem_singleton.1 hf
    exact (flag_bit' _ 0 (by decide)).2 av.2.1.1

theorem zbus_covers : Covers t d [] (tryZbus t d) := by
  unfold tryZbus
  refine covers_if (fun _ => ?_) (by simp)
  exact unusable_covers fun s g => zbus_unusable g.addr

theorem processor_covers (he : t.emscripten = false) (hn : t.native_client = false) :
    Covers t d [.elbrus, .powerpc64_mfspr268, .powerpc_mftb, .sparc, .ia64, .hppa, .stcke, .stckf, .stck, .alpha,
      .pmccntr, .cntvct_el0, .mfc0_9_0, .rdhwr, .mfc0_25_1, .rdpmc, .rdtscp, .rdtsc, .perf_rdpmc]
      (runAll (processorClocks t d)) := by
  have he' : ¬ t.emscripten = true := by simp [he]
  have hn' : ¬ t.native_client = true := by simp [hn]
  have simple : ∀ (f : ClockFn) (b : Bool) (flags : U32) (u : Units), (b = true → Compiled t f) → Permitted d f →
      f ≠ .posix → (flags ||| timestamp_clock_have) = rating t d f →
      (if flags &&& timestamp_cycles ≠ 0 then Units.cycle
              else if flags &&& timestamp_ticks ≠ 0 then Units.tick else u) = unitsOf f →
      (∀ ratio n, Convert.one_to_one.factor ratio n = unitsPerCount d ratio f) → f ≠ .perf → f ≠ .zbustimer →
      (Compiled t f → b = true) → Covers t d [f] (ifDefined b (tryClock t d f .one_to_one flags u)) := by
    intro f b flags u h1 h2 h3 h4 h5 h6 h7 h8 h9
    exact covers_ifDefined (fun h => tryClock_covers (h1 h) h2 h3 h4 h5 h6 h7 h8)
      (fun f' hf hc => by obtain rfl := List.mem_singleton.1 hf; exact h9 hc)
  have mips : ∀ {b : Bool}, (t.mips && b) = true ↔ t.mips = true ∧ b = true := by
    intro b; rw [Bool.and_eq_true]
  refine runAll_covers (fss := [[.elbrus], [.powerpc64_mfspr268], [.powerpc_mftb], [.sparc], [.ia64], [.hppa],
    [.stcke], [.stckf], [.stck], [.alpha], [.pmccntr], [.cntvct_el0], [.mfc0_9_0], [.rdhwr], [.mfc0_25_1], [],
    [.rdpmc, .rdtscp, .rdtsc], [.perf_rdpmc]]) ?_
  unfold processorClocks
  refine .cons ?_ (.cons ?_ (.cons ?_ (.cons ?_ (.cons ?_ (.cons ?_ (.cons ?_ (.cons ?_ (.cons ?_ (.cons ?_ (.cons ?_
    (.cons ?_ (.cons ?_ (.cons ?_ (.cons ?_ (.cons ?_ (.cons ?_ (.cons ?_ .nil)))))))))))))))))
  · exact simple _ _ _ _ (fun h => ⟨he', hn', h⟩) trivial (by decide) rfl rfl (fun _ _ => rfl) (by decide) (by decide)
      (fun h => h.2.2)
  · exact simple _ _ _ _ (fun h => ⟨he', hn', h⟩) trivial (by decide) rfl rfl (fun _ _ => rfl) (by decide) (by decide)
      (fun h => h.2.2)
  · exact simple _ _ _ _ (fun h => ⟨he', hn', h⟩) trivial (by decide) rfl rfl (fun _ _ => rfl) (by decide) (by decide)
      (fun h => h.2.2)
  · exact simple _ _ _ _ (fun h => ⟨he', hn', h⟩) trivial (by decide) rfl rfl (fun _ _ => rfl) (by decide) (by decide)
      (fun h => h.2.2)
  · exact simple _ _ _ _ (fun h => ⟨he', hn', h⟩) trivial (by decide) rfl rfl (fun _ _ => rfl) (by decide) (by decide)
      (fun h => h.2.2)
  · exact simple _ _ _ _ (fun h => ⟨he', hn', h⟩) trivial (by decide) rfl rfl (fun _ _ => rfl) (by decide) (by decide)
      (fun h => h.2.2)
  · exact simple _ _ _ _ (fun h => ⟨he', hn', h⟩) trivial (by decide) rfl rfl (fun _ _ => rfl) (by decide) (by decide)
      (fun h => h.2.2)
  · exact simple _ _ _ _ (fun h => ⟨he', hn', h⟩) trivial (by decide) rfl rfl (fun _ _ => rfl) (by decide) (by decide)
      (fun h => h.2.2)
  · exact simple _ _ _ _ (fun h => ⟨he', hn', h⟩) trivial (by decide) rfl rfl (fun _ _ => rfl) (by decide) (by decide)
      (fun h => h.2.2)
  · exact simple _ _ _ _ (fun h => ⟨he', hn', h⟩) trivial (by decide) rfl rfl (fun _ _ => rfl) (by decide) (by decide)
      (fun h => h.2.2)
  · exact covers_ifDefined (fun h => pmccntr_covers ⟨he', hn', h⟩)
      (fun f hf hc => by obtain rfl := List.mem_singleton.1 hf; exact hc.2.2)
  · exact simple _ _ _ _ (fun h => ⟨he', hn', h⟩) trivial (by decide) rfl rfl (fun _ _ => rfl) (by decide) (by decide)
      (fun h => h.2.2)
  · exact simple _ _ _ _ (fun h => ⟨he', hn', mips.1 h⟩) trivial (by decide) rfl rfl (fun _ _ => rfl) (by decide)
      (by decide) (fun h => mips.2 h.2.2)
  · exact covers_ifDefined (fun h => rdhwr_covers ⟨he', hn', mips.1 h⟩)
      (fun f hf hc => by obtain rfl := List.mem_singleton.1 hf; exact mips.2 hc.2.2)
  · exact simple _ _ _ _ (fun h => ⟨he', hn', mips.1 h⟩) trivial (by decide) rfl rfl (fun _ _ => rfl) (by decide)
      (by decide) (fun h => mips.2 h.2.2)
  · exact covers_ifDefined (fun _ => zbus_covers) (by simp)
  · refine covers_ifDefined (fun h => ia32_covers ⟨he', hn', h⟩) ?_
    intro f hf hc
    rcases List.mem_cons.1 hf with h | h
    · subst h; exact hc.2.2
    rcases List.mem_cons.1 h with h | h
    · subst h; exact hc.2.2
    · obtain rfl := List.mem_singleton.1 h
      exact hc.2.2
  · exact covers_ifDefined (fun h => perf_covers ⟨he', hn', h⟩)
      (fun f hf hc => by obtain rfl := List.mem_singleton.1 hf; exact hc.2.2.1)

/-- The ratings of stable clocks -/
theorem stable_rating {f : ClockFn} (h1 : f ≠ .cntvct_el0) (h2 : f ≠ .perf) (h3 : f ≠ .zbustimer)
    (h : rating t d f &&& timestamp_clock_stable ≠ 0) :
    rating t d f = timestamp_clock_stable ||| timestamp_cycles ||| timestamp_clock_cheap ||| timestamp_clock_have := by
  cases f <;> first
    | exact absurd rfl h1
    | exact absurd rfl h2
    | exact absurd rfl h3
    | rfl
    | (revert h
       simp only [rating]
       first
         | decide
         | (split <;> decide))

theorem builtin_covers (hc : Compiled t .readcyclecounter) (hx : ¬ (t.ia32 = true ∧ t.aarch64 = true)) :
    Covers t d [.readcyclecounter] (tryBuiltin t d) := by
  cases hi : t.ia32 with
  | false =>
    have e : tryBuiltin t d = tryClock t d .readcyclecounter .one_to_one
        (timestamp_clock_cheap ||| timestamp_cycles ||| timestamp_clock_stable) .cycle := by
      funext s; unfold tryBuiltin; rw [hi]; rfl
    rw [e]
    exact tryClock_covers hc trivial (by decide) (by simp only [rating, hi]; rfl) rfl (fun _ _ => rfl) (by decide)
      (by decide)
  | true =>
    intro s g
    have hr : rating t d .readcyclecounter = timestamp_cycles ||| timestamp_clock_cheap ||| timestamp_clock_have := by
      simp only [rating, hi]; rfl
    by_cases hs : s.probing.flags &&& timestamp_clock_stable = 0
    · have e : tryBuiltin t d s = tryClock t d .readcyclecounter .one_to_one
          (timestamp_clock_cheap ||| timestamp_cycles) .cycle s := by
        unfold tryBuiltin; rw [hi, hs]; rfl
      rw [e]
      exact tryClock_covers (c := .one_to_one) (u := .cycle) hc trivial (by decide) (by rw [hr]; rfl) rfl
        (fun _ _ => rfl) (by decide) (by decide) s g
    · have hf : s.probing.flags = timestamp_clock_stable ||| timestamp_cycles ||| timestamp_clock_cheap |||
          timestamp_clock_have := by
        cases hcl : s.clock with
        | none => rw [g.none hcl] at hs; exact absurd (by decide) hs
        | some f =>
          obtain ⟨a1, -, a2, a3, -⟩ := g.some f hcl
          rw [a3] at hs ⊢
          refine stable_rating ?_ ?_ ?_ hs
          · rintro rfl; exact hx ⟨hi, a1.2.2⟩
          · rintro rfl; exact perf_unusable a2
          · rintro rfl; exact zbus_unusable g.addr a2
      unfold tryBuiltin tryClock
      rw [hi]
      rcases probeFn_choice t d .readcyclecounter .one_to_one
        (timestamp_clock_cheap ||| timestamp_cycles ||| (s.probing.flags &&& timestamp_clock_stable)) .cycle s with
        ⟨a1, -⟩ | ⟨-, p, a2, a3⟩
      · rw [hf] at a1
        exact absurd a1 (by decide)
      · simp only [if_true, a3]
        refine ⟨good_same g a2, by rw [a2]; exact BitVec.le_refl _, fun f hf' _ => ?_⟩
        obtain rfl := List.mem_singleton.1 hf'
        rw [a2, hf, hr]
        decide

theorem start_good : GoodClock t d setupAtStart :=
  ⟨rfl, fun e => absurd e (by decide), trivial, fun e => absurd rfl e, fun _ => rfl, fun _ e => (Option.some_ne_none _ e.symm).elim⟩

/-- Everything together. -/
theorem mera_init_good (hx : ¬ (t.ia32 = true ∧ t.aarch64 = true)) :
    GoodClock t d (mera_init_on t d setupAtStart).2 ∧
    ∀ f, f ≠ .perf → f ≠ .zbustimer → Available t d f →
      rating t d f ≤ (mera_init_on t d setupAtStart).2.probing.flags := by
  unfold mera_init_on
  cases he : t.emscripten with
  | true =>
    simp only [if_true]
    have := tryClock_covers (t := t) (d := d) (f := .emscripten) (c := .one_to_one) (flags := 0) (u := .ns) he trivial
      (by decide) rfl rfl (fun _ _ => rfl) (by decide) (by decide) setupAtStart start_good
    refine ⟨this.1, fun f h1 h2 av => this.2.2 f ?_ av⟩
    have hc := av.1
    cases f <;> first
      | exact List.mem_singleton.2 rfl
      | exact absurd he hc.1
  | false =>
    have he' : ¬ t.emscripten = true := by simp [he]
    simp only [Bool.false_eq_true, if_false]
    have c1 := system_covers (d := d) he
    have c2 : Covers t d [.elbrus, .powerpc64_mfspr268, .powerpc_mftb, .sparc, .ia64, .hppa, .stcke, .stckf, .stck,
        .alpha, .pmccntr, .cntvct_el0, .mfc0_9_0, .rdhwr, .mfc0_25_1, .rdpmc, .rdtscp, .rdtsc, .perf_rdpmc]
        (fun s => if t.native_client then s else runAll (processorClocks t d) s) := by
      cases hn : t.native_client with
      | true =>
        simp only [if_true]
        refine covers_mono covers_id ?_
        intro f hf av
        have hc := av.1
        exfalso
        cases f <;> first
          | exact absurd hn hc.2.1
          | simp at hf
      | false =>
        simp only [Bool.false_eq_true, if_false]
        exact processor_covers he hn
    have c3 : Covers t d [.readcyclecounter] (ifDefined t.readcyclecounter (tryBuiltin t d)) :=
      covers_ifDefined (fun h => builtin_covers ⟨he', h⟩ hx)
        (fun f hf hc => by obtain rfl := List.mem_singleton.1 hf; exact hc.2)
    have := covers_comp (covers_comp c1 c2) c3 setupAtStart start_good
    refine ⟨this.1, fun f h1 h2 av => this.2.2 f ?_ av⟩
    have hc := av.1
    cases f <;> first
      | exact absurd rfl h1
      | exact absurd rfl h2
      | exact absurd hc he'
      | simp

theorem good_available {s : Setup} (g : GoodClock t d s) {f : ClockFn} (h : s.clock = some f) : Available t d f := by
  obtain ⟨h1, h2, h3, -⟩ := g.some f h
  refine ⟨h1, h2, ?_⟩
  have hd := g.declared
  have hp := g.posix
  cases f
  case posix =>
    have hp := hp h
    simp only [attemptOf] at h3
    cases e : s.posix_clockid with
    | realtime => exact absurd e hp
    | sgi_cycle => rw [e] at h3 hd; exact Or.inl ⟨hd, h3⟩
    | monotonic_raw => rw [e] at h3 hd; exact Or.inr (Or.inl ⟨hd, h3⟩)
    | monotonic => rw [e] at h3 hd; exact Or.inr (Or.inr ⟨hd, h3⟩)
  case perf => exact absurd h3 perf_unusable
  case zbustimer => exact absurd h3 (zbus_unusable g.addr)
  all_goals exact h3

theorem rating_have (f : ClockFn) : rating t d f &&& timestamp_clock_have ≠ 0 := by
  cases f <;> simp only [rating]
  case rdtsc | rdtscp | readcyclecounter => split <;> decide
  all_goals decide

theorem mera_init_fst (hx : ¬ (t.ia32 = true ∧ t.aarch64 = true)) :
    (mera_init_on t d setupAtStart).1 = true ↔ ∃ f, (mera_init_on t d setupAtStart).2.clock = some f := by
  have key : (mera_init_on t d setupAtStart).1 =
      ((mera_init_on t d setupAtStart).2.probing.flags &&& timestamp_clock_have != 0) := by
    unfold mera_init_on
    cases t.emscripten with
    | true =>
      simp only [if_true]
      rcases probeFn_choice t d .emscripten .one_to_one 0 .ns
        { setupAtStart with probing := { setupAtStart.probing with flags := 0 } } with
        ⟨-, -, p, a3, a4⟩ | ⟨-, p, a2, a3⟩
      · rw [a4]; simp only [a3]; rfl
      · rw [a3]; simp only [a2]; rfl
    | false => rfl
  rw [key, bne_iff_ne]
  have g := (mera_init_good (d := d) hx).1
  cases h : (mera_init_on t d setupAtStart).2.clock with
  | none =>
    rw [g.none h]
    constructor
    · intro h'; exact absurd (by decide) h'
    · rintro ⟨f, h'⟩; exact (Option.some_ne_none _ h'.symm).elim
  | some f =>
    rw [(g.some f h).2.2.2.1]
    exact ⟨fun _ => ⟨f, rfl⟩, fun _ => rating_have f⟩

end T1ha.Model
