import Verif.Proofs.SelfcheckAll
import Verif.Proofs.RefValues
import Verif.Proofs.Empty
import Verif.Props.Examples

/-!
# Properties of the self-check: C25, C26, C36

The words used in the statements (`probeAt`, `PassesAll`, `Computes`, `CheckMem`, `Covered`, ...) are defined
in `Verif/Props/Probes.lean`.
-/

namespace T1ha.Props

open Model Examples

variable {cfg : Cfg} {w : World} {s : Sys} {pattern long refs : Nat} {table : List U64} {hash : HashFn}
  {answer : Nat → U64} {scratch : Nat → Prop}

/-! ## C25 -/

/-- C25: the self-check of one function returns 0 if the answers of the function to the 81 probes are the
values of the table. Otherwise it returns -1, or, if assertions are enabled, stops with a failed
assertion. This holds for all tables and all answers; so each of the values is looked at. If it returns,
it has changed nothing in memory but local variables. -/
theorem selfcheck_correct (mem : CheckMem cfg w s.ov pattern long refs table)
    (code : Computes w s.ov pattern long hash answer scratch) (apart : Elsewhere scratch pattern long refs) :
    (PassesAll answer table → ∃ s' t, Returns (t1ha_selfcheck cfg pattern long hash refs) w s 0 s' t ∧
      ∀ a, ¬ scratch a → (a < long ∨ long + 512 ≤ a) → s'.ov a = s.ov a) ∧
    (¬ PassesAll answer table → cfg.ndebug = true →
      ∃ s' t, Returns (t1ha_selfcheck cfg pattern long hash refs) w s (-1) s' t ∧
        ∀ a, ¬ scratch a → (a < long ∨ long + 512 ≤ a) → s'.ov a = s.ov a) ∧
    (¬ PassesAll answer table → cfg.ndebug = false →
      t1ha_selfcheck cfg pattern long hash refs w s = .error .assertFail) := by
  obtain ⟨h1, h2⟩ := does_selfcheck mem code apart mem.between
  refine ⟨fun hp => ?_, fun hp hn => ?_, fun hp hn => h2 hn hp⟩
  · obtain ⟨s', t, g1, g2⟩ := h1 (Or.inr hp)
    rw [bad_iff.2 hp] at g1
    exact ⟨s', t, g1, g2.same⟩
  · obtain ⟨s', t, g1, g2⟩ := h1 (Or.inl hn)
    have : bad (okAt answer table) 81 = true := by
      cases hb : bad (okAt answer table) 81 with
      | true => rfl
      | false => exact absurd (bad_iff.1 hb) hp
    rw [this] at g1
    exact ⟨s', t, g1, g2.same⟩

/-- C25: whatever code is passed as hash function, and whatever is in memory (the code may change the
table): if the self-check returns, it returns 0 or -1. If it returns 0, then for each of the 81 probes
it has read the value in the table, and right then the function has been called with the probe and has
returned this value. If it returns -1, then for one of the probes the function has returned another value. -/
theorem selfcheck_sound {v : CInt} {s' : Sys}
    (h : t1ha_selfcheck cfg pattern long hash refs w s = .ok (v, s')) :
    (v = 0 ∨ v = -1) ∧
    (v = 0 → ∀ k < 81, ∃ s0 s1 s2 s3 x, readU64 cfg (refs + 8 * k) w s0 = .ok (x, s1) ∧ s2.ov = s1.ov ∧
      hash ((probeAt k).addr pattern long) (probeAt k).len (probeAt k).seed w s2 = .ok (x, s3)) ∧
    (v = -1 → ∃ k < 81, ∃ s0 s1 s2 s3 x y, readU64 cfg (refs + 8 * k) w s0 = .ok (x, s1) ∧ s2.ov = s1.ov ∧
      hash ((probeAt k).addr pattern long) (probeAt k).len (probeAt k).seed w s2 = .ok (y, s3) ∧ y ≠ x) :=
  selfcheck_ok h

/-! ### Memories which meet the hypotheses -/

/-- An array of `uint64_t` as bytes. -/
def flat (cfg : Cfg) (vs : List U64) : List Byte := vs.flatMap fun v => cfg.endian.bytes 8 v.toNat

theorem arrayAt_flat {ov : Overlay} (vs : List U64) : ∀ p, Holds w ov p (flat cfg vs) → ArrayAt cfg w ov p vs := by
  induction vs with
  | nil => intro p _ i v h; simp at h
  | cons x vs ih =>
    intro p h i v hv
    have h1 := h.slice 0 8
    have h2 := h.drop 8
    have e : flat cfg (x :: vs) = cfg.endian.bytes 8 x.toNat ++ flat cfg vs := by simp [flat]
    have len : (cfg.endian.bytes 8 x.toNat).length = 8 := length_bytes _ _ _
    rw [e] at h1 h2
    rw [List.drop_zero, List.take_left' len] at h1
    rw [List.drop_left' len] at h2
    cases i with
    | zero =>
      simp only [List.getElem?_cons_zero, Option.some.injEq] at hv
      subst hv
      exact h1
    | succ i =>
      rw [List.getElem?_cons_succ] at hv
      have := ih _ h2 i v hv
      rwa [show p + 8 * (i + 1) = p + 8 + 8 * i by omega]

/-- The addresses from 4096 to 65535 are mapped; memory starts with the bytes `m`, the rest is 0. -/
def rom (m : List Byte) : World where
  cell _ a := if 4096 ≤ a ∧ a < 65536 then some ((m[a - 4096]?).getD 0) else none
  writable _ := true

theorem rom_holds (m : List Byte) (h : m.length ≤ 61440) : Holds (rom m) start.ov 4096 m := by
  intro t i v hv
  have hi : i < m.length := by
    rcases Nat.lt_or_ge i m.length with h | h
    · exact h
    · rw [List.getElem?_eq_none h] at hv; exact absurd hv (by simp)
  simp only [rom, see, start]
  rw [if_pos (by omega), show 4096 + i - 4096 = i by omega, hv]
  rfl

theorem rom_mapped (m : List Byte) {p n : Nat} (h1 : 4096 ≤ p) (h2 : p + n ≤ 65536) : Mapped (rom m) p n := by
  intro t i hi
  simp only [rom]
  rw [if_pos (by omega)]
  rfl

theorem rom_writable (m : List Byte) {p n : Nat} (h1 : 4096 ≤ p) (h2 : p + n ≤ 65536) : Writable (rom m) p n :=
  ⟨rom_mapped m h1 h2, fun _ _ => rfl⟩

theorem rom_paged (m : List Byte) : Paged (rom m) 4096 := by
  intro t a c hac
  simp only [rom]
  have hb : (4096 ≤ a ∧ a < 65536) ↔ (4096 ≤ c ∧ c < 65536) := by omega
  by_cases h : 4096 ≤ c ∧ c < 65536
  · simp [hb, h]
  · simp [hb, h]

/-- Memory which holds some zeros. -/
theorem rom_steady (m : List Byte) {p n : Nat} (h1 : 4096 + m.length ≤ p) (h2 : p + n ≤ 65536) :
    Holds (rom m) start.ov p (List.replicate n 0) := by
  intro t i v hv
  have hi : i < n := by
    rcases Nat.lt_or_ge i n with h | h
    · exact h
    · rw [List.getElem?_eq_none (by rw [List.length_replicate]; exact h)] at hv; exact absurd hv (by simp)
  rw [List.getElem?_replicate, if_pos hi] at hv
  simp only [rom, see, start]
  rw [if_pos (by omega), List.getElem?_eq_none (by omega)]
  exact hv

/-- The numbers of the tables. -/
def nr : Table → Nat
  | .t1ha_refval_2atonce => 0
  | .t1ha_refval_2atonce128 => 1
  | .t1ha_refval_2stream => 2
  | .t1ha_refval_2stream128 => 3
  | .t1ha_refval_64le => 4
  | .t1ha_refval_64be => 5
  | .t1ha_refval_32le => 6
  | .t1ha_refval_32be => 7
  | .t1ha_refval_ia32aes_a => 8
  | .t1ha_refval_ia32aes_b => 9

/-- All tables of the library, one after the other. -/
def allValues : List U64 :=
  Ref.t1ha_refval_2atonce ++ Ref.t1ha_refval_2atonce128 ++ Ref.t1ha_refval_2stream ++
    Ref.t1ha_refval_2stream128 ++ Ref.t1ha_refval_64le ++ Ref.t1ha_refval_64be ++ Ref.t1ha_refval_32le ++
    Ref.t1ha_refval_32be ++ Ref.t1ha_refval_ia32aes_a ++ Ref.t1ha_refval_ia32aes_b

theorem allValues_length : allValues.length = 810 := by decide +kernel

theorem allValues_at (t : Table) : (allValues.drop (81 * nr t)).take 81 = t.values := by
  cases t <;> decide +kernel

theorem length_flat (cfg : Cfg) (vs : List U64) : (flat cfg vs).length = 8 * vs.length := by
  induction vs with
  | nil => rfl
  | cons x vs ih =>
    have e : flat cfg (x :: vs) = cfg.endian.bytes 8 x.toNat ++ flat cfg vs := by simp [flat]
    rw [e, List.length_append, length_bytes, ih, List.length_cons]
    omega

/-- The tables and the pattern, at 4096. -/
def image (cfg : Cfg) : List Byte := flat cfg allValues ++ Ref.t1ha_test_pattern

/-- Their addresses. -/
def place : Statics := ⟨10576, fun t => 4096 + 648 * nr t⟩

/-- Addresses of the local variables. -/
def stackFrame : Frame := ⟨20001, 26001, 24000, 25003⟩

theorem length_image (cfg : Cfg) : (image cfg).length = 6544 := by
  rw [image, List.length_append, length_flat, allValues_length, length_pattern]

theorem image_holds (cfg : Cfg) : Holds (rom (image cfg)) start.ov 4096 (image cfg) :=
  rom_holds _ (by rw [length_image]; decide)

theorem image_table (cfg : Cfg) (t : Table) :
    ArrayAt cfg (rom (image cfg)) start.ov (place.table t) t.values := by
  have h : Holds (rom (image cfg)) start.ov 4096 (flat cfg allValues) := by
    have := (image_holds cfg).take (flat cfg allValues).length
    unfold image at this
    rwa [List.take_left' rfl] at this
  have h := arrayAt_flat _ _ h
  intro i v hv
  rw [← allValues_at t] at hv
  have hi : i < 81 := by
    rcases Nat.lt_or_ge i 81 with h | h
    · exact h
    · rw [List.getElem?_eq_none (by rw [List.length_take]; omega)] at hv; exact absurd hv (by simp)
  rw [List.getElem?_take_of_lt hi, List.getElem?_drop] at hv
  have := h _ v hv
  rwa [show 4096 + 8 * (81 * nr t + i) = place.table t + 8 * i by simp only [place]; omega] at this

theorem image_pattern (cfg : Cfg) :
    Holds (rom (image cfg)) start.ov place.t1ha_test_pattern Ref.t1ha_test_pattern := by
  have := (image_holds cfg).drop (flat cfg allValues).length
  unfold image at this
  rw [List.drop_left' rfl] at this
  have e : 4096 + (flat cfg allValues).length = place.t1ha_test_pattern := by
    rw [length_flat, allValues_length]; rfl
  rwa [e] at this

theorem values_length (t : Table) : t.values.length = 81 := by cases t <;> decide +kernel

theorem nr_lt (t : Table) : nr t < 10 := by cases t <;> decide

theorem image_mem (cfg : Cfg) (t : Table) :
    CheckMem cfg (rom (image cfg)) start.ov place.t1ha_test_pattern stackFrame.pattern_long (place.table t)
      t.values := by
  have hb := bits_ge cfg
  have hn := nr_lt t
  refine ⟨values_length t, image_table cfg t, ?_, image_pattern cfg, ?_, ?_, ?_, ?_⟩
  · simp only [place]; omega
  · simp only [place]; omega
  · exact rom_writable _ (by decide) (by decide)
  · simp only [stackFrame]; omega
  · simp only [Model.Disjoint, place, stackFrame]; omega

/-- C25 with a function which returns the seed. The table is that of `t1ha2_atonce`; the first probe passes,
the second one does not. -/
example : t1ha_selfcheck amd64 10576 20001 (fun _ _ seed => pure seed) 4096 (rom (image amd64)) start =
      .error .assertFail ∧
    ∃ s' t, Returns (t1ha_selfcheck { amd64 with ndebug := true } 10576 20001 (fun _ _ seed => pure seed) 4096)
      (rom (image { amd64 with ndebug := true })) start (-1) s' t := by
  have code : ∀ m, Computes (rom m) start.ov 10576 20001 (fun _ _ seed => pure seed)
      (fun k => (probeAt k).seed) (fun _ => False) := by
    intro m k _ s _ _
    exact ⟨s, [], Returns.pure _, fun _ h => h, fun _ _ => rfl⟩
  have bad : ¬ PassesAll (fun k => (probeAt k).seed) Ref.t1ha_refval_2atonce := by
    intro h
    exact absurd (h 1 (by decide)) (by decide)
  refine ⟨(selfcheck_correct (image_mem amd64 .t1ha_refval_2atonce) (code _) (fun a h => h.elim)).2.2 bad rfl, ?_⟩
  obtain ⟨s', t, h, -⟩ := (selfcheck_correct (image_mem { amd64 with ndebug := true } .t1ha_refval_2atonce)
    (code _) (fun a h => h.elim)).2.1 bad rfl
  exact ⟨s', t, h⟩

/-- The same function, and `selfcheck_sound`: the hypothesis can be met. -/
example : ∃ s', t1ha_selfcheck { amd64 with ndebug := true } 10576 20001 (fun _ _ seed => pure seed) 4096
    (rom (image { amd64 with ndebug := true })) start = .ok (-1, s') := by
  have code : ∀ m, Computes (rom m) start.ov 10576 20001 (fun _ _ seed => pure seed)
      (fun k => (probeAt k).seed) (fun _ => False) := by
    intro m k _ s _ _
    exact ⟨s, [], Returns.pure _, fun _ h => h, fun _ _ => rfl⟩
  obtain ⟨s', t, h, -⟩ := (selfcheck_correct (image_mem { amd64 with ndebug := true } .t1ha_refval_2atonce)
    (code _) (fun a h => h.elim)).2.1 (fun h => absurd (h 1 (by decide)) (by decide)) rfl
  exact ⟨s', h.1⟩

/-! ## C26 -/

section
variable {b : Build} {cpu : Cpu} {st : Statics} {fr : Checked → Frame} {lib : Library} {T : Table → List U64}
  {answers : Checked → Nat → U64} {scratches : Checked → Nat → Prop} {page : Nat}

/-- C26: `t1ha_selfcheck__all_enabled` returns 0 if every function which is enabled and which the processor
can execute gives the answers in its table. Otherwise it returns -1 or stops with a failed assertion. It
calls no other functions. (This is for all libraries and all tables, so no function and no value is left
out. The last hypothesis: nobody switched AES-NI on for a processor which does not have it; then the file
does not compile.) -/
theorem all_enabled_correct (mem : AllMem b cpu w s.ov st fr lib T answers scratches)
    (builds : b.no0 = false → b.arch = .other → b.aesni ≠ some true) :
    ((∀ f, Covered b cpu f → PassesAll (answers f) (T f.table)) →
      ∃ s' t, Returns (t1ha_selfcheck__all_enabled b cpu st fr lib) w s 0 s' t) ∧
    (¬ (∀ f, Covered b cpu f → PassesAll (answers f) (T f.table)) → b.cfg.ndebug = true →
      ∃ s' t, Returns (t1ha_selfcheck__all_enabled b cpu st fr lib) w s (-1) s' t) ∧
    (¬ (∀ f, Covered b cpu f → PassesAll (answers f) (T f.table)) → b.cfg.ndebug = false →
      t1ha_selfcheck__all_enabled b cpu st fr lib w s = .error .assertFail) := by
  obtain ⟨h1, h2⟩ := chk_all (eachOk mem) (fun h0 ha ho => by rw [no_aes b (builds h0) ho] at ha; cases ha) s
    ⟨fun _ h => h, fun f hf => ⟨(mem.mem f hf).holds_table, (mem.mem f hf).holds_pattern⟩⟩
  refine ⟨fun hp => ?_, fun hp hn => ?_, fun hp hn => h2 hn hp⟩
  · obtain ⟨s', t, g1, -⟩ := h1 (Or.inr hp)
    rw [rc_pos hp] at g1
    exact ⟨s', t, g1⟩
  · obtain ⟨s', t, g1, -⟩ := h1 (Or.inl hn)
    rw [rc_neg hp] at g1
    exact ⟨s', t, g1⟩

/-- C26: with the functions and the tables of this library, `t1ha_selfcheck__all_enabled` returns 0: for all
build configurations, processors, and addresses. -/
theorem selfcheck_succeeds (here : AllPlaced b cpu w s.ov page st fr)
    (builds : b.no0 = false → b.arch = .other → b.aesni ≠ some true) (stack : State256) (ac : AesCfg) :
    ∃ s' t, Returns (t1ha_selfcheck__all_enabled b cpu st fr (library b.cfg stack ac fr)) w s 0 s' t := by
  have mem : AllMem b cpu w s.ov st fr (library b.cfg stack ac fr) Table.values Checked.answer
      (fun f => InLocals b.cfg (fr f) f) := by
    refine ⟨fun f hf => (here.each f hf).mem, fun f hf => computes_library stack ac fr f (here.each f hf),
      fun f g hf hg => ⟨fun a ha => ?_, (here.apart f g hf hg).2⟩⟩
    obtain ⟨x, hx, h1, h2⟩ := ha
    have h3 := (here.apart f g hf hg).1 x hx
    obtain ⟨-, -, -, h4, h5⟩ := (here.each f hf).locals_ok x hx
    unfold Model.Disjoint at h3 h4 h5
    omega
  exact (all_enabled_correct mem builds).1 fun f _ => values f

end

/-- `selfcheck_succeeds` on any build whose page size is 4096, in the memory of the examples. -/
theorem placed_rom (b : Build) (cpu : Cpu) (hp : b.cfg.pageSize = 4096) (hb : b.cfg.Buildable) :
    AllPlaced b cpu (rom (image b.cfg)) start.ov 4096 place (fun _ => stackFrame) := by
  have hbits := bits_ge b.cfg
  have hs : ctxSize b.cfg ≤ 80 := by unfold ctxSize offTotal; split <;> decide
  have hbel : b.cfg.below 8 ≤ 14 := by unfold Cfg.below; split <;> simp <;> split <;> decide
  have loc : ∀ f, ∀ x ∈ locals b.cfg stackFrame f, 24000 ≤ x.1 ∧ x.1 ≤ 26001 ∧ x.2 ≤ 80 := by
    intro f x hx
    cases f <;> simp only [locals, List.mem_cons, List.not_mem_nil, or_false] at hx
    · subst hx; simp [stackFrame]
    · rcases hx with rfl | rfl <;> simp [stackFrame, hs]
    · rcases hx with rfl | rfl | rfl <;> simp [stackFrame, hs]
  constructor
  · intro f _
    refine ⟨image_mem b.cfg f.table, rom_paged _, pageOk b.cfg hp, fun _ _ => Or.inr ⟨?_, ?_⟩, fun _ => hb,
      fun _ => by decide, fun _ => ?_, by decide,
      fun _ => ⟨Nat.le_trans hbel (by decide), Nat.le_trans hbel (by decide)⟩, fun x hx => ?_, fun _ => ⟨?_, ⟨List.replicate (ctxSize b.cfg) 0, by simp, ?_⟩, ?_⟩⟩
    · exact rom_mapped _ (by decide) (by decide)
    · exact rom_mapped _ (by decide) (by decide)
    · simp only [place, stackFrame]; omega
    · have := loc f x hx
      refine ⟨by omega, rom_writable _ (by omega) (by omega), by omega, ?_, ?_⟩
      · simp only [Model.Disjoint, place]; omega
      · simp only [Model.Disjoint, stackFrame]; omega
    · unfold Cfg.alignment64; split <;> decide
    · exact rom_steady _ (by rw [length_image]; decide) (by simp only [stackFrame]; omega)
    · simp only [Model.Disjoint, stackFrame]; omega
  · intro f g _ _
    have hn := nr_lt g.table
    refine ⟨fun x hx => ?_, ?_⟩
    · have := loc f x hx
      simp only [Model.Disjoint, place]; omega
    · simp only [Model.Disjoint, place, stackFrame]; omega

/-- A 64-bit Linux with all of AES-NI, AVX and AVX2: all eleven checks are made. -/
example (stack : State256) (ac : AesCfg) : ∃ s' t, Returns (t1ha_selfcheck__all_enabled linux64
      (someCpu 13 0x7FFAFBBF 0x209C01A9) place (fun _ => stackFrame)
      (library amd64 stack ac fun _ => stackFrame)) (rom (image amd64)) start 0 s' t :=
  selfcheck_succeeds (placed_rom linux64 _ rfl (by decide)) (fun _ _ => by decide) stack ac

/-- A big-endian 32-bit machine. -/
example (stack : State256) (ac : AesCfg) : ∃ s' t, Returns (t1ha_selfcheck__all_enabled
      { linux64 with cfg := mips32, arch := .other } (someCpu 0 0 0) place (fun _ => stackFrame)
      (library mips32 stack ac fun _ => stackFrame)) (rom (image mips32)) start 0 s' t :=
  selfcheck_succeeds (b := { linux64 with cfg := mips32, arch := .other }) (placed_rom _ _ rfl (by decide))
    (fun _ _ => by decide) stack ac

/-! ## C36 -/

/-- C36: the function which `t1ha0` uses, selected at run time or by the header, is among those which
`t1ha_selfcheck__all_enabled` checks. -/
theorem selfcheck_covers_t1ha0 (b : Build) (cpu : Cpu) (h0 : b.no0 = false) :
    Covered b cpu (checkedOf (t1ha0_resolve b cpu)) ∧ Covered b cpu (checkedOf (t1ha0_static b)) := by
  have hp : Covered b cpu (checkedOf (portableChoice b)) := by
    unfold portableChoice
    cases b.cfg.endian <;> cases b.cfg.word64 <;> cases h1 : b.no1 <;> cases h2 : b.no2 <;>
      simp [checkedOf, Covered, h0, h1, h2]
  refine ⟨?_, by rw [(static_agrees b cpu).1]; exact hp⟩
  obtain ⟨r1, r2, r3, r4⟩ := resolve_correct b cpu
  by_cases hl : Build.LooksForAes b ∧ HasAes cpu
  · cases h : t1ha0_resolve b cpu with
    | t1ha0_ia32aes_avx2 =>
      obtain ⟨a, c, d, e, f⟩ := r1.1 h
      exact ⟨h0, a, c, d, e, f⟩
    | t1ha0_ia32aes_avx =>
      obtain ⟨a, c, d, e, -⟩ := r2.1 h
      exact ⟨h0, a.1, Or.inr ⟨a, c, d, e⟩⟩
    | t1ha0_ia32aes_noavx => exact ⟨h0, hl.1.1, Or.inr hl⟩
    | t1ha0_32le => exact h0
    | t1ha0_32be => exact h0
    | t1ha1_le => cases h1 : b.no1 with
      | false => exact h1
      | true => exact absurd h ((resolve_enabled b cpu).1 h1).1
    | t1ha1_be => cases h1 : b.no1 with
      | false => exact h1
      | true => exact absurd h ((resolve_enabled b cpu).1 h1).2
    | t1ha2_atonce => cases h2 : b.no2 with
      | false => exact h2
      | true => exact absurd h ((resolve_enabled b cpu).2 h2)
  · rw [r4 hl]
    exact hp

/-- C36: so if the self-check returns 0, the selected function passes its probes: for any library, tables
and answers. -/
theorem selfcheck_vouches_for_t1ha0 {b : Build} {cpu : Cpu} {st : Statics} {fr : Checked → Frame}
    {lib : Library} {T : Table → List U64} {answers : Checked → Nat → U64} {scratches : Checked → Nat → Prop}
    (mem : AllMem b cpu w s.ov st fr lib T answers scratches) (h0 : b.no0 = false)
    (builds : b.arch = .other → b.aesni ≠ some true) {s' : Sys} {t : List Ev}
    (h : Returns (t1ha_selfcheck__all_enabled b cpu st fr lib) w s 0 s' t) :
    PassesAll (answers (checkedOf (t1ha0_resolve b cpu))) (T (checkedOf (t1ha0_resolve b cpu)).table) := by
  obtain ⟨-, h2, h3⟩ := all_enabled_correct mem (fun _ => builds)
  have ok : ∀ f, Covered b cpu f → PassesAll (answers f) (T f.table) := by
    by_contra hc
    cases hn : b.cfg.ndebug with
    | true =>
      obtain ⟨s2, t2, g⟩ := h2 hc hn
      have := h.1.symm.trans g.1
      simp only [Except.ok.injEq, Prod.mk.injEq] at this
      exact absurd this.1 (by decide)
    | false =>
      have := h.1.symm.trans (h3 hc hn)
      cases this
  exact ok _ (selfcheck_covers_t1ha0 b cpu h0).1

/-- The hypotheses can be met: the library, on a machine with AVX2. -/
example (stack : State256) (ac : AesCfg) : ∃ s' t,
    Returns (t1ha_selfcheck__all_enabled linux64 (someCpu 13 0x7FFAFBBF 0x209C01A9) place (fun _ => stackFrame)
      (library amd64 stack ac fun _ => stackFrame)) (rom (image amd64)) start 0 s' t ∧
    PassesAll Checked.t1ha0_ia32aes_avx2.answer Ref.t1ha_refval_ia32aes_b := by
  obtain ⟨s', t, h⟩ := selfcheck_succeeds (s := start) (placed_rom linux64 (someCpu 13 0x7FFAFBBF 0x209C01A9) rfl
    (by decide)) (fun _ _ => by decide) stack ac
  exact ⟨s', t, h, values _⟩

end T1ha.Props
