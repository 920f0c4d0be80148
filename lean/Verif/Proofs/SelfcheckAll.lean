import Verif.Proofs.Selfcheck
import Verif.Proofs.Empty

/-!
# The self-check of all enabled functions
-/

namespace T1ha.Model

open Props

variable {w : World} {cfg : Cfg} {good : Overlay → Prop} {p q r c : Prop} {m n k : M CInt}

open Classical in
/-- What a check returns. -/
noncomputable def rc (p : Prop) : CInt := if p then 0 else -1

theorem rc_pos (h : p) : rc p = 0 := if_pos h
theorem rc_neg (h : ¬ p) : rc p = -1 := if_neg h

theorem rc_or : rc p ||| rc q = rc (p ∧ q) := by
  by_cases hp : p
  · by_cases hq : q
    · rw [rc_pos hp, rc_pos hq, rc_pos ⟨hp, hq⟩]; rfl
    · rw [rc_pos hp, rc_neg hq, rc_neg (fun h => hq h.2)]; rfl
  · by_cases hq : q
    · rw [rc_neg hp, rc_pos hq, rc_neg (fun h => hp h.1)]; rfl
    · rw [rc_neg hp, rc_neg hq, rc_neg (fun h => hp h.1)]; rfl

/-- `m` checks `p`. -/
def Chk (cfg : Cfg) (w : World) (good : Overlay → Prop) (m : M CInt) (p : Prop) : Prop :=
  ∀ s : Sys, good s.ov → Does cfg w m s p (rc p) good

theorem Chk.iff (h : Chk cfg w good m p) (e : p ↔ q) : Chk cfg w good m q := by
  rw [← propext e]; exact h

theorem Chk.or (h₁ : Chk cfg w good m p) (h₂ : Chk cfg w good n q) :
    Chk cfg w good (do let x ← m; let y ← n; pure (x ||| y)) (p ∧ q) := by
  intro s hs
  refine Does.bind (h₁ s hs) fun s1 hs1 => Does.before (h₂ s1 hs1) fun s2 hs2 => ?_
  rw [rc_or]
  exact Does.pure _ hs2

theorem Chk.or3 (h₁ : Chk cfg w good m p) (h₂ : Chk cfg w good n q) (h₃ : Chk cfg w good k r) :
    Chk cfg w good (do let x ← m; let y ← n; let z ← k; pure (x ||| y ||| z)) (p ∧ q ∧ r) := by
  intro s hs
  refine Does.bind (h₁ s hs) fun s1 hs1 => Does.bind (h₂ s1 hs1) fun s2 hs2 =>
    Does.before (h₃ s2 hs2) fun s3 hs3 => ?_
  rw [rc_or, rc_or, and_assoc]
  exact Does.pure _ hs3

/-- `m` continues a check whose result so far is `rc c`. -/
def Cont (cfg : Cfg) (w : World) (good : Overlay → Prop) (f : CInt → M CInt) (p : Prop) : Prop :=
  ∀ c, ∀ s : Sys, good s.ov → Does cfg w (f (rc c)) s p (rc (c ∧ p)) good

theorem Cont.skip : Cont cfg w good (fun x => pure x) True := by
  intro c s hs
  rw [and_true]
  exact Does.pure _ hs

theorem Chk.cont {f : CInt → M CInt} (h₁ : Chk cfg w good m p) (h₂ : Cont cfg w good f q) :
    Cont cfg w good (fun x => do let y ← m; f (x ||| y)) (p ∧ q) := by
  intro c s hs
  refine Does.bind (h₁ s hs) fun s1 hs1 => ?_
  rw [rc_or, ← and_assoc]
  exact h₂ _ s1 hs1

theorem Chk.last (h₁ : Chk cfg w good m p) : Cont cfg w good (fun x => do let y ← m; pure (x ||| y)) p := by
  have := h₁.cont (Cont.skip (cfg := cfg) (w := w) (good := good))
  rwa [and_true] at this

theorem Cont.comp {f g : CInt → M CInt} (h₁ : Cont cfg w good f p) (h₂ : Cont cfg w good g q) :
    Cont cfg w good (fun x => f x >>= g) (p ∧ q) := by
  intro c s hs
  rw [← and_assoc]
  exact Does.bind (h₁ c s hs) fun s1 hs1 => h₂ _ s1 hs1

theorem Cont.iff {f : CInt → M CInt} (h : Cont cfg w good f p) (e : p ↔ q) : Cont cfg w good f q := by
  rw [← propext e]; exact h

section
variable {b : Build} {cpu : Cpu} {st : Statics} {fr : Checked → Frame} {lib : Library} {P : Checked → Prop}

/-- Checks of the covered functions do what they should. -/
def EachOk (b : Build) (cpu : Cpu) (st : Statics) (fr : Checked → Frame) (lib : Library) (w : World)
    (good : Overlay → Prop) (P : Checked → Prop) : Prop :=
  ∀ f, Covered b cpu f → Chk b.cfg w good (check b st fr lib f f.table) (P f)

theorem chk_t1ha2 (h : EachOk b cpu st fr lib w good P) (hb : b.no2 = false) :
    Chk b.cfg w good (t1ha_selfcheck__t1ha2 b st fr lib)
      (P .t1ha2_atonce ∧ P .thunk_atonce128 ∧ P .thunk_stream ∧ P .thunk_stream128) :=
  (h .t1ha2_atonce hb).or3 (h .thunk_atonce128 hb) ((h .thunk_stream hb).or (h .thunk_stream128 hb))

theorem chk_t1ha1 (h : EachOk b cpu st fr lib w good P) (hb : b.no1 = false) :
    Chk b.cfg w good (t1ha_selfcheck__t1ha1 b st fr lib) (P .t1ha1_le ∧ P .t1ha1_be) :=
  (h .t1ha1_le hb).or (h .t1ha1_be hb)

/-- Everything which is covered among these. -/
def Those (b : Build) (cpu : Cpu) (P : Checked → Prop) (fs : List Checked) : Prop :=
  ∀ f ∈ fs, Covered b cpu f → P f

theorem cont_aes (h : EachOk b cpu st fr lib w good P) (h0 : b.no0 = false)
    (ha : b.aesniAvailable = true → b.arch ≠ .other) :
    Cont b.cfg w good (selfcheck_aes b cpu st fr lib)
      (Those b cpu P [.t1ha0_ia32aes_noavx, .t1ha0_ia32aes_avx, .t1ha0_ia32aes_avx2]) := by
  unfold Those
  simp only [List.forall_mem_cons, List.not_mem_nil, false_imp_iff, implies_true, and_true]
  by_cases hn : b.aesniAvailable = true
  · have hn' := (offersAes_iff b).1 hn
    cases hb : b.arch with
    | other => exact absurd hb (ha hn)
    | e2k =>
      have n1 : Covered b cpu .t1ha0_ia32aes_noavx := ⟨h0, hn', Or.inl hb⟩
      have n2 : Covered b cpu .t1ha0_ia32aes_avx := ⟨h0, hn', Or.inl hb⟩
      have n3 : ¬ Covered b cpu .t1ha0_ia32aes_avx2 := fun h => by
        have := h.2.1.2.1; rw [hb] at this; cases this
      have e : selfcheck_aes b cpu st fr lib = (fun x => do
          let y ← check b st fr lib .t1ha0_ia32aes_noavx .t1ha_refval_ia32aes_a
          let z ← check b st fr lib .t1ha0_ia32aes_avx .t1ha_refval_ia32aes_a
          pure (x ||| y ||| z)) := by
        funext x
        unfold selfcheck_aes
        rw [if_pos hn, hb]
        rfl
      rw [e]
      exact ((h _ n1).cont (h _ n2).last).iff (by simp [n1, n2, n3])
    | ia32 =>
      have e : selfcheck_aes b cpu st fr lib = (fun x =>
          if t1ha_ia32_AESNI_avail (t1ha_ia32cpu_features b cpu) = true then do
            let y ← check b st fr lib .t1ha0_ia32aes_noavx .t1ha_refval_ia32aes_a
            if t1ha_ia32_AVX_avail (t1ha_ia32cpu_features b cpu) = true then do
              let z ← check b st fr lib .t1ha0_ia32aes_avx .t1ha_refval_ia32aes_a
              if t1ha_ia32_AVX2_avail (t1ha_ia32cpu_features b cpu) = true then do
                let u ← check b st fr lib .t1ha0_ia32aes_avx2 .t1ha_refval_ia32aes_b
                pure (x ||| y ||| z ||| u)
              else pure (x ||| y ||| z)
            else pure (x ||| y)
          else pure x) := by
        funext x
        unfold selfcheck_aes
        rw [if_pos hn, hb]
        rfl
      rw [e]
      by_cases hc : b.compiler = .other
      · have n0 : ¬ Build.LooksForAes b := fun h => h.2.2 hc
        have n1 : ¬ Covered b cpu .t1ha0_ia32aes_noavx := fun h => by
          rcases h.2.2 with h | h
          · rw [hb] at h; cases h
          · exact n0 h.1
        have n2 : ¬ Covered b cpu .t1ha0_ia32aes_avx := fun h => by
          rcases h.2.2 with h | h
          · rw [hb] at h; cases h
          · exact n0 h.1
        have n3 : ¬ Covered b cpu .t1ha0_ia32aes_avx2 := fun h => n0 h.2.1
        simp only [avail_other b cpu hc, Bool.false_eq_true, if_false]
        exact Cont.skip.iff (by simp [n1, n2, n3])
      · have n0 : Build.LooksForAes b := ⟨hn', hb, hc⟩
        have ne : ¬ b.arch = .e2k := by rw [hb]; decide
        obtain ⟨a1, a2, a3⟩ := avail_eq b cpu hc
        have n1 : Covered b cpu .t1ha0_ia32aes_noavx ↔ HasAes cpu := by simp [Covered, h0, hn', n0, ne]
        have n2 : Covered b cpu .t1ha0_ia32aes_avx ↔ HasAes cpu ∧ HasOsxsave cpu ∧ HasAvx cpu := by
          simp only [Covered, h0, hn', n0, ne, true_and, false_or]; constructor <;> (intro h; simp [h])
        have n3 : Covered b cpu .t1ha0_ia32aes_avx2 ↔
            (HasAes cpu ∧ HasOsxsave cpu ∧ HasAvx cpu) ∧ HasAvx2 cpu := by
          simp only [Covered, h0, n0, true_and]; constructor <;> (intro h; simp [h])
        by_cases c1 : HasAes cpu
        · simp only [if_pos (a1.2 c1)]
          by_cases c2 : HasAes cpu ∧ HasOsxsave cpu ∧ HasAvx cpu
          · simp only [if_pos (a2.2 c2)]
            by_cases c3 : HasAvx2 cpu
            · simp only [if_pos (a3.2 c3)]
              exact ((h _ (n1.2 c1)).cont ((h _ (n2.2 c2)).cont (h _ (n3.2 ⟨c2, c3⟩)).last)).iff
                (by simp [n1, n2, n3, c1, c2, c3])
            · simp only [if_neg (fun h => c3 (a3.1 h))]
              exact ((h _ (n1.2 c1)).cont (h _ (n2.2 c2)).last).iff (by simp [n1, n2, n3, c1, c2, c3])
          · simp only [if_neg (fun h => c2 (a2.1 h))]
            exact ((h _ (n1.2 c1)).last).iff (by rw [n1, n2, n3]; simp only [c2, false_and]; simp [c1])
        · simp only [if_neg (fun h => c1 (a1.1 h))]
          exact Cont.skip.iff (by simp [n1, n2, n3, c1])
  · have n1 : ¬ Covered b cpu .t1ha0_ia32aes_noavx := fun h => hn ((offersAes_iff b).2 h.2.1)
    have n2 : ¬ Covered b cpu .t1ha0_ia32aes_avx := fun h => hn ((offersAes_iff b).2 h.2.1)
    have n3 : ¬ Covered b cpu .t1ha0_ia32aes_avx2 := fun h => hn ((offersAes_iff b).2 h.2.1.1)
    have e : selfcheck_aes b cpu st fr lib = fun x => pure x := by
      funext x
      unfold selfcheck_aes
      rw [if_neg hn]
    rw [e]
    exact Cont.skip.iff (by simp [n1, n2, n3])

theorem chk_t1ha0 (h : EachOk b cpu st fr lib w good P) (h0 : b.no0 = false)
    (ha : b.aesniAvailable = true → b.arch ≠ .other) :
    ∃ p, (b.no2 = true ∨ (P .t1ha2_atonce ∧ P .thunk_atonce128 ∧ P .thunk_stream ∧ P .thunk_stream128) →
        b.no1 = true ∨ (P .t1ha1_le ∧ P .t1ha1_be) → p) ∧
      Chk b.cfg w good (t1ha_selfcheck__t1ha0 b cpu st fr lib)
        (p ∧ P .t1ha0_32le ∧ P .t1ha0_32be ∧
          Those b cpu P [.t1ha0_ia32aes_noavx, .t1ha0_ia32aes_avx, .t1ha0_ia32aes_avx2]) := by
  have haes := cont_aes h h0 ha
  generalize Those b cpu P [.t1ha0_ia32aes_noavx, .t1ha0_ia32aes_avx, .t1ha0_ia32aes_avx2] = A at haes ⊢
  have main : ∀ (mid : CInt → M CInt) (p : Prop), Cont b.cfg w good mid p →
      Chk b.cfg w good (do
        let x ← check b st fr lib .t1ha0_32le .t1ha_refval_32le
        let y ← check b st fr lib .t1ha0_32be .t1ha_refval_32be
        let rc ← mid (x ||| y)
        selfcheck_aes b cpu st fr lib rc) (p ∧ P .t1ha0_32le ∧ P .t1ha0_32be ∧ A) := by
    intro mid p hm s hs
    have e : (P .t1ha0_32le ∧ P .t1ha0_32be ∧ p ∧ A) = (p ∧ P .t1ha0_32le ∧ P .t1ha0_32be ∧ A) :=
      propext ⟨fun ⟨a, b, c, d⟩ => ⟨c, a, b, d⟩, fun ⟨c, a, b, d⟩ => ⟨a, b, c, d⟩⟩
    rw [← e]
    refine Does.bind (h .t1ha0_32le h0 s hs) fun s1 hs1 => Does.bind (h .t1ha0_32be h0 s1 hs1)
      fun s2 hs2 => ?_
    have := hm.comp haes (P .t1ha0_32le ∧ P .t1ha0_32be) s2 hs2
    rw [← rc_or, and_assoc] at this
    exact this
  unfold t1ha_selfcheck__t1ha0
  by_cases hw : (b.cfg.word64 && (!b.no1 || !b.no2)) = true
  · simp only [if_pos hw]
    cases h1 : b.no1 with
    | true =>
      have h2 : b.no2 = false := by
        cases h2 : b.no2 with
        | false => rfl
        | true => rw [h1, h2] at hw; simp at hw
      exact ⟨_, fun h _ => h.resolve_left (by simp [h2]), main _ _ (chk_t1ha2 h h2).last⟩
    | false =>
      exact ⟨_, fun _ h => h.resolve_left (by simp), main _ _ (chk_t1ha1 h h1).last⟩
  · simp only [if_neg hw]
    exact ⟨True, fun _ _ => trivial, main _ _ Cont.skip⟩

theorem chk_all (h : EachOk b cpu st fr lib w good P)
    (ha : b.no0 = false → b.aesniAvailable = true → b.arch ≠ .other) :
    Chk b.cfg w good (t1ha_selfcheck__all_enabled b cpu st fr lib) (∀ f, Covered b cpu f → P f) := by
  have c2 : Cont b.cfg w good (fun rc => if b.no2 = true then pure rc else do
      let x ← t1ha_selfcheck__t1ha2 b st fr lib
      pure (rc ||| x)) (b.no2 = true ∨
        (P .t1ha2_atonce ∧ P .thunk_atonce128 ∧ P .thunk_stream ∧ P .thunk_stream128)) := by
    cases hb : b.no2 with
    | true => exact Cont.skip.iff (by simp)
    | false => exact (chk_t1ha2 h hb).last.iff (by simp)
  have c1 : Cont b.cfg w good (fun rc => if b.no1 = true then pure rc else do
      let x ← t1ha_selfcheck__t1ha1 b st fr lib
      pure (rc ||| x)) (b.no1 = true ∨ (P .t1ha1_le ∧ P .t1ha1_be)) := by
    cases hb : b.no1 with
    | true => exact Cont.skip.iff (by simp)
    | false => exact (chk_t1ha1 h hb).last.iff (by simp)
  have fin : ∀ (f : CInt → M CInt) (p : Prop), Cont b.cfg w good f p → Chk b.cfg w good (f 0) p := by
    intro f p hf s hs
    have := hf True s hs
    rwa [rc_pos trivial, true_and] at this
  cases hb : b.no0 with
  | true =>
    have c0 : Cont b.cfg w good (fun rc => if b.no0 = true then pure rc else do
        let x ← t1ha_selfcheck__t1ha0 b cpu st fr lib
        pure (rc ||| x)) True := by
      simp only [if_pos hb]
      exact Cont.skip
    refine (fin _ _ (c2.comp (c1.comp c0))).iff ?_
    constructor
    · rintro ⟨h2, h1, -⟩ f hf
      cases f with
      | t1ha2_atonce => exact (h2.resolve_left (by rw [show b.no2 = false from hf]; simp)).1
      | thunk_atonce128 => exact (h2.resolve_left (by rw [show b.no2 = false from hf]; simp)).2.1
      | thunk_stream => exact (h2.resolve_left (by rw [show b.no2 = false from hf]; simp)).2.2.1
      | thunk_stream128 => exact (h2.resolve_left (by rw [show b.no2 = false from hf]; simp)).2.2.2
      | t1ha1_le => exact (h1.resolve_left (by rw [show b.no1 = false from hf]; simp)).1
      | t1ha1_be => exact (h1.resolve_left (by rw [show b.no1 = false from hf]; simp)).2
      | t1ha0_32le => exact absurd (hb.symm.trans (show b.no0 = false from hf)) (by decide)
      | t1ha0_32be => exact absurd (hb.symm.trans (show b.no0 = false from hf)) (by decide)
      | t1ha0_ia32aes_noavx => exact absurd (hb.symm.trans hf.1) (by decide)
      | t1ha0_ia32aes_avx => exact absurd (hb.symm.trans hf.1) (by decide)
      | t1ha0_ia32aes_avx2 => exact absurd (hb.symm.trans hf.1) (by decide)
    · intro g
      refine ⟨?_, ?_, trivial⟩
      · cases h2 : b.no2 with
        | true => exact Or.inl rfl
        | false => exact Or.inr ⟨g .t1ha2_atonce h2, g .thunk_atonce128 h2, g .thunk_stream h2, g .thunk_stream128 h2⟩
      · cases h1 : b.no1 with
        | true => exact Or.inl rfl
        | false => exact Or.inr ⟨g .t1ha1_le h1, g .t1ha1_be h1⟩
  | false =>
    obtain ⟨p, hp, hc⟩ := chk_t1ha0 h hb (ha hb)
    have c0 : Cont b.cfg w good (fun rc => if b.no0 = true then pure rc else do
        let x ← t1ha_selfcheck__t1ha0 b cpu st fr lib
        pure (rc ||| x)) (p ∧ P .t1ha0_32le ∧ P .t1ha0_32be ∧
          Those b cpu P [.t1ha0_ia32aes_noavx, .t1ha0_ia32aes_avx, .t1ha0_ia32aes_avx2]) := by
      simp only [hb, Bool.false_eq_true, if_false]
      exact hc.last
    refine (fin _ _ (c2.comp (c1.comp c0))).iff ?_
    constructor
    · rintro ⟨h2, h1, -, h3, h4, h5⟩ f hf
      cases f with
      | t1ha2_atonce => exact (h2.resolve_left (by rw [show b.no2 = false from hf]; simp)).1
      | thunk_atonce128 => exact (h2.resolve_left (by rw [show b.no2 = false from hf]; simp)).2.1
      | thunk_stream => exact (h2.resolve_left (by rw [show b.no2 = false from hf]; simp)).2.2.1
      | thunk_stream128 => exact (h2.resolve_left (by rw [show b.no2 = false from hf]; simp)).2.2.2
      | t1ha1_le => exact (h1.resolve_left (by rw [show b.no1 = false from hf]; simp)).1
      | t1ha1_be => exact (h1.resolve_left (by rw [show b.no1 = false from hf]; simp)).2
      | t1ha0_32le => exact h3
      | t1ha0_32be => exact h4
      | t1ha0_ia32aes_noavx => exact h5 _ (by simp) hf
      | t1ha0_ia32aes_avx => exact h5 _ (by simp) hf
      | t1ha0_ia32aes_avx2 => exact h5 _ (by simp) hf
    · intro g
      have g2 : b.no2 = true ∨
          (P .t1ha2_atonce ∧ P .thunk_atonce128 ∧ P .thunk_stream ∧ P .thunk_stream128) := by
        cases h2 : b.no2 with
        | true => exact Or.inl rfl
        | false => exact Or.inr ⟨g .t1ha2_atonce h2, g .thunk_atonce128 h2, g .thunk_stream h2, g .thunk_stream128 h2⟩
      have g1 : b.no1 = true ∨ (P .t1ha1_le ∧ P .t1ha1_be) := by
        cases h1 : b.no1 with
        | true => exact Or.inl rfl
        | false => exact Or.inr ⟨g .t1ha1_le h1, g .t1ha1_be h1⟩
      exact ⟨g2, g1, hp g2 g1, g .t1ha0_32le hb, g .t1ha0_32be hb, fun f _ hf => g f hf⟩

end

/-! ## Memory -/

theorem Computes.later {ov o : Overlay} {pattern long : Nat} {hash : HashFn} {answer : Nat → U64}
    {scratch : Nat → Prop} (h : Computes w ov pattern long hash answer scratch) (hl : Later ov o) :
    Computes w o pattern long hash answer scratch :=
  fun k hk s hs hm => h k hk s (fun a ha => hl a (hs a ha)) hm

/-- What holds between checks. -/
def Good (b : Build) (cpu : Cpu) (w : World) (ov : Overlay) (st : Statics) (T : Table → List U64)
    (o : Overlay) : Prop :=
  Later ov o ∧ ∀ f, Covered b cpu f → ArrayAt b.cfg w o (st.table f.table) (T f.table) ∧
    Holds w o st.t1ha_test_pattern Ref.t1ha_test_pattern

theorem eachOk {b : Build} {cpu : Cpu} {ov : Overlay} {st : Statics} {fr : Checked → Frame} {lib : Library}
    {T : Table → List U64} {answer : Checked → Nat → U64} {scratch : Checked → Nat → Prop}
    (h : AllMem b cpu w ov st fr lib T answer scratch) :
    EachOk b cpu st fr lib w (Good b cpu w ov st T) (fun f => PassesAll (answer f) (T f.table)) := by
  intro f hf s ⟨hl, hs⟩
  have m0 := h.mem f hf
  have m : CheckMem b.cfg w s.ov st.t1ha_test_pattern (fr f).pattern_long (st.table f.table) (T f.table) :=
    ⟨m0.size, (hs f hf).1, m0.table_fits, (hs f hf).2, m0.pattern_fits, m0.writable_long, m0.long_fits, m0.apart⟩
  have d := does_selfcheck m ((h.code f hf).later hl) (h.apart f f hf hf).1 m.between
  have e : (if bad (okAt (answer f) (T f.table)) 81 = true then (-1 : CInt) else 0) =
      rc (PassesAll (answer f) (T f.table)) := by
    by_cases hp : PassesAll (answer f) (T f.table)
    · rw [rc_pos hp, bad_iff.2 hp]; rfl
    · rw [rc_neg hp, if_pos]
      cases hb : bad (okAt (answer f) (T f.table)) 81 with
      | true => rfl
      | false => exact absurd (bad_iff.1 hb) hp
  rw [e] at d
  refine d.post ?_
  intro o ho
  refine ⟨fun a ha => hl a (ho.later a ha), fun g hg => ⟨?_, ho.pattern⟩⟩
  obtain ⟨a1, a2⟩ := h.apart f g hf hg
  refine (hs g hg).1.congr (h.mem g hg).size fun a h1 h2 => ho.same a ?_ ?_
  · intro hsa
    have := (a1 a hsa).1
    omega
  · unfold Disjoint at a2
    omega

/-! ## The functions of the library -/

theorem probe_bounds : ∀ k < 81, ((probeAt k).base = .null → (probeAt k).msg = []) ∧
    ((probeAt k).base = .pattern → (probeAt k).off + (probeAt k).len ≤ 64) ∧
    ((probeAt k).base = .long → (probeAt k).off + (probeAt k).len ≤ 512) := by decide +kernel

section
variable {ov : Overlay} {page : Nat} {st : Statics} {fr : Frame} {f : Checked}

/-- Where the message of a probe lies. -/
theorem probe_place (st : Statics) (fr : Frame) {k : Nat} (hk : k < 81) :
    (probeAt k).msg = [] ∧ (probeAt k).addr st.t1ha_test_pattern fr.pattern_long = 0 ∨
    ∃ base n, (base = st.t1ha_test_pattern ∧ n = 64 ∨ base = fr.pattern_long ∧ n = 512) ∧
      base ≤ (probeAt k).addr st.t1ha_test_pattern fr.pattern_long ∧
      (probeAt k).addr st.t1ha_test_pattern fr.pattern_long + (probeAt k).msg.length ≤ base + n := by
  have hb := probe_bounds k hk
  have hl := probe_len k hk
  rw [hl]
  unfold Probe.addr
  cases e : (probeAt k).base with
  | null => exact Or.inl ⟨hb.1 e, rfl⟩
  | pattern =>
    have hb' := hb.2.1 e
    exact Or.inr ⟨_, _, Or.inl ⟨rfl, rfl⟩, by simp only; omega, by simp only; omega⟩
  | long =>
    have hb' := hb.2.2 e
    exact Or.inr ⟨_, _, Or.inr ⟨rfl, rfl⟩, by simp only; omega, by simp only; omega⟩

theorem computes_oneShot (h : Placed cfg w ov page st fr f) (g : OneShot)
    (h32 : g.words64 = true → f ≠ .t1ha0_32le ∧ f ≠ .t1ha0_32be)
    (hbe : g = .t1ha1_be → f = .t1ha1_be)
    (ha : ∀ ac, g = .t1ha0_ia32aes_noavx ac ∨ g = .t1ha0_ia32aes_avx ac →
      f = .t1ha0_ia32aes_noavx ∨ f = .t1ha0_ia32aes_avx)
    (hv : ∀ ac, g = .t1ha0_ia32aes_avx2 ac → f = .t1ha0_ia32aes_avx2)
    (hout : ∀ p, g.output = some p → (p, 8) ∈ locals cfg fr f) :
    Computes w ov st.t1ha_test_pattern fr.pattern_long (g.run cfg)
      (fun k => g.hash (probeAt k).msg (probeAt k).seed) (InLocals cfg fr f) := by
  intro k hk s hs hm
  have ho : ∀ p, g.output = some p → Writable w p 8 := fun p hp => (h.locals_ok _ (hout p hp)).2.1
  have hlen := probe_len k hk
  have fin : ∀ (m : List Byte) (seed : U64) (l : List Ev),
      Later s.ov (g.after cfg m seed s.ov) ∧ ∀ a, ¬ InLocals cfg fr f a → g.after cfg m seed s.ov a = s.ov a := by
    intro m seed l
    refine ⟨fun a ha => after_grow g ha, fun a hn => after_other g fun p hp => ?_⟩
    by_contra hc
    exact hn ⟨_, hout p hp, by simp only; omega, by simp only; omega⟩
  rcases probe_place st fr hk with ⟨he, ha0⟩ | ⟨base, n, hb, h1, h2⟩
  · obtain ⟨t, g1, -⟩ := returns_empty g (cfg := cfg) (w := w) (s := s) ((probeAt k).addr st.t1ha_test_pattern
      fr.pattern_long) (probeAt k).seed ho
    show ∃ s' t, Returns (g.run cfg _ (probeAt k).msg.length _) w s (g.hash (probeAt k).msg _) s' t ∧ _
    rw [he]
    exact ⟨_, t, g1, fin [] (probeAt k).seed t⟩
  · generalize hd : (probeAt k).addr st.t1ha_test_pattern fr.pattern_long = data at *
    have f1 := h.mem.pattern_fits
    have f2 := h.mem.long_fits
    have hbits := bits_ge cfg
    have buf : Buf cfg w s.ov page data (probeAt k).msg := by
      refine ⟨hm, ?_, h.paged, h.pageOk, fun hp _ => ?_⟩
      · rcases hb with ⟨rfl, rfl⟩ | ⟨rfl, rfl⟩ <;> omega
      · have := h.above hp
        rcases hb with ⟨rfl, rfl⟩ | ⟨rfl, rfl⟩ <;> omega
    have ready : g.Ready cfg w data (probeAt k).msg.length := by
      refine ⟨fun hw => ?_, fun e => h.builds (hbe e), ho, fun ac e _ => ?_, fun ac e _ => ?_, fun ac e => ?_⟩
      · rcases h.slack (h32 hw).1 (h32 hw).2 with hs | hs
        · exact Or.inl hs
        · refine Or.inr ?_
          rcases hb with ⟨rfl, rfl⟩ | ⟨rfl, rfl⟩
          · exact hs.1.sub (by omega) (by omega)
          · exact hs.2.sub (by omega) (by omega)
      · have := h.bottom (ha ac e)
        rcases hb with ⟨rfl, rfl⟩ | ⟨rfl, rfl⟩ <;> omega
      · have := h.top (hv ac e)
        rcases hb with ⟨rfl, rfl⟩ | ⟨rfl, rfl⟩ <;> omega
      · have : 2 ^ 32 ≤ 2 ^ (if cfg.ulong64 then 64 else 32) := by split <;> decide
        rcases hb with ⟨-, rfl⟩ | ⟨-, rfl⟩ <;> omega
    obtain ⟨t, g1, -⟩ := OneShot.returns g buf ready (probeAt k).seed
    exact ⟨_, t, g1, fin _ _ t⟩

theorem thunk_stream_eq (cfg : Cfg) (fr : Frame) (data len : Nat) (seed : U64) :
    thunk_stream cfg fr data len seed = (do
      t1ha2_init cfg fr.ctx seed seed
      t1ha2_update cfg fr.ctx data len
      t1ha2_final cfg fr.ctx none fr.bits) := rfl

theorem computes_stream (h : Placed cfg w ov page st fr f) (extra : Option Nat) (hash : HashFn)
    (hf : f = .thunk_stream ∨ f = .thunk_stream128)
    (he : ∀ p, extra = some p → (p, 8) ∈ locals cfg fr f)
    (hh : ∀ data len seed, hash data len seed = (do
      t1ha2_init cfg fr.ctx seed seed
      t1ha2_update cfg fr.ctx data len
      t1ha2_final cfg fr.ctx extra fr.bits)) :
    Computes w ov st.t1ha_test_pattern fr.pattern_long hash
      (fun k => streamHash (probeAt k).msg (probeAt k).seed (probeAt k).seed extra) (InLocals cfg fr f) := by
  intro k hk s hs hm
  obtain ⟨hal, ⟨img, hi1, hi2⟩, hbits⟩ := h.ctx_ok hf
  have lc : (fr.ctx, ctxSize cfg) ∈ locals cfg fr f := by rcases hf with rfl | rfl <;> simp [locals]
  have lb : (fr.bits, 8) ∈ locals cfg fr f := by rcases hf with rfl | rfl <;> simp [locals]
  obtain ⟨w0, w1, w2, w3, w4⟩ := h.locals_ok _ lc
  have c0 : Ctx cfg w ov fr.ctx img := ⟨hi1, hi2, w1, w2, hal, w0⟩
  have inl : ∀ a, ¬ InLocals cfg fr f a → (a < fr.ctx ∨ fr.ctx + ctxSize cfg ≤ a) ∧
      (a < fr.bits ∨ fr.bits + 8 ≤ a) ∧ ∀ p, extra = some p → a < p ∨ p + 8 ≤ a := by
    intro a hn
    refine ⟨?_, ?_, fun p hp => ?_⟩
    · by_contra hc; exact hn ⟨_, lc, by simp only; omega, by simp only; omega⟩
    · by_contra hc; exact hn ⟨_, lb, by simp only; omega, by simp only; omega⟩
    · by_contra hc; exact hn ⟨_, he p hp, by simp only; omega, by simp only; omega⟩
  have out : Out cfg w fr.ctx extra fr.bits := by
    obtain ⟨b0, b1, b2, -⟩ := h.locals_ok _ lb
    exact ⟨b1, b2, hbits, b0, fun p hp => (h.locals_ok _ (he p hp)).2.1⟩
  obtain ⟨img0, c0'⟩ := c0.after hs
  -- init
  obtain ⟨v1, s1, t1, r1, ⟨q1, o1⟩, -⟩ := returns_of_exec (init_exec c0' (probeAt k).seed (probeAt k).seed)
  obtain ⟨img1, c1⟩ := c0'.after o1.grow
  have fed1 : Fed cfg (probeAt k).seed (probeAt k).seed img1 [] := q1.toImg c1.holds c1.size
  -- update
  have fits1 := h.mem.pattern_fits
  have fits2 := h.mem.long_fits
  have hbg := bits_ge cfg
  obtain ⟨z1, z2⟩ := h.notNull
  have upd : ∃ v s2 t, Returns (t1ha2_update cfg fr.ctx
      ((probeAt k).addr st.t1ha_test_pattern fr.pattern_long) (probeAt k).msg.length) w s1 v s2 t ∧
      Rep cfg w s2.ov fr.ctx
        (Spec.absorbAll (Spec.absorbAll (Spec.init (probeAt k).seed (probeAt k).seed) (Spec.blocks 32 []))
          (Spec.blocks 32 (Spec.rest 32 [] ++ (probeAt k).msg)))
        (Spec.rest 32 (Spec.rest 32 [] ++ (probeAt k).msg))
        (BitVec.ofNat 64 ([] : List Byte).length + BitVec.ofNat 64 (probeAt k).msg.length) ∧
      Only s1.ov s2.ov fr.ctx (ctxSize cfg) := by
    unfold Disjoint at w3 w4
    rcases probe_place st fr hk with ⟨e1, e2⟩ | ⟨base, n, hb, h1, h2⟩
    · obtain ⟨v2, s2, t2, r2, q2, -⟩ := returns_of_exec (exec_update (P := fun _ => True) (m := (probeAt k).msg)
        (data := (probeAt k).addr st.t1ha_test_pattern fr.pattern_long) c1.place
        (fun _ _ _ _ => ⟨trivial, trivial⟩) trivial (fed1.rep c1.holds) (by rw [e1]; exact holds_nil)
        ⟨⟨fun _ _ _ _ => trivial, fun h => absurd h (by decide)⟩, fun h => absurd h (by rw [e1]; decide)⟩ (fun _ _ _ => trivial) (Or.inl (by rw [e1]; rfl)) (by rw [e1, e2, List.length_nil]; omega)
        (Or.inr ⟨rfl, e1⟩))
      exact ⟨v2, s2, t2, r2, q2⟩
    · have piece : Piece cfg w s1.ov fr.ctx ((probeAt k).addr st.t1ha_test_pattern fr.pattern_long)
          (probeAt k).msg := by
        refine ⟨hm.only o1 ?_, ?_, Or.inr ?_, ?_, fun hp _ => ?_⟩
        · simp only at w3 w4
          rcases hb with ⟨rfl, rfl⟩ | ⟨rfl, rfl⟩ <;> omega
        · rcases hb with ⟨rfl, rfl⟩ | ⟨rfl, rfl⟩ <;> omega
        · simp only at w3 w4
          rcases hb with ⟨rfl, rfl⟩ | ⟨rfl, rfl⟩ <;> omega
        · rcases hb with ⟨rfl, rfl⟩ | ⟨rfl, rfl⟩ <;> omega
        · have := h.above hp
          have : 7 ≤ cfg.below 8 := by unfold Cfg.below; rw [hp]; simp
          rcases hb with ⟨rfl, rfl⟩ | ⟨rfl, rfl⟩ <;> omega
      obtain ⟨v2, s2, t2, r2, q2, -⟩ := returns_of_exec (update_exec c1 fed1 piece)
      exact ⟨v2, s2, t2, r2, q2⟩
  obtain ⟨v2, s2, t2, r2, q2, o2⟩ := upd
  obtain ⟨img2, c2⟩ := c1.after o2.grow
  have fed2 := Fed.step q2 c2.holds c2.size
  -- final
  obtain ⟨v3, s3, t3, r3, ⟨q3, -, q4, q5⟩, -⟩ := returns_of_exec (final_exec c2 fed2 out)
  subst q3
  rw [hh]
  refine ⟨s3, _, r1.bind (r2.bind r3), fun a ha => o1.grow a (o2.grow a (q5 a ha)), fun a hn => ?_⟩
  obtain ⟨n1, n2, n3⟩ := inl a hn
  exact (q4 a n1 n2 n3).trans ((o2.same a n1).trans (o1.same a n1))

theorem computes_library (stack : State256) (ac : AesCfg) (frs : Checked → Frame) (f : Checked)
    (h : Placed cfg w ov page st (frs f) f) :
    Computes w ov st.t1ha_test_pattern (frs f).pattern_long (library cfg stack ac frs f) f.answer
      (InLocals cfg (frs f) f) := by
  cases f with
  | t1ha2_atonce =>
    exact computes_oneShot h (.t1ha2_atonce stack) (by simp) (by simp) (by simp) (by simp)
      (by simp [OneShot.output])
  | thunk_atonce128 =>
    exact computes_oneShot h (.t1ha2_atonce128 stack (frs .thunk_atonce128).unused) (by simp)
      (by simp) (by simp) (by simp) (by simp [OneShot.output, locals])
  | thunk_stream =>
    exact computes_stream h none _ (Or.inl rfl) (by simp) (fun _ _ _ => rfl)
  | thunk_stream128 =>
    exact computes_stream h (some (frs .thunk_stream128).unused) _ (Or.inr rfl)
      (by simp [locals]) (fun _ _ _ => rfl)
  | t1ha1_le =>
    exact computes_oneShot h .t1ha1_le (by simp) (by simp) (by simp) (by simp)
      (by simp [OneShot.output])
  | t1ha1_be =>
    exact computes_oneShot h .t1ha1_be (by simp) (by simp) (by simp) (by simp)
      (by simp [OneShot.output])
  | t1ha0_32le =>
    exact computes_oneShot h .t1ha0_32le (by simp [OneShot.words64]) (by simp) (by simp) (by simp)
      (by simp [OneShot.output])
  | t1ha0_32be =>
    exact computes_oneShot h .t1ha0_32be (by simp [OneShot.words64]) (by simp) (by simp) (by simp)
      (by simp [OneShot.output])
  | t1ha0_ia32aes_noavx =>
    exact computes_oneShot h (.t1ha0_ia32aes_noavx ac) (by simp) (by simp) (by simp)
      (by simp) (by simp [OneShot.output])
  | t1ha0_ia32aes_avx =>
    exact computes_oneShot h (.t1ha0_ia32aes_avx ac) (by simp) (by simp) (by simp)
      (by simp) (by simp [OneShot.output])
  | t1ha0_ia32aes_avx2 =>
    exact computes_oneShot h (.t1ha0_ia32aes_avx2 ac) (by simp) (by simp) (by simp)
      (by simp) (by simp [OneShot.output])

end

end T1ha.Model
