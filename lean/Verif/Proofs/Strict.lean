import Verif.Props.Api

/-!
# Builds for processors which cannot read misaligned words

A program logic for the events of a computation which succeeds.
-/

namespace T1ha.Model

/-- If `m` succeeds, all its events satisfy `P`. -/
structure Emits (P : Ev → Prop) {α : Type} (m : M α) : Prop where
  intro ::
  run : ∀ w s v s', m w s = .ok (v, s') → ∃ t, s'.log = t ++ s.log ∧ ∀ x ∈ t, P x

/-- Sizes and addresses which a processor without unaligned accesses can read. -/
def Natural (cfg : Cfg) : Ev → Prop
  | .rd p n => n = 1 ∨ (n = 2 ∧ p % 2 = 0) ∨ (n = 4 ∧ p % 4 = 0) ∨ (n = 8 ∧ p % cfg.alignment64 = 0)
  | _ => True

variable {P : Ev → Prop} {α β : Type} {cfg : Cfg}

theorem Emits.pure {a : α} : Emits P (pure a : M α) := by
  refine ⟨fun w s v s' h => ?_⟩
  cases h
  exact ⟨[], rfl, by simp⟩

theorem Emits.bind {m : M α} {k : α → M β} (h : Emits P m) (hk : ∀ a, Emits P (k a)) :
    Emits P (m >>= k) := by
  refine ⟨fun w s v s' h₁ => ?_⟩
  change M.bind m k w s = _ at h₁
  unfold M.bind at h₁
  split at h₁
  · exact nomatch h₁
  · rename_i a s₁ ha
    obtain ⟨t, e, ht⟩ := h.run _ _ _ _ ha
    obtain ⟨u, f, hu⟩ := (hk a).run _ _ _ _ h₁
    refine ⟨u ++ t, by rw [f, e, List.append_assoc], fun x hx => ?_⟩
    rcases List.mem_append.1 hx with hx | hx
    · exact hu x hx
    · exact ht x hx

theorem Emits.fail {e : Err} : Emits P (fail e : M α) := ⟨fun _ _ _ _ h => nomatch h⟩

theorem Emits.ite {c : Prop} [Decidable c] {a b : M α} (h : c → Emits P a) (h' : ¬ c → Emits P b) :
    Emits P (if c then a else b) := by
  split
  · exact h ‹_›
  · exact h' ‹_›

theorem Emits.load {p n : Nat} (h : P (.rd p n)) : Emits P (load p n) := by
  refine ⟨fun w s v s' h₁ => ?_⟩
  unfold Model.load at h₁
  split at h₁
  · cases h₁
    exact ⟨[_], rfl, by simpa using h⟩
  · exact nomatch h₁

theorem Emits.writeInt (p n v : Nat) : Emits (Natural cfg) (writeInt cfg p n v) := by
  refine ⟨fun w s v s' h₁ => ?_⟩
  unfold Model.writeInt Model.store at h₁
  split at h₁
  · cases h₁
    exact ⟨[_], rfl, by intro x hx; rw [List.mem_singleton.1 hx]; trivial⟩
  · exact nomatch h₁

theorem Emits.iterate : Emits (Natural cfg) iterate := by
  refine ⟨fun w s v s' h => ?_⟩
  cases h
  exact ⟨[.iter], rfl, by intro x hx; rw [List.mem_singleton.1 hx]; trivial⟩

theorem Emits.cassert (c : Bool) : Emits P (cassert cfg c) := by
  unfold Model.cassert
  exact Emits.ite (fun _ => Emits.pure) fun _ => Emits.ite (fun _ => Emits.pure) fun _ => Emits.fail

theorem Emits.pointer (p : Nat) : Emits (Natural cfg) (pointer p) := by
  refine ⟨fun w s v s' h => ?_⟩
  cases h
  exact ⟨[.ptr p], rfl, by intro x hx; rw [List.mem_singleton.1 hx]; trivial⟩

theorem Emits.ptrAdd (p n : Nat) : Emits (Natural cfg) (ptrAdd cfg p n) := by
  unfold Model.ptrAdd
  exact Emits.ite (fun _ => Emits.pointer _) fun _ => Emits.fail

theorem Emits.ptrSub (p n : Nat) : Emits (Natural cfg) (ptrSub cfg p n) := by
  unfold Model.ptrSub
  exact Emits.ite (fun _ => Emits.pointer _) fun _ => Emits.fail

theorem Emits.byteAt (p i : Nat) : Emits (Natural cfg) (byteAt p i) :=
  Emits.bind (Emits.load (Or.inl rfl)) fun _ => Emits.pure

/-- `read_aligned` reads aligned words, or fails. -/
theorem Emits.read_aligned (hu : cfg.unaligned = .unable) (p n : Nat) (hn : n = 2 ∨ n = 4 ∨ n = 8) :
    Emits (Natural cfg) (read_aligned cfg p n) := by
  unfold Model.read_aligned
  refine Emits.ite (fun h => ?_) fun _ => Emits.fail
  have h : p % (if n = 8 then cfg.alignment64 else n) = 0 := by
    rcases h with h | h
    · rw [hu] at h; exact nomatch h
    · exact h
  refine Emits.bind (Emits.load ?_) fun _ => Emits.pure
  rcases hn with rfl | rfl | rfl
  · exact Or.inr (Or.inl ⟨rfl, h⟩)
  · exact Or.inr (Or.inr (Or.inl ⟨rfl, h⟩))
  · exact Or.inr (Or.inr (Or.inr ⟨rfl, h⟩))

/-- One step into a computation. -/
syntax "emits_step" : tactic
macro_rules | `(tactic| emits_step) => `(tactic| with_reducible refine Emits.bind ?_ (fun _ => ?_))
macro_rules | `(tactic| emits_step) => `(tactic| with_reducible refine Emits.ite (fun _ => ?_) (fun _ => ?_))
macro_rules | `(tactic| emits_step) => `(tactic| with_reducible exact Emits.pure)
macro_rules | `(tactic| emits_step) => `(tactic| with_reducible exact Emits.fail)
macro_rules | `(tactic| emits_step) => `(tactic| with_reducible exact Emits.byteAt _ _)
macro_rules | `(tactic| emits_step) => `(tactic| with_reducible exact Emits.cassert _)
macro_rules | `(tactic| emits_step) => `(tactic| with_reducible exact Emits.iterate)
macro_rules | `(tactic| emits_step) => `(tactic| with_reducible exact Emits.ptrAdd _ _)
macro_rules | `(tactic| emits_step) => `(tactic| with_reducible exact Emits.ptrSub _ _)
macro_rules | `(tactic| emits_step) => `(tactic| with_reducible exact Emits.writeInt _ _ _)
macro_rules | `(tactic| emits_step) => `(tactic| with_reducible exact Emits.read_aligned (by assumption) _ _ (by decide))

/-- Walk through a computation. -/
macro "emits" : tactic => `(tactic| repeat' emits_step)

section
set_option linter.unusedSectionVars false

variable (hu : cfg.unaligned = .unable)
include hu

theorem Emits.fetch16_le_aligned (v : Nat) : Emits (Natural cfg) (Model.fetch16_le_aligned cfg v) := by
  unfold Model.fetch16_le_aligned
  cases cfg.endian <;> emits

macro_rules | `(tactic| emits_step) => `(tactic| with_reducible exact Emits.fetch16_le_aligned (by assumption) _)

theorem Emits.fetch16_le_unaligned (v : Nat) : Emits (Natural cfg) (Model.fetch16_le_unaligned cfg v) := by
  unfold Model.fetch16_le_unaligned
  rw [if_pos hu]
  emits

macro_rules | `(tactic| emits_step) => `(tactic| with_reducible exact Emits.fetch16_le_unaligned (by assumption) _)

theorem Emits.fetch16_be_aligned (v : Nat) : Emits (Natural cfg) (Model.fetch16_be_aligned cfg v) := by
  unfold Model.fetch16_be_aligned
  cases cfg.endian <;> emits

macro_rules | `(tactic| emits_step) => `(tactic| with_reducible exact Emits.fetch16_be_aligned (by assumption) _)

theorem Emits.fetch16_be_unaligned (v : Nat) : Emits (Natural cfg) (Model.fetch16_be_unaligned cfg v) := by
  unfold Model.fetch16_be_unaligned
  rw [if_pos hu]
  emits

macro_rules | `(tactic| emits_step) => `(tactic| with_reducible exact Emits.fetch16_be_unaligned (by assumption) _)

theorem Emits.fetch32_le_aligned (v : Nat) : Emits (Natural cfg) (Model.fetch32_le_aligned cfg v) := by
  unfold Model.fetch32_le_aligned
  cases cfg.endian <;> emits

macro_rules | `(tactic| emits_step) => `(tactic| with_reducible exact Emits.fetch32_le_aligned (by assumption) _)

theorem Emits.fetch32_le_unaligned (v : Nat) : Emits (Natural cfg) (Model.fetch32_le_unaligned cfg v) := by
  unfold Model.fetch32_le_unaligned
  rw [if_pos hu]
  emits

macro_rules | `(tactic| emits_step) => `(tactic| with_reducible exact Emits.fetch32_le_unaligned (by assumption) _)

theorem Emits.fetch32_be_aligned (v : Nat) : Emits (Natural cfg) (Model.fetch32_be_aligned cfg v) := by
  unfold Model.fetch32_be_aligned
  refine Emits.ite (fun _ => Emits.ite (fun h => ?_) fun _ => Emits.fail) fun _ => ?_
  · exact Emits.bind (Emits.load (Or.inr (Or.inr (Or.inl ⟨rfl, h⟩)))) fun _ => Emits.pure
  · cases cfg.endian <;> emits

macro_rules | `(tactic| emits_step) => `(tactic| with_reducible exact Emits.fetch32_be_aligned (by assumption) _)

theorem Emits.fetch32_be_unaligned (v : Nat) : Emits (Natural cfg) (Model.fetch32_be_unaligned cfg v) := by
  unfold Model.fetch32_be_unaligned
  rw [if_pos hu]
  emits

macro_rules | `(tactic| emits_step) => `(tactic| with_reducible exact Emits.fetch32_be_unaligned (by assumption) _)

theorem Emits.fetch64_le_aligned (v : Nat) : Emits (Natural cfg) (Model.fetch64_le_aligned cfg v) := by
  unfold Model.fetch64_le_aligned
  cases cfg.endian <;> emits

macro_rules | `(tactic| emits_step) => `(tactic| with_reducible exact Emits.fetch64_le_aligned (by assumption) _)

theorem Emits.fetch64_le_unaligned (v : Nat) : Emits (Natural cfg) (Model.fetch64_le_unaligned cfg v) := by
  unfold Model.fetch64_le_unaligned
  rw [if_pos hu]
  emits

macro_rules | `(tactic| emits_step) => `(tactic| with_reducible exact Emits.fetch64_le_unaligned (by assumption) _)

theorem Emits.fetch64_be_aligned (v : Nat) : Emits (Natural cfg) (Model.fetch64_be_aligned cfg v) := by
  unfold Model.fetch64_be_aligned
  refine Emits.ite (fun _ => Emits.ite (fun h => ?_) fun _ => Emits.fail) fun _ => ?_
  · exact Emits.bind (Emits.load (Or.inr (Or.inr (Or.inr ⟨rfl, h⟩)))) fun _ => Emits.pure
  · cases cfg.endian <;> emits

macro_rules | `(tactic| emits_step) => `(tactic| with_reducible exact Emits.fetch64_be_aligned (by assumption) _)

theorem Emits.fetch64_be_unaligned (v : Nat) : Emits (Natural cfg) (Model.fetch64_be_unaligned cfg v) := by
  unfold Model.fetch64_be_unaligned
  rw [if_pos hu]
  emits

macro_rules | `(tactic| emits_step) => `(tactic| with_reducible exact Emits.fetch64_be_unaligned (by assumption) _)

theorem Emits.tail32_le_aligned (p tail : Nat) : Emits (Natural cfg) (Model.tail32_le_aligned cfg p tail) := by
  unfold Model.tail32_le_aligned Model.tail32_le_bytes
  cases cfg.endian <;> emits

macro_rules | `(tactic| emits_step) => `(tactic| with_reducible exact Emits.tail32_le_aligned (by assumption) _ _)

theorem Emits.tail32_le_unaligned (p tail : Nat) : Emits (Natural cfg) (Model.tail32_le_unaligned cfg p tail) := by
  have hc : cfg.canReadUnderside = false := by
    unfold Cfg.canReadUnderside
    rw [hu]
    simp
  have he : ¬ (cfg.unaligned = .efficient ∧ cfg.endian = .little) := by rw [hu]; simp
  unfold Model.tail32_le_unaligned Model.tail32_le_bytes
  rw [hc, if_neg (by simp), if_neg he]
  emits

macro_rules | `(tactic| emits_step) => `(tactic| with_reducible exact Emits.tail32_le_unaligned (by assumption) _ _)

theorem Emits.tail32_be_aligned (p tail : Nat) : Emits (Natural cfg) (Model.tail32_be_aligned cfg p tail) := by
  unfold Model.tail32_be_aligned Model.tail32_be_bytes
  refine Emits.ite (fun _ => by emits) (fun _ => ?_)
  cases cfg.endian <;> dsimp only <;> split <;> emits

macro_rules | `(tactic| emits_step) => `(tactic| with_reducible exact Emits.tail32_be_aligned (by assumption) _ _)

theorem Emits.tail32_be_unaligned (p tail : Nat) : Emits (Natural cfg) (Model.tail32_be_unaligned cfg p tail) := by
  have hc : cfg.canReadUnderside = false := by
    unfold Cfg.canReadUnderside
    rw [hu]
    simp
  have he : ¬ (cfg.unaligned = .efficient ∧ cfg.endian = .big) := by rw [hu]; simp
  unfold Model.tail32_be_unaligned Model.tail32_be_bytes
  rw [hc, if_neg (by simp), if_neg he]
  split <;> emits

macro_rules | `(tactic| emits_step) => `(tactic| with_reducible exact Emits.tail32_be_unaligned (by assumption) _ _)

theorem Emits.tail64_le_aligned (p tail : Nat) : Emits (Natural cfg) (Model.tail64_le_aligned cfg p tail) := by
  unfold Model.tail64_le_aligned Model.tail64_le_bytes
  cases cfg.endian <;> emits

macro_rules | `(tactic| emits_step) => `(tactic| with_reducible exact Emits.tail64_le_aligned (by assumption) _ _)

theorem Emits.tail64_le_unaligned (p tail : Nat) : Emits (Natural cfg) (Model.tail64_le_unaligned cfg p tail) := by
  have hc : cfg.canReadUnderside = false := by
    unfold Cfg.canReadUnderside
    rw [hu]
    simp
  have he : ¬ (cfg.unaligned = .efficient ∧ cfg.endian = .little) := by rw [hu]; simp
  unfold Model.tail64_le_unaligned Model.tail64_le_bytes
  rw [hc, if_neg (by simp), if_neg he]
  emits

macro_rules | `(tactic| emits_step) => `(tactic| with_reducible exact Emits.tail64_le_unaligned (by assumption) _ _)

theorem Emits.tail64_be_aligned (p tail : Nat) : Emits (Natural cfg) (Model.tail64_be_aligned cfg p tail) := by
  unfold Model.tail64_be_aligned Model.tail64_be_bytes
  refine Emits.ite (fun _ => by emits) (fun _ => ?_)
  cases cfg.endian <;> dsimp only <;> split <;> emits

macro_rules | `(tactic| emits_step) => `(tactic| with_reducible exact Emits.tail64_be_aligned (by assumption) _ _)

theorem Emits.tail64_be_unaligned (p tail : Nat) : Emits (Natural cfg) (Model.tail64_be_unaligned cfg p tail) := by
  have hc : cfg.canReadUnderside = false := by
    unfold Cfg.canReadUnderside
    rw [hu]
    simp
  have he : ¬ (cfg.unaligned = .efficient ∧ cfg.endian = .big) := by rw [hu]; simp
  unfold Model.tail64_be_unaligned Model.tail64_be_bytes
  rw [hc, if_neg (by simp), if_neg he]
  split <;> emits

macro_rules | `(tactic| emits_step) => `(tactic| with_reducible exact Emits.tail64_be_unaligned (by assumption) _ _)

theorem Emits.fetch64 (e : Endian) (al : Aligness) (v : Nat) : Emits (Natural cfg) (Model.fetch64 cfg e al v) := by
  unfold Model.fetch64
  cases e <;> cases al <;> emits

macro_rules | `(tactic| emits_step) => `(tactic| with_reducible exact Emits.fetch64 (by assumption) _ _ _)

theorem Emits.tail64 (e : Endian) (al : Aligness) (v tail : Nat) : Emits (Natural cfg) (Model.tail64 cfg e al v tail) := by
  unfold Model.tail64
  cases e <;> cases al <;> emits

macro_rules | `(tactic| emits_step) => `(tactic| with_reducible exact Emits.tail64 (by assumption) _ _ _ _)

theorem Emits.fetch32 (e : Endian) (al : Aligness) (v : Nat) : Emits (Natural cfg) (Model.fetch32 cfg e al v) := by
  unfold Model.fetch32
  cases e <;> cases al <;> emits

macro_rules | `(tactic| emits_step) => `(tactic| with_reducible exact Emits.fetch32 (by assumption) _ _ _)

theorem Emits.tail32 (e : Endian) (al : Aligness) (v tail : Nat) : Emits (Natural cfg) (Model.tail32 cfg e al v tail) := by
  unfold Model.tail32
  cases e <;> cases al <;> emits

macro_rules | `(tactic| emits_step) => `(tactic| with_reducible exact Emits.tail32 (by assumption) _ _ _ _)

theorem Emits.t1ha1_loop (e : Endian) (al : Aligness) (detent fuel : Nat) (x : T1ha1Vars) : Emits (Natural cfg) (Model.t1ha1_loop cfg e al detent fuel x) := by
  induction fuel generalizing x with
  | zero => exact Emits.fail
  | succ fuel ih =>
    unfold Model.t1ha1_loop
    emits
    exact ih _

macro_rules | `(tactic| emits_step) => `(tactic| with_reducible exact Emits.t1ha1_loop (by assumption) _ _ _ _ _)

theorem Emits.t1ha1_tail (e : Endian) (al : Aligness) (a b : U64) (v len : Nat) : Emits (Natural cfg) (Model.t1ha1_tail cfg e al a b v len) := by
  unfold Model.t1ha1_tail
  emits

macro_rules | `(tactic| emits_step) => `(tactic| with_reducible exact Emits.t1ha1_tail (by assumption) _ _ _ _ _ _)

theorem Emits.t1ha1_body (e : Endian) (al : Aligness) (data len : Nat) (seed : U64) : Emits (Natural cfg) (Model.t1ha1_body cfg e al data len seed) := by
  unfold Model.t1ha1_body
  emits

macro_rules | `(tactic| emits_step) => `(tactic| with_reducible exact Emits.t1ha1_body (by assumption) _ _ _ _ _)

theorem Emits.t1ha1 (e : Endian) (data len : Nat) (seed : U64) : Emits (Natural cfg) (Model.t1ha1 cfg e data len seed) := by
  unfold Model.t1ha1
  emits

macro_rules | `(tactic| emits_step) => `(tactic| with_reducible exact Emits.t1ha1 (by assumption) _ _ _ _)

theorem Emits.t1ha0_loop (e : Endian) (al : Aligness) (detent fuel : Nat) (x : T1ha0Vars) : Emits (Natural cfg) (Model.t1ha0_loop cfg e al detent fuel x) := by
  induction fuel generalizing x with
  | zero => exact Emits.fail
  | succ fuel ih =>
    unfold Model.t1ha0_loop
    emits
    exact ih _

macro_rules | `(tactic| emits_step) => `(tactic| with_reducible exact Emits.t1ha0_loop (by assumption) _ _ _ _ _)

theorem Emits.t1ha0_tail (e : Endian) (al : Aligness) (a b : U32) (v len : Nat) : Emits (Natural cfg) (Model.t1ha0_tail cfg e al a b v len) := by
  unfold Model.t1ha0_tail
  emits

macro_rules | `(tactic| emits_step) => `(tactic| with_reducible exact Emits.t1ha0_tail (by assumption) _ _ _ _ _ _)

theorem Emits.t1ha0_body (e : Endian) (al : Aligness) (data len : Nat) (seed : U64) : Emits (Natural cfg) (Model.t1ha0_body cfg e al data len seed) := by
  unfold Model.t1ha0_body
  emits

macro_rules | `(tactic| emits_step) => `(tactic| with_reducible exact Emits.t1ha0_body (by assumption) _ _ _ _ _)

theorem Emits.t1ha0_32 (e : Endian) (data len : Nat) (seed : U64) : Emits (Natural cfg) (Model.t1ha0_32 cfg e data len seed) := by
  unfold Model.t1ha0_32
  emits

macro_rules | `(tactic| emits_step) => `(tactic| with_reducible exact Emits.t1ha0_32 (by assumption) _ _ _ _)

theorem Emits.t1ha2_UPDATE (al : Aligness) (s : State256) (v : Nat) : Emits (Natural cfg) (Model.t1ha2_UPDATE cfg al s v) := by
  unfold Model.t1ha2_UPDATE
  emits

macro_rules | `(tactic| emits_step) => `(tactic| with_reducible exact Emits.t1ha2_UPDATE (by assumption) _ _ _)

theorem Emits.t1ha2_loop (al : Aligness) (detent fuel : Nat) (s : State256) (v : Nat) : Emits (Natural cfg) (Model.t1ha2_loop cfg al detent fuel s v) := by
  induction fuel generalizing s v with
  | zero => exact Emits.fail
  | succ fuel ih =>
    unfold Model.t1ha2_loop
    emits
    exact ih _ _

macro_rules | `(tactic| emits_step) => `(tactic| with_reducible exact Emits.t1ha2_loop (by assumption) _ _ _ _ _)

theorem Emits.t1ha2_LOOP (al : Aligness) (s : State256) (data len : Nat) : Emits (Natural cfg) (Model.t1ha2_LOOP cfg al s data len) := by
  unfold Model.t1ha2_LOOP
  emits

macro_rules | `(tactic| emits_step) => `(tactic| with_reducible exact Emits.t1ha2_LOOP (by assumption) _ _ _ _)

theorem Emits.t1ha2_TAIL_AB_mix (al : Aligness) (s : State256) (v len : Nat) : Emits (Natural cfg) (Model.t1ha2_TAIL_AB_mix cfg al s v len) := by
  unfold Model.t1ha2_TAIL_AB_mix
  emits

macro_rules | `(tactic| emits_step) => `(tactic| with_reducible exact Emits.t1ha2_TAIL_AB_mix (by assumption) _ _ _ _)

theorem Emits.t1ha2_TAIL_AB (al : Aligness) (s : State256) (v len : Nat) : Emits (Natural cfg) (Model.t1ha2_TAIL_AB cfg al s v len) := by
  unfold Model.t1ha2_TAIL_AB
  emits

macro_rules | `(tactic| emits_step) => `(tactic| with_reducible exact Emits.t1ha2_TAIL_AB (by assumption) _ _ _ _)

theorem Emits.t1ha2_TAIL_ABCD_mix (al : Aligness) (s : State256) (v len : Nat) : Emits (Natural cfg) (Model.t1ha2_TAIL_ABCD_mix cfg al s v len) := by
  unfold Model.t1ha2_TAIL_ABCD_mix
  emits

macro_rules | `(tactic| emits_step) => `(tactic| with_reducible exact Emits.t1ha2_TAIL_ABCD_mix (by assumption) _ _ _ _)

theorem Emits.t1ha2_TAIL_ABCD (al : Aligness) (s : State256) (v len extra : Nat) : Emits (Natural cfg) (Model.t1ha2_TAIL_ABCD cfg al s v len extra) := by
  unfold Model.t1ha2_TAIL_ABCD
  emits

macro_rules | `(tactic| emits_step) => `(tactic| with_reducible exact Emits.t1ha2_TAIL_ABCD (by assumption) _ _ _ _ _)

theorem Emits.t1ha2_atonce_body (al : Aligness) (g : State256) (data len : Nat) (seed : U64) : Emits (Natural cfg) (Model.t1ha2_atonce_body cfg al g data len seed) := by
  unfold Model.t1ha2_atonce_body
  emits

macro_rules | `(tactic| emits_step) => `(tactic| with_reducible exact Emits.t1ha2_atonce_body (by assumption) _ _ _ _ _)

theorem Emits.t1ha2_atonce128_body (al : Aligness) (g : State256) (extra data len : Nat) (seed : U64) : Emits (Natural cfg) (Model.t1ha2_atonce128_body cfg al g extra data len seed) := by
  unfold Model.t1ha2_atonce128_body
  emits

macro_rules | `(tactic| emits_step) => `(tactic| with_reducible exact Emits.t1ha2_atonce128_body (by assumption) _ _ _ _ _ _)

theorem Emits.t1ha2_atonce (g : State256) (data len : Nat) (seed : U64) : Emits (Natural cfg) (Model.t1ha2_atonce cfg g data len seed) := by
  unfold Model.t1ha2_atonce
  emits

macro_rules | `(tactic| emits_step) => `(tactic| with_reducible exact Emits.t1ha2_atonce (by assumption) _ _ _ _)

theorem Emits.t1ha2_atonce128 (g : State256) (extra data len : Nat) (seed : U64) : Emits (Natural cfg) (Model.t1ha2_atonce128 cfg g extra data len seed) := by
  unfold Model.t1ha2_atonce128
  emits

macro_rules | `(tactic| emits_step) => `(tactic| with_reducible exact Emits.t1ha2_atonce128 (by assumption) _ _ _ _ _)

end

end T1ha.Model
