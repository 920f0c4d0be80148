import Verif.Props.Api
import Verif.Proofs.Bytes

/-!
# The sequence of events does not depend on the contents of memory or on the seed

A program logic for pairs of runs.
-/

namespace T1ha.Model

/-- Two runs, in the worlds `w₁` and `w₂`. If what has been written so far is related by `I`, and both
computations succeed, then they cause the same events, their results are related by `R`, and what has been
written then is related by `J`. -/
structure Same (w₁ w₂ : World) (I J : Overlay → Overlay → Prop) {α : Type} (R : α → α → Prop) (m₁ m₂ : M α) :
    Prop where
  intro ::
  run : ∀ s₁ s₂ v₁ s₁' v₂ s₂', I s₁.ov s₂.ov → m₁ w₁ s₁ = .ok (v₁, s₁') → m₂ w₂ s₂ = .ok (v₂, s₂') →
    (∃ t, s₁'.log = t ++ s₁.log ∧ s₂'.log = t ++ s₂.log) ∧ R v₁ v₂ ∧ J s₁'.ov s₂'.ov

/-- Any two values. -/
abbrev any {α : Type} : α → α → Prop := fun _ _ => True

/-- Nothing is known about what has been written. -/
abbrev anyOv : Overlay → Overlay → Prop := fun _ _ => True

variable {w₁ w₂ : World} {I J K : Overlay → Overlay → Prop}
variable {α β : Type} {R : α → α → Prop} {S : β → β → Prop}

theorem Same.pure {a b : α} (h : R a b) : Same w₁ w₂ I I R (pure a : M α) (pure b) := by
  refine ⟨?_⟩
  intro s₁ s₂ v₁ s₁' v₂ s₂' hi h₁ h₂
  cases h₁
  cases h₂
  exact ⟨⟨[], rfl, rfl⟩, h, hi⟩

theorem Same.seq {m₁ m₂ : M α} {k₁ k₂ : α → M β} (h : Same w₁ w₂ I J R m₁ m₂)
    (hk : ∀ a b, R a b → Same w₁ w₂ J K S (k₁ a) (k₂ b)) : Same w₁ w₂ I K S (m₁ >>= k₁) (m₂ >>= k₂) := by
  refine ⟨?_⟩
  intro s₁ s₂ v₁ s₁' v₂ s₂' hi h₁ h₂
  change M.bind m₁ k₁ w₁ s₁ = _ at h₁
  change M.bind m₂ k₂ w₂ s₂ = _ at h₂
  unfold M.bind at h₁ h₂
  split at h₁
  · exact nomatch h₁
  · rename_i a t₁ ha
    split at h₂
    · exact nomatch h₂
    · rename_i b t₂ hb
      obtain ⟨⟨t, e₁, e₂⟩, r, hj⟩ := h.run _ _ _ _ _ _ hi ha hb
      obtain ⟨⟨u, f₁, f₂⟩, q⟩ := (hk a b r).run _ _ _ _ _ _ hj h₁ h₂
      exact ⟨⟨u ++ t, by rw [f₁, e₁, List.append_assoc], by rw [f₂, e₂, List.append_assoc]⟩, q⟩

theorem Same.bind {m₁ m₂ : M α} {k₁ k₂ : α → M β} (h : Same w₁ w₂ I I R m₁ m₂)
    (hk : ∀ a b, R a b → Same w₁ w₂ I K S (k₁ a) (k₂ b)) : Same w₁ w₂ I K S (m₁ >>= k₁) (m₂ >>= k₂) :=
  Same.seq h hk

theorem Same.bindEq {m₁ m₂ : M α} {k₁ k₂ : α → M β} (h : Same w₁ w₂ I I Eq m₁ m₂)
    (hk : ∀ a, Same w₁ w₂ I K S (k₁ a) (k₂ a)) : Same w₁ w₂ I K S (m₁ >>= k₁) (m₂ >>= k₂) :=
  Same.bind h fun a b hab => by subst hab; exact hk a

theorem Same.pureAny {a b : α} : Same w₁ w₂ I I any (Pure.pure a : M α) (Pure.pure b) := Same.pure trivial

/-- Pairs with the same second component (a pointer). -/
abbrev sameSnd {α : Type} : α × Nat → α × Nat → Prop := fun x y => x.2 = y.2

/-- Triples with the same third component (a pointer). -/
abbrev sameThird {α β : Type} : α × β × Nat → α × β × Nat → Prop := fun x y => x.2.2 = y.2.2

theorem Same.pureSnd {a b : α} {v : Nat} :
    Same w₁ w₂ I I sameSnd (Pure.pure (a, v) : M (α × Nat)) (Pure.pure (b, v)) :=
  Same.pure rfl

theorem Same.pureThird {a b : α} {c d : β} {v : Nat} :
    Same w₁ w₂ I I sameThird (Pure.pure (a, c, v) : M (α × β × Nat)) (Pure.pure (b, d, v)) :=
  Same.pure rfl

theorem Same.bindSnd {m₁ m₂ : M (α × Nat)} {k₁ k₂ : α × Nat → M β} (h : Same w₁ w₂ I I sameSnd m₁ m₂)
    (hk : ∀ a b v, Same w₁ w₂ I K S (k₁ (a, v)) (k₂ (b, v))) : Same w₁ w₂ I K S (m₁ >>= k₁) (m₂ >>= k₂) :=
  Same.bind h fun ⟨a, v⟩ ⟨b, v'⟩ hab => by
    have : v = v' := hab
    subst this
    exact hk a b v

theorem Same.bindThird {γ : Type} {m₁ m₂ : M (α × γ × Nat)} {k₁ k₂ : α × γ × Nat → M β}
    (h : Same w₁ w₂ I I sameThird m₁ m₂) (hk : ∀ a c b d v, Same w₁ w₂ I K S (k₁ (a, c, v)) (k₂ (b, d, v))) :
    Same w₁ w₂ I K S (m₁ >>= k₁) (m₂ >>= k₂) :=
  Same.bind h fun ⟨a, c, v⟩ ⟨b, d, v'⟩ hab => by
    have : v = v' := hab
    subst this
    exact hk a c b d v

theorem Same.fail {e : Err} {m : M α} : Same w₁ w₂ I J R (fail e) m := by
  refine ⟨?_⟩
  intro s₁ s₂ v₁ s₁' v₂ s₂' hi h₁ h₂
  exact nomatch h₁

theorem Same.ite {c : Prop} [Decidable c] {a a' b b' : M α} (h : c → Same w₁ w₂ I J R a b)
    (h' : ¬ c → Same w₁ w₂ I J R a' b') : Same w₁ w₂ I J R (if c then a else a') (if c then b else b') := by
  split
  · exact h ‹_›
  · exact h' ‹_›

/-- The relation between what has been written may be forgotten. -/
theorem Same.forget {m₁ m₂ : M α} (h : Same w₁ w₂ I J R m₁ m₂) : Same w₁ w₂ I anyOv R m₁ m₂ :=
  ⟨fun s₁ s₂ v₁ s₁' v₂ s₂' hi h₁ h₂ =>
    let ⟨t, r, _⟩ := h.run s₁ s₂ v₁ s₁' v₂ s₂' hi h₁ h₂
    ⟨t, r, trivial⟩⟩

theorem Same.loadLen (p n : Nat) :
    Same w₁ w₂ I I (fun xs ys => xs.length = n ∧ ys.length = n) (Model.load p n) (Model.load p n) := by
  refine ⟨?_⟩
  intro s₁ s₂ v₁ s₁' v₂ s₂' hi h₁ h₂
  have hl : ∀ {w : World} {ov : Overlay} {t p n : Nat} {bs : List Byte},
      seeBytes w ov t p n = some bs → bs.length = n := by
    intro w ov t p n bs h
    induction n generalizing p bs with
    | zero => cases h; rfl
    | succ n ih =>
      unfold seeBytes at h
      split at h
      · rename_i h2
        cases h
        rw [List.length_cons, ih h2]
      · exact nomatch h
  unfold Model.load at h₁ h₂
  split at h₁
  · rename_i e₁
    split at h₂
    · rename_i e₂
      cases h₁
      cases h₂
      exact ⟨⟨[_], rfl, rfl⟩, ⟨hl e₁, hl e₂⟩, hi⟩
    · exact nomatch h₂
  · exact nomatch h₁

theorem Same.store (p : Nat) {xs ys : List Byte} (h : xs.length = ys.length)
    (hi : ∀ o₁ o₂, I o₁ o₂ → J (put o₁ p xs) (put o₂ p ys)) :
    Same w₁ w₂ I J any (store p xs) (store p ys) := by
  refine ⟨?_⟩
  intro s₁ s₂ v₁ s₁' v₂ s₂' h0 h₁ h₂
  unfold Model.store at h₁ h₂
  split at h₁
  · split at h₂
    · cases h₁
      cases h₂
      exact ⟨⟨[.wr p xs.length], rfl, by rw [h]; rfl⟩, trivial, hi _ _ h0⟩
    · exact nomatch h₂
  · exact nomatch h₁

theorem Same.iterate : Same w₁ w₂ I I any iterate iterate := by
  refine ⟨?_⟩
  intro s₁ s₂ v₁ s₁' v₂ s₂' hi h₁ h₂
  cases h₁
  cases h₂
  exact ⟨⟨[.iter], rfl, rfl⟩, trivial, hi⟩

theorem Same.cassert (cfg : Cfg) (c : Bool) : Same w₁ w₂ I I any (cassert cfg c) (cassert cfg c) := by
  unfold Model.cassert
  exact Same.ite (fun _ => Same.pure trivial) fun _ => Same.ite (fun _ => Same.pure trivial) fun _ => Same.fail

theorem Same.pointer (p : Nat) : Same w₁ w₂ I I Eq (pointer p) (pointer p) := by
  refine ⟨fun s₁ s₂ v₁ t₁ v₂ t₂ hi h₁ h₂ => ?_⟩
  cases h₁
  cases h₂
  exact ⟨⟨[.ptr p], rfl, rfl⟩, rfl, hi⟩

theorem Same.ptrAdd (cfg : Cfg) (p n : Nat) : Same w₁ w₂ I I Eq (ptrAdd cfg p n) (ptrAdd cfg p n) := by
  unfold Model.ptrAdd
  exact Same.ite (fun _ => Same.pointer _) fun _ => Same.fail

theorem Same.ptrSub (cfg : Cfg) (p n : Nat) : Same w₁ w₂ I I Eq (ptrSub cfg p n) (ptrSub cfg p n) := by
  unfold Model.ptrSub
  exact Same.ite (fun _ => Same.pointer _) fun _ => Same.fail

theorem Same.afterAdd {cfg : Cfg} {p n : Nat} {k₁ k₂ : Nat → M β}
    (hk : ∀ a, Same w₁ w₂ I K S (k₁ a) (k₂ a)) :
    Same w₁ w₂ I K S (Model.ptrAdd cfg p n >>= k₁) (Model.ptrAdd cfg p n >>= k₂) :=
  Same.bindEq (Same.ptrAdd cfg p n) hk

theorem Same.afterSub {cfg : Cfg} {p n : Nat} {k₁ k₂ : Nat → M β}
    (hk : ∀ a, Same w₁ w₂ I K S (k₁ a) (k₂ a)) :
    Same w₁ w₂ I K S (Model.ptrSub cfg p n >>= k₁) (Model.ptrSub cfg p n >>= k₂) :=
  Same.bindEq (Same.ptrSub cfg p n) hk

theorem Same.loadAny (p n : Nat) : Same w₁ w₂ I I any (Model.load p n) (Model.load p n) :=
  ⟨fun s₁ s₂ v₁ s₁' v₂ s₂' hi h₁ h₂ =>
    let ⟨t, _, j⟩ := (Same.loadLen p n).run s₁ s₂ v₁ s₁' v₂ s₂' hi h₁ h₂
    ⟨t, trivial, j⟩⟩

theorem Same.readInt (cfg : Cfg) (p n : Nat) : Same w₁ w₂ I I any (readInt cfg p n) (readInt cfg p n) :=
  Same.bind (Same.loadAny p n) fun _ _ _ => Same.pure trivial

theorem Same.byteAt (p i : Nat) : Same w₁ w₂ I I any (byteAt p i) (byteAt p i) :=
  Same.bind (Same.loadAny _ 1) fun _ _ _ => Same.pure trivial

theorem Same.read_unaligned (cfg : Cfg) (p n : Nat) :
    Same w₁ w₂ I I any (read_unaligned cfg p n) (read_unaligned cfg p n) := by
  unfold Model.read_unaligned
  exact Same.ite (fun _ => Same.afterSub fun _ => Same.readInt cfg _ n) fun _ => Same.readInt cfg p n

theorem Same.read_aligned (cfg : Cfg) (p n : Nat) :
    Same w₁ w₂ I I any (read_aligned cfg p n) (read_aligned cfg p n) := by
  unfold Model.read_aligned
  exact Same.ite (fun _ => Same.readInt cfg p n) fun _ => Same.fail

/-- One step into a computation which handles the values it reads without looking at them. -/
syntax "same_step" : tactic
macro_rules | `(tactic| same_step) => `(tactic| with_reducible refine Same.bind (R := any) ?_ (fun _ _ _ => ?_))
macro_rules | `(tactic| same_step) => `(tactic| with_reducible refine Same.afterSub (fun _ => ?_))
macro_rules | `(tactic| same_step) => `(tactic| with_reducible refine Same.afterAdd (fun _ => ?_))
macro_rules | `(tactic| same_step) => `(tactic| with_reducible refine Same.ite (fun _ => ?_) (fun _ => ?_))
macro_rules | `(tactic| same_step) => `(tactic| with_reducible exact Same.pureAny)
macro_rules | `(tactic| same_step) => `(tactic| with_reducible exact Same.fail)
macro_rules | `(tactic| same_step) => `(tactic| with_reducible exact Same.byteAt _ _)
macro_rules | `(tactic| same_step) => `(tactic| with_reducible exact Same.loadAny _ _)
macro_rules | `(tactic| same_step) => `(tactic| with_reducible exact Same.cassert _ _)
macro_rules | `(tactic| same_step) => `(tactic| with_reducible exact Same.read_aligned _ _ _)
macro_rules | `(tactic| same_step) => `(tactic| with_reducible exact Same.read_unaligned _ _ _)

/-- Walk through such a computation. -/
macro "same" : tactic => `(tactic| repeat' same_step)

theorem Same.fetch16_le_aligned (cfg : Cfg) (v : Nat) :
    Same w₁ w₂ I I any (fetch16_le_aligned cfg v) (fetch16_le_aligned cfg v) := by
  unfold Model.fetch16_le_aligned
  cases cfg.endian <;> same

macro_rules | `(tactic| same_step) => `(tactic| with_reducible exact Same.fetch16_le_aligned _ _)

theorem Same.fetch16_le_unaligned (cfg : Cfg) (v : Nat) :
    Same w₁ w₂ I I any (fetch16_le_unaligned cfg v) (fetch16_le_unaligned cfg v) := by
  unfold Model.fetch16_le_unaligned
  cases cfg.endian <;> same

macro_rules | `(tactic| same_step) => `(tactic| with_reducible exact Same.fetch16_le_unaligned _ _)

theorem Same.fetch16_be_aligned (cfg : Cfg) (v : Nat) :
    Same w₁ w₂ I I any (fetch16_be_aligned cfg v) (fetch16_be_aligned cfg v) := by
  unfold Model.fetch16_be_aligned
  cases cfg.endian <;> same

macro_rules | `(tactic| same_step) => `(tactic| with_reducible exact Same.fetch16_be_aligned _ _)

theorem Same.fetch16_be_unaligned (cfg : Cfg) (v : Nat) :
    Same w₁ w₂ I I any (fetch16_be_unaligned cfg v) (fetch16_be_unaligned cfg v) := by
  unfold Model.fetch16_be_unaligned
  cases cfg.endian <;> same

macro_rules | `(tactic| same_step) => `(tactic| with_reducible exact Same.fetch16_be_unaligned _ _)

theorem Same.fetch32_le_aligned (cfg : Cfg) (v : Nat) :
    Same w₁ w₂ I I any (fetch32_le_aligned cfg v) (fetch32_le_aligned cfg v) := by
  unfold Model.fetch32_le_aligned
  cases cfg.endian <;> same

macro_rules | `(tactic| same_step) => `(tactic| with_reducible exact Same.fetch32_le_aligned _ _)

theorem Same.fetch32_le_unaligned (cfg : Cfg) (v : Nat) :
    Same w₁ w₂ I I any (fetch32_le_unaligned cfg v) (fetch32_le_unaligned cfg v) := by
  unfold Model.fetch32_le_unaligned
  cases cfg.endian <;> same

macro_rules | `(tactic| same_step) => `(tactic| with_reducible exact Same.fetch32_le_unaligned _ _)

theorem Same.fetch32_be_aligned (cfg : Cfg) (v : Nat) :
    Same w₁ w₂ I I any (fetch32_be_aligned cfg v) (fetch32_be_aligned cfg v) := by
  unfold Model.fetch32_be_aligned
  cases cfg.endian <;> same

macro_rules | `(tactic| same_step) => `(tactic| with_reducible exact Same.fetch32_be_aligned _ _)

theorem Same.fetch32_be_unaligned (cfg : Cfg) (v : Nat) :
    Same w₁ w₂ I I any (fetch32_be_unaligned cfg v) (fetch32_be_unaligned cfg v) := by
  unfold Model.fetch32_be_unaligned
  cases cfg.endian <;> same

macro_rules | `(tactic| same_step) => `(tactic| with_reducible exact Same.fetch32_be_unaligned _ _)

theorem Same.fetch64_le_aligned (cfg : Cfg) (v : Nat) :
    Same w₁ w₂ I I any (fetch64_le_aligned cfg v) (fetch64_le_aligned cfg v) := by
  unfold Model.fetch64_le_aligned
  cases cfg.endian <;> same

macro_rules | `(tactic| same_step) => `(tactic| with_reducible exact Same.fetch64_le_aligned _ _)

theorem Same.fetch64_le_unaligned (cfg : Cfg) (v : Nat) :
    Same w₁ w₂ I I any (fetch64_le_unaligned cfg v) (fetch64_le_unaligned cfg v) := by
  unfold Model.fetch64_le_unaligned
  cases cfg.endian <;> same

macro_rules | `(tactic| same_step) => `(tactic| with_reducible exact Same.fetch64_le_unaligned _ _)

theorem Same.fetch64_be_aligned (cfg : Cfg) (v : Nat) :
    Same w₁ w₂ I I any (fetch64_be_aligned cfg v) (fetch64_be_aligned cfg v) := by
  unfold Model.fetch64_be_aligned
  cases cfg.endian <;> same

macro_rules | `(tactic| same_step) => `(tactic| with_reducible exact Same.fetch64_be_aligned _ _)

theorem Same.fetch64_be_unaligned (cfg : Cfg) (v : Nat) :
    Same w₁ w₂ I I any (fetch64_be_unaligned cfg v) (fetch64_be_unaligned cfg v) := by
  unfold Model.fetch64_be_unaligned
  cases cfg.endian <;> same

macro_rules | `(tactic| same_step) => `(tactic| with_reducible exact Same.fetch64_be_unaligned _ _)

theorem Same.tail32_le_bytes (p k : Nat) : Same w₁ w₂ I I any (tail32_le_bytes p k) (tail32_le_bytes p k) := by
  unfold Model.tail32_le_bytes
  same

macro_rules | `(tactic| same_step) => `(tactic| with_reducible exact Same.tail32_le_bytes _ _)

theorem Same.tail32_le_aligned (cfg : Cfg) (p tail : Nat) :
    Same w₁ w₂ I I any (tail32_le_aligned cfg p tail) (tail32_le_aligned cfg p tail) := by
  unfold Model.tail32_le_aligned
  cases cfg.endian <;> same

macro_rules | `(tactic| same_step) => `(tactic| with_reducible exact Same.tail32_le_aligned _ _ _)

theorem Same.tail32_le_unaligned (cfg : Cfg) (p tail : Nat) :
    Same w₁ w₂ I I any (tail32_le_unaligned cfg p tail) (tail32_le_unaligned cfg p tail) := by
  unfold Model.tail32_le_unaligned
  same

macro_rules | `(tactic| same_step) => `(tactic| with_reducible exact Same.tail32_le_unaligned _ _ _)

theorem Same.tail32_be_bytes (p k : Nat) : Same w₁ w₂ I I any (tail32_be_bytes p k) (tail32_be_bytes p k) := by
  unfold Model.tail32_be_bytes
  split <;> same

macro_rules | `(tactic| same_step) => `(tactic| with_reducible exact Same.tail32_be_bytes _ _)

theorem Same.tail32_be_aligned (cfg : Cfg) (p tail : Nat) :
    Same w₁ w₂ I I any (tail32_be_aligned cfg p tail) (tail32_be_aligned cfg p tail) := by
  unfold Model.tail32_be_aligned
  refine Same.ite (fun _ => by same) (fun _ => ?_)
  cases cfg.endian
  · same
  · dsimp only
    split <;> same

macro_rules | `(tactic| same_step) => `(tactic| with_reducible exact Same.tail32_be_aligned _ _ _)

theorem Same.tail32_be_unaligned (cfg : Cfg) (p tail : Nat) :
    Same w₁ w₂ I I any (tail32_be_unaligned cfg p tail) (tail32_be_unaligned cfg p tail) := by
  unfold Model.tail32_be_unaligned
  refine Same.ite (fun _ => by same) (fun _ => Same.ite (fun _ => ?_) (fun _ => by same))
  split <;> same

macro_rules | `(tactic| same_step) => `(tactic| with_reducible exact Same.tail32_be_unaligned _ _ _)

theorem Same.tail64_le_bytes (p k : Nat) : Same w₁ w₂ I I any (tail64_le_bytes p k) (tail64_le_bytes p k) := by
  unfold Model.tail64_le_bytes
  same

macro_rules | `(tactic| same_step) => `(tactic| with_reducible exact Same.tail64_le_bytes _ _)

theorem Same.tail64_le_aligned (cfg : Cfg) (p tail : Nat) :
    Same w₁ w₂ I I any (tail64_le_aligned cfg p tail) (tail64_le_aligned cfg p tail) := by
  unfold Model.tail64_le_aligned
  cases cfg.endian <;> same

macro_rules | `(tactic| same_step) => `(tactic| with_reducible exact Same.tail64_le_aligned _ _ _)

theorem Same.tail64_le_unaligned (cfg : Cfg) (p tail : Nat) :
    Same w₁ w₂ I I any (tail64_le_unaligned cfg p tail) (tail64_le_unaligned cfg p tail) := by
  unfold Model.tail64_le_unaligned
  same

macro_rules | `(tactic| same_step) => `(tactic| with_reducible exact Same.tail64_le_unaligned _ _ _)

theorem Same.tail64_be_bytes (p k : Nat) : Same w₁ w₂ I I any (tail64_be_bytes p k) (tail64_be_bytes p k) := by
  unfold Model.tail64_be_bytes
  split <;> same

macro_rules | `(tactic| same_step) => `(tactic| with_reducible exact Same.tail64_be_bytes _ _)

theorem Same.tail64_be_aligned (cfg : Cfg) (p tail : Nat) :
    Same w₁ w₂ I I any (tail64_be_aligned cfg p tail) (tail64_be_aligned cfg p tail) := by
  unfold Model.tail64_be_aligned
  refine Same.ite (fun _ => by same) (fun _ => ?_)
  cases cfg.endian
  · same
  · dsimp only
    split <;> same

macro_rules | `(tactic| same_step) => `(tactic| with_reducible exact Same.tail64_be_aligned _ _ _)

theorem Same.tail64_be_unaligned (cfg : Cfg) (p tail : Nat) :
    Same w₁ w₂ I I any (tail64_be_unaligned cfg p tail) (tail64_be_unaligned cfg p tail) := by
  unfold Model.tail64_be_unaligned
  refine Same.ite (fun _ => by same) (fun _ => Same.ite (fun _ => ?_) (fun _ => by same))
  split <;> same

macro_rules | `(tactic| same_step) => `(tactic| with_reducible exact Same.tail64_be_unaligned _ _ _)

theorem Same.fetch64 (cfg : Cfg) (e : Endian) (al : Aligness) (v : Nat) :
    Same w₁ w₂ I I any (fetch64 cfg e al v) (fetch64 cfg e al v) := by
  unfold Model.fetch64
  cases e <;> cases al <;> same

theorem Same.fetch32 (cfg : Cfg) (e : Endian) (al : Aligness) (v : Nat) :
    Same w₁ w₂ I I any (fetch32 cfg e al v) (fetch32 cfg e al v) := by
  unfold Model.fetch32
  cases e <;> cases al <;> same

theorem Same.tail64 (cfg : Cfg) (e : Endian) (al : Aligness) (v tail : Nat) :
    Same w₁ w₂ I I any (tail64 cfg e al v tail) (tail64 cfg e al v tail) := by
  unfold Model.tail64
  cases e <;> cases al <;> same

theorem Same.tail32 (cfg : Cfg) (e : Endian) (al : Aligness) (v tail : Nat) :
    Same w₁ w₂ I I any (tail32 cfg e al v tail) (tail32 cfg e al v tail) := by
  unfold Model.tail32
  cases e <;> cases al <;> same

theorem Same.loadu (p : Nat) : Same w₁ w₂ I I any (loadu p) (loadu p) := by
  unfold Model.loadu
  same

macro_rules | `(tactic| same_step) => `(tactic| with_reducible exact Same.fetch64 _ _ _ _)
macro_rules | `(tactic| same_step) => `(tactic| with_reducible exact Same.fetch32 _ _ _ _)
macro_rules | `(tactic| same_step) => `(tactic| with_reducible exact Same.tail64 _ _ _ _ _)
macro_rules | `(tactic| same_step) => `(tactic| with_reducible exact Same.tail32 _ _ _ _ _)
macro_rules | `(tactic| same_step) => `(tactic| with_reducible exact Same.loadu _)

macro_rules | `(tactic| same_step) => `(tactic| with_reducible refine Same.bindThird ?_ (fun _ _ _ _ _ => ?_))
macro_rules | `(tactic| same_step) => `(tactic| with_reducible refine Same.bindSnd ?_ (fun _ _ _ => ?_))
macro_rules | `(tactic| same_step) => `(tactic| with_reducible exact Same.pureSnd)
macro_rules | `(tactic| same_step) => `(tactic| with_reducible exact Same.pureThird)
macro_rules | `(tactic| same_step) => `(tactic| with_reducible exact Same.iterate)
macro_rules | `(tactic| same_step) => `(tactic| with_reducible refine Same.afterSub (fun _ => ?_))
macro_rules | `(tactic| same_step) => `(tactic| with_reducible refine Same.afterAdd (fun _ => ?_))

/-! ## The functions -/

theorem Same.t1ha1_loop (cfg : Cfg) (e : Endian) (al : Aligness) (detent fuel : Nat) {x y : T1ha1Vars}
    (h : x.v = y.v) : Same w₁ w₂ I I (fun x y => x.v = y.v) (t1ha1_loop cfg e al detent fuel x)
      (t1ha1_loop cfg e al detent fuel y) := by
  induction fuel generalizing x y with
  | zero => exact Same.fail
  | succ fuel ih =>
    unfold Model.t1ha1_loop
    rw [h]
    same
    · exact ih rfl
    · exact Same.pure rfl

theorem Same.t1ha1_tail (cfg : Cfg) (e : Endian) (al : Aligness) (a b a' b' : U64) (v len : Nat) :
    Same w₁ w₂ I I any (t1ha1_tail cfg e al a b v len) (t1ha1_tail cfg e al a' b' v len) := by
  unfold Model.t1ha1_tail
  same

theorem Same.t1ha1_body (cfg : Cfg) (e : Endian) (al : Aligness) (data len : Nat) (seed seed' : U64) :
    Same w₁ w₂ I I any (t1ha1_body cfg e al data len seed) (t1ha1_body cfg e al data len seed') := by
  unfold Model.t1ha1_body
  refine Same.ite (fun _ => ?_) (fun _ => Same.t1ha1_tail ..)
  refine Same.bindEq (Same.ptrAdd _ _ _) fun _ => Same.bindEq (Same.ptrSub _ _ _) fun _ => ?_
  refine Same.bind (Same.t1ha1_loop _ _ _ _ _ rfl) fun x y h => ?_
  dsimp only
  rw [h]
  exact Same.t1ha1_tail ..

theorem Same.t1ha1 (cfg : Cfg) (e : Endian) (data len : Nat) (seed seed' : U64) :
    Same w₁ w₂ I I any (t1ha1 cfg e data len seed) (t1ha1 cfg e data len seed') := by
  unfold Model.t1ha1
  refine Same.ite (fun _ => Same.t1ha1_body ..) (fun _ => Same.ite (fun _ => ?_) (fun _ => ?_))
  · exact Same.t1ha1_body ..
  · exact Same.t1ha1_body ..

theorem Same.t1ha0_loop (cfg : Cfg) (e : Endian) (al : Aligness) (detent fuel : Nat) {x y : T1ha0Vars}
    (h : x.v = y.v) : Same w₁ w₂ I I (fun x y => x.v = y.v) (t1ha0_loop cfg e al detent fuel x)
      (t1ha0_loop cfg e al detent fuel y) := by
  induction fuel generalizing x y with
  | zero => exact Same.fail
  | succ fuel ih =>
    unfold Model.t1ha0_loop
    rw [h]
    same
    · exact ih rfl
    · exact Same.pure rfl

theorem Same.t1ha0_tail (cfg : Cfg) (e : Endian) (al : Aligness) (a b a' b' : U32) (v len : Nat) :
    Same w₁ w₂ I I any (t1ha0_tail cfg e al a b v len) (t1ha0_tail cfg e al a' b' v len) := by
  unfold Model.t1ha0_tail
  same

theorem Same.t1ha0_body (cfg : Cfg) (e : Endian) (al : Aligness) (data len : Nat) (seed seed' : U64) :
    Same w₁ w₂ I I any (t1ha0_body cfg e al data len seed) (t1ha0_body cfg e al data len seed') := by
  unfold Model.t1ha0_body
  refine Same.ite (fun _ => ?_) (fun _ => Same.t1ha0_tail ..)
  refine Same.bindEq (Same.ptrAdd _ _ _) fun _ => Same.bindEq (Same.ptrSub _ _ _) fun _ => ?_
  refine Same.bind (Same.t1ha0_loop _ _ _ _ _ rfl) fun x y h => ?_
  dsimp only
  rw [h]
  exact Same.t1ha0_tail ..

theorem Same.t1ha0_32 (cfg : Cfg) (e : Endian) (data len : Nat) (seed seed' : U64) :
    Same w₁ w₂ I I any (t1ha0_32 cfg e data len seed) (t1ha0_32 cfg e data len seed') := by
  unfold Model.t1ha0_32
  refine Same.ite (fun _ => Same.t1ha0_body ..) (fun _ => Same.ite (fun _ => ?_) (fun _ => ?_))
  · exact Same.t1ha0_body ..
  · exact Same.t1ha0_body ..

theorem Same.t1ha2_UPDATE (cfg : Cfg) (al : Aligness) (s s' : State256) (v : Nat) :
    Same w₁ w₂ I I any (t1ha2_UPDATE cfg al s v) (t1ha2_UPDATE cfg al s' v) := by
  unfold Model.t1ha2_UPDATE
  same

macro_rules | `(tactic| same_step) => `(tactic| with_reducible exact Same.t1ha2_UPDATE _ _ _ _ _)

theorem Same.t1ha2_loop (cfg : Cfg) (al : Aligness) (detent fuel : Nat) (s s' : State256) (v : Nat) :
    Same w₁ w₂ I I sameSnd (t1ha2_loop cfg al detent fuel s v) (t1ha2_loop cfg al detent fuel s' v) := by
  induction fuel generalizing s s' v with
  | zero => exact Same.fail
  | succ fuel ih =>
    unfold Model.t1ha2_loop
    same
    exact ih _ _ _

theorem Same.t1ha2_LOOP (cfg : Cfg) (al : Aligness) (s s' : State256) (data len : Nat) :
    Same w₁ w₂ I I sameSnd (t1ha2_LOOP cfg al s data len) (t1ha2_LOOP cfg al s' data len) := by
  unfold Model.t1ha2_LOOP
  same
  exact Same.t1ha2_loop ..

theorem Same.t1ha2_TAIL_AB (cfg : Cfg) (al : Aligness) (s s' : State256) (v len : Nat) :
    Same w₁ w₂ I I any (t1ha2_TAIL_AB cfg al s v len) (t1ha2_TAIL_AB cfg al s' v len) := by
  unfold Model.t1ha2_TAIL_AB Model.t1ha2_TAIL_AB_mix
  same

theorem Same.t1ha2_TAIL_AB_mix (cfg : Cfg) (al : Aligness) (s s' : State256) (v len : Nat) :
    Same w₁ w₂ I I any (t1ha2_TAIL_AB_mix cfg al s v len) (t1ha2_TAIL_AB_mix cfg al s' v len) := by
  unfold Model.t1ha2_TAIL_AB_mix
  same

theorem Same.t1ha2_TAIL_ABCD_mix (cfg : Cfg) (al : Aligness) (s s' : State256) (v len : Nat) :
    Same w₁ w₂ I I any (t1ha2_TAIL_ABCD_mix cfg al s v len) (t1ha2_TAIL_ABCD_mix cfg al s' v len) := by
  unfold Model.t1ha2_TAIL_ABCD_mix
  same

theorem Same.writeInt (cfg : Cfg) (p n v v' : Nat)
    (hi : ∀ o₁ o₂, I o₁ o₂ → J (put o₁ p (cfg.endian.bytes n v)) (put o₂ p (cfg.endian.bytes n v'))) :
    Same w₁ w₂ I J any (writeInt cfg p n v) (writeInt cfg p n v') := by
  unfold Model.writeInt
  refine Same.store _ ?_ hi
  rw [Endian.bytes_length, Endian.bytes_length]

theorem Same.t1ha2_TAIL_ABCD (cfg : Cfg) (al : Aligness) (s s' : State256) (v len extra : Nat) :
    Same w₁ w₂ I anyOv any (t1ha2_TAIL_ABCD cfg al s v len extra) (t1ha2_TAIL_ABCD cfg al s' v len extra) := by
  unfold Model.t1ha2_TAIL_ABCD
  refine Same.bind (Same.t1ha2_TAIL_ABCD_mix ..) fun _ _ _ => ?_
  exact Same.seq (J := anyOv) (Same.writeInt _ _ _ _ _ fun _ _ _ => trivial) fun _ _ _ => Same.pure trivial

theorem Same.t1ha2_atonce (cfg : Cfg) (g g' : State256) (data len : Nat) (seed seed' : U64) :
    Same w₁ w₂ I I any (t1ha2_atonce cfg g data len seed) (t1ha2_atonce cfg g' data len seed') := by
  have body : ∀ al, Same w₁ w₂ I I any (t1ha2_atonce_body cfg al g data len seed)
      (t1ha2_atonce_body cfg al g' data len seed') := by
    intro al
    unfold Model.t1ha2_atonce_body
    refine Same.ite (fun _ => ?_) (fun _ => Same.t1ha2_TAIL_AB ..)
    refine Same.bindSnd (Same.t1ha2_LOOP ..) fun _ _ _ => ?_
    exact Same.t1ha2_TAIL_AB ..
  unfold Model.t1ha2_atonce
  exact Same.ite (fun _ => body _) (fun _ => Same.ite (fun _ => body _) (fun _ => body _))

theorem Same.t1ha2_atonce128 (cfg : Cfg) (g g' : State256) (extra data len : Nat) (seed seed' : U64) :
    Same w₁ w₂ I anyOv any (t1ha2_atonce128 cfg g extra data len seed) (t1ha2_atonce128 cfg g' extra data len seed') := by
  have body : ∀ al, Same w₁ w₂ I anyOv any (t1ha2_atonce128_body cfg al g extra data len seed)
      (t1ha2_atonce128_body cfg al g' extra data len seed') := by
    intro al
    unfold Model.t1ha2_atonce128_body
    refine Same.ite (fun _ => ?_) (fun _ => Same.t1ha2_TAIL_ABCD ..)
    refine Same.bindSnd (Same.t1ha2_LOOP ..) fun _ _ _ => ?_
    exact Same.t1ha2_TAIL_ABCD ..
  unfold Model.t1ha2_atonce128
  exact Same.ite (fun _ => body _) (fun _ => Same.ite (fun _ => body _) (fun _ => body _))

theorem Same.aes_tail (cfg : Cfg) (a b a' b' : U64) (v len : Nat) :
    Same w₁ w₂ I I any (aes_tail cfg a b v len) (aes_tail cfg a' b' v len) := by
  unfold Model.aes_tail
  same

theorem Same.aes_pair (cfg : Cfg) (x y x' y' : U128) (v : Nat) :
    Same w₁ w₂ I I sameThird (aes_pair cfg x y v) (aes_pair cfg x' y' v) := by
  unfold Model.aes_pair
  same

theorem Same.aes_b_dec (cfg : Cfg) (t t' : U128) (v : Nat) :
    Same w₁ w₂ I I sameSnd (aes_b_dec cfg t v) (aes_b_dec cfg t' v) := by
  unfold Model.aes_b_dec
  same

macro_rules | `(tactic| same_step) => `(tactic| with_reducible exact Same.aes_tail _ _ _ _ _ _ _)
macro_rules | `(tactic| same_step) => `(tactic| with_reducible exact Same.aes_pair _ _ _ _ _ _)
macro_rules | `(tactic| same_step) => `(tactic| with_reducible exact Same.aes_b_dec _ _ _ _)

theorem Same.aes_a_loop (cfg : Cfg) (detent fuel : Nat) (x y x' y' : U128) (v : Nat) :
    Same w₁ w₂ I I sameThird (aes_a_loop cfg detent fuel x y v) (aes_a_loop cfg detent fuel x' y' v) := by
  induction fuel generalizing x y x' y' v with
  | zero => exact Same.fail
  | succ fuel ih =>
    unfold Model.aes_a_loop
    same
    exact ih _ _ _ _ _

theorem Same.aes_b_loop (cfg : Cfg) (detent fuel : Nat) (x y z x' y' z' : U128) (v : Nat) :
    Same w₁ w₂ I I sameThird (aes_b_loop cfg detent fuel x y z v) (aes_b_loop cfg detent fuel x' y' z' v) := by
  induction fuel generalizing x y z x' y' z' v with
  | zero => exact Same.fail
  | succ fuel ih =>
    unfold Model.aes_b_loop
    same
    exact ih _ _ _ _ _ _ _

theorem Same.aes_b_pairs (cfg : Cfg) (detent fuel : Nat) (x y x' y' : U128) (v : Nat) :
    Same w₁ w₂ I I sameThird (aes_b_pairs cfg detent fuel x y v) (aes_b_pairs cfg detent fuel x' y' v) := by
  induction fuel generalizing x y x' y' v with
  | zero => exact Same.fail
  | succ fuel ih =>
    unfold Model.aes_b_pairs
    same
    exact ih _ _ _ _ _

theorem Same.aes_a_rest (cfg : Cfg) (x y x' y' : U128) (v len : Nat) :
    Same w₁ w₂ I I sameThird (aes_a_rest cfg x y v len) (aes_a_rest cfg x' y' v len) := by
  unfold Model.aes_a_rest
  same

macro_rules | `(tactic| same_step) => `(tactic| with_reducible exact Same.aes_a_loop _ _ _ _ _ _ _ _)
macro_rules | `(tactic| same_step) => `(tactic| with_reducible exact Same.aes_b_loop _ _ _ _ _ _ _ _ _ _)
macro_rules | `(tactic| same_step) => `(tactic| with_reducible exact Same.aes_b_pairs _ _ _ _ _ _ _ _)
macro_rules | `(tactic| same_step) => `(tactic| with_reducible exact Same.aes_a_rest _ _ _ _ _ _ _)

theorem Same.t1ha0_ia32aes_a (cfg : Cfg) (ac : AesCfg) (data len : Nat) (seed seed' : U64) :
    Same w₁ w₂ I I any (t1ha0_ia32aes_a cfg ac data len seed) (t1ha0_ia32aes_a cfg ac data len seed') := by
  unfold Model.t1ha0_ia32aes_a
  same

theorem Same.t1ha0_ia32aes_avx2 (cfg : Cfg) (ac : AesCfg) (data len : Nat) (seed seed' : U64) :
    Same w₁ w₂ I I any (t1ha0_ia32aes_avx2 cfg ac data len seed) (t1ha0_ia32aes_avx2 cfg ac data len seed') := by
  unfold Model.t1ha0_ia32aes_avx2
  same

/-- Two calls of a one-shot function with the same address and length. -/
theorem OneShot.same (f : OneShot) (cfg : Cfg) (data len : Nat) (seed seed' : U64) :
    Same w₁ w₂ anyOv anyOv any (f.run cfg data len seed) (f.run cfg data len seed') := by
  cases f with
  | t1ha1_le => exact Same.t1ha1 ..
  | t1ha1_be => exact Same.t1ha1 ..
  | t1ha2_atonce _ => exact Same.t1ha2_atonce ..
  | t1ha2_atonce128 _ _ => exact Same.t1ha2_atonce128 ..
  | t1ha0_32le => exact Same.t1ha0_32 ..
  | t1ha0_32be => exact Same.t1ha0_32 ..
  | t1ha0_ia32aes_noavx _ => exact Same.t1ha0_ia32aes_a ..
  | t1ha0_ia32aes_avx _ => exact Same.t1ha0_ia32aes_a ..
  | t1ha0_ia32aes_avx2 _ => exact Same.t1ha0_ia32aes_avx2 ..

end T1ha.Model
