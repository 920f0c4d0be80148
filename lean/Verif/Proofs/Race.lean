import Verif.Proofs.Tail32
import Verif.Proofs.OneShot
import Verif.Proofs.Oblivious

/-!
# Runs while other threads write into the buffer

A program logic for pairs of runs: one in a world `w` in which the bytes of the buffer change, one in a
calm world `u` in which they do not. If every byte of the buffer had, when it was read for the first time
in the one run, the value which it always has in the other one, then the two runs are the same. What a
program reads for a second time must not matter to it.
-/

namespace T1ha.Model

/-- The worlds `w` and `u` differ in the values of the bytes at the addresses `B` only. -/
structure Alike (w u : World) (B : Nat → Prop) : Prop where
  mapped : ∀ t a, (w.cell t a).isSome = (u.cell t a).isSome
  outside : ∀ t a, ¬ B a → w.cell t a = u.cell t a
  writable : ∀ a, w.writable a = u.writable a

/-- At each moment when an event of `t` is the first one to read an address of `U`, the two worlds have
the same byte there. (`t` starts at moment `base`, and lists the latest event first.) -/
def Agree (w u : World) (U : Nat → Prop) (base : Nat) (t : List Ev) : Prop :=
  ∀ a, U a → ∀ pre x post, t = post ++ x :: pre → x.covers a → (∀ y ∈ pre, ¬ y.covers a) →
    w.cell (base + pre.length) a = u.cell (base + pre.length) a

/-- A run of `m` in the calm world `u` which starts when no address of `U` has been read yet. If the
worlds agree at the first reads, the run in `w` is the same. When `v` is returned, the addresses of `V v`
have not been read yet. -/
structure Race (w u : World) (B U : Nat → Prop) {α : Type} (m : M α) (V : α → Nat → Prop) : Prop where
  intro ::
  run : Alike w u B → ∀ s v s', m u s = .ok (v, s') → ∃ t, s'.log = t ++ s.log ∧
    (∀ a, B a → V v a → U a ∧ ∀ x ∈ t, ¬ x.covers a) ∧
    (Agree w u (fun a => B a ∧ U a) s.log.length t → m w s = .ok (v, s'))

variable {w u : World} {B U : Nat → Prop} {α β : Type} {V : α → Nat → Prop} {W : β → Nat → Prop}

/-- Everything but the `n` bytes at `p`. -/
abbrev Left {α : Type} (U : Nat → Prop) (p n : Nat) : α → Nat → Prop := fun _ a => U a ∧ ¬ range p n a

/-- The addresses from `v` on. -/
abbrev Above (v : Nat) : Nat → Prop := fun a => v ≤ a

set_option hygiene false in
/-- Close a goal about sets of addresses. -/
macro "race_side" : tactic => `(tactic| (intro a hB hV; first
  | exact hV
  | exact False.elim hV
  | exact h a hB hV
  | (dsimp only [Left, Above, range] at hV ⊢
     try dsimp only [Above, range] at h
     repeat' apply And.intro
     all_goals first
       | omega
       | exact And.left hV
       | exact h a hB (by omega))))

theorem Race.pure {v : α} (h : ∀ a, B a → V v a → U a) : Race w u B U (pure v : M α) V := by
  refine ⟨fun _ s v' s' hr => ?_⟩
  cases hr
  exact ⟨[], rfl, fun a hb hv => ⟨h a hb hv, by simp⟩, fun _ => rfl⟩

theorem Race.fail {e : Err} : Race w u B U (fail e : M α) V :=
  ⟨fun _ _ _ _ hr => nomatch hr⟩

theorem Race.bind {m : M α} {k : α → M β} (h : Race w u B U m V) (hk : ∀ v, Race w u B (V v) (k v) W) :
    Race w u B U (m >>= k) W := by
  refine ⟨fun hw s v s' hr => ?_⟩
  change M.bind m k u s = _ at hr
  unfold M.bind at hr
  split at hr
  · exact nomatch hr
  · rename_i x s₁ hx
    obtain ⟨t, e, hv, ha⟩ := h.run hw _ _ _ hx
    obtain ⟨t', e', hv', ha'⟩ := (hk x).run hw _ _ _ hr
    refine ⟨t' ++ t, by rw [e', e, List.append_assoc], ?_, ?_⟩
    · intro a hb hw'
      obtain ⟨h1, h2⟩ := hv' a hb hw'
      obtain ⟨h3, h4⟩ := hv a hb h1
      refine ⟨h3, fun y hy => ?_⟩
      rcases List.mem_append.1 hy with hy | hy
      · exact h2 y hy
      · exact h4 y hy
    · intro hagree
      have first := ha fun a hu pre y post ht hc hp =>
        hagree a hu pre y (t' ++ post) (by rw [ht, List.append_assoc]) hc hp
      have second := ha' fun a hu pre y post ht hc hp => by
        obtain ⟨h3, h4⟩ := hv a hu.1 hu.2
        have := hagree a ⟨hu.1, h3⟩ (pre ++ t) y post (by rw [ht]; simp) hc fun z hz => by
          rcases List.mem_append.1 hz with hz | hz
          · exact hp z hz
          · exact h4 z hz
        rw [e]
        rw [List.length_append] at this ⊢
        rwa [show t.length + s.log.length + pre.length = s.log.length + (pre.length + t.length) by omega]
      show M.bind m k w s = _
      unfold M.bind
      rw [first]
      exact second

theorem Race.post {m : M α} {V' : α → Nat → Prop} (h : Race w u B U m V)
    (hv : ∀ v a, B a → V' v a → V v a) : Race w u B U m V' :=
  ⟨fun hw s v s' hr =>
    let ⟨t, e, h1, h2⟩ := h.run hw s v s' hr
    ⟨t, e, fun a hb ha => h1 a hb (hv v a hb ha), h2⟩⟩

theorem Race.pre {m : M α} {U' : Nat → Prop} (h : Race w u B U m V)
    (hu : ∀ a, B a → U a → U' a) : Race w u B U' m V :=
  ⟨fun hw s v s' hr =>
    let ⟨t, e, h1, h2⟩ := h.run hw s v s' hr
    ⟨t, e, fun a hb ha => ⟨hu a hb (h1 a hb ha).1, (h1 a hb ha).2⟩,
      fun hag => h2 fun a ha => hag a ⟨ha.1, hu a ha.1 ha.2⟩⟩⟩

theorem Race.ite {c : Prop} [Decidable c] {a b : M α} (h : c → Race w u B U a V)
    (h' : ¬ c → Race w u B U b V) : Race w u B U (if c then a else b) V := by
  split
  · exact h ‹_›
  · exact h' ‹_›

theorem Race.cassert (cfg : Cfg) (c : Bool) : Race w u B U (cassert cfg c) (fun _ => U) := by
  unfold Model.cassert
  exact Race.ite (fun _ => Race.pure fun _ _ h => h) fun _ =>
    Race.ite (fun _ => Race.pure fun _ _ h => h) fun _ => Race.fail

theorem Race.afterPointer {p : Nat} {k : Nat → M β} (hk : Race w u B U (k p) W) :
    Race w u B U (pointer p >>= k) W := by
  refine ⟨fun hw s v s' hr => ?_⟩
  change k p u { s with log := .ptr p :: s.log } = _ at hr
  obtain ⟨t, e, hv, ha⟩ := hk.run hw _ _ _ hr
  refine ⟨t ++ [.ptr p], by rw [e]; simp, ?_, ?_⟩
  · intro a hb hw'
    obtain ⟨h1, h2⟩ := hv a hb hw'
    refine ⟨h1, fun y hy => ?_⟩
    rcases List.mem_append.1 hy with hy | hy
    · exact h2 y hy
    · rw [List.mem_singleton.1 hy]; exact id
  · intro hagree
    show k p w { s with log := .ptr p :: s.log } = _
    refine ha fun a hu pre y post ht hc hp => ?_
    have := hagree a hu (pre ++ [.ptr p]) y post (by rw [ht]; simp) hc fun z hz => by
      rcases List.mem_append.1 hz with hz | hz
      · exact hp z hz
      · rw [List.mem_singleton.1 hz]; exact id
    rw [List.length_append, List.length_singleton] at this
    rw [List.length_cons]
    rwa [show s.log.length + 1 + pre.length = s.log.length + (pre.length + 1) by omega]

theorem Race.afterAdd {cfg : Cfg} {p n : Nat} {k : Nat → M β} (hk : Race w u B U (k (p + n)) W) :
    Race w u B U (ptrAdd cfg p n >>= k) W := by
  unfold Model.ptrAdd
  split
  · exact Race.afterPointer hk
  · exact Race.fail

theorem Race.afterSub {cfg : Cfg} {p n : Nat} {k : Nat → M β} (hk : n ≤ p → Race w u B U (k (p - n)) W) :
    Race w u B U (ptrSub cfg p n >>= k) W := by
  unfold Model.ptrSub
  split
  · exact Race.afterPointer (hk ‹_›)
  · exact Race.fail

theorem Race.iterate : Race w u B U iterate (fun _ => U) := by
  refine ⟨fun _ s v s' hr => ?_⟩
  cases hr
  refine ⟨[.iter], rfl, fun a hb hv => ⟨hv, ?_⟩, fun _ => rfl⟩
  intro x hx
  rw [List.mem_singleton.1 hx]
  exact id

theorem canWrite_alike (h : Alike w u B) (t p n : Nat) : canWrite w t p n = canWrite u t p n := by
  induction n generalizing p with
  | zero => rfl
  | succ n ih => simp only [canWrite, h.mapped, h.writable, ih]

theorem Race.store (p : Nat) (bs : List Byte) : Race w u B U (store p bs) (fun _ => U) := by
  refine ⟨fun hw s v s' hr => ?_⟩
  unfold Model.store at hr ⊢
  rw [canWrite_alike hw]
  split at hr
  · rename_i hc
    rw [if_pos hc]
    cases hr
    refine ⟨[.wr p bs.length], rfl, fun a hb hv => ⟨hv, ?_⟩, fun _ => rfl⟩
    intro x hx
    rw [List.mem_singleton.1 hx]
    exact id
  · exact nomatch hr

theorem Race.writeInt (cfg : Cfg) (p n v : Nat) : Race w u B U (writeInt cfg p n v) (fun _ => U) :=
  Race.store _ _

theorem seeBytes_length {w : World} {ov : Overlay} {t p n : Nat} {bs : List Byte}
    (h : seeBytes w ov t p n = some bs) : bs.length = n := by
  induction n generalizing p bs with
  | zero => cases h; rfl
  | succ n ih =>
    unfold seeBytes at h
    split at h
    · rename_i h2
      cases h
      rw [List.length_cons, ih h2]
    · exact nomatch h

/-- What is found in the two worlds. -/
theorem seeBytes_alike (hw : Alike w u B) {ov : Overlay} {t p n : Nat} {bs : List Byte}
    (h : seeBytes u ov t p n = some bs) : ∃ bs', seeBytes w ov t p n = some bs' ∧
      ∀ i, i < n → w.cell t (p + i) = u.cell t (p + i) → bs'[i]? = bs[i]? := by
  induction n generalizing p bs with
  | zero => exact ⟨[], rfl, by omega⟩
  | succ n ih =>
    unfold seeBytes at h
    split at h
    · rename_i b bs₁ h1 h2
      cases h
      obtain ⟨bs', e, hi⟩ := ih h2
      have hs : (see w ov t p).isSome := by rw [see_isSome, hw.mapped, ← see_isSome (ov := ov), h1]; rfl
      obtain ⟨b', hb'⟩ := Option.isSome_iff_exists.1 hs
      refine ⟨b' :: bs', by simp [seeBytes, hb', e], ?_⟩
      intro i hn hc
      cases i with
      | zero =>
        rw [Nat.add_zero] at hc
        have : see w ov t p = see u ov t p := by unfold see; rw [hc]
        rw [hb', h1] at this
        simpa using this
      | succ i =>
        have := hi i (by omega) (by rwa [show p + 1 + i = p + (i + 1) by omega])
        simpa using this
    · exact nomatch h

/-- A read of which only some bytes matter. -/
theorem Race.masked {q n : Nat} {f : List Byte → α} {C : Nat → Prop}
    (hf : ∀ bs bs' : List Byte, bs.length = n → bs'.length = n →
      (∀ i, i < n → C (q + i) → bs[i]? = bs'[i]?) → f bs = f bs')
    (hC : ∀ a, B a → C a → range q n a → U a) :
    Race w u B U (Model.load q n >>= fun bs => Pure.pure (f bs)) (fun _ a => U a ∧ ¬ range q n a) := by
  refine ⟨fun hw s v s' hr => ?_⟩
  change M.bind (Model.load q n) _ u s = _ at hr
  unfold M.bind Model.load at hr
  split at hr
  · exact nomatch hr
  · rename_i x s₁ hx
    split at hx
    · rename_i bs hbs
      cases hx
      cases hr
      refine ⟨[.rd q n], rfl, fun a hb hv => ⟨hv.1, ?_⟩, fun hag => ?_⟩
      · intro x hx
        rw [List.mem_singleton.1 hx]
        exact hv.2
      · obtain ⟨bs', e, hi⟩ := seeBytes_alike hw hbs
        show M.bind (Model.load q n) _ w s = _
        unfold M.bind Model.load
        simp only [e]
        show Except.ok (f bs', _) = Except.ok (f x, _)
        rw [hf bs' x (seeBytes_length e) (seeBytes_length hbs) ?_]
        intro i hn hc
        refine hi i hn ?_
        by_cases hb : B (q + i)
        · have := hag (q + i) ⟨hb, hC _ hb hc (by dsimp only [range]; omega)⟩ [] (.rd q n) [] rfl
            (by show _ ∧ _; omega) (by simp)
          simpa using this
        · exact hw.outside _ _ hb
    · exact nomatch hx

theorem Race.load {q n : Nat} (h : ∀ a, B a → range q n a → U a) :
    Race w u B U (Model.load q n) (fun _ a => U a ∧ ¬ range q n a) := by
  have := Race.masked (w := w) (u := u) (B := B) (U := U) (q := q) (n := n) (f := fun bs => bs) (C := fun _ => True)
    (fun bs bs' h1 h2 hi => List.ext_getElem? fun i => by
      by_cases hn : i < n
      · exact hi i hn trivial
      · rw [List.getElem?_eq_none (by omega), List.getElem?_eq_none (by omega)]) (fun a hb _ => h a hb)
  rwa [show (Model.load q n >>= fun bs => Pure.pure bs) = Model.load q n from bind_pure _] at this

/-- A single operation. -/
syntax "race_leaf" : tactic
macro_rules | `(tactic| race_leaf) => `(tactic| with_reducible exact Race.fail)
macro_rules | `(tactic| race_leaf) => `(tactic| with_reducible exact Race.cassert _ _)
macro_rules | `(tactic| race_leaf) => `(tactic| with_reducible exact Race.iterate)
macro_rules | `(tactic| race_leaf) => `(tactic| with_reducible exact Race.store _ _)
macro_rules | `(tactic| race_leaf) => `(tactic| with_reducible exact Race.writeInt _ _ _ _)
macro_rules | `(tactic| race_leaf) => `(tactic| (with_reducible refine Race.load ?_) <;> race_side)

/-- One step. -/
macro "race_step" : tactic => `(tactic| first
  | (with_reducible refine Race.pure ?_) <;> race_side
  | with_reducible refine Race.afterAdd ?_
  | with_reducible refine Race.afterSub (fun _ => ?_)
  | with_reducible refine Race.bind (V := ?_) ?_ (fun _ => ?_)
  | with_reducible refine Race.ite (fun _ => ?_) (fun _ => ?_)
  | race_leaf
  | ((with_reducible refine Race.post (V := ?_) ?_ (fun _ => ?_)) <;> [skip; race_leaf; race_side])
  | fail)

/-- Walk through a computation. -/
macro "race" : tactic => `(tactic| repeat' race_step)

theorem Race.byteAt {p i : Nat} (h : ∀ a, B a → range (p + i) 1 a → U a) :
    Race w u B U (byteAt p i) (Left U (p + i) 1) := by
  unfold Model.byteAt
  race

theorem Race.readInt {cfg : Cfg} {p n : Nat} (h : ∀ a, B a → range p n a → U a) :
    Race w u B U (readInt cfg p n) (Left U p n) := by
  unfold Model.readInt
  race

macro_rules | `(tactic| race_leaf) => `(tactic| (with_reducible refine Race.byteAt ?_) <;> race_side)
macro_rules | `(tactic| race_leaf) => `(tactic| (with_reducible refine Race.readInt ?_) <;> race_side)

theorem Race.read_unaligned {cfg : Cfg} {p n : Nat} (h : ∀ a, B a → range p n a → U a) :
    Race w u B U (read_unaligned cfg p n) (Left U p n) := by
  unfold Model.read_unaligned
  refine Race.ite (fun _ => Race.afterSub fun hn => ?_) fun _ => Race.readInt h
  rw [Nat.sub_add_cancel hn]
  exact Race.readInt h

theorem Race.read_aligned {cfg : Cfg} {p n : Nat} (h : ∀ a, B a → range p n a → U a) :
    Race w u B U (read_aligned cfg p n) (Left U p n) := by
  unfold Model.read_aligned
  race

macro_rules | `(tactic| race_leaf) => `(tactic| (with_reducible refine Race.read_unaligned ?_) <;> race_side)
macro_rules | `(tactic| race_leaf) => `(tactic| (with_reducible refine Race.read_aligned ?_) <;> race_side)

theorem Race.fetch16_le_aligned {cfg : Cfg} {p : Nat} (h : ∀ a, B a → range p 2 a → U a) :
    Race w u B U (fetch16_le_aligned cfg p) (Left U p 2) := by
  unfold Model.fetch16_le_aligned
  cases cfg.endian <;> race

macro_rules | `(tactic| race_leaf) => `(tactic| (with_reducible refine Race.fetch16_le_aligned ?_) <;> race_side)

theorem Race.fetch16_le_unaligned {cfg : Cfg} {p : Nat} (h : ∀ a, B a → range p 2 a → U a) :
    Race w u B U (fetch16_le_unaligned cfg p) (Left U p 2) := by
  unfold Model.fetch16_le_unaligned
  cases cfg.endian <;> race

macro_rules | `(tactic| race_leaf) => `(tactic| (with_reducible refine Race.fetch16_le_unaligned ?_) <;> race_side)

theorem Race.fetch16_be_aligned {cfg : Cfg} {p : Nat} (h : ∀ a, B a → range p 2 a → U a) :
    Race w u B U (fetch16_be_aligned cfg p) (Left U p 2) := by
  unfold Model.fetch16_be_aligned
  cases cfg.endian <;> race

macro_rules | `(tactic| race_leaf) => `(tactic| (with_reducible refine Race.fetch16_be_aligned ?_) <;> race_side)

theorem Race.fetch16_be_unaligned {cfg : Cfg} {p : Nat} (h : ∀ a, B a → range p 2 a → U a) :
    Race w u B U (fetch16_be_unaligned cfg p) (Left U p 2) := by
  unfold Model.fetch16_be_unaligned
  cases cfg.endian <;> race

macro_rules | `(tactic| race_leaf) => `(tactic| (with_reducible refine Race.fetch16_be_unaligned ?_) <;> race_side)

theorem Race.fetch32_le_aligned {cfg : Cfg} {p : Nat} (h : ∀ a, B a → range p 4 a → U a) :
    Race w u B U (fetch32_le_aligned cfg p) (Left U p 4) := by
  unfold Model.fetch32_le_aligned
  cases cfg.endian <;> race

macro_rules | `(tactic| race_leaf) => `(tactic| (with_reducible refine Race.fetch32_le_aligned ?_) <;> race_side)

theorem Race.fetch32_le_unaligned {cfg : Cfg} {p : Nat} (h : ∀ a, B a → range p 4 a → U a) :
    Race w u B U (fetch32_le_unaligned cfg p) (Left U p 4) := by
  unfold Model.fetch32_le_unaligned
  cases cfg.endian <;> race

macro_rules | `(tactic| race_leaf) => `(tactic| (with_reducible refine Race.fetch32_le_unaligned ?_) <;> race_side)

theorem Race.fetch32_be_aligned {cfg : Cfg} {p : Nat} (h : ∀ a, B a → range p 4 a → U a) :
    Race w u B U (fetch32_be_aligned cfg p) (Left U p 4) := by
  unfold Model.fetch32_be_aligned
  cases cfg.endian <;> race

macro_rules | `(tactic| race_leaf) => `(tactic| (with_reducible refine Race.fetch32_be_aligned ?_) <;> race_side)

theorem Race.fetch32_be_unaligned {cfg : Cfg} {p : Nat} (h : ∀ a, B a → range p 4 a → U a) :
    Race w u B U (fetch32_be_unaligned cfg p) (Left U p 4) := by
  unfold Model.fetch32_be_unaligned
  cases cfg.endian <;> race

macro_rules | `(tactic| race_leaf) => `(tactic| (with_reducible refine Race.fetch32_be_unaligned ?_) <;> race_side)

theorem Race.fetch64_le_aligned {cfg : Cfg} {p : Nat} (h : ∀ a, B a → range p 8 a → U a) :
    Race w u B U (fetch64_le_aligned cfg p) (Left U p 8) := by
  unfold Model.fetch64_le_aligned
  cases cfg.endian <;> race

macro_rules | `(tactic| race_leaf) => `(tactic| (with_reducible refine Race.fetch64_le_aligned ?_) <;> race_side)

theorem Race.fetch64_le_unaligned {cfg : Cfg} {p : Nat} (h : ∀ a, B a → range p 8 a → U a) :
    Race w u B U (fetch64_le_unaligned cfg p) (Left U p 8) := by
  unfold Model.fetch64_le_unaligned
  cases cfg.endian <;> race

macro_rules | `(tactic| race_leaf) => `(tactic| (with_reducible refine Race.fetch64_le_unaligned ?_) <;> race_side)

theorem Race.fetch64_be_aligned {cfg : Cfg} {p : Nat} (h : ∀ a, B a → range p 8 a → U a) :
    Race w u B U (fetch64_be_aligned cfg p) (Left U p 8) := by
  unfold Model.fetch64_be_aligned
  cases cfg.endian <;> race

macro_rules | `(tactic| race_leaf) => `(tactic| (with_reducible refine Race.fetch64_be_aligned ?_) <;> race_side)

theorem Race.fetch64_be_unaligned {cfg : Cfg} {p : Nat} (h : ∀ a, B a → range p 8 a → U a) :
    Race w u B U (fetch64_be_unaligned cfg p) (Left U p 8) := by
  unfold Model.fetch64_be_unaligned
  cases cfg.endian <;> race

macro_rules | `(tactic| race_leaf) => `(tactic| (with_reducible refine Race.fetch64_be_unaligned ?_) <;> race_side)

end T1ha.Model
