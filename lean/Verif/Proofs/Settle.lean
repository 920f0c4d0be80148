import Verif.Proofs.RaceFn
import Verif.Proofs.ObliviousStream

/-!
# A calm world with the same run

From a run while other threads write into the buffer: the message which the call has found.
-/

namespace T1ha.Model

variable {w u : World} {B U : Nat → Prop} {α : Type} {cfg : Cfg} {al : Aligness}

/-! ## `t1ha2_update` -/

section update
variable {ctx : Nat} (hB : ∀ a, B a → a < ctx ∨ ctx + ctxSize cfg ≤ a)
include hB

/-- Reading in the context does not read the buffer. -/
theorem Race.ctxInt {p n : Nat} (h1 : ctx ≤ p) (h2 : p + n ≤ ctx + ctxSize cfg) :
    Race w u B U (Model.readInt cfg p n) (fun _ => U) := by
  refine Race.post (Race.pre (U := fun a => U a ∨ range p n a) (Race.readInt fun a _ hr => Or.inr hr) ?_) ?_
  · rintro a hb (h | h)
    · exact h
    · have := hB a hb
      dsimp only [range] at h
      omega
  · intro _ a hb hu
    have := hB a hb
    refine ⟨Or.inl hu, ?_⟩
    dsimp only [range]
    omega

theorem Race.ctxU64 {p : Nat} (h1 : ctx ≤ p) (h2 : p + 8 ≤ ctx + ctxSize cfg) :
    Race w u B U (readU64 cfg p) (fun _ => U) := by
  unfold Model.readU64
  exact (Race.ctxInt hB h1 h2).bind fun _ => Race.pure fun _ _ h => h

theorem Race.ctxPartial : Race w u B U (readPartial cfg ctx) (fun _ => U) := by
  have := offs cfg
  unfold Model.readPartial
  exact Race.ctxInt hB (by unfold offPartial; omega) (by unfold offPartial; omega)

theorem Race.ctxState : Race w u B U (readState cfg (ctx + offState)) (fun _ => U) := by
  have := offs cfg
  unfold Model.readState offState
  refine Race.bind (Race.ctxU64 hB (by omega) (by omega)) fun _ => ?_
  refine Race.bind (Race.ctxU64 hB (by omega) (by omega)) fun _ => ?_
  refine Race.bind (Race.ctxU64 hB (by omega) (by omega)) fun _ => ?_
  refine Race.bind (Race.ctxU64 hB (by omega) (by omega)) fun _ => ?_
  exact Race.pure fun _ _ h => h

omit hB in
theorem Race.writeU64 {p : Nat} {v : U64} : Race w u B U (Model.writeU64 cfg p v) (fun _ => U) :=
  Race.writeInt _ _ _ _

omit hB in
theorem Race.writePartial {v : Nat} : Race w u B U (Model.writePartial cfg ctx v) (fun _ => U) :=
  Race.writeInt _ _ _ _

omit hB in
theorem Race.writeState {p : Nat} {s : State256} : Race w u B U (Model.writeState cfg p s) (fun _ => U) := by
  unfold Model.writeState
  exact Race.writeU64.bind fun _ => Race.writeU64.bind fun _ => Race.writeU64.bind fun _ => Race.writeU64

omit hB in
theorem Race.memcpy {dst src n : Nat} (h : ∀ a, B a → range src n a → U a) :
    Race w u B U (Model.memcpy dst src n) (Left U src n) := by
  unfold Model.memcpy
  exact Race.ite (fun _ => Race.fail) fun _ => (Race.load h).bind fun _ => Race.store _ _

theorem Race.UPDATE_mem {v : Nat} (h : ∀ a, B a → range v 32 a → U a) :
    Race w u B U (t1ha2_UPDATE_mem cfg al (ctx + offState) v) (Left U v 32) := by
  unfold Model.t1ha2_UPDATE_mem
  exact (Race.ctxState hB).bind fun _ => (Race.t1ha2_UPDATE h).bind fun _ => Race.writeState

theorem Race.UPDATE_own :
    Race w u B U (t1ha2_UPDATE_mem cfg al (ctx + offState) (ctx + offBuffer)) (fun _ => U) := by
  have := offs cfg
  refine Race.post (Race.pre (U := fun a => U a ∨ range (ctx + offBuffer) 32 a)
    (Race.UPDATE_mem hB fun a _ hr => Or.inr hr) ?_) ?_
  · rintro a hb (h | h)
    · exact h
    · have := hB a hb
      dsimp only [range, offBuffer] at h
      omega
  · intro _ a hb hu
    have := hB a hb
    refine ⟨Or.inl hu, ?_⟩
    dsimp only [range, offBuffer]
    omega

theorem Race.loop_mem (detent fuel : Nat) (v : Nat) :
    Race w u B (Above v) (t1ha2_loop_mem cfg al (ctx + offState) detent fuel v) (fun y => Above y) := by
  induction fuel generalizing v with
  | zero => exact Race.fail
  | succ fuel ih =>
    unfold Model.t1ha2_loop_mem
    refine Race.iterate.bind fun _ => Race.afterAdd ?_
    refine (Race.UPDATE_mem hB fun a _ hr => hr.1).bind fun _ => ?_
    have next : ∀ a, B a → Above (v + 32) a → Left (α := Unit) (Above v) v 32 () a := by
      race_side
    exact Race.ite (fun _ => (ih _).pre next) fun _ => Race.pure next

theorem Race.LOOP_mem {data len : Nat} :
    Race w u B (Above data) (t1ha2_LOOP_mem cfg al (ctx + offState) data len) (fun y => Above y) := by
  unfold Model.t1ha2_LOOP_mem
  exact Race.afterAdd <| Race.afterSub fun _ => Race.loop_mem hB _ _ _

theorem Race.update_rest {data len : Nat} :
    Race w u B (Above data) (t1ha2_update_rest cfg ctx data len) Gone := by
  unfold Model.t1ha2_update_rest
  refine Race.bind (V := fun x => Above x.1) (Race.ite (fun _ => ?_) fun _ => Race.pure fun _ _ h => h) ?_
  · refine Race.bind (V := fun y => Above y) ?_ fun _ => Race.pure fun _ _ h => h
    exact Race.ite (fun _ => Race.LOOP_mem hB) fun _ =>
      Race.ite (fun _ => Race.LOOP_mem hB) fun _ => Race.LOOP_mem hB
  rintro ⟨data, len⟩
  refine Race.ite (fun _ => ?_) fun _ => Race.pure fun _ _ h => h.elim
  exact Race.writePartial.bind fun _ => Race.post (Race.memcpy fun a _ hr => hr.1) fun _ _ _ h => h.elim

/-- `t1ha2_update` reads no byte of the given piece twice. -/
theorem Race.t1ha2_update {data len : Nat} :
    Race w u B (Above data) (Model.t1ha2_update cfg ctx data len) Gone := by
  have := offs cfg
  unfold Model.t1ha2_update
  refine (Race.ctxU64 hB (by omega) (by omega)).bind fun _ => Race.writeU64.bind fun _ => ?_
  refine (Race.ctxPartial hB).bind fun part => Race.ite (fun _ => ?_) fun _ => Race.update_rest hB
  dsimp only
  generalize (if szSub cfg 32 part ≤ len then szSub cfg 32 part else len) = chunk
  refine (Race.memcpy fun a _ hr => hr.1).bind fun _ => ?_
  refine Race.pre (U := Above (data + chunk)) ?_ (by race_side)
  refine (Race.ctxPartial hB).bind fun _ => Race.writePartial.bind fun _ => (Race.ctxPartial hB).bind fun _ => ?_
  refine Race.ite (fun _ => Race.post (Race.cassert _ _) fun _ _ _ h => h.elim) fun _ => ?_
  refine Race.writePartial.bind fun _ => Race.afterAdd ?_
  exact (Race.UPDATE_own hB).bind fun _ => Race.update_rest hB

end update

/-! ## The calm world -/

/-- `w`, but with the bytes `z` in the buffer at every moment. -/
def calm (w : World) (data len : Nat) (z : Nat → Byte) : World where
  cell t a := if data ≤ a ∧ a < data + len then (w.cell t a).map fun _ => z a else w.cell t a
  writable := w.writable

theorem calm_alike {data len : Nat} {z : Nat → Byte} : Alike w (calm w data len z) (range data len) where
  mapped t a := by
    unfold calm
    dsimp only
    split <;> simp
  outside t a h := by
    unfold calm
    dsimp only
    exact (if_neg h).symm
  writable _ := rfl

theorem Mapped.alike {p n : Nat} (h : Mapped w p n) (hw : Alike w u B) : Mapped u p n := fun t i hi => by
  rw [← hw.mapped]; exact h t i hi

theorem Writable.alike {p n : Nat} (h : Writable w p n) (hw : Alike w u B) : Writable u p n :=
  ⟨h.1.alike hw, fun i hi => by rw [← hw.writable]; exact h.2 i hi⟩

theorem Paged.alike {page : Nat} (h : Paged w page) (hw : Alike w u B) : Paged u page := fun t a b hab => by
  rw [← hw.mapped, ← hw.mapped]; exact h t a b hab

theorem OneShot.Ready.alike {f : OneShot} {data len : Nat} (h : f.Ready cfg w data len) (hw : Alike w u B) :
    f.Ready cfg u data len where
  slack hf := (h.slack hf).imp id fun hm => hm.alike hw
  builds := h.builds
  output p hp := (h.output p hp).alike hw
  bottom := h.bottom
  top := h.top
  ulong := h.ulong

/-- The message in the calm world. -/
def calmMsg (ov : Overlay) (data len : Nat) (z : Nat → Byte) : List Byte :=
  (List.range len).map fun i => (ov (data + i)).getD (z (data + i))

theorem length_calmMsg {ov : Overlay} {data len : Nat} {z : Nat → Byte} : (calmMsg ov data len z).length = len := by
  simp [calmMsg]

theorem calm_holds {ov : Overlay} {data len : Nat} {z : Nat → Byte} (h : Mapped w data len) :
    Holds (calm w data len z) ov data (calmMsg ov data len z) := by
  intro t i b hb
  have hi : i < len := by
    rcases Nat.lt_or_ge i len with h | h
    · exact h
    · rw [List.getElem?_eq_none (by rw [length_calmMsg]; exact h)] at hb
      exact nomatch hb
  obtain ⟨c, hc⟩ := Option.isSome_iff_exists.1 (h t i hi)
  unfold see calm
  dsimp only
  rw [if_pos ⟨by omega, by omega⟩, hc]
  simpa [calmMsg, hi] using hb

/-- The run in `w` is the run in a calm world with bytes which were there during the run. -/
theorem settle {m : M α} {s : Sys} {data len : Nat} {V : α → Nat → Prop} (hm : Mapped w data len)
    (hrace : ∀ z, Race w (calm w data len z) (range data len) (Above data) m V)
    (hrun : ∀ z, ∃ v s' t, Returns m (calm w data len z) s v s' t ∧
      ∀ a, range data len a → ∃ x ∈ t, x.covers a)
    (hsame : ∀ z z' v s' v' s'', m (calm w data len z) s = .ok (v, s') →
      m (calm w data len z') s = .ok (v', s'') → s'.log = s''.log) :
    ∃ z v s' t, Returns m w s v s' t ∧ Returns m (calm w data len z) s v s' t ∧
      ∀ a, range data len a → ∃ τ, s.log.length ≤ τ ∧ τ < s'.log.length ∧ w.cell τ a = some (z a) := by
  classical
  obtain ⟨v₀, s₀, t₀, ⟨r₀, e₀⟩, _⟩ := hrun fun _ => 0
  let z : Nat → Byte := fun a =>
    (w.cell (s.log.length + t₀.reverse.findIdx fun x => decide (x.covers a)) a).getD 0
  obtain ⟨v, s', t, ⟨r, e⟩, hcov⟩ := hrun z
  have ht : t = t₀ := List.append_cancel_right (by rw [← e, ← e₀]; exact hsame _ _ _ _ _ _ r r₀)
  subst ht
  have hz : ∀ a, range data len a → ∀ pre x post, t = post ++ x :: pre → x.covers a →
      (∀ y ∈ pre, ¬ y.covers a) → w.cell (s.log.length + pre.length) a = some (z a) := by
    intro a ha pre x post ht hc hp
    have : t.reverse.findIdx (fun x => decide (x.covers a)) = pre.length := by
      rw [ht, List.reverse_append, List.reverse_cons, List.append_assoc, List.findIdx_append]
      rw [if_neg (by
        rw [List.findIdx_lt_length]
        rintro ⟨y, hy, hd⟩
        exact hp y (List.mem_reverse.1 hy) (of_decide_eq_true hd))]
      simp [List.findIdx_cons, hc]
    have hs := hm (s.log.length + pre.length) (a - data) (by have := ha; dsimp only [range] at this; omega)
    rw [show data + (a - data) = a by have := ha; dsimp only [range] at this; omega] at hs
    obtain ⟨b, hb⟩ := Option.isSome_iff_exists.1 hs
    simp only [z, this, hb, Option.getD_some]
  obtain ⟨t', e', _, h2⟩ := (hrace z).run calm_alike _ _ _ r
  obtain rfl : t' = t := List.append_cancel_right (by rw [← e', ← e])
  refine ⟨z, v, s', t', ⟨h2 ?_, e⟩, ⟨r, e⟩, ?_⟩
  · intro a ha pre x post ht hc hp
    rw [hz a ha.1 pre x post ht hc hp]
    unfold calm
    dsimp only
    rw [if_pos (show data ≤ a ∧ a < data + len from ha.1), hz a ha.1 pre x post ht hc hp]
    rfl
  · intro a ha
    obtain ⟨x, hx, hc⟩ := hcov a ha
    have hne : ∃ x ∈ t'.reverse, decide (x.covers a) = true := ⟨x, List.mem_reverse.2 hx, decide_eq_true hc⟩
    have hlt := List.findIdx_lt_length.2 hne
    generalize hk : t'.reverse.findIdx (fun x => decide (x.covers a)) = k at hlt
    refine ⟨s.log.length + k, by omega, ?_, ?_⟩
    · rw [e, List.length_append]
      rw [List.length_reverse] at hlt
      omega
    · have hs := hm (s.log.length + k) (a - data) (by have := ha; dsimp only [range] at this; omega)
      rw [show data + (a - data) = a by have := ha; dsimp only [range] at this; omega] at hs
      obtain ⟨b, hb⟩ := Option.isSome_iff_exists.1 hs
      simp only [z, hk, hb, Option.getD_some]

end T1ha.Model
