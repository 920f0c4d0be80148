import Verif.Proofs.Oblivious
import Verif.Proofs.Session

/-!
# What the streaming functions access does not depend on the bytes or on the seeds

The functions of `src/t1ha2.c` look at one thing in the context: the number of bytes in its buffer.
-/

namespace T1ha.Model

variable {w₁ w₂ : World} {cfg : Cfg} {ctx : Nat}

/-- In both runs, `n` bytes are in the buffer of the context. -/
abbrev Count (cfg : Cfg) (w₁ w₂ : World) (ctx n : Nat) : Overlay → Overlay → Prop := fun o₁ o₂ =>
  Holds w₁ o₁ (ctx + 64) (cfg.endian.bytes (szBytes cfg) n) ∧
    Holds w₂ o₂ (ctx + 64) (cfg.endian.bytes (szBytes cfg) n)

theorem Count.put {n q : Nat} {bs bs' : List Byte} {o₁ o₂ : Overlay} (h : Count cfg w₁ w₂ ctx n o₁ o₂)
    (hl : bs.length = bs'.length)
    (hd : q + bs.length ≤ ctx + 64 ∨ ctx + 64 + szBytes cfg ≤ q) :
    Count cfg w₁ w₂ ctx n (Model.put o₁ q bs) (Model.put o₂ q bs') := by
  refine ⟨h.1.put ?_, h.2.put ?_⟩ <;> rw [length_bytes] <;> omega

theorem Same.readPartial {n : Nat} (hn : n ≤ 32) :
    Same w₁ w₂ (Count cfg w₁ w₂ ctx n) (Count cfg w₁ w₂ ctx n) (fun a b => a = n ∧ b = n)
      (readPartial cfg ctx) (readPartial cfg ctx) := by
  refine ⟨?_⟩
  intro s₁ s₂ v₁ s₁' v₂ s₂' hi h₁ h₂
  obtain ⟨t, r, j⟩ := (Same.readInt cfg (ctx + offPartial) (szBytes cfg)).run s₁ s₂ v₁ s₁' v₂ s₂' hi h₁ h₂
  obtain ⟨_, _, _, k₁, q₁, _⟩ := returns_of_exec (s := s₁) (reads_readPartial (P := fun _ => True) hi.1 hn trivial)
  obtain ⟨_, _, _, k₂, q₂, _⟩ := returns_of_exec (s := s₂) (reads_readPartial (P := fun _ => True) hi.2 hn trivial)
  have e₁ := h₁.symm.trans k₁.1
  have e₂ := h₂.symm.trans k₂.1
  simp only [Except.ok.injEq, Prod.mk.injEq] at e₁ e₂
  exact ⟨t, ⟨e₁.1.trans q₁.1, e₂.1.trans q₂.1⟩, j⟩

theorem Same.afterPartial {β : Type} {S : β → β → Prop} {K : Overlay → Overlay → Prop} {n : Nat} (hn : n ≤ 32)
    {k₁ k₂ : Nat → M β} (hk : Same w₁ w₂ (Count cfg w₁ w₂ ctx n) K S (k₁ n) (k₂ n)) :
    Same w₁ w₂ (Count cfg w₁ w₂ ctx n) K S (Model.readPartial cfg ctx >>= k₁)
      (Model.readPartial cfg ctx >>= k₂) :=
  Same.bind (Same.readPartial hn) fun a b hab => by
    obtain ⟨ha, hb⟩ := hab
    subst ha
    subst hb
    exact hk

theorem Same.writePartial {I : Overlay → Overlay → Prop} {n : Nat}
    (h₁ : Writable w₁ ctx (ctxSize cfg)) (h₂ : Writable w₂ ctx (ctxSize cfg)) :
    Same w₁ w₂ I (Count cfg w₁ w₂ ctx n) any (writePartial cfg ctx n) (writePartial cfg ctx n) := by
  unfold Model.writePartial
  have := offs cfg
  refine Same.writeInt _ _ _ _ _ fun o₁ o₂ _ => ⟨holds_put ?_, holds_put ?_⟩ <;> rw [length_bytes]
  · exact h₁.1.sub (by unfold offPartial; omega) (by unfold offPartial; omega)
  · exact h₂.1.sub (by unfold offPartial; omega) (by unfold offPartial; omega)

theorem Same.memcpy {I : Overlay → Overlay → Prop} (dst src n : Nat)
    (hi : ∀ o₁ o₂ (xs ys : List Byte), xs.length = ys.length → xs.length = n → I o₁ o₂ →
      I (put o₁ dst xs) (put o₂ dst ys)) :
    Same w₁ w₂ I I any (memcpy dst src n) (memcpy dst src n) := by
  unfold Model.memcpy
  refine Same.ite (fun _ => Same.fail) fun _ => ?_
  exact Same.bind (Same.loadLen _ _) fun xs ys h =>
    Same.store _ (h.1.trans h.2.symm) fun o₁ o₂ h' => hi _ _ _ _ (h.1.trans h.2.symm) h.1 h'

theorem Same.readU64 {I : Overlay → Overlay → Prop} (cfg : Cfg) (p : Nat) :
    Same w₁ w₂ I I any (readU64 cfg p) (readU64 cfg p) := by
  unfold Model.readU64
  exact Same.bind (Same.readInt ..) fun _ _ _ => Same.pureAny

theorem Same.readState {I : Overlay → Overlay → Prop} (cfg : Cfg) (p : Nat) :
    Same w₁ w₂ I I any (readState cfg p) (readState cfg p) := by
  unfold Model.readState
  exact Same.bind (Same.readU64 ..) fun _ _ _ => Same.bind (Same.readU64 ..) fun _ _ _ =>
    Same.bind (Same.readU64 ..) fun _ _ _ => Same.bind (Same.readU64 ..) fun _ _ _ => Same.pureAny

theorem Same.writeU64 {n p : Nat} (v v' : U64) (hd : p + 8 ≤ ctx + 64 ∨ ctx + 64 + szBytes cfg ≤ p) :
    Same w₁ w₂ (Count cfg w₁ w₂ ctx n) (Count cfg w₁ w₂ ctx n) any (writeU64 cfg p v) (writeU64 cfg p v') := by
  unfold Model.writeU64
  refine Same.writeInt _ _ _ _ _ fun o₁ o₂ h => h.put ?_ ?_
  · rw [length_bytes, length_bytes]
  · rwa [length_bytes]

theorem Same.writeState {n : Nat} (s s' : State256) :
    Same w₁ w₂ (Count cfg w₁ w₂ ctx n) (Count cfg w₁ w₂ ctx n) any (writeState cfg (ctx + offState) s)
      (writeState cfg (ctx + offState) s') := by
  unfold Model.writeState offState
  exact Same.bind (Same.writeU64 _ _ (by omega)) fun _ _ _ => Same.bind (Same.writeU64 _ _ (by omega))
    fun _ _ _ => Same.bind (Same.writeU64 _ _ (by omega)) fun _ _ _ => Same.writeU64 _ _ (by omega)

theorem Same.t1ha2_init (x y x' y' : U64)
    (h₁ : Writable w₁ ctx (ctxSize cfg)) (h₂ : Writable w₂ ctx (ctxSize cfg)) :
    Same w₁ w₂ anyOv (Count cfg w₁ w₂ ctx 0) any (t1ha2_init cfg ctx x y) (t1ha2_init cfg ctx x' y') := by
  have := offs cfg
  have wr : ∀ p (v v' : U64), Same w₁ w₂ anyOv anyOv any (Model.writeU64 cfg p v) (Model.writeU64 cfg p v') :=
    fun p v v' => Same.writeInt _ _ _ _ _ fun _ _ _ => trivial
  unfold Model.t1ha2_init
  refine Same.bind (R := any) ?_ fun _ _ _ => ?_
  · unfold Model.writeState
    exact Same.bind (wr ..) fun _ _ _ => Same.bind (wr ..) fun _ _ _ => Same.bind (wr ..) fun _ _ _ => wr ..
  · refine Same.seq (Same.writePartial h₁ h₂) fun _ _ _ => ?_
    exact Same.writeU64 _ _ (by omega)

theorem Same.t1ha2_UPDATE_mem {n : Nat} (al : Aligness) (v : Nat) :
    Same w₁ w₂ (Count cfg w₁ w₂ ctx n) (Count cfg w₁ w₂ ctx n) any
      (t1ha2_UPDATE_mem cfg al (ctx + offState) v) (t1ha2_UPDATE_mem cfg al (ctx + offState) v) := by
  unfold Model.t1ha2_UPDATE_mem
  exact Same.bind (Same.readState ..) fun _ _ _ => Same.bind (Same.t1ha2_UPDATE ..) fun _ _ _ =>
    Same.writeState ..

theorem Same.t1ha2_loop_mem {n : Nat} (al : Aligness) (detent fuel v : Nat) :
    Same w₁ w₂ (Count cfg w₁ w₂ ctx n) (Count cfg w₁ w₂ ctx n) Eq
      (t1ha2_loop_mem cfg al (ctx + offState) detent fuel v)
      (t1ha2_loop_mem cfg al (ctx + offState) detent fuel v) := by
  induction fuel generalizing v with
  | zero => exact Same.fail
  | succ fuel ih =>
    unfold Model.t1ha2_loop_mem
    refine Same.bind Same.iterate fun _ _ _ => Same.afterAdd fun _ => ?_
    refine Same.bind (Same.t1ha2_UPDATE_mem ..) fun _ _ _ => ?_
    exact Same.ite (fun _ => ih _) fun _ => Same.pure rfl

theorem Same.t1ha2_LOOP_mem {n : Nat} (al : Aligness) (data len : Nat) :
    Same w₁ w₂ (Count cfg w₁ w₂ ctx n) (Count cfg w₁ w₂ ctx n) Eq
      (t1ha2_LOOP_mem cfg al (ctx + offState) data len) (t1ha2_LOOP_mem cfg al (ctx + offState) data len) := by
  unfold Model.t1ha2_LOOP_mem
  exact Same.afterAdd fun _ => Same.afterSub fun _ => Same.t1ha2_loop_mem ..

theorem Same.t1ha2_update_rest (data len : Nat)
    (h₁ : Writable w₁ ctx (ctxSize cfg)) (h₂ : Writable w₂ ctx (ctxSize cfg)) :
    Same w₁ w₂ (Count cfg w₁ w₂ ctx 0) (Count cfg w₁ w₂ ctx (len % 32)) any
      (t1ha2_update_rest cfg ctx data len) (t1ha2_update_rest cfg ctx data len) := by
  have hand : len &&& 31 = len % 32 := Nat.and_two_pow_sub_one_eq_mod len 5
  unfold Model.t1ha2_update_rest
  refine Same.bind (R := fun a b => a = b ∧ a.2 = len % 32) ?_ fun a b hab => ?_
  · refine Same.ite (fun _ => ?_) fun h => ?_
    · refine Same.bindEq ?_ fun _ => Same.pure ⟨rfl, hand⟩
      exact Same.ite (fun _ => Same.t1ha2_LOOP_mem ..) fun _ =>
        Same.ite (fun _ => Same.t1ha2_LOOP_mem ..) fun _ => Same.t1ha2_LOOP_mem ..
    · exact Same.pure ⟨rfl, by simp only []; omega⟩
  · obtain ⟨rfl, h⟩ := hab
    obtain ⟨v, l⟩ := a
    have hl : l = len % 32 := h
    subst hl
    refine Same.ite (fun _ => ?_) fun h => ?_
    · refine Same.seq (Same.writePartial h₁ h₂) fun _ _ _ => Same.memcpy _ _ _ ?_
      intro o₁ o₂ xs ys hxy hx hc
      exact hc.put hxy (by unfold offBuffer; omega)
    · rw [show len % 32 = 0 by omega]
      exact Same.pureAny

theorem Same.t1ha2_update {n : Nat} (hn : n < 32) (data len : Nat) (hlen : len < 2 ^ cfg.bits)
    (h₁ : Writable w₁ ctx (ctxSize cfg)) (h₂ : Writable w₂ ctx (ctxSize cfg)) :
    Same w₁ w₂ (Count cfg w₁ w₂ ctx n) (Count cfg w₁ w₂ ctx ((n + len) % 32)) any
      (t1ha2_update cfg ctx data len) (t1ha2_update cfg ctx data len) := by
  have hoff := offs cfg
  have hb : 2 ^ 32 ≤ 2 ^ cfg.bits := by unfold Cfg.bits; split <;> decide
  unfold Model.t1ha2_update
  refine Same.bind (Same.readU64 ..) fun _ _ _ => ?_
  refine Same.bind (Same.writeU64 _ _ (by omega)) fun _ _ _ => ?_
  refine Same.afterPartial (by omega) ?_
  refine Same.ite (fun h0 => ?_) fun h0 => ?_
  · have hleft : szSub cfg 32 n = 32 - n := by
      unfold szSub
      rw [show 2 ^ cfg.bits + 32 - n = 32 - n + 2 ^ cfg.bits by omega, Nat.add_mod_right,
        Nat.mod_eq_of_lt (by omega)]
    simp only [hleft]
    generalize hch : (if 32 - n ≤ len then 32 - n else len) = chunk
    have hc : chunk ≤ 32 - n ∧ chunk ≤ len ∧ (chunk = 32 - n ∨ chunk = len) := by
      split at hch <;> omega
    refine Same.bind (Same.memcpy _ _ _ ?_) fun _ _ _ => ?_
    · intro o₁ o₂ xs ys hxy hx hcount
      exact hcount.put hxy (by unfold offBuffer; omega)
    refine Same.afterPartial (by omega) ?_
    have hadd : szAdd cfg n chunk = n + chunk := by
      unfold szAdd
      rw [Nat.mod_eq_of_lt (by omega)]
    simp only [hadd]
    refine Same.seq (Same.writePartial h₁ h₂) fun _ _ _ => ?_
    refine Same.afterPartial (by omega) ?_
    refine Same.ite (fun hlt => ?_) fun hlt => ?_
    · rw [show (n + len) % 32 = n + chunk by omega]
      exact Same.cassert _ _
    · refine Same.seq (Same.writePartial h₁ h₂) fun _ _ _ => ?_
      refine Same.afterAdd fun _ => ?_
      refine Same.bind (Same.t1ha2_UPDATE_mem ..) fun _ _ _ => ?_
      have hsub : szSub cfg len chunk = len - chunk := by
        unfold szSub
        rw [show 2 ^ cfg.bits + len - chunk = len - chunk + 2 ^ cfg.bits by omega, Nat.add_mod_right,
          Nat.mod_eq_of_lt (by omega)]
      simp only [hsub]
      rw [show (n + len) % 32 = (len - chunk) % 32 by omega]
      exact Same.t1ha2_update_rest _ _ h₁ h₂
  · have h0 : n = 0 := by omega
    subst h0
    rw [Nat.zero_add]
    exact Same.t1ha2_update_rest _ _ h₁ h₂

theorem Same.t1ha2_final {n : Nat} (hn : n < 32) (extra : Option Nat) (slot : Nat)
    (hs : slot + 8 ≤ ctx ∨ ctx + ctxSize cfg ≤ slot)
    (h₁ : Writable w₁ ctx (ctxSize cfg)) (h₂ : Writable w₂ ctx (ctxSize cfg)) :
    Same w₁ w₂ (Count cfg w₁ w₂ ctx n) anyOv any (t1ha2_final cfg ctx extra slot)
      (t1ha2_final cfg ctx extra slot) := by
  have hoff := offs cfg
  have hb : 2 ^ 32 ≤ 2 ^ cfg.bits := by unfold Cfg.bits; split <;> decide
  unfold Model.t1ha2_final
  refine Same.bind (Same.readU64 ..) fun _ _ _ => ?_
  refine Same.bind (Same.writeU64 _ _ (by omega)) fun _ _ _ => ?_
  refine Same.seq (Same.t1ha2_update hn _ _ (by omega) h₁ h₂) fun _ _ _ => ?_
  cases extra with
  | none =>
    refine Same.bind (Same.readState ..) fun _ _ _ => ?_
    refine Same.bind (Same.writeState ..) fun _ _ _ => ?_
    refine Same.afterPartial (by omega) ?_
    refine Same.bind (Same.t1ha2_TAIL_AB_mix ..) fun _ _ _ => ?_
    refine Same.bind (Same.writeState ..) fun _ _ _ => Same.forget Same.pureAny
  | some p =>
    refine Same.bind (Same.readState ..) fun _ _ _ => ?_
    refine Same.afterPartial (by omega) ?_
    refine Same.bind (Same.t1ha2_TAIL_ABCD_mix ..) fun _ _ _ => ?_
    refine Same.bind (Same.writeState ..) fun _ _ _ => ?_
    exact Same.seq (J := anyOv) (Same.writeInt _ _ _ _ _ fun _ _ _ => trivial) fun _ _ _ => Same.pureAny

theorem Same.updates {n : Nat} (hn : n < 32) (ps : List (Nat × Nat)) (hps : ∀ p ∈ ps, p.2 < 2 ^ cfg.bits)
    (h₁ : Writable w₁ ctx (ctxSize cfg)) (h₂ : Writable w₂ ctx (ctxSize cfg)) :
    ∃ k, k < 32 ∧ Same w₁ w₂ (Count cfg w₁ w₂ ctx n) (Count cfg w₁ w₂ ctx k) any (updates cfg ctx ps)
      (updates cfg ctx ps) := by
  induction ps generalizing n with
  | nil => exact ⟨n, hn, Same.pureAny⟩
  | cons p ps ih =>
    obtain ⟨k, hk, h⟩ := ih (n := (n + p.2) % 32) (by omega) fun q hq => hps q (List.mem_cons_of_mem _ hq)
    refine ⟨k, hk, ?_⟩
    obtain ⟨a, l⟩ := p
    exact Same.seq (Same.t1ha2_update hn a l (hps _ List.mem_cons_self) h₁ h₂) fun _ _ _ => h

/-- Two programs which hash messages cut into pieces at the same places. -/
theorem Same.stream (x y x' y' : U64) (ps : List (Nat × Nat)) (hps : ∀ p ∈ ps, p.2 < 2 ^ cfg.bits)
    (extra : Option Nat) (slot : Nat) (hs : slot + 8 ≤ ctx ∨ ctx + ctxSize cfg ≤ slot)
    (h₁ : Writable w₁ ctx (ctxSize cfg)) (h₂ : Writable w₂ ctx (ctxSize cfg)) :
    Same w₁ w₂ anyOv anyOv any (stream cfg ctx x y ps extra slot) (stream cfg ctx x' y' ps extra slot) := by
  obtain ⟨k, hk, h⟩ := Same.updates (cfg := cfg) (n := 0) (by omega) ps hps h₁ h₂
  unfold Model.stream Model.resume
  refine Same.seq (Same.t1ha2_init _ _ _ _ h₁ h₂) fun _ _ _ => ?_
  exact Same.seq h fun _ _ _ => Same.t1ha2_final hk extra slot hs h₁ h₂

end T1ha.Model
