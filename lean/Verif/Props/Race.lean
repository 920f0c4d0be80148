import Verif.Proofs.Settle
import Verif.Props.Oblivious

/-!
# Other threads write into the message during the call: C49

The functions take no lock, and the caller may fail to keep other threads (or another process which
shares the memory) from changing the message. The result is then the hash of *some* message, each byte of
which was in its place at some moment of the call: no byte is used with two different values. So the
result is never something which no message has, and all promises about a call with an undisturbed message
(no out-of-bounds access, termination, what is written) hold for a disturbed one.

This is about the accesses as the source code has them. (For C, an unsynchronised write of another thread
is undefined behaviour: a compiler may make two reads of one. The model reads what the source reads, in
its order; `memcpy` is one read.)
-/

namespace T1ha.Props

open Model Examples

variable {cfg : Cfg} {w : World} {s : Sys} {page data len ctx : Nat} {x y : U64} {img fed : List Byte}

/-- Between the states `s` (the call begins) and `s'` (the call returns), each byte of `m` was, at some
moment, in its place at `data`. (Not all at the same moment.) -/
def WereThere (w : World) (s s' : Sys) (data : Nat) (m : List Byte) : Prop :=
  ∀ i b, m[i]? = some b →
    ∃ τ, s.log.length ≤ τ ∧ τ < s'.log.length ∧ see w s.ov τ (data + i) = some b

theorem wereThere {z : Nat → Byte} {s' : Sys} (hz : ∀ a, range data len a → ∃ τ, s.log.length ≤ τ ∧
    τ < s'.log.length ∧ w.cell τ a = some (z a)) : WereThere w s s' data (calmMsg s.ov data len z) := by
  intro i b hb
  have hi : i < len := by
    rcases Nat.lt_or_ge i len with h | h
    · exact h
    · rw [List.getElem?_eq_none (by rw [length_calmMsg]; exact h)] at hb
      exact nomatch hb
  obtain ⟨τ, h1, h2, h3⟩ := hz (data + i) ⟨by omega, by omega⟩
  refine ⟨τ, h1, h2, ?_⟩
  unfold see
  rw [h3]
  simpa [calmMsg, hi] using hb

/-- C49: while other threads change the `len` bytes at `data` as they like, a one-shot function returns
the hash of some message `m` whose bytes were all there during the call. Even more: everything the call
does (its accesses, what it returns and what it stores) is what it does in a memory `u` which holds `m`
undisturbed. -/
theorem racing_call (f : OneShot) (mapped : Mapped w data len) (fits : data + len < 2 ^ cfg.bits)
    (paged : Paged w page) (pageOk : PageOk cfg page)
    (above : cfg.proxy = true → len ≠ 0 → cfg.below 8 ≤ data) (r : f.Ready cfg w data len) (seed : U64) :
    ∃ m u s' t, m.length = len ∧ WereThere w s s' data m ∧
      Returns (f.run cfg data len seed) w s (f.hash m seed) s' t ∧
      Buf cfg u s.ov page data m ∧ f.Ready cfg u data len ∧
      Returns (f.run cfg data len seed) u s (f.hash m seed) s' t := by
  have hbuf : ∀ z, Buf cfg (calm w data len z) s.ov page data (calmMsg s.ov data len z) := fun z =>
    ⟨calm_holds mapped, by rw [length_calmMsg]; exact fits, paged.alike calm_alike, pageOk,
      by rw [length_calmMsg]; exact above⟩
  have hready : ∀ z, f.Ready cfg (calm w data len z) data len := fun z => r.alike calm_alike
  have hret : ∀ z, ∃ t, Returns (f.run cfg data len seed) (calm w data len z) s
      (f.hash (calmMsg s.ov data len z) seed)
      ⟨t ++ s.log, f.after cfg (calmMsg s.ov data len z) seed s.ov⟩ t ∧
      ∀ a, range data len a → ∃ x ∈ t, x.covers a := by
    intro z
    obtain ⟨t, h1, _, h3, _⟩ := f.returns (hbuf z) (by rw [length_calmMsg]; exact hready z) seed
    rw [length_calmMsg] at h1 h3
    exact ⟨t, h1, h3⟩
  obtain ⟨z, v, s', t, h1, h2, h3⟩ := settle (w := w) (s := s) (m := f.run cfg data len seed) mapped
    (fun z => f.race (by omega) r.builds)
    (fun z => let ⟨t, h, h'⟩ := hret z; ⟨_, _, t, h, h'⟩)
    (fun z z' v s₁ v' s₂ r₁ r₂ => by
      obtain ⟨⟨t, e₁, e₂⟩, _⟩ := (f.same cfg data len seed seed).run _ _ _ _ _ _ trivial r₁ r₂
      rw [e₁, e₂])
  obtain ⟨t', h4, _⟩ := hret z
  have e := h2.1.symm.trans h4.1
  simp only [Except.ok.injEq, Prod.mk.injEq] at e
  obtain ⟨rfl, _⟩ := e
  exact ⟨_, _, s', t, length_calmMsg, wereThere h3, h1, hbuf z, hready z, h2⟩

/-- C49 for the second result of `t1ha2_atonce128`: both halves are of the same message. -/
theorem racing_atonce128 {extra : Nat} (mapped : Mapped w data len) (fits : data + len < 2 ^ cfg.bits)
    (paged : Paged w page) (pageOk : PageOk cfg page)
    (above : cfg.proxy = true → len ≠ 0 → cfg.below 8 ≤ data) (hslack : cfg.SafeTail ∨ Mapped w (data + len) 8)
    (hw : Writable w extra 8) (g : State256) (seed : U64) :
    ∃ m s' t, m.length = len ∧ WereThere w s s' data m ∧
      Returns (t1ha2_atonce128 cfg g extra data len seed) w s (Spec.t1ha2_atonce128 m seed).1 s' t ∧
      Holds w s'.ov extra (cfg.endian.bytes 8 (Spec.t1ha2_atonce128 m seed).2.toNat) := by
  have r : (OneShot.t1ha2_atonce128 g extra).Ready cfg w data len :=
    ⟨fun _ => hslack, fun h => (nomatch h), fun p hp => by cases hp; exact hw, fun _ h => by simp at h,
      fun _ h => (nomatch h), fun _ h => (nomatch h)⟩
  obtain ⟨m, u, s', t, h1, h2, h3, h4, h5, h6⟩ := racing_call (s := s) _ mapped fits paged pageOk above r seed
  refine ⟨m, s', t, h1, h2, h3, ?_⟩
  subst h1
  obtain ⟨t', h7, _⟩ := (OneShot.t1ha2_atonce128 g extra).returns h4 h5 seed
  have e := h6.1.symm.trans h7.1
  simp only [Except.ok.injEq, Prod.mk.injEq] at e
  rw [e.2]
  exact holds_put (by rw [length_bytes]; exact hw.1)

/-- C49 for `t1ha2_update`: while other threads change the piece, the call returns, and afterwards the
context is one which was fed some piece `m` whose bytes were all there during the call. (So
`t1ha2_final_correct` and all other theorems about streams apply to it.) -/
theorem racing_update (past : History cfg x y img fed) (here : Ctx cfg w s.ov ctx img)
    (mapped : Mapped w data len) (fits : data + len < 2 ^ cfg.bits)
    (apart : len = 0 ∨ data + len ≤ ctx ∨ ctx + ctxSize cfg ≤ data) (notNull : data ≠ 0)
    (above : cfg.proxy = true → 32 ≤ len → 7 ≤ data) :
    ∃ m s' t img', m.length = len ∧ WereThere w s s' data m ∧
      Returns (t1ha2_update cfg ctx data len) w s () s' t ∧
      Ctx cfg w s'.ov ctx img' ∧ History cfg x y img' (fed ++ m) := by
  have hB : ∀ a, range data len a → a < ctx ∨ ctx + ctxSize cfg ≤ a := by
    intro a ha
    dsimp only [range] at ha
    omega
  have hctx : ∀ (w u : World) (ov : Overlay) (img : List Byte), Alike w u (range data len) →
      Ctx cfg w ov ctx img → Ctx cfg u ov ctx img := by
    intro w u ov img hw h
    refine ⟨h.size, fun t i b hb => ?_, h.writable.alike hw, h.fits, h.aligned, h.notNull⟩
    have hi : i < ctxSize cfg := by
      rcases Nat.lt_or_ge i (ctxSize cfg) with h' | h'
      · exact h'
      · rw [List.getElem?_eq_none (by rw [h.size]; exact h')] at hb
        exact nomatch hb
    have := h.holds t i b hb
    unfold see at this ⊢
    rwa [← hw.outside t (ctx + i) fun hr => by have := hB _ hr; omega]
  have hback : ∀ z, Alike (calm w data len z) w (range data len) := fun z =>
    ⟨fun t a => (calm_alike.mapped t a).symm, fun t a h => (calm_alike.outside t a h).symm, fun _ => rfl⟩
  have hhere := fun z => hctx w (calm w data len z) s.ov img calm_alike here
  have hpiece : ∀ z, Piece cfg (calm w data len z) s.ov ctx data (calmMsg s.ov data len z) := by
    intro z
    refine ⟨calm_holds mapped, by rw [length_calmMsg]; exact fits, ?_, notNull, by rw [length_calmMsg]; exact above⟩
    rw [length_calmMsg]
    refine apart.imp (fun h => ?_) id
    rw [← List.length_eq_zero_iff, length_calmMsg, h]
  have hret := fun z => t1ha2_update_returns past (hhere z) (hpiece z)
  obtain ⟨z, v, s', t, h1, h2, h3⟩ := settle (w := w) (s := s) (m := t1ha2_update cfg ctx data len) mapped
    (fun z => Race.t1ha2_update hB)
    (fun z => by
      obtain ⟨s', t, img', h1, _, _, h4, _⟩ := hret z
      rw [length_calmMsg] at h1 h4
      refine ⟨_, s', t, h1, fun a ha => ?_⟩
      have ha' : data ≤ a ∧ a < data + len := ha
      obtain ⟨p, n, hx, g1, g2⟩ := h4 (a - data) (by omega)
      exact ⟨_, hx, show p ≤ a ∧ a < p + n by omega⟩)
    (fun z z' v s₁ v' s₂ r₁ r₂ => by
      obtain ⟨⟨t, e₁, e₂⟩, _⟩ := (Same.t1ha2_update (n := fed.length % 32) (Nat.mod_lt _ (by decide)) data len
        (by omega) (hhere z).writable (hhere z').writable).run _ _ _ _ _ _
        (count_of_history past past rfl (hhere z) (hhere z')) r₁ r₂
      rw [e₁, e₂])
  obtain ⟨s₂, t₂, img', h4, h5, _⟩ := hret z
  rw [length_calmMsg] at h4
  have e := h2.1.symm.trans h4.1
  simp only [Except.ok.injEq, Prod.mk.injEq] at e
  obtain ⟨_, rfl⟩ := e
  refine ⟨_, s', t, img', length_calmMsg, wereThere h3, h1, hctx _ _ _ _ (hback z) h5, ?_⟩
  exact History.update past (hhere z) (hpiece z) (t := t₂) (by rw [length_calmMsg]; exact h4) h5

/-! ## The hypotheses can be met -/

theorem quiet_paged : Paged quiet 4096 := by
  intro t a b hab
  have h1 : (4096 ≤ a ∧ a < 8192) ↔ (4096 ≤ b ∧ b < 8192) := by omega
  have h2 : (8192 ≤ a ∧ a < 12288) ↔ (8192 ≤ b ∧ b < 12288) := by omega
  simp only [quiet, h1, h2]
  split
  · rfl
  · split <;> rfl

/-- `racing_call`: 100 bytes which all change after each access, on a machine with strict alignment. -/
example (f : OneShot) (hf : f.output = none) (seed : U64) : ∃ m s' t, m.length = 100 ∧
    WereThere quiet start s' 9003 m ∧ Returns (f.run mips32 9003 100 seed) quiet start (f.hash m seed) s' t := by
  obtain ⟨m, _, s', t, h1, h2, h3, _⟩ := racing_call (s := start) (page := 4096) (cfg := mips32) f
    (quiet_writable (p := 9003) (n := 100) (by decide) (by decide)).1 (by decide) quiet_paged (pageOk _ rfl)
    (by decide)
    ⟨fun _ => Or.inr (quiet_writable (by decide) (by decide)).1, fun _ => by decide,
      fun p hp => (by rw [hf] at hp; exact (nomatch hp)), fun _ _ _ => by decide, fun _ _ _ => by decide,
      fun _ _ => by decide⟩ seed
  exact ⟨m, s', t, h1, h2, h3⟩

/-- `racing_atonce128`: the second result goes where the message is. -/
example (g : State256) : ∃ m s' t, m.length = 100 ∧ WereThere quiet start s' 9003 m ∧
    Returns (t1ha2_atonce128 amd64 g 9010 9003 100 7) quiet start (Spec.t1ha2_atonce128 m 7).1 s' t := by
  obtain ⟨m, s', t, h1, h2, h3, _⟩ := racing_atonce128 (s := start) (page := 4096) (cfg := amd64) (extra := 9010)
    (quiet_writable (p := 9003) (n := 100) (by decide) (by decide)).1 (by decide) quiet_paged (pageOk _ rfl)
    (by decide)
    (Or.inr (quiet_writable (by decide) (by decide)).1) (quiet_writable (by decide) (by decide)) g 7
  exact ⟨m, s', t, h1, h2, h3⟩

/-- `racing_update`: the third piece of a stream changes all the time. -/
example : ∃ s m s' t img', m.length = 77 ∧ WereThere quiet s s' 9003 m ∧
    Returns (t1ha2_update mips32 4096 9003 77) quiet s () s' t ∧
    History mips32 5 6 img' (quietBytes 5001 43 ++ quietBytes 6003 100 ++ m) := by
  obtain ⟨s, img, h1, h2, _⟩ := history_quiet mips32 5 6
  obtain ⟨m, s', t, img', g1, g2, g3, _, g4⟩ := racing_update h1 h2
    (quiet_writable (p := 9003) (n := 77) (by decide) (by decide)).1 (by decide) (by decide) (by decide) (by decide)
  exact ⟨s, m, s', t, img', g1, g2, g3, g4⟩

/-! ## The message need not have been there as a whole -/

/-- The 16 bytes at 5000 are `a ... a` up to moment 0, and `b ... b` from moment 1 on. -/
def switching (a b : Byte) : World where
  cell t p := if 4096 ≤ p ∧ p < 8192 then some (if t = 0 then a else b) else none
  writable _ := true

/-- C49 says no more than that the bytes were there, each at its moment: at each moment the buffer holds
one of two messages, and the result is the hash of neither. -/
theorem torn_message : ∃ (w : World) (m₁ m₂ : List Byte) (v : U64) (s' : Sys) (t : List Ev),
    m₁.length = 16 ∧ m₂.length = 16 ∧
    (∀ τ, (∀ i b, m₁[i]? = some b → see w start.ov τ (5000 + i) = some b) ∨
      ∀ i b, m₂[i]? = some b → see w start.ov τ (5000 + i) = some b) ∧
    Returns (t1ha2_atonce amd64 ⟨0, 0, 0, 0⟩ 5000 16 0) w start v s' t ∧
    v ≠ Spec.t1ha2_atonce m₁ 0 ∧ v ≠ Spec.t1ha2_atonce m₂ 0 := by
  have key : (match t1ha2_atonce amd64 ⟨0, 0, 0, 0⟩ 5000 16 0 (switching 0 1) start with
      | .ok (v, _) => decide (v ≠ Spec.t1ha2_atonce (List.replicate 16 0) 0 ∧
          v ≠ Spec.t1ha2_atonce (List.replicate 16 1) 0)
      | .error _ => false) = true := by
    decide +kernel
  have hsee : ∀ (c : Byte) (τ i : Nat) (b : Byte), (if τ = 0 then (0 : Byte) else 1) = c →
      (List.replicate 16 c)[i]? = some b → see (switching 0 1) start.ov τ (5000 + i) = some b := by
    intro c τ i b hc hb
    have hi : i < 16 := by
      rcases Nat.lt_or_ge i 16 with h | h
      · exact h
      · rw [List.getElem?_eq_none (by rw [List.length_replicate]; exact h)] at hb
        exact nomatch hb
    rw [List.getElem?_replicate, if_pos hi] at hb
    cases hb
    simp only [see, switching, start]
    rw [if_pos (by omega), hc]
    rfl
  split at key
  · rename_i v s' h
    obtain ⟨h1, h2⟩ := of_decide_eq_true key
    refine ⟨switching 0 1, List.replicate 16 0, List.replicate 16 1, v, s', s'.log, List.length_replicate,
      List.length_replicate, fun τ => ?_, ⟨h, by simp [start]⟩, h1, h2⟩
    by_cases hτ : τ = 0
    · exact Or.inl fun i b => hsee 0 τ i b (if_pos hτ)
    · exact Or.inr fun i b => hsee 1 τ i b (if_neg hτ)
  · exact nomatch key

end T1ha.Props
