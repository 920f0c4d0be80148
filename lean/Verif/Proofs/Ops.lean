import Verif.Proofs.Session

/-!
# Programs which use several contexts
-/

namespace T1ha.Model

variable {w : World} {ov ov0 o : Overlay} {cfg : Cfg} {K E : List Nat} {slot : Nat} {σ : Streams}

theorem Returns.bind {α β : Type} {m : M α} {f : α → M β} {s s₁ s₂ : Sys} {v : α} {u : β}
    {t₁ t₂ : List Ev} (h₁ : Returns m w s v s₁ t₁) (h₂ : Returns (f v) w s₁ u s₂ t₂) :
    Returns (m >>= f) w s u s₂ (t₂ ++ t₁) := by
  refine ⟨?_, by rw [h₂.2, h₁.2, List.append_assoc]⟩
  show M.bind m f w s = _
  simp only [M.bind, h₁.1, h₂.1]

theorem Returns.pure {α : Type} {s : Sys} (v : α) : Returns (pure v : M α) w s v s [] := ⟨rfl, rfl⟩

theorem Returns.done {α β : Type} {m : M α} {g : α → β} {s s₁ : Sys} {v : α} {t : List Ev}
    (h : Returns m w s v s₁ t) : Returns (m >>= fun x => Pure.pure (g x)) w s (g v) s₁ t := by
  have := h.bind (f := fun x => Pure.pure (g x)) (Returns.pure (w := w) (s := s₁) (g v))
  exact this

/-! ## One context -/

theorem Piece.only {ctx data : Nat} {m : List Byte} (h : Piece cfg w ov ctx data m)
    (ho : Only ov o ctx (ctxSize cfg)) : Piece cfg w o ctx data m := by
  refine ⟨?_, h.fits, h.apart, h.notNull, h.above⟩
  rcases h.apart with ha | ha
  · subst ha; exact holds_nil
  · exact h.holds.only ho ha

theorem updates_returns {ctx : Nat} {x y : U64} (ps : List (Nat × List Byte)) {s : Sys}
    {img fed : List Byte} (hc : Ctx cfg w s.ov ctx img) (hf : Fed cfg x y img fed)
    (hp : Pieces cfg w s.ov ctx ps) :
    ∃ s' t img', Returns (updates cfg ctx (spans ps)) w s () s' t ∧ Ctx cfg w s'.ov ctx img' ∧
      Fed cfg x y img' (fed ++ joined ps) ∧ Only s.ov s'.ov ctx (ctxSize cfg) := by
  induction ps generalizing s img fed with
  | nil =>
    refine ⟨s, [], img, Returns.pure _, hc, ?_, Only.refl⟩
    rw [joined, List.map_nil, List.flatten_nil, List.append_nil]
    exact hf
  | cons p ps ih =>
    obtain ⟨v, s1, t1, h1, ⟨h2, h3⟩, -⟩ :=
      returns_of_exec (update_exec hc hf (hp p List.mem_cons_self))
    obtain ⟨img', hc'⟩ := hc.after h3.grow
    have hfed := Fed.step h2 hc'.holds hc'.size
    obtain ⟨s2, t2, img2, g1, g2, g3, g4⟩ := ih hc' hfed
      (fun q hq => (hp q (List.mem_cons_of_mem _ hq)).only h3)
    refine ⟨s2, t2 ++ t1, img2, h1.bind g1, g2, ?_, h3.trans g4⟩
    rw [List.append_assoc] at g3
    exact g3

theorem resume_returns {ctx slot : Nat} {extra : Option Nat} {x y : U64} (ps : List (Nat × List Byte))
    {s : Sys} {img fed : List Byte} (hc : Ctx cfg w s.ov ctx img) (hf : Fed cfg x y img fed)
    (hp : Pieces cfg w s.ov ctx ps) (ho : Out cfg w ctx extra slot) :
    ∃ s' t, Returns (resume cfg ctx (spans ps) extra slot) w s
        (streamHash (fed ++ joined ps) x y extra) s' t ∧
      HighAt cfg w s'.ov (fed ++ joined ps) x y extra := by
  obtain ⟨s1, t1, img1, h1, h2, h3, -⟩ := updates_returns ps hc hf hp
  obtain ⟨v, s2, t2, g1, ⟨g2, g3, -⟩, -⟩ := returns_of_exec (final_exec h2 h3 ho)
  subst g2
  exact ⟨s2, _, h1.bind g1, g3⟩

theorem stream_returns {ctx slot : Nat} {extra : Option Nat} (x y : U64) (ps : List (Nat × List Byte))
    {s : Sys} {img : List Byte} (hc : Ctx cfg w s.ov ctx img)
    (hp : Pieces cfg w s.ov ctx ps) (ho : Out cfg w ctx extra slot) :
    ∃ s' t, Returns (stream cfg ctx x y (spans ps) extra slot) w s
        (streamHash (joined ps) x y extra) s' t ∧
      HighAt cfg w s'.ov (joined ps) x y extra := by
  obtain ⟨v, s1, t1, h1, ⟨h2, h3⟩, -⟩ := returns_of_exec (init_exec hc x y)
  obtain ⟨img', hc'⟩ := hc.after h3.grow
  have hfed : Fed cfg x y img' [] := h2.toImg hc'.holds hc'.size
  obtain ⟨s2, t2, g1, g2⟩ := resume_returns ps hc' hfed (fun q hq => (hp q hq).only h3) ho
  exact ⟨s2, _, h1.bind g1, g2⟩

/-! ## Several contexts -/

/-- Changes outside the variables did not happen. -/
def Away (cfg : Cfg) (K E : List Nat) (slot : Nat) (ov0 ov : Overlay) : Prop :=
  ∀ a, (∀ c ∈ K, a < c ∨ c + ctxSize cfg ≤ a) → (∀ p ∈ E, a < p ∨ p + 8 ≤ a) →
    (a < slot ∨ slot + 8 ≤ a) → ov a = ov0 a

/-- Every context is there, and holds its stream. -/
def Live (cfg : Cfg) (w : World) (K : List Nat) (σ : Streams) (ov : Overlay) : Prop :=
  ∀ c ∈ K, ∃ img, Ctx cfg w ov c img ∧ ∀ st, σ c = some st → Fed cfg st.x st.y img st.fed

theorem Live.set {c : Nat} {v : Option Stream} {img : List Byte} (h : Live cfg w K σ ov)
    (hK : ∀ c' ∈ K, c' ≠ c → c' + ctxSize cfg ≤ c ∨ c + ctxSize cfg ≤ c')
    (ho : Only ov o c (ctxSize cfg)) (hc : Ctx cfg w o c img)
    (hv : ∀ st, v = some st → Fed cfg st.x st.y img st.fed) : Live cfg w K (σ.set c v) o := by
  intro c' hc'
  by_cases he : c' = c
  · subst he
    refine ⟨img, hc, fun st hst => hv st ?_⟩
    simpa [Streams.set] using hst
  · obtain ⟨img', h1, h2⟩ := h c' hc'
    refine ⟨img', h1.only ho (hK c' hc' he), fun st hst => h2 st ?_⟩
    simpa [Streams.set, he] using hst

theorem Away.only {c n : Nat} (h : Away cfg K E slot ov0 ov)
    (hc : c ∈ K) (hn : n ≤ ctxSize cfg) (ho : Only ov o c n) : Away cfg K E slot ov0 o := by
  intro a h1 h2 h3
  have := h1 c hc
  rw [ho.same a (by omega), h a h1 h2 h3]

theorem Holds.away {data : Nat} {m : List Byte} (h : Away cfg K E slot ov0 ov)
    (hh : Holds w ov0 data m)
    (hK : ∀ c' ∈ K, data + m.length ≤ c' ∨ c' + ctxSize cfg ≤ data)
    (hE : ∀ p ∈ E, data + m.length ≤ p ∨ p + 8 ≤ data)
    (hs : data + m.length ≤ slot ∨ slot + 8 ≤ data) : Holds w ov data m := by
  refine hh.congr fun a h1 h2 => h a ?_ ?_ (by omega)
  · intro c hc
    have := hK c hc
    omega
  · intro p hp
    have := hE p hp
    omega

theorem runOps_returns (hV : Vars cfg w ov0 K E slot) (ops : List Op)
    (hA : ∀ op ∈ ops, op.About cfg w ov0 K E slot) (σ : Streams) (hP : Proper σ ops) (s : Sys)
    (hL : Live cfg w K σ s.ov) (hO : Away cfg K E slot ov0 s.ov) :
    ∃ s' t, Returns (runOps cfg slot ops) w s (expected σ ops) s' t := by
  induction ops generalizing σ s with
  | nil => exact ⟨s, [], Returns.pure _⟩
  | cons op ops ih =>
    have hA' := fun op' h => hA op' (List.mem_cons_of_mem _ h)
    have hab := hA op List.mem_cons_self
    obtain ⟨hp1, hp2⟩ := hP
    have hKK : ∀ c ∈ K, ∀ c' ∈ K, c' ≠ c → c' + ctxSize cfg ≤ c ∨ c + ctxSize cfg ≤ c' :=
      fun c hc c' hc' hne => hV.ctx_apart c' hc' c hc hne
    cases op with
    | init c x y =>
      obtain ⟨img, hc, -⟩ := hL c hab
      obtain ⟨v, s1, t1, h1, ⟨h2, h3⟩, -⟩ := returns_of_exec (init_exec hc x y)
      obtain ⟨img', hc'⟩ := hc.after h3.grow
      have hfed : Fed cfg x y img' [] := h2.toImg hc'.holds hc'.size
      obtain ⟨s2, t2, h4⟩ := ih hA' _ hp2 s1
        (hL.set (hKK c hab) h3 hc' (fun st hst => by cases hst; exact hfed))
        (hO.only hab (Nat.le_refl _) h3)
      exact ⟨s2, _, h1.bind h4⟩
    | update c data m =>
      obtain ⟨hcK, hnz, habove, hh, hfit, hdK, hdE, hds⟩ := hab
      obtain ⟨img, hc, hst⟩ := hL c hcK
      obtain ⟨st, hs⟩ := Option.ne_none_iff_exists'.1 hp1
      have hf := hst st hs
      obtain ⟨v, s1, t1, h1, ⟨h2, h3⟩, -⟩ := returns_of_exec (update_exec hc hf
        (⟨Holds.away hO hh hdK hdE hds, hfit, Or.inr (hdK c hcK), hnz, habove⟩ : Piece cfg w s.ov c data m))
      obtain ⟨img', hc'⟩ := hc.after h3.grow
      have hfed := Fed.step h2 hc'.holds hc'.size
      obtain ⟨s2, t2, h4⟩ := ih hA' _ hp2 s1
        (hL.set (hKK c hcK) h3 hc' (fun st' hst' => by
          rw [hs] at hst'
          cases hst'
          exact hfed))
        (hO.only hcK (Nat.le_refl _) h3)
      exact ⟨s2, _, h1.bind h4⟩
    | copy dst src =>
      obtain ⟨hdK, hsK, hne⟩ := hab
      obtain ⟨img, hc, hst⟩ := hL src hsK
      obtain ⟨imgd, hcd, -⟩ := hL dst hdK
      have hcp := Exec.memcpy (P := fun _ => True) (dst := dst) hc.holds (by rw [hc.size]; exact hcd.writable)
        trivial trivial hcd.notNull hc.notNull
      rw [hc.size] at hcp
      obtain ⟨v, s1, t1, h1, h2, -⟩ := returns_of_exec hcp
      have h3 : Only s.ov s1.ov dst (ctxSize cfg) := by
        rw [h2]; exact only_put (Nat.le_refl _) (by rw [hc.size])
      have hc' : Ctx cfg w s1.ov dst img := by
        refine ⟨hc.size, ?_, hcd.writable, hcd.fits, hcd.aligned, hcd.notNull⟩
        rw [h2]
        exact holds_put (by rw [hc.size]; exact hcd.writable.1)
      obtain ⟨s2, t2, h4⟩ := ih hA' _ hp2 s1 (hL.set (hKK dst hdK) h3 hc' hst)
        (hO.only hdK (Nat.le_refl _) h3)
      exact ⟨s2, _, h1.bind h4⟩
    | final c extra =>
      obtain ⟨hcK, hE⟩ := hab
      obtain ⟨img, hc, hst⟩ := hL c hcK
      obtain ⟨st, hs⟩ := Option.ne_none_iff_exists'.1 hp1
      have hout : Out cfg w c extra slot := ⟨hV.slot_writable, hV.slot_fits, hV.slot_apart c hcK, hV.slot_notNull,
        fun p hp => hV.extra_writable p (hE p hp)⟩
      obtain ⟨v, s1, t1, h1, ⟨h2, h3, h4, h5⟩, -⟩ :=
        returns_of_exec (final_exec hc (hst st hs) hout)
      have hL1 : Live cfg w K (σ.set c none) s1.ov := by
        intro c' hc'
        by_cases he : c' = c
        · subst he
          obtain ⟨img', hi'⟩ := hc.after h5
          exact ⟨img', hi', fun st hst => by simp [Streams.set] at hst⟩
        · obtain ⟨img', g1, g2⟩ := hL c' hc'
          refine ⟨img', ⟨g1.size, ?_, g1.writable, g1.fits, g1.aligned, g1.notNull⟩, fun st hst => g2 st ?_⟩
          · refine g1.holds.congr fun a ha hb => h4 a ?_ ?_ ?_
            · have := hKK c hcK c' hc' he
              rw [g1.size] at hb
              omega
            · have := hV.slot_apart c' hc'
              rw [g1.size] at hb
              omega
            · intro p hp
              have := hV.extra_apart p (hE p hp) c' hc'
              rw [g1.size] at hb
              omega
          · simpa [Streams.set, he] using hst
      have hO1 : Away cfg K E slot ov0 s1.ov := by
        intro a ha hb hd
        rw [h4 a (ha c hcK) hd (fun p hp => hb p (hE p hp)), hO a ha hb hd]
      cases extra with
      | none =>
        obtain ⟨s2, t2, h6⟩ := ih hA' _ hp2 s1 hL1 hO1
        refine ⟨s2, _, h1.bind (t₂ := t2) ?_⟩
        have := h6.done (g := fun out => (v, none) :: out)
        simp only [expected, Op.out, hs, Option.map_some, Option.toList_some, List.singleton_append]
        rw [h2] at this ⊢
        exact this
      | some p =>
        have hr : Reads w s1.ov (fun _ => True) nowhere 0 (readU64 cfg p)
            (Spec.t1ha2_stream128 st.fed st.x st.y).2 := reads_readU64 (h3 p rfl) trivial
        obtain ⟨hi, s1', t1', g1, ⟨g2, g3⟩, -⟩ := returns_of_exec hr
        obtain ⟨s2, t2, h6⟩ := ih hA' _ hp2 s1' (by rw [g3]; exact hL1) (by rw [g3]; exact hO1)
        refine ⟨s2, _, h1.bind (g1.bind (t₂ := t2) ?_)⟩
        have := h6.done (g := fun out => (v, some hi) :: out)
        simp only [expected, Op.out, hs, Option.map_some, Option.toList_some, List.singleton_append]
        rw [h2, g2] at this ⊢
        exact this

/-! ## Contexts do not see one another -/

/-- The streams look the same to `c`. -/
theorem expected_opsOn {c : Nat} (ops : List Op) (σ τ : Streams) (h : σ c = τ c)
    (hp : ∀ op ∈ ops, op.Plain) (hP : Proper σ ops) :
    resultsOf c ops (expected σ ops) = expected τ (opsOn c ops) ∧ Proper τ (opsOn c ops) := by
  induction ops generalizing σ τ with
  | nil => exact ⟨rfl, trivial⟩
  | cons op ops ih =>
    obtain ⟨hp1, hp2⟩ := hP
    have hpl := fun op' h' => hp op' (List.mem_cons_of_mem _ h')
    have hop := hp op List.mem_cons_self
    by_cases hc : op.on = c
    · have hstep : op.step σ c = op.step τ c := by
        cases op <;> simp_all [Op.step, Op.on, Streams.set, Op.Plain]
      obtain ⟨i1, i2⟩ := ih _ (op.step τ) hstep hpl hp2
      have hf : opsOn c (op :: ops) = op :: opsOn c ops := by simp [opsOn, hc]
      rw [hf]
      refine ⟨?_, ?_, i2⟩
      · simp only [expected]
        rw [← i1]
        cases op with
        | copy _ _ => exact hop.elim
        | init _ _ _ => rfl
        | update _ _ _ => rfl
        | final c' extra =>
          obtain ⟨st, hs⟩ := Option.ne_none_iff_exists'.1 hp1
          simp only [Op.on] at hc
          subst hc
          rw [h] at hs
          cases extra <;> simp [Op.out, h, hs, resultsOf, finals]
      · cases op <;> simp_all [Op.Proper, Op.on, Op.Plain]
    · have hstep : op.step σ c = τ c := by
        cases op <;> simp_all [Op.step, Op.on, Streams.set, Op.Plain]
        all_goals exact fun h' => absurd h'.symm hc
      obtain ⟨i1, i2⟩ := ih _ τ hstep hpl hp2
      have hf : opsOn c (op :: ops) = opsOn c ops := by simp [opsOn, hc]
      rw [hf, ← i1]
      refine ⟨?_, i2⟩
      cases op with
      | copy _ _ => exact hop.elim
      | init _ _ _ => rfl
      | update _ _ _ => rfl
      | final c' extra =>
        obtain ⟨st, hs⟩ := Option.ne_none_iff_exists'.1 hp1
        simp only [Op.on] at hc
        cases extra <;> simp [expected, Op.out, hs, resultsOf, finals, hc]

end T1ha.Model
