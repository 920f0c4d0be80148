import Verif.Model.Selfcheck
import Verif.Props.Probes
import Verif.Proofs.Ops

/-!
# The self-check of one function
-/

namespace T1ha.Model

variable {w : World} {cfg : Cfg} {α β σ : Type}

/-- `m` returns `v` and the overlay satisfies `Q`; but if `ok` does not hold and assertions are enabled,
`m` ends with a failed assertion. -/
def Does (cfg : Cfg) (w : World) (m : M α) (s : Sys) (ok : Prop) (v : α) (Q : Overlay → Prop) : Prop :=
  (cfg.ndebug = true ∨ ok → ∃ s' t, Returns m w s v s' t ∧ Q s'.ov) ∧
  (cfg.ndebug = false → ¬ ok → m w s = .error .assertFail)

theorem Does.bind {m : M α} {f : α → M β} {s : Sys} {ok₁ ok₂ : Prop} {v : α} {u : β} {Q R : Overlay → Prop}
    (h₁ : Does cfg w m s ok₁ v Q) (h₂ : ∀ s', Q s'.ov → Does cfg w (f v) s' ok₂ u R) :
    Does cfg w (m >>= f) s (ok₁ ∧ ok₂) u R := by
  constructor
  · intro h
    obtain ⟨s1, t1, g1, q1⟩ := h₁.1 (h.imp id And.left)
    obtain ⟨s2, t2, g2, q2⟩ := (h₂ s1 q1).1 (h.imp id And.right)
    exact ⟨s2, _, g1.bind g2, q2⟩
  · intro hn h
    by_cases h1 : ok₁
    · obtain ⟨s1, t1, g1, q1⟩ := h₁.1 (Or.inr h1)
      have := (h₂ s1 q1).2 hn (fun h2 => h ⟨h1, h2⟩)
      show M.bind m f w s = _
      simp only [M.bind, g1.1, this]
    · have := h₁.2 hn h1
      show M.bind m f w s = _
      simp only [M.bind, this]

theorem Does.ok {m : M α} {s : Sys} {ok ok' : Prop} {v : α} {Q : Overlay → Prop}
    (h : Does cfg w m s ok v Q) (ho : ok ↔ ok') : Does cfg w m s ok' v Q :=
  ⟨fun g => h.1 (g.imp id ho.2), fun hn g => h.2 hn (fun x => g (ho.1 x))⟩

theorem Does.post {m : M α} {s : Sys} {ok : Prop} {v : α} {Q R : Overlay → Prop}
    (h : Does cfg w m s ok v Q) (hq : ∀ o, Q o → R o) : Does cfg w m s ok v R :=
  ⟨fun g => by obtain ⟨s', t, h1, h2⟩ := h.1 g; exact ⟨s', t, h1, hq _ h2⟩, h.2⟩

theorem Does.pure {s : Sys} {Q : Overlay → Prop} (v : α) (h : Q s.ov) :
    Does cfg w (pure v : M α) s True v Q :=
  ⟨fun _ => ⟨s, [], Returns.pure v, h⟩, fun _ h => absurd trivial h⟩

theorem Does.of {m : M α} {s s' : Sys} {v : α} {t : List Ev} {Q : Overlay → Prop} (h : Returns m w s v s' t)
    (hq : Q s'.ov) : Does cfg w m s True v Q :=
  ⟨fun _ => ⟨s', t, h, hq⟩, fun _ h => absurd trivial h⟩

/-- After a computation which always succeeds. -/
theorem Does.after {m : M α} {f : α → M β} {s : Sys} {ok : Prop} {v : α} {u : β} {Q R : Overlay → Prop}
    (h₁ : Does cfg w m s True v Q) (h₂ : ∀ s', Q s'.ov → Does cfg w (f v) s' ok u R) :
    Does cfg w (m >>= f) s ok u R :=
  (h₁.bind h₂).ok (by simp)

/-- Before one. -/
theorem Does.before {m : M α} {f : α → M β} {s : Sys} {ok : Prop} {v : α} {u : β} {Q R : Overlay → Prop}
    (h₁ : Does cfg w m s ok v Q) (h₂ : ∀ s', Q s'.ov → Does cfg w (f v) s' True u R) :
    Does cfg w (m >>= f) s ok u R :=
  (h₁.bind h₂).ok (by simp)

theorem Does.reads {m : M α} {s : Sys} {v : α} {Q : Overlay → Prop} {C : Nat → Prop} {n : Nat}
    (h : Reads w s.ov (fun _ => True) C n m v) (hq : Q s.ov) : Does cfg w m s True v Q := by
  obtain ⟨u, s', t, h1, ⟨h2, h3⟩, -⟩ := returns_of_exec h
  subst h2
  exact Does.of h1 (by rw [h3]; exact hq)

theorem does_forLoop {lo bound : Nat} {body : Nat → σ → M σ} (val : Nat → σ) (ok : Nat → Prop)
    (I : Nat → Overlay → Prop)
    (step : ∀ i s, lo ≤ i → i < bound → I i s.ov →
      Does cfg w (body i (val i)) s (ok i) (val (i + 1)) (I (i + 1))) :
    ∀ fuel i s, lo ≤ i → i ≤ bound → bound - i < fuel → I i s.ov →
      Does cfg w (forLoop bound body fuel i (val i)) s (∀ j, i ≤ j → j < bound → ok j) (val bound) (I bound) := by
  intro fuel
  induction fuel with
  | zero => intro i s _ _ h; omega
  | succ fuel ih =>
    intro i s hlo hi hf hI
    unfold forLoop
    by_cases hb : i < bound
    · rw [if_pos hb]
      refine Does.after (Q := I i) (Does.reads (Reads.iterate trivial) hI) fun s1 h1 => ?_
      refine ((step i s1 hlo hb h1).bind fun s2 h2 =>
        ih (i + 1) s2 (by omega) (by omega) (by omega) h2).ok ?_
      constructor
      · intro ⟨g1, g2⟩ j hj hjb
        by_cases e : j = i
        · rw [e]; exact g1
        · exact g2 j (by omega) hjb
      · intro g
        exact ⟨g i (Nat.le_refl i) hb, fun j h1 h2 => g j (by omega) h2⟩
    · have e : i = bound := by omega
      subst e
      rw [if_neg hb]
      exact (Does.pure _ hI).ok ⟨fun _ j h1 h2 => by omega, fun _ => trivial⟩

/-! ## Probes -/

theorem probe_len : ∀ k < 81, (probeAt k).msg.length = (probeAt k).len := by decide +kernel

theorem probeAt_bins {i : Nat} (h1 : 1 ≤ i) (h2 : i < 64) :
    probeAt (i + 2) = ⟨.pattern, 0, i, (1 : U64) <<< (i - 1)⟩ := by
  unfold probeAt
  rw [if_neg (by omega), if_neg (by omega), if_neg (by omega), if_pos (by omega),
    show i + 2 - 2 = i by omega, show i + 2 - 3 = i - 1 by omega]

theorem probeAt_aligns {i : Nat} (h1 : 1 ≤ i) (h2 : i < 8) :
    probeAt (i + 65) = ⟨.pattern, i, 64 - i, (~~~0 : U64) <<< i⟩ := by
  unfold probeAt
  rw [if_neg (by omega), if_neg (by omega), if_neg (by omega), if_neg (by omega), if_pos (by omega),
    show i + 65 - 65 = i by omega]

theorem probeAt_longs {i : Nat} (h2 : i < 8) :
    probeAt (i + 73) = ⟨.long, i, 128 + i * 17, (~~~0 : U64) <<< 7⟩ := by
  unfold probeAt
  rw [if_neg (by omega), if_neg (by omega), if_neg (by omega), if_neg (by omega), if_neg (by omega),
    show i + 73 - 73 = i by omega]

/-- One of the first `k` probes failed. -/
def bad (ok : Nat → Bool) (k : Nat) : Bool := !(List.range k).all ok

theorem bad_succ (ok : Nat → Bool) (k : Nat) : bad ok (k + 1) = (bad ok k || !ok k) := by
  simp [bad, List.range_succ]

theorem bad_false {ok : Nat → Bool} {k : Nat} : bad ok k = false ↔ ∀ j < k, ok j = true := by
  simp [bad]

/-- The function returns the value in the table. -/
def okAt (H : Nat → U64) (table : List U64) (k : Nat) : Bool :=
  table[k]? == some (H k)

/-- What holds between the probes; `longOk`: the long pattern has been made. -/
structure Between (cfg : Cfg) (w : World) (ov : Overlay) (pattern long refs : Nat) (table : List U64)
    (scratch : Nat → Prop) (longOk : Bool) (o : Overlay) : Prop where
  same : ∀ a, ¬ scratch a → (a < long ∨ long + 512 ≤ a) → o a = ov a
  later : Later ov o
  table : ArrayAt cfg w o refs table
  pattern : Holds w o pattern Ref.t1ha_test_pattern
  long : longOk = true → Holds w o long Base.long.bytes

section
variable {ov : Overlay} {pattern long refs : Nat} {table : List U64} {hash : HashFn}
  {H : Nat → U64} {scratch : Nat → Prop} {longOk : Bool}

theorem ArrayAt.congr {o o' : Overlay} (h : ArrayAt cfg w o refs table) (hl : table.length = 81)
    (he : ∀ a, refs ≤ a → a < refs + 8 * 81 → o' a = o a) : ArrayAt cfg w o' refs table := by
  intro i v hv
  have hi : i < table.length := by
    rcases Nat.lt_or_ge i table.length with h | h
    · exact h
    · rw [List.getElem?_eq_none h] at hv; exact absurd hv (by simp)
  refine (h i v hv).congr fun a h1 h2 => he a (by omega) ?_
  rw [length_bytes] at h2
  omega

theorem length_pattern : Ref.t1ha_test_pattern.length = 64 := by decide

theorem length_long : Base.long.bytes.length = 512 := by simp [Base.bytes]

theorem long_getElem {i : Nat} (h : i < 512) : Base.long.bytes[i]? = some (BitVec.ofNat 8 i) := by
  unfold Base.bytes
  rw [List.getElem?_map, List.getElem?_range h]
  rfl

theorem Between.congr {o o' : Overlay} (h : Between cfg w ov pattern long refs table scratch longOk o)
    (hl : table.length = 81) (hg : Later o o') (he : ∀ a, ¬ scratch a → o' a = o a)
    (hs : Elsewhere scratch pattern long refs) :
    Between cfg w ov pattern long refs table scratch longOk o' where
  same := fun a h1 h2 => (he a h1).trans (h.same a h1 h2)
  later := fun a ha => h.later a (hg a ha)
  table := h.table.congr hl fun a h1 h2 => he a fun hsa => by have := (hs a hsa).1; omega
  pattern := h.pattern.congr fun a h1 h2 => he a fun hsa => by
    have := (hs a hsa).2.1; rw [length_pattern] at h2; omega
  long := fun hlo => (h.long hlo).congr fun a h1 h2 => he a fun hsa => by
    have := (hs a hsa).2.2; rw [length_long] at h2; omega

theorem Between.msg {o : Overlay} (h : Between cfg w ov pattern long refs table scratch longOk o) {k : Nat}
    (hk : longOk = true ∨ (probeAt k).base ≠ .long) :
    Holds w o ((probeAt k).addr pattern long) (probeAt k).msg := by
  unfold Probe.addr Probe.msg
  cases hb : (probeAt k).base with
  | null => simp only [Base.bytes, List.drop_nil, List.take_nil]; exact holds_nil
  | pattern => exact h.pattern.slice _ _
  | long =>
    rcases hk with hk | hk
    · exact (h.long hk).slice _ _
    · exact absurd hb hk

theorem does_probeNext (hm : CheckMem cfg w ov pattern long refs table)
    (hc : Computes w ov pattern long hash H scratch) (hs : Elsewhere scratch pattern long refs) {k : Nat}
    (hk : k < 81) (hk' : longOk = true ∨ (probeAt k).base ≠ .long) {s : Sys}
    (h : Between cfg w ov pattern long refs table scratch longOk s.ov) (failed : Bool) :
    Does cfg w (probeNext cfg hash (refs + 8 * k) failed ((probeAt k).addr pattern long) (probeAt k).len
        (probeAt k).seed) s (okAt H table k = true) (refs + 8 * (k + 1), failed || !okAt H table k)
      (Between cfg w ov pattern long refs table scratch longOk) := by
  have hkl : k < table.length := by rw [hm.size]; exact hk
  have hv : table[k]? = some table[k] := List.getElem?_eq_getElem hkl
  have hok : okAt H table k = (H k == table[k]) := by
    unfold okAt
    rw [hv, Bool.eq_iff_iff, beq_iff_eq, beq_iff_eq, Option.some.injEq]
    exact eq_comm
  have htf := hm.table_fits
  unfold probeNext
  refine Does.after (Does.reads (reads_readU64 (h.table k _ hv) trivial) h) fun s1 h1 => ?_
  refine Does.after (v := refs + 8 * (k + 1)) (Does.reads (C := nowhere) (n := 0) ?_ h1) fun s2 h2 => ?_
  · rw [show refs + 8 * (k + 1) = refs + 8 * k + 8 by omega]
    exact Reads.ptrAdd (by omega) trivial
  obtain ⟨s3, t, g1, g2, g3⟩ := hc k hk s2 h2.later (h2.msg hk')
  have h3 := h2.congr hm.size g2 g3 hs
  rw [probe_len k hk] at g1
  refine Does.before (v := !okAt H table k) (Q := Between cfg w ov pattern long refs table scratch longOk) ?_
    (fun s' h' => Does.pure _ h')
  unfold probe
  refine Does.after (Does.of g1 h3) fun s4 h4 => ?_
  rw [← hok]
  refine Does.before (v := ()) (Q := Between cfg w ov pattern long refs table scratch longOk) ?_ (fun s' h' => ?_)
  · unfold cassert
    cases hn : cfg.ndebug with
    | true => exact ⟨fun _ => ⟨s4, [], Returns.pure (), h4⟩, fun h => absurd (hn.symm.trans h) (by decide)⟩
    | false =>
      cases ho : okAt H table k with
      | true => exact ⟨fun _ => ⟨s4, [], Returns.pure (), h4⟩, fun _ h => absurd rfl h⟩
      | false => exact ⟨fun h => absurd h (by rw [hn]; decide), fun _ _ => rfl⟩
  · have e : (H k != table[k]) = !okAt H table k := by rw [hok]; rfl
    rw [e]
    exact Does.pure _ h'

theorem shl_one {x : U64} {i : Nat} (h : 1 ≤ i) : x <<< (i - 1) <<< 1 = x <<< i := by
  rw [← BitVec.shiftLeft_add, Nat.sub_add_cancel h]

theorem does_bins (hm : CheckMem cfg w ov pattern long refs table)
    (hc : Computes w ov pattern long hash H scratch) (hs : Elsewhere scratch pattern long refs)
    {s : Sys} (h : Between cfg w ov pattern long refs table scratch longOk s.ov) :
    Does cfg w (selfcheck_bins cfg hash pattern (refs + 8 * 3) (bad (okAt H table) 3)) s
      (∀ j, 3 ≤ j → j < 66 → okAt H table j = true)
      (refs + 8 * 66, bad (okAt H table) 66, (1 : U64) <<< 63)
      (Between cfg w ov pattern long refs table scratch longOk) := by
  have := does_forLoop (lo := 1) (bound := 64) (cfg := cfg) (w := w)
    (body := fun i (s : Nat × Bool × U64) => do
      let r ← probeNext cfg hash s.1 s.2.1 pattern i s.2.2
      pure (r.1, r.2, s.2.2 <<< 1))
    (val := fun i => (refs + 8 * (i + 2), bad (okAt H table) (i + 2), (1 : U64) <<< (i - 1)))
    (ok := fun i => okAt H table (i + 2) = true)
    (I := fun _ => Between cfg w ov pattern long refs table scratch longOk)
    (by
      intro i s h1 h2 hb
      have hp := probeAt_bins h1 h2
      have hd := does_probeNext hm hc hs (k := i + 2) (by omega) (Or.inr (by rw [hp]; simp)) hb
        (bad (okAt H table) (i + 2))
      rw [hp] at hd
      refine Does.before hd fun s' h' => ?_
      rw [← bad_succ, shl_one h1]
      exact Does.pure _ h')
    64 1 s (Nat.le_refl 1) (by decide) (by decide) h
  refine this.ok ?_
  constructor
  · intro g j h1 h2
    have := g (j - 2) (by omega) (by omega)
    rwa [show j - 2 + 2 = j by omega] at this
  · intro g j h1 h2
    exact g (j + 2) (by omega) (by omega)

theorem does_aligns (hm : CheckMem cfg w ov pattern long refs table)
    (hc : Computes w ov pattern long hash H scratch) (hs : Elsewhere scratch pattern long refs)
    {s : Sys} (h : Between cfg w ov pattern long refs table scratch longOk s.ov) :
    Does cfg w (selfcheck_aligns cfg hash pattern (refs + 8 * 66) (bad (okAt H table) 66)) s
      (∀ j, 66 ≤ j → j < 73 → okAt H table j = true)
      (refs + 8 * 73, bad (okAt H table) 73, (~~~0 : U64) <<< 7)
      (Between cfg w ov pattern long refs table scratch longOk) := by
  have hpf := hm.pattern_fits
  have := does_forLoop (lo := 1) (bound := 8) (cfg := cfg) (w := w)
    (body := fun i (s : Nat × Bool × U64) => do
      let seed := s.2.2 <<< 1
      let data ← ptrAdd cfg pattern i
      let r ← probeNext cfg hash s.1 s.2.1 data (64 - i) seed
      pure (r.1, r.2, seed))
    (val := fun i => (refs + 8 * (i + 65), bad (okAt H table) (i + 65), (~~~0 : U64) <<< (i - 1)))
    (ok := fun i => okAt H table (i + 65) = true)
    (I := fun _ => Between cfg w ov pattern long refs table scratch longOk)
    (by
      intro i s h1 h2 hb
      have hp := probeAt_aligns h1 h2
      refine Does.after (Does.reads (Reads.ptrAdd (by omega) trivial) hb) fun s1 hb1 => ?_
      have hd := does_probeNext hm hc hs (k := i + 65) (by omega) (Or.inr (by rw [hp]; simp)) hb1
        (bad (okAt H table) (i + 65))
      rw [hp] at hd
      rw [shl_one h1]
      refine Does.before hd fun s' h' => ?_
      rw [← bad_succ]
      exact Does.pure _ h')
    8 1 s (Nat.le_refl 1) (by decide) (by decide) h
  refine this.ok ?_
  constructor
  · intro g j h1 h2
    have := g (j - 65) (by omega) (by omega)
    rwa [show j - 65 + 65 = j by omega] at this
  · intro g j h1 h2
    exact g (j + 65) (by omega) (by omega)

theorem does_longs (hm : CheckMem cfg w ov pattern long refs table)
    (hc : Computes w ov pattern long hash H scratch) (hs : Elsewhere scratch pattern long refs)
    {s : Sys} (h : Between cfg w ov pattern long refs table scratch true s.ov) :
    Does cfg w (selfcheck_longs cfg hash long (refs + 8 * 73) (bad (okAt H table) 73) ((~~~0 : U64) <<< 7)) s
      (∀ j, 73 ≤ j → j < 81 → okAt H table j = true)
      (refs + 8 * 81, bad (okAt H table) 81)
      (Between cfg w ov pattern long refs table scratch true) := by
  have hlf := hm.long_fits
  have := does_forLoop (lo := 0) (bound := 8) (cfg := cfg) (w := w)
    (body := fun i (s : Nat × Bool) => do
      let data ← ptrAdd cfg long i
      probeNext cfg hash s.1 s.2 data (128 + i * 17) ((~~~0 : U64) <<< 7))
    (val := fun i => (refs + 8 * (i + 73), bad (okAt H table) (i + 73)))
    (ok := fun i => okAt H table (i + 73) = true)
    (I := fun _ => Between cfg w ov pattern long refs table scratch true)
    (by
      intro i s _ h2 hb
      have hp := probeAt_longs h2
      refine Does.after (Does.reads (Reads.ptrAdd (by omega) trivial) hb) fun s1 hb1 => ?_
      have hd := does_probeNext hm hc hs (k := i + 73) (by omega) (Or.inl rfl) hb1
        (bad (okAt H table) (i + 73))
      rw [hp, ← bad_succ] at hd
      exact hd)
    9 0 s (Nat.le_refl 0) (by decide) (by decide) h
  refine this.ok ?_
  constructor
  · intro g j h1 h2
    have := g (j - 73) (by omega) (by omega)
    rwa [show j - 73 + 73 = j by omega] at this
  · intro g j h1 h2
    exact g (j + 73) (by omega) (by omega)

theorem does_fill (hm : CheckMem cfg w ov pattern long refs table)
    {s : Sys} (h : Between cfg w ov pattern long refs table scratch false s.ov) :
    Does cfg w (selfcheck_fill cfg long) s True () (Between cfg w ov pattern long refs table scratch true) := by
  have hlf := hm.long_fits
  have hlen := length_long
  have := does_forLoop (lo := 0) (bound := 512) (cfg := cfg) (w := w)
    (body := fun i (_ : Unit) => do
      let p ← ptrAdd cfg long i
      store p [BitVec.ofNat 8 i])
    (val := fun _ => ())
    (ok := fun _ => True)
    (I := fun i o => Between cfg w ov pattern long refs table scratch false o ∧ Holds w o long (Base.long.bytes.take i))
    (by
      intro i s _ h2 ⟨hb, hh⟩
      refine Does.after (Q := fun o => Between cfg w ov pattern long refs table scratch false o ∧
        Holds w o long (Base.long.bytes.take i)) (Does.reads (Reads.ptrAdd (by omega) trivial) ⟨hb, hh⟩)
        fun s1 ⟨hb1, hh1⟩ => ?_
      have hw : Writable w (long + i) 1 := hm.writable_long.sub (by omega) (by omega)
      obtain ⟨u, s2, t, g1, g2, -⟩ := returns_of_exec (P := fun _ => True)
        (Exec.store (ov := s1.ov) (bs := [BitVec.ofNat 8 i]) hw trivial)
      refine Does.of g1 ?_
      rw [g2]
      have hn : ([BitVec.ofNat 8 i] : List Byte).length = 1 := rfl
      obtain ⟨a1, a2⟩ := hm.apart
      unfold Disjoint at a1 a2
      refine ⟨⟨fun a h3 h4 => (put_other (by rw [hn]; omega)).trans (hb1.same a h3 h4),
        fun a ha => hb1.later a (put_grow ha), ?_, ?_, fun h => (nomatch h)⟩, ?_⟩
      · refine hb1.table.congr hm.size fun a h3 h4 => put_other ?_
        rw [hn]; omega
      · refine hb1.pattern.congr fun a h3 h4 => put_other ?_
        rw [length_pattern] at h4
        rw [hn]; omega
      · have hl : (Base.long.bytes.take i).length = i := by rw [List.length_take]; omega
        have e : Base.long.bytes.take (i + 1) = Base.long.bytes.take i ++ [BitVec.ofNat 8 i] := by
          rw [List.take_add_one]
          rw [long_getElem h2]
          rfl
        rw [e]
        refine Holds.append (hh1.put (by rw [hl, hn]; omega)) ?_
        rw [hl]
        exact holds_put hw.1)
    513 0 s (Nat.le_refl 0) (by decide) (by decide) ⟨h, by rw [List.take_zero]; exact holds_nil⟩
  refine (this.ok (by simp)).post ?_
  rintro o ⟨hb, hh⟩
  rw [List.take_of_length_le (by omega)] at hh
  exact ⟨hb.same, hb.later, hb.table, hb.pattern, fun _ => hh⟩

theorem does_selfcheck (hm : CheckMem cfg w ov pattern long refs table)
    (hc : Computes w ov pattern long hash H scratch) (hs : Elsewhere scratch pattern long refs)
    {s : Sys} (h : Between cfg w ov pattern long refs table scratch false s.ov) :
    Does cfg w (t1ha_selfcheck cfg pattern long hash refs) s (PassesAll H table)
      (if bad (okAt H table) 81 then -1 else 0)
      (Between cfg w ov pattern long refs table scratch true) := by
  have key : ∀ k, okAt H table k = true ↔ table[k]? = some (H k) := by
    intro k; unfold okAt; simp
  have p0 : probeAt 0 = ⟨.null, 0, 0, 0⟩ := rfl
  have p1 : probeAt 1 = ⟨.null, 0, 0, ~~~0⟩ := rfl
  have p2 : probeAt 2 = ⟨.pattern, 0, 64, 0⟩ := rfl
  unfold t1ha_selfcheck
  have d0 := fun s h => does_probeNext (longOk := false) hm hc hs (k := 0) (s := s) (by decide)
    (Or.inr (by decide)) h false
  have d1 := fun s h => does_probeNext (longOk := false) hm hc hs (k := 1) (s := s) (by decide)
    (Or.inr (by decide)) h (bad (okAt H table) 1)
  have d2 := fun s h => does_probeNext (longOk := false) hm hc hs (k := 2) (s := s) (by decide)
    (Or.inr (by decide)) h (bad (okAt H table) 2)
  have b0 : (false || !okAt H table 0) = bad (okAt H table) 1 := (bad_succ _ 0).symm
  rw [p0, b0] at d0
  rw [p1, ← bad_succ] at d1
  rw [p2, ← bad_succ] at d2
  have last : ∀ s6 : Sys, Between cfg w ov pattern long refs table scratch true s6.ov → Does cfg w (do
      let r ← selfcheck_longs cfg hash long (refs + 8 * 73) (bad (okAt H table) 73) ((~~~0 : U64) <<< 7)
      pure (if r.2 then -1 else 0) : M CInt) s6 (∀ j, 73 ≤ j → j < 81 → okAt H table j = true)
      (if bad (okAt H table) 81 then -1 else 0) (Between cfg w ov pattern long refs table scratch true) :=
    fun s6 h6 => Does.before (does_longs hm hc hs h6) fun s7 h7 => Does.pure _ h7
  refine (Does.bind (d0 s h) fun s1 h1 => Does.bind (d1 s1 h1) fun s2 h2 => Does.bind (d2 s2 h2) fun s3 h3 =>
    Does.bind (does_bins hm hc hs h3) fun s4 h4 => Does.bind (does_aligns hm hc hs h4) fun s5 h5 =>
    Does.after (does_fill hm h5) fun s6 h6 => last s6 h6).ok ?_
  constructor
  · intro ⟨g0, g1, g2, g3, g4, g5⟩ k hk
    rw [← key]
    by_cases e0 : k = 0
    · rw [e0]; exact g0
    by_cases e1 : k = 1
    · rw [e1]; exact g1
    by_cases e2 : k = 2
    · rw [e2]; exact g2
    by_cases e3 : k < 66
    · exact g3 k (by omega) e3
    by_cases e4 : k < 73
    · exact g4 k (by omega) e4
    · exact g5 k (by omega) hk
  · intro g
    have g' : ∀ k < 81, okAt H table k = true := fun k hk => (key k).2 (g k hk)
    exact ⟨g' 0 (by decide), g' 1 (by decide), g' 2 (by decide), fun j _ h2 => g' j (by omega),
      fun j _ h2 => g' j (by omega), fun j _ h2 => g' j h2⟩

theorem CheckMem.between (hm : CheckMem cfg w ov pattern long refs table) :
    Between cfg w ov pattern long refs table scratch false ov :=
  ⟨fun _ _ _ => rfl, fun _ h => h, hm.holds_table, hm.holds_pattern, fun h => (nomatch h)⟩

theorem bad_iff : bad (okAt H table) 81 = false ↔ PassesAll H table := by
  rw [bad_false]
  unfold PassesAll okAt
  simp

end

/-! ## Arbitrary code -/

theorem bind_ok {m : M α} {f : α → M β} {s s' : Sys} {v : β} (h : (m >>= f) w s = .ok (v, s')) :
    ∃ u s1, m w s = .ok (u, s1) ∧ f u w s1 = .ok (v, s') := by
  have h' : M.bind m f w s = .ok (v, s') := h
  unfold M.bind at h'
  cases hm : m w s with
  | error e => rw [hm] at h'; cases h'
  | ok x => rw [hm] at h'; exact ⟨x.1, x.2, rfl, h'⟩

theorem pure_ok {u v : α} {s s' : Sys} (h : (pure u : M α) w s = .ok (v, s')) : v = u ∧ s' = s := by
  have h' : (.ok (u, s) : Except Err (α × Sys)) = .ok (v, s') := h
  cases h'
  exact ⟨rfl, rfl⟩

theorem ptrAdd_ok {p n v : Nat} {s s' : Sys} (h : ptrAdd cfg p n w s = .ok (v, s')) :
    v = p + n ∧ s'.ov = s.ov := by
  unfold ptrAdd at h
  split at h
  · cases h; exact ⟨rfl, rfl⟩
  · cases h

theorem forLoop_ok {lo bound : Nat} {body : Nat → σ → M σ} (J : Nat → σ → Prop)
    (step : ∀ i x s y s', lo ≤ i → i < bound → J i x → body i x w s = .ok (y, s') → J (i + 1) y) :
    ∀ fuel i x s y s', lo ≤ i → i ≤ bound → J i x → forLoop bound body fuel i x w s = .ok (y, s') →
      J bound y := by
  intro fuel
  induction fuel with
  | zero => intro i x s y s' _ _ _ h; cases h
  | succ fuel ih =>
    intro i x s y s' hlo hi hJ h
    unfold forLoop at h
    by_cases hb : i < bound
    · rw [if_pos hb] at h
      obtain ⟨_, s1, -, h⟩ := bind_ok h
      obtain ⟨z, s2, h1, h⟩ := bind_ok h
      exact ih (i + 1) z s2 y s' (by omega) (by omega) (step i x s1 z s2 hlo hb hJ h1) h
    · rw [if_neg hb] at h
      obtain ⟨rfl, -⟩ := pure_ok h
      rw [show bound = i by omega]
      exact hJ

/-- Probe `k` has been made and was answered with the value in the table. -/
def Asked (cfg : Cfg) (w : World) (pattern long : Nat) (hash : HashFn) (refs k : Nat) : Prop :=
  ∃ s0 s1 s2 s3 x, readU64 cfg (refs + 8 * k) w s0 = .ok (x, s1) ∧ s2.ov = s1.ov ∧
    hash ((probeAt k).addr pattern long) (probeAt k).len (probeAt k).seed w s2 = .ok (x, s3)

/-- The value for probe `k` has been read, and the function has returned another one. -/
def Refused (cfg : Cfg) (w : World) (pattern long : Nat) (hash : HashFn) (refs k : Nat) : Prop :=
  ∃ s0 s1 s2 s3 x y, readU64 cfg (refs + 8 * k) w s0 = .ok (x, s1) ∧ s2.ov = s1.ov ∧
    hash ((probeAt k).addr pattern long) (probeAt k).len (probeAt k).seed w s2 = .ok (y, s3) ∧ y ≠ x

/-- What `failed` means after `k` probes. -/
def Hist (cfg : Cfg) (w : World) (pattern long : Nat) (hash : HashFn) (refs : Nat) (failed : Bool) (k : Nat) :
    Prop :=
  (failed = false → ∀ j < k, Asked cfg w pattern long hash refs j) ∧
  (failed = true → ∃ j < k, Refused cfg w pattern long hash refs j)

section
variable {pattern long refs : Nat} {hash : HashFn}

theorem probeNext_ok {k : Nat} {failed : Bool} {r : Nat × Bool} {s s' : Sys} {data len : Nat} {seed : U64}
    (hd : data = (probeAt k).addr pattern long) (hl : len = (probeAt k).len) (hs : seed = (probeAt k).seed)
    (hp : Hist cfg w pattern long hash refs failed k)
    (h : probeNext cfg hash (refs + 8 * k) failed data len seed w s = .ok (r, s')) :
    r.1 = refs + 8 * (k + 1) ∧ Hist cfg w pattern long hash refs r.2 (k + 1) := by
  unfold probeNext at h
  obtain ⟨x, s1, h1, new⟩ := bind_ok h
  clear h; rename' new => h
  obtain ⟨p, s2, h2, new⟩ := bind_ok h
  clear h; rename' new => h
  obtain ⟨rfl, hov⟩ := ptrAdd_ok h2
  obtain ⟨f, s3, h3, new⟩ := bind_ok h
  clear h; rename' new => h
  obtain ⟨rfl, rfl⟩ := pure_ok h
  unfold probe at h3
  obtain ⟨y, s4, h4, new⟩ := bind_ok h3
  clear h3; rename' new => h3
  obtain ⟨_, s5, -, new⟩ := bind_ok h3
  clear h3; rename' new => h3
  obtain ⟨rfl, rfl⟩ := pure_ok h3
  subst hd hl hs
  refine ⟨by simp only; omega, fun hf j hj => ?_, fun hf => ?_⟩
  · simp only [Bool.or_eq_false_iff, bne_eq_false_iff_eq] at hf
    by_cases e : j = k
    · subst e
      obtain ⟨-, rfl⟩ := hf
      exact ⟨s, s1, s2, s4, y, h1, hov, h4⟩
    · exact hp.1 hf.1 j (by omega)
  · simp only [Bool.or_eq_true, bne_iff_ne] at hf
    rcases hf with hf | hf
    · obtain ⟨j, hj, h⟩ := hp.2 hf
      exact ⟨j, by omega, h⟩
    · exact ⟨k, by omega, s, s1, s2, s4, x, y, h1, hov, h4, hf⟩

theorem selfcheck_ok {v : CInt} {s s' : Sys}
    (h : t1ha_selfcheck cfg pattern long hash refs w s = .ok (v, s')) :
    (v = 0 ∨ v = -1) ∧ (v = 0 → ∀ k < 81, Asked cfg w pattern long hash refs k) ∧
    (v = -1 → ∃ k < 81, Refused cfg w pattern long hash refs k) := by
  unfold t1ha_selfcheck at h
  obtain ⟨r0, s0, h0, new⟩ := bind_ok h
  clear h; rename' new => h
  obtain ⟨r1, s1, h1, new⟩ := bind_ok h
  clear h; rename' new => h
  obtain ⟨r2, s2, h2, new⟩ := bind_ok h
  clear h; rename' new => h
  obtain ⟨r3, s3, h3, new⟩ := bind_ok h
  clear h; rename' new => h
  obtain ⟨r4, s4, h4, new⟩ := bind_ok h
  clear h; rename' new => h
  obtain ⟨_, s5, -, new⟩ := bind_ok h
  clear h; rename' new => h
  obtain ⟨r6, s6, h6, new⟩ := bind_ok h
  clear h; rename' new => h
  obtain ⟨rfl, rfl⟩ := pure_ok h
  have k0 := probeNext_ok (k := 0) (failed := false) (pattern := pattern) (long := long) (refs := refs) rfl rfl rfl ⟨fun _ j hj => by omega, fun h => (nomatch h)⟩ h0
  rw [k0.1] at h1
  have k1 := probeNext_ok (k := 1) (pattern := pattern) (long := long) rfl rfl rfl k0.2 h1
  rw [k1.1] at h2
  have k2 := probeNext_ok (k := 2) (pattern := pattern) (long := long) rfl rfl rfl k1.2 h2
  rw [k2.1] at h3
  unfold selfcheck_bins at h3
  have k3 := forLoop_ok (w := w) (lo := 1) (bound := 64)
    (fun i (x : Nat × Bool × U64) => x.1 = refs + 8 * (i + 2) ∧ x.2.2 = (1 : U64) <<< (i - 1) ∧
      Hist cfg w pattern long hash refs x.2.1 (i + 2))
    (by
      intro i x s y s' a1 a2 ⟨b1, b2, b3⟩ hh
      obtain ⟨r, u, c1, new⟩ := bind_ok hh
      clear hh; rename' new => hh
      obtain ⟨rfl, rfl⟩ := pure_ok hh
      rw [b1] at c1
      have hp := probeAt_bins a1 a2
      have := probeNext_ok (k := i + 2) (pattern := pattern) (long := long) (by rw [hp]; rfl) (by rw [hp])
        (by rw [hp, b2]) b3 c1
      exact ⟨this.1, by rw [b2]; exact shl_one a1, this.2⟩)
    64 1 (refs + 8 * (2 + 1), r2.2, 1) _ _ _ (by decide) (by decide) ⟨rfl, rfl, k2.2⟩ h3
  rw [k3.1] at h4
  unfold selfcheck_aligns at h4
  have k4 := forLoop_ok (w := w) (lo := 1) (bound := 8)
    (fun i (x : Nat × Bool × U64) => x.1 = refs + 8 * (i + 65) ∧ x.2.2 = (~~~0 : U64) <<< (i - 1) ∧
      Hist cfg w pattern long hash refs x.2.1 (i + 65))
    (by
      intro i x s y s' a1 a2 ⟨b1, b2, b3⟩ hh
      obtain ⟨p, u, c0, new⟩ := bind_ok hh
      clear hh; rename' new => hh
      obtain ⟨rfl, -⟩ := ptrAdd_ok c0
      obtain ⟨r, u, c1, new⟩ := bind_ok hh
      clear hh; rename' new => hh
      obtain ⟨rfl, rfl⟩ := pure_ok hh
      rw [b1] at c1
      have hp := probeAt_aligns a1 a2
      have := probeNext_ok (k := i + 65) (pattern := pattern) (long := long) (by rw [hp]; rfl) (by rw [hp])
        (by rw [hp, b2]; exact shl_one a1) b3 c1
      exact ⟨this.1, by rw [b2]; exact shl_one a1, this.2⟩)
    8 1 (refs + 8 * (64 + 2), r3.2.1, ~~~0) _ _ _ (by decide) (by decide) ⟨rfl, rfl, k3.2.2⟩ h4
  rw [k4.1, k4.2.1] at h6
  unfold selfcheck_longs at h6
  have k6 := forLoop_ok (w := w) (lo := 0) (bound := 8)
    (fun i (x : Nat × Bool) => x.1 = refs + 8 * (i + 73) ∧
      Hist cfg w pattern long hash refs x.2 (i + 73))
    (by
      intro i x s y s' a1 a2 ⟨b1, b3⟩ hh
      obtain ⟨p, u, c0, new⟩ := bind_ok hh
      clear hh; rename' new => hh
      obtain ⟨rfl, -⟩ := ptrAdd_ok c0
      rw [b1] at hh
      have hp := probeAt_longs a2
      exact probeNext_ok (k := i + 73) (pattern := pattern) (long := long) (by rw [hp]; rfl) (by rw [hp])
        (by rw [hp]) b3 hh)
    9 0 (refs + 8 * (8 + 65), r4.2.1) _ _ _ (by decide) (by decide) ⟨rfl, k4.2.2⟩ h6
  cases hb : r6.2 with
  | true => exact ⟨Or.inr rfl, fun h => absurd h (by decide), fun _ => k6.2.2 hb⟩
  | false => exact ⟨Or.inl rfl, fun _ => k6.2.1 hb, fun h => absurd h (by decide)⟩

end

end T1ha.Model
