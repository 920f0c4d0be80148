import Verif.Proofs.OneShot
import Verif.Proofs.ObliviousStream
import Verif.Props.Stream

/-!
# What is accessed does not depend on secrets: C38

The events of a call (`Ev`: reads, writes, iterations of loops, in order, with addresses and sizes) are
what somebody can see who watches the memory bus or the cache. They are the same whatever the bytes of
the message and the seeds are. (The arithmetic between two accesses has no events: how long a
multiplication takes is not modelled.)
-/

namespace T1ha.Props

open Model Examples

variable {cfg : Cfg} {w w' : World} {s s' : Sys} {page page' data ctx slot : Nat} {extra : Option Nat}
  {x y x' y' : U64} {img img' before before' fed fed' m m' : List Byte}

/-- C38: two calls of a one-shot function with messages of the same length at the same address make the
same accesses in the same order, whatever the messages, the seeds, and the memory around them are. -/
theorem access_pattern_oblivious (f : OneShot) (hlen : m'.length = m.length)
    (h : Buf cfg w s.ov page data m) (h' : Buf cfg w' s'.ov page' data m')
    (r : f.Ready cfg w data m.length) (r' : f.Ready cfg w' data m'.length) (seed seed' : U64) :
    ∃ v s₁ v' s₁' t, Returns (f.run cfg data m.length seed) w s v s₁ t ∧
      Returns (f.run cfg data m'.length seed') w' s' v' s₁' t := by
  obtain ⟨t, h1, _⟩ := f.returns h r seed
  obtain ⟨t', h2, _⟩ := f.returns h' r' seed'
  have h2' := h2.1
  rw [hlen] at h2'
  obtain ⟨⟨u, e1, e2⟩, _⟩ := (f.same cfg data m.length seed seed').run _ _ _ _ _ _ trivial h1.1 h2'
  exact ⟨_, _, _, _, u, ⟨h1.1, e1⟩, ⟨h2.1, e2⟩⟩

/-- The same function, two messages and two seeds. -/
example (f : OneShot) (hf : f.output = none) (seed seed' : U64) : ∃ v s₁ v' s₁' t,
    Returns (f.run amd64 5001 100 seed) (memory 4096 8192 5001 (msg 100)) start v s₁ t ∧
    Returns (f.run amd64 5001 100 seed') (memory 4096 8192 5001 (List.replicate 100 0)) start v' s₁' t := by
  have rd : ∀ m : List Byte, m.length = 100 → f.Ready amd64 (memory 4096 8192 5001 m) 5001 m.length := by
    intro m hm
    refine ⟨fun _ => Or.inr ?_, fun _ => ?_, fun p hp => ?_, fun _ _ _ => ?_, fun _ _ _ => ?_, fun _ _ => ?_⟩
    all_goals first
      | (rw [hf] at hp; exact nomatch hp)
      | (rw [hm]; decide)
      | decide
      | skip
    all_goals (rw [hm]; exact mapped (by decide) (by decide))
  have h1 := length_msg 100
  have h2 : (List.replicate 100 (0 : Byte)).length = 100 := List.length_replicate
  obtain ⟨v, s₁, v', s₁', t, g1, g2⟩ := access_pattern_oblivious f (h2.trans h1.symm)
    (buf_mid amd64 rfl (msg 100) (by rw [h1]; decide)) (buf_mid amd64 rfl (List.replicate 100 0) (by rw [h2]; decide))
    (rd _ h1) (rd _ h2) seed seed'
  rw [h1] at g1
  rw [h2] at g2
  exact ⟨v, s₁, v', s₁', t, g1, g2⟩

/-- C38 for `t1ha2_init`. -/
theorem init_oblivious (here : Ctx cfg w s.ov ctx before) (here' : Ctx cfg w' s'.ov ctx before')
    (x y x' y' : U64) :
    ∃ s₁ s₁' t, Returns (t1ha2_init cfg ctx x y) w s () s₁ t ∧
      Returns (t1ha2_init cfg ctx x' y') w' s' () s₁' t := by
  obtain ⟨s₁, t, _, h1, _⟩ := t1ha2_init_returns here x y
  obtain ⟨s₁', t', _, h2, _⟩ := t1ha2_init_returns here' x' y'
  obtain ⟨⟨u, e1, e2⟩, _⟩ := (Same.t1ha2_init x y x' y' here.writable here'.writable).run _ _ _ _ _ _ trivial
    h1.1 h2.1
  exact ⟨_, _, u, ⟨h1.1, e1⟩, ⟨h2.1, e2⟩⟩

/-- What the contexts of two histories have in common. -/
theorem count_of_history (past : History cfg x y img fed) (past' : History cfg x' y' img' fed')
    (hfed : fed.length % 32 = fed'.length % 32) (here : Ctx cfg w s.ov ctx img)
    (here' : Ctx cfg w' s'.ov ctx img') : Count cfg w w' ctx (fed.length % 32) s.ov s'.ov := by
  have h1 := (past.fed.rep here.holds).part
  have h2 := (past'.fed.rep here'.holds).part
  rw [length_rest] at h1 h2
  rw [← hfed] at h2
  exact ⟨h1, h2⟩

/-- C38 for `t1ha2_update`: two pieces of the same length, after streams whose lengths differ by whole
blocks. -/
theorem update_oblivious (past : History cfg x y img fed) (past' : History cfg x' y' img' fed')
    (hfed : fed.length % 32 = fed'.length % 32) (hlen : m'.length = m.length)
    (here : Ctx cfg w s.ov ctx img) (here' : Ctx cfg w' s'.ov ctx img')
    (piece : Piece cfg w s.ov ctx data m) (piece' : Piece cfg w' s'.ov ctx data m') :
    ∃ s₁ s₁' t, Returns (t1ha2_update cfg ctx data m.length) w s () s₁ t ∧
      Returns (t1ha2_update cfg ctx data m'.length) w' s' () s₁' t := by
  obtain ⟨s₁, t, _, h1, _⟩ := t1ha2_update_returns past here piece
  obtain ⟨s₁', t', _, h2, _⟩ := t1ha2_update_returns past' here' piece'
  have h2' := h2.1
  rw [hlen] at h2'
  have hf := piece.fits
  obtain ⟨⟨u, e1, e2⟩, _⟩ := (Same.t1ha2_update (by omega) data m.length (by omega) here.writable
    here'.writable).run _ _ _ _ _ _ (count_of_history past past' hfed here here') h1.1 h2'
  exact ⟨_, _, u, ⟨h1.1, e1⟩, ⟨h2.1, e2⟩⟩

/-- C38 for `t1ha2_final`. -/
theorem final_oblivious (past : History cfg x y img fed) (past' : History cfg x' y' img' fed')
    (hfed : fed.length % 32 = fed'.length % 32)
    (here : Ctx cfg w s.ov ctx img) (here' : Ctx cfg w' s'.ov ctx img')
    (out : Out cfg w ctx extra slot) (out' : Out cfg w' ctx extra slot) :
    ∃ v s₁ v' s₁' t, Returns (t1ha2_final cfg ctx extra slot) w s v s₁ t ∧
      Returns (t1ha2_final cfg ctx extra slot) w' s' v' s₁' t := by
  obtain ⟨s₁, t, _, h1, _⟩ := t1ha2_final_correct past here out
  obtain ⟨s₁', t', _, h2, _⟩ := t1ha2_final_correct past' here' out'
  obtain ⟨⟨u, e1, e2⟩, _⟩ := (Same.t1ha2_final (by omega) extra slot out.slot_apart here.writable
    here'.writable).run _ _ _ _ _ _ (count_of_history past past' hfed here here') h1.1 h2.1
  exact ⟨_, _, _, _, u, ⟨h1.1, e1⟩, ⟨h2.1, e2⟩⟩

/-- C38 for a whole program: two messages which are cut at the same places. The accesses are the same,
whatever the bytes, the seeds and the contents of the context before are. -/
theorem stream_oblivious (ps ps' : List (Nat × List Byte)) (hcut : spans ps = spans ps')
    (here : Ctx cfg w s.ov ctx before) (here' : Ctx cfg w' s'.ov ctx before')
    (pieces : Pieces cfg w s.ov ctx ps) (pieces' : Pieces cfg w' s'.ov ctx ps')
    (out : Out cfg w ctx extra slot) (out' : Out cfg w' ctx extra slot) (x y x' y' : U64) :
    ∃ v s₁ v' s₁' t, Returns (stream cfg ctx x y (spans ps) extra slot) w s v s₁ t ∧
      Returns (stream cfg ctx x' y' (spans ps') extra slot) w' s' v' s₁' t := by
  obtain ⟨s₁, t, h1, _⟩ := stream_correct ps here pieces out x y
  obtain ⟨s₁', t', h2, _⟩ := stream_correct ps' here' pieces' out' x' y'
  have h2' := h2.1
  rw [← hcut] at h2'
  have hps : ∀ p ∈ spans ps, p.2 < 2 ^ cfg.bits := by
    intro p hp
    obtain ⟨q, hq, rfl⟩ := List.mem_map.1 hp
    have := (pieces q hq).fits
    simp only []
    omega
  obtain ⟨⟨u, e1, e2⟩, _⟩ := (Same.stream x y x' y' (spans ps) hps extra slot out.slot_apart here.writable
    here'.writable).run _ _ _ _ _ _ trivial h1.1 h2'
  exact ⟨_, _, _, _, u, ⟨h1.1, e1⟩, ⟨h2.1, e2⟩⟩

/-! ### Situations which meet the hypotheses -/

/-- A memory of two pages in which every byte is `b`. -/
def still (b : Byte) : World where
  cell _ a := if 4096 ≤ a ∧ a < 12288 then some b else none
  writable _ := true

theorem still_holds {b : Byte} {p n : Nat} (h1 : 4096 ≤ p) (h2 : p + n ≤ 12288) :
    Holds (still b) start.ov p (List.replicate n b) := by
  intro t i c hc
  rw [List.getElem?_replicate] at hc
  split at hc
  · cases hc
    simp only [still, see, start]
    rw [if_pos (by omega)]
    rfl
  · exact nomatch hc

theorem still_writable {b : Byte} {p n : Nat} (h1 : 4096 ≤ p) (h2 : p + n ≤ 12288) :
    Writable (still b) p n := by
  refine ⟨fun t i hi => ?_, fun _ _ => rfl⟩
  simp only [still]
  rw [if_pos (by omega)]
  rfl

theorem ctx_still (cfg : Cfg) (b : Byte) :
    Ctx cfg (still b) start.ov 4096 (List.replicate (ctxSize cfg) b) := by
  have hs : ctxSize cfg ≤ 80 := by unfold ctxSize offTotal; split <;> decide
  refine ⟨List.length_replicate, still_holds (by decide) (by omega), still_writable (by decide) (by omega),
    ?_, ?_, by decide⟩
  · have : 2 ^ 32 ≤ 2 ^ cfg.bits := by unfold Cfg.bits; split <;> decide
    omega
  · unfold Cfg.alignment64
    split <;> decide

theorem piece_still (cfg : Cfg) (b : Byte) {ov : Overlay} {p n : Nat} (h : 4400 ≤ p) (h2 : p + n ≤ 12288)
    (hu : Unchanged start.ov ov 4096 (ctxSize cfg)) :
    Piece cfg (still b) ov 4096 p (List.replicate n b) := by
  have hs : ctxSize cfg ≤ 80 := by unfold ctxSize offTotal; split <;> decide
  refine ⟨(still_holds (by omega) h2).congr fun a h1 _ => hu a (by omega), ?_, by omega, by omega, by omega⟩
  have : 2 ^ 32 ≤ 2 ^ cfg.bits := by unfold Cfg.bits; split <;> decide
  rw [List.length_replicate]
  omega

theorem out_still (cfg : Cfg) (b : Byte) (extra : Option Nat)
    (h : ∀ p, extra = some p → 4096 ≤ p ∧ p + 8 ≤ 12288) : Out cfg (still b) 4096 extra 4300 := by
  have hs : ctxSize cfg ≤ 80 := by unfold ctxSize offTotal; split <;> decide
  have : 2 ^ 32 ≤ 2 ^ cfg.bits := by unfold Cfg.bits; split <;> decide
  exact ⟨still_writable (by decide) (by decide), by omega, by omega, by decide,
    fun p hp => still_writable (h p hp).1 (h p hp).2⟩

/-- `stream_oblivious`: 5 and 70 bytes, in memories full of ones and full of zeros. -/
example (x y x' y' : U64) : ∃ v s₁ v' s₁' t,
    Returns (stream mips32 4096 x y [(5001, 5), (5006, 70)] (some 9001) 4300) (still 1) start v s₁ t ∧
    Returns (stream mips32 4096 x' y' [(5001, 5), (5006, 70)] (some 9001) 4300) (still 0) start v' s₁' t := by
  have hu : Unchanged start.ov start.ov 4096 (ctxSize mips32) := fun _ _ => rfl
  have hp : ∀ b, Pieces mips32 (still b) start.ov 4096 [(5001, List.replicate 5 b), (5006, List.replicate 70 b)] := by
    intro b p hp
    simp only [List.mem_cons, List.not_mem_nil, or_false] at hp
    rcases hp with hp | hp <;> subst hp <;> exact piece_still mips32 b (by simp) (by simp) hu
  exact stream_oblivious (s := start) (s' := start) [(5001, List.replicate 5 1), (5006, List.replicate 70 1)]
    [(5001, List.replicate 5 0), (5006, List.replicate 70 0)] rfl (ctx_still mips32 1) (ctx_still mips32 0)
    (hp 1) (hp 0) (out_still mips32 1 (some 9001) (by rintro _ ⟨⟩; decide))
    (out_still mips32 0 (some 9001) (by rintro _ ⟨⟩; decide)) x y x' y'

/-- `init_oblivious`, `update_oblivious`, `final_oblivious`: 43 bytes have been fed to one context and 75
to the other one; then both get 100 more. -/
example (x y x' y' : U64) : ∃ s s' s₁ s₁' t v v' s₂ s₂' t',
    Returns (t1ha2_update arm32 4096 6000 100) (still 1) s () s₁ t ∧
    Returns (t1ha2_update arm32 4096 6000 100) (still 0) s' () s₁' t ∧
    Returns (t1ha2_final arm32 4096 none 4300) (still 1) s v s₂ t' ∧
    Returns (t1ha2_final arm32 4096 none 4300) (still 0) s' v' s₂' t' := by
  have run : ∀ (b : Byte) (n : Nat) (x y : U64), n ≤ 80 → ∃ (s : Sys) (img : List Byte), History arm32 x y img (List.replicate n b) ∧
      Ctx arm32 (still b) s.ov 4096 img ∧ Unchanged start.ov s.ov 4096 (ctxSize arm32) := by
    intro b n x y hn
    obtain ⟨s1, t1, i1, r1, c1, _, u1⟩ := t1ha2_init_returns (s := start) (ctx_still arm32 b) x y
    have h1 := History.init (ctx_still arm32 b) r1 c1
    have p1 := piece_still arm32 b (p := 5001) (n := n) (by decide) (by omega) u1
    obtain ⟨s2, t2, i2, r2, c2, _, _, _, u2⟩ := t1ha2_update_returns h1 c1 p1
    exact ⟨s2, i2, History.update h1 c1 p1 r2 c2, c2, fun a ha => (u2 a ha).trans (u1 a ha)⟩
  obtain ⟨s, img, h1, c1, u1⟩ := run 1 43 x y (by decide)
  obtain ⟨s', img', h2, c2, u2⟩ := run 0 75 x' y' (by decide)
  have hl : (List.replicate 43 (1 : Byte)).length % 32 = (List.replicate 75 (0 : Byte)).length % 32 := by
    rw [List.length_replicate, List.length_replicate]
  obtain ⟨s₁, s₁', t, g1, g2⟩ := update_oblivious h1 h2 hl (by rw [List.length_replicate, List.length_replicate])
    c1 c2 (piece_still arm32 1 (p := 6000) (n := 100) (by decide) (by decide) u1)
    (piece_still arm32 0 (p := 6000) (n := 100) (by decide) (by decide) u2)
  obtain ⟨v, s₂, v', s₂', t', g3, g4⟩ := final_oblivious h1 h2 hl c1 c2
    (out_still arm32 1 none fun _ h => (nomatch h)) (out_still arm32 0 none fun _ h => (nomatch h))
  rw [List.length_replicate] at g1 g2
  exact ⟨s, s', s₁, s₁', t, v, v', s₂, s₂', t', g1, g2, g3, g4⟩

end T1ha.Props
