import Verif.Props.Others
import Verif.Proofs.HighwayCat
import Verif.Proofs.Ops

/-!
# Incremental hashing with HighwayHash: C73
-/

namespace T1ha.Model

/-- Append pieces (addresses and sizes), with the C code. -/
def appendC (cfg : Cfg) (strict : Bool) : List (Nat × Nat) → HighwayC.HighwayHashCat → M HighwayC.HighwayHashCat
  | [], st => pure st
  | (data, len) :: ps, st => do
    let st ← HighwayC.HighwayHashCatAppend_pure_c cfg strict data len st
    appendC cfg strict ps st

/-- All three results of the C code. -/
def finishC (cfg : Cfg) (strict : Bool) (st : HighwayC.HighwayHashCat) : M (U64 × (U64 × U64) × Quad) := do
  let a ← HighwayC.HighwayHashCatFinish64_pure_c cfg strict st
  let b ← HighwayC.HighwayHashCatFinish128_pure_c cfg strict st
  let c ← HighwayC.HighwayHashCatFinish256_pure_c cfg strict st
  pure (a, b, c)

/-- Append pieces (addresses and sizes), with the C++ code. -/
def appendCxx (cfg : Cfg) (strict : Bool) :
    List (Nat × Nat) → HighwayPortable.HighwayHashCatT → M HighwayPortable.HighwayHashCatT
  | [], st => pure st
  | (data, len) :: ps, st => do
    let st ← HighwayPortable.catAppend cfg strict data len st
    appendCxx cfg strict ps st

/-- All three results of the C++ code. -/
def finishCxx (cfg : Cfg) (strict : Bool) (st : HighwayPortable.HighwayHashCatT) : M (U64 × (U64 × U64) × Quad) := do
  let a ← HighwayPortable.catFinalize64 cfg strict st
  let b ← HighwayPortable.catFinalize128 cfg strict st
  let c ← HighwayPortable.catFinalize256 cfg strict st
  pure (a, b, c)

/-- The three results of HighwayHash of a message. -/
def highwayResults (key : Quad) (m : List Byte) : U64 × (U64 × U64) × Quad :=
  (Spec.highway64 key m, Spec.highway128 key m, Spec.highway256 key m)

/-- The pieces are in memory: each at its address, possibly overlapping each other. -/
def AllThere (cfg : Cfg) (w : World) (ov : Overlay) (ps : List (Nat × List Byte)) : Prop :=
  ∀ p ∈ ps, Message cfg w ov p.1 p.2

/-- Addresses and sizes of pieces. -/
def sizes (ps : List (Nat × List Byte)) : List (Nat × Nat) := ps.map fun p => (p.1, p.2.length)

/-- The pieces, one after the other. -/
def whole (ps : List (Nat × List Byte)) : List Byte := (ps.map Prod.snd).flatten

/-- Only bytes of the pieces are read. -/
def OnlyPieces (ps : List (Nat × List Byte)) : Ev → Prop
  | .rd a n => ∃ p ∈ ps, p.1 ≤ a ∧ a + n ≤ p.1 + p.2.length
  | .wr _ _ => False
  | .iter => True
  | .ptr a => ∃ p ∈ ps, p.1 ≤ a ∧ a ≤ p.1 + p.2.length

end T1ha.Model

namespace T1ha.Props

open Model Examples

variable {cfg : Cfg} {w : World} {s : Sys} {strict : Bool} {key : Quad}

theorem appendC_returns (ps : List (Nat × List Byte)) {qs : List (Nat × List Byte)} (hq : ∀ p ∈ ps, p ∈ qs) {s : Sys}
    (h : AllThere cfg w s.ov ps) {m : List Byte} {st : HighwayC.HighwayHashCat}
    (f : Kept key m st.state st.packet st.num) :
    ∃ st' s' t, Returns (appendC cfg strict (sizes ps) st) w s st' s' t ∧ s'.ov = s.ov ∧
      (∀ x ∈ t, OnlyPieces qs x) ∧ Kept key (m ++ whole ps) st'.state st'.packet st'.num := by
  induction ps generalizing s m st with
  | nil =>
    refine ⟨st, s, [], Returns.pure _, rfl, by simp, ?_⟩
    rwa [whole, List.map_nil, List.flatten_nil, List.append_nil]
  | cons p ps ih =>
    have hp := h p List.mem_cons_self
    have hm := hq p List.mem_cons_self
    obtain ⟨st1, s1, t1, h1, ⟨h2, h3⟩, h4, -⟩ := returns_of_exec
      (reads_catAppendC (strict := strict) (P := OnlyPieces qs) (d := 0) (lo := p.1) (hi := p.1 + p.2.length)
        ⟨hp.fits, fun a n g1 g2 => ⟨p, hm, g1, g2⟩, trivial, fun a g1 g2 => ⟨p, hm, g1, g2⟩⟩ hp.holds (Nat.le_refl _)
        (Nat.le_refl _) f)
    obtain ⟨st2, s2, t2, g1, g2, g3, g4⟩ := ih (fun p hp => hq p (List.mem_cons_of_mem _ hp))
      (fun p hp => h2 ▸ h p (List.mem_cons_of_mem _ hp)) h3
    refine ⟨st2, s2, _, h1.bind g1, g2.trans h2, ?_, ?_⟩
    · intro x hx
      rcases List.mem_append.1 hx with hx | hx
      · exact g3 x hx
      · exact h4 x hx
    · rw [List.append_assoc] at g4
      exact g4

theorem finishC_returns {qs : List (Nat × List Byte)} {s : Sys} {m : List Byte} {st : HighwayC.HighwayHashCat}
    (f : Kept key m st.state st.packet st.num) (hst : strict = false ∨ m.length % 32 < 16) :
    ∃ s' t, Returns (finishC cfg strict st) w s (highwayResults key m) s' t ∧ s'.ov = s.ov ∧
      ∀ x ∈ t, OnlyPieces qs x := by
  have hc := reads_catCopyC (w := w) (ov := s.ov) (cfg := cfg) (P := OnlyPieces qs) trivial f hst
  have fin : ∀ {α : Type} (g : Spec.Highway → α), Reads w s.ov (OnlyPieces qs) nowhere _
      (HighwayC.catCopy cfg strict st >>= fun x => pure (g x)) (g (Spec.highwayAll key m)) := fun g =>
    Exec.cov (Reads.bind hc (Reads.pure (g _))) (fun a h => nomatch h) rfl
  have h : ∃ n, Reads w s.ov (OnlyPieces qs) nowhere n (finishC cfg strict st) (highwayResults key m) := by
    unfold finishC highwayResults Spec.highway64 Spec.highway128 Spec.highway256
    rw [← finalize64C, ← finalize128C, ← finalize256C]
    exact ⟨_, Exec.cov (Reads.bind (fin _) <| Reads.bind (fin _) <| Reads.bind (fin _) <| Reads.pure _)
      (fun a h => nomatch h) rfl⟩
  obtain ⟨n, h⟩ := h
  obtain ⟨v, s', t, h1, ⟨rfl, h2⟩, h3, -⟩ := returns_of_exec h
  exact ⟨s', t, h1, h2, h3⟩

/-- C73: HighwayHash in C, appending a message in pieces. However the message is cut into pieces (of any size, also
empty), wherever they are, and whatever the structure (with its array of 32 bytes) holds before it is initialised: the
results are those of the whole message. After the results have been asked for, more pieces can be appended, and the
results are then those of the longer message. Nothing but bytes of the pieces is read, and nothing is written. (`strict`
as for `highway_c_correct_partial`.) -/
theorem highway_c_chunking {ps qs : List (Nat × List Byte)} (hp : AllThere cfg w s.ov ps) (hq : AllThere cfg w s.ov qs)
    (hst : strict = false ∨ (whole ps).length % 32 < 16 ∧ (whole ps ++ whole qs).length % 32 < 16)
    (st : HighwayC.HighwayHashCat) (h32 : st.packet.length = 32) :
    ∃ s' t, Returns (do
        let st := HighwayC.HighwayHashCatStart_pure_c key st
        let st ← appendC cfg strict (sizes ps) st
        let first ← finishC cfg strict st
        let st ← appendC cfg strict (sizes qs) st
        let second ← finishC cfg strict st
        pure (first, second)) w s
      (highwayResults key (whole ps), highwayResults key (whole ps ++ whole qs)) s' t ∧
      s'.ov = s.ov ∧ ∀ x ∈ t, OnlyPieces (ps ++ qs) x := by
  obtain ⟨st1, s1, t1, a1, a2, a3, a4⟩ := appendC_returns (cfg := cfg) (strict := strict) (qs := ps ++ qs) ps
    (fun p h => List.mem_append_left _ h) hp (fed_startC key st h32)
  rw [List.nil_append] at a4
  obtain ⟨s2, t2, b1, b2, b3⟩ := finishC_returns (cfg := cfg) (w := w) (qs := ps ++ qs) (s := s1) a4
    (hst.imp_right And.left)
  obtain ⟨st3, s3, t3, c1, c2, c3, c4⟩ := appendC_returns (cfg := cfg) (strict := strict) (qs := ps ++ qs) (s := s2) qs
    (fun p h => List.mem_append_right _ h) (b2.trans a2 ▸ hq) a4
  obtain ⟨s4, t4, d1, d2, d3⟩ := finishC_returns (cfg := cfg) (w := w) (qs := ps ++ qs) (s := s3) c4
    (hst.imp_right And.right)
  refine ⟨s4, _, a1.bind (b1.bind (c1.bind (d1.done (g := fun second => (highwayResults key (whole ps), second))))),
    d2.trans (c2.trans (b2.trans a2)), ?_⟩
  intro x hx
  simp only [List.mem_append] at hx
  rcases hx with ((hx | hx) | hx) | hx
  · exact d3 x hx
  · exact c3 x hx
  · exact b3 x hx
  · exact a3 x hx

/-- C73: two ways to cut a message into pieces give the same results; also the one-shot function. -/
theorem highway_c_cuts {ps qs : List (Nat × List Byte)} {m : List Byte} {data : Nat} (hm : Message cfg w s.ov data m)
    (hp : AllThere cfg w s.ov ps) (hq : AllThere cfg w s.ov qs) (h1 : whole ps = m) (h2 : whole qs = m)
    (st st' : HighwayC.HighwayHashCat) (h32 : st.packet.length = 32) (h32' : st'.packet.length = 32) :
    ∃ v r t r' t' r'' t'',
      Returns (HighwayC.HighwayHash64_pure_c cfg false key data m.length) w s v r t ∧
      Returns (do
        let st ← appendC cfg false (sizes ps) (HighwayC.HighwayHashCatStart_pure_c key st)
        HighwayC.HighwayHashCatFinish64_pure_c cfg false st) w s v r' t' ∧
      Returns (do
        let st ← appendC cfg false (sizes qs) (HighwayC.HighwayHashCatStart_pure_c key st')
        HighwayC.HighwayHashCatFinish64_pure_c cfg false st) w s v r'' t'' := by
  obtain ⟨r, t, g, -⟩ := (highway_c_correct_partial hm false (Or.inl rfl) key).1
  have one : ∀ (ps : List (Nat × List Byte)) (st : HighwayC.HighwayHashCat), AllThere cfg w s.ov ps → whole ps = m →
      st.packet.length = 32 → ∃ r t, Returns (do
        let st ← appendC cfg false (sizes ps) (HighwayC.HighwayHashCatStart_pure_c key st)
        HighwayC.HighwayHashCatFinish64_pure_c cfg false st) w s (Spec.highway64 key m) r t := by
    intro ps st hp hw h32
    obtain ⟨st1, s1, t1, a1, a2, a3, a4⟩ := appendC_returns (cfg := cfg) (strict := false) (qs := ps) ps
      (fun p h => h) hp (fed_startC key st h32)
    rw [List.nil_append, hw] at a4
    have hc := reads_catCopyC (w := w) (ov := s1.ov) (cfg := cfg) (P := fun _ => True) trivial a4
      (strict := false) (Or.inl rfl)
    have hf : ∃ n, Reads w s1.ov (fun _ => True) nowhere n (HighwayC.HighwayHashCatFinish64_pure_c cfg false st1)
        (Spec.highway64 key m) := by
      unfold Spec.highway64 HighwayC.HighwayHashCatFinish64_pure_c
      rw [← finalize64C]
      exact ⟨_, Exec.cov (Reads.bind hc (Reads.pure _)) (fun a h => nomatch h) rfl⟩
    obtain ⟨n, hf⟩ := hf
    obtain ⟨v, s', t, b1, ⟨rfl, b2⟩, -⟩ := returns_of_exec hf
    exact ⟨_, _, a1.bind b1⟩
  obtain ⟨r', t', g'⟩ := one ps st hp h1 h32
  obtain ⟨r'', t'', g''⟩ := one qs st' hq h2 h32'
  exact ⟨_, r, t, r', t', r'', t'', g, g', g''⟩

theorem appendCxx_returns (ps : List (Nat × List Byte)) {qs : List (Nat × List Byte)} (hq : ∀ p ∈ ps, p ∈ qs) {s : Sys}
    (h : AllThere cfg w s.ov ps) {m : List Byte} {st : HighwayPortable.HighwayHashCatT}
    (f : Kept key m st.state st.buffer st.usage) :
    ∃ st' s' t, Returns (appendCxx cfg strict (sizes ps) st) w s st' s' t ∧ s'.ov = s.ov ∧
      (∀ x ∈ t, OnlyPieces qs x) ∧ Kept key (m ++ whole ps) st'.state st'.buffer st'.usage := by
  induction ps generalizing s m st with
  | nil =>
    refine ⟨st, s, [], Returns.pure _, rfl, by simp, ?_⟩
    rwa [whole, List.map_nil, List.flatten_nil, List.append_nil]
  | cons p ps ih =>
    have hp := h p List.mem_cons_self
    have hm := hq p List.mem_cons_self
    obtain ⟨st1, s1, t1, h1, ⟨h2, h3⟩, h4, -⟩ := returns_of_exec
      (reads_catAppendPortable (strict := strict) (P := OnlyPieces qs) (d := 0) (lo := p.1) (hi := p.1 + p.2.length)
        ⟨hp.fits, fun a n g1 g2 => ⟨p, hm, g1, g2⟩, trivial, fun a g1 g2 => ⟨p, hm, g1, g2⟩⟩ hp.holds (Nat.le_refl _)
        (Nat.le_refl _) f)
    obtain ⟨st2, s2, t2, g1, g2, g3, g4⟩ := ih (fun p hp => hq p (List.mem_cons_of_mem _ hp))
      (fun p hp => h2 ▸ h p (List.mem_cons_of_mem _ hp)) h3
    refine ⟨st2, s2, _, h1.bind g1, g2.trans h2, ?_, ?_⟩
    · intro x hx
      rcases List.mem_append.1 hx with hx | hx
      · exact g3 x hx
      · exact h4 x hx
    · rw [List.append_assoc] at g4
      exact g4

theorem finishCxx_returns {qs : List (Nat × List Byte)} {s : Sys} {m : List Byte} {st : HighwayPortable.HighwayHashCatT}
    (f : Kept key m st.state st.buffer st.usage) :
    ∃ s' t, Returns (finishCxx cfg strict st) w s
        (let x := Spec.highwayAbsorb (Spec.highwayStored cfg.endian) key m
         (Spec.highwayResult64 x, Spec.highwayResult128 x, Spec.highwayResult256 x)) s' t ∧ s'.ov = s.ov ∧
      ∀ x ∈ t, OnlyPieces qs x := by
  have hc := reads_catCopyPortable (w := w) (ov := s.ov) (cfg := cfg) (strict := strict) (P := OnlyPieces qs) trivial f
  have fin : ∀ {α : Type} (g : Spec.Highway → α), Reads w s.ov (OnlyPieces qs) nowhere _
      (HighwayPortable.catCopy cfg strict st >>= fun x => pure (g x))
      (g (Spec.highwayAbsorb (Spec.highwayStored cfg.endian) key m)) := fun g =>
    Exec.cov (Reads.bind hc (Reads.pure (g _))) (fun a h => nomatch h) rfl
  have h : ∃ n, Reads w s.ov (OnlyPieces qs) nowhere n (finishCxx cfg strict st)
      (let x := Spec.highwayAbsorb (Spec.highwayStored cfg.endian) key m
       (Spec.highwayResult64 x, Spec.highwayResult128 x, Spec.highwayResult256 x)) := by
    unfold finishCxx
    simp only []
    rw [← finalize64Portable, ← finalize128Portable, ← finalize256Portable]
    exact ⟨_, Exec.cov (Reads.bind (fin _) <| Reads.bind (fin _) <| Reads.bind (fin _) <| Reads.pure _)
      (fun a h => nomatch h) rfl⟩
  obtain ⟨n, h⟩ := h
  obtain ⟨v, s', t, h1, ⟨rfl, h2⟩, h3, -⟩ := returns_of_exec h
  exact ⟨s', t, h1, h2, h3⟩

/-- C73: the same for the portable C++ code, with a new object and after a reset of an object which has been used in
any way (its array has 32 bytes). The results are those of `highway_cxx_value` for the whole message, on a machine of
any byte order: on a little-endian one, those of HighwayHash. -/
theorem highway_cxx_chunking {ps qs : List (Nat × List Byte)} (hp : AllThere cfg w s.ov ps)
    (hq : AllThere cfg w s.ov qs) (st : HighwayPortable.HighwayHashCatT)
    (h32 : st = HighwayPortable.catNew key ∨
      ∃ used, used.buffer.length = 32 ∧ st = HighwayPortable.catReset key used) :
    ∃ first second s' t, Returns (do
        let st ← appendCxx cfg strict (sizes ps) st
        let first ← finishCxx cfg strict st
        let st ← appendCxx cfg strict (sizes qs) st
        let second ← finishCxx cfg strict st
        pure (first, second)) w s (first, second) s' t ∧
      s'.ov = s.ov ∧ (∀ x ∈ t, OnlyPieces (ps ++ qs) x) ∧
      first = (let x := Spec.highwayAbsorb (Spec.highwayStored cfg.endian) key (whole ps)
        (Spec.highwayResult64 x, Spec.highwayResult128 x, Spec.highwayResult256 x)) ∧
      second = (let x := Spec.highwayAbsorb (Spec.highwayStored cfg.endian) key (whole ps ++ whole qs)
        (Spec.highwayResult64 x, Spec.highwayResult128 x, Spec.highwayResult256 x)) ∧
      (cfg.endian = .little →
        first = highwayResults key (whole ps) ∧ second = highwayResults key (whole ps ++ whole qs)) := by
  have f0 : Kept key [] st.state st.buffer st.usage := by
    rcases h32 with rfl | ⟨used, h32, rfl⟩
    · exact fed_newPortable key
    · exact fed_resetPortable key used h32
  obtain ⟨st1, s1, t1, a1, a2, a3, a4⟩ := appendCxx_returns (cfg := cfg) (strict := strict) (qs := ps ++ qs) ps
    (fun p h => List.mem_append_left _ h) hp f0
  rw [List.nil_append] at a4
  obtain ⟨s2, t2, b1, b2, b3⟩ := finishCxx_returns (cfg := cfg) (strict := strict) (w := w) (qs := ps ++ qs) (s := s1) a4
  obtain ⟨st3, s3, t3, c1, c2, c3, c4⟩ := appendCxx_returns (cfg := cfg) (strict := strict) (qs := ps ++ qs) (s := s2) qs
    (fun p h => List.mem_append_right _ h) (b2.trans a2 ▸ hq) a4
  obtain ⟨s4, t4, d1, d2, d3⟩ := finishCxx_returns (cfg := cfg) (strict := strict) (w := w) (qs := ps ++ qs) (s := s3) c4
  refine ⟨_, _, s4, _, a1.bind (b1.bind (c1.bind (d1.done (g := fun second => (_, second))))), d2.trans (c2.trans (b2.trans a2)), ?_, rfl, rfl, fun he => ?_⟩
  · intro x hx
    simp only [List.mem_append] at hx
    rcases hx with ((hx | hx) | hx) | hx
    · exact d3 x hx
    · exact c3 x hx
    · exact b3 x hx
    · exact a3 x hx
  · have e : ∀ m, Spec.highwayAbsorb (Spec.highwayStored cfg.endian) key m = Spec.highwayAll key m := by
      intro m
      unfold Spec.highwayAll Spec.highwayAbsorb
      rw [he]
      simp only [Spec.highwayRemainder, highwayStored_little]
    simp only [e]
    exact ⟨rfl, rfl⟩

/-! ## Examples -/

/-- Pieces of 5, 0 and 50 bytes in a memory in which nothing changes. -/
theorem pieces_there (cfg : Cfg) : AllThere cfg quiet start.ov
    [(5000, quietBytes 5000 5), (6000, quietBytes 6000 0), (5003, quietBytes 5003 50)] := by
  have hb : (2 : Nat) ^ 32 ≤ 2 ^ cfg.bits := by unfold Cfg.bits; split <;> decide
  intro p hp
  simp only [List.mem_cons, List.not_mem_nil, or_false] at hp
  rcases hp with rfl | rfl | rfl
  · exact ⟨quiet_holds (by decide) (by decide), by rw [length_quietBytes]; omega, by rw [length_quietBytes]; omega⟩
  · exact ⟨quiet_holds (by decide) (by decide), by rw [length_quietBytes]; omega, by rw [length_quietBytes]; omega⟩
  · exact ⟨quiet_holds (by decide) (by decide), by rw [length_quietBytes]; omega, by rw [length_quietBytes]; omega⟩

example (st : HighwayC.HighwayHashCat) (h32 : st.packet.length = 32) : ∃ s' t, Returns (do
        let st := HighwayC.HighwayHashCatStart_pure_c key st
        let st ← appendC mips32 false (sizes [(5000, quietBytes 5000 5), (6000, quietBytes 6000 0), (5003, quietBytes 5003 50)]) st
        let first ← finishC mips32 false st
        let st ← appendC mips32 false (sizes [(5000, quietBytes 5000 5), (6000, quietBytes 6000 0), (5003, quietBytes 5003 50)]) st
        let second ← finishC mips32 false st
        pure (first, second)) quiet start
      (highwayResults key (whole [(5000, quietBytes 5000 5), (6000, quietBytes 6000 0), (5003, quietBytes 5003 50)]),
       highwayResults key (whole [(5000, quietBytes 5000 5), (6000, quietBytes 6000 0), (5003, quietBytes 5003 50)] ++
        whole [(5000, quietBytes 5000 5), (6000, quietBytes 6000 0), (5003, quietBytes 5003 50)])) s' t := by
  obtain ⟨s', t, h, -⟩ := highway_c_chunking (pieces_there mips32) (pieces_there mips32) (Or.inl rfl) st h32
  exact ⟨s', t, h⟩

/-- 55 bytes in one piece of 55 bytes or in two of 5 and 50 bytes. -/
example (st : HighwayC.HighwayHashCat) (h32 : st.packet.length = 32) : ∃ v r t r' t' r'' t'',
      Returns (HighwayC.HighwayHash64_pure_c amd64 false key 5000 (quietBytes 5000 55).length) quiet start v r t ∧
      Returns (do
        let st ← appendC amd64 false (sizes [(5000, quietBytes 5000 5), (5005, quietBytes 5005 50)])
          (HighwayC.HighwayHashCatStart_pure_c key st)
        HighwayC.HighwayHashCatFinish64_pure_c amd64 false st) quiet start v r' t' ∧
      Returns (do
        let st ← appendC amd64 false (sizes [(5000, quietBytes 5000 55)]) (HighwayC.HighwayHashCatStart_pure_c key st)
        HighwayC.HighwayHashCatFinish64_pure_c amd64 false st) quiet start v r'' t'' := by
  have one : ∀ p n, 4096 ≤ p → p + n ≤ 8192 → Message amd64 quiet start.ov p (quietBytes p n) := by
    intro p n h1 h2
    have hb : (2 : Nat) ^ 32 ≤ 2 ^ amd64.bits := by decide
    exact ⟨quiet_holds h1 h2, by rw [length_quietBytes]; omega, by rw [length_quietBytes]; omega⟩
  refine highway_c_cuts (one 5000 55 (by decide) (by decide)) ?_ ?_ (by decide +kernel) (by decide +kernel) st st h32 h32
  · intro p hp
    simp only [List.mem_cons, List.not_mem_nil, or_false] at hp
    rcases hp with rfl | rfl
    · exact one _ _ (by decide) (by decide)
    · exact one _ _ (by decide) (by decide)
  · intro p hp
    simp only [List.mem_cons, List.not_mem_nil, or_false] at hp
    subst hp
    exact one _ _ (by decide) (by decide)

example : ∃ first second s' t, Returns (do
        let st ← appendCxx arm32 true (sizes [(5000, quietBytes 5000 5), (6000, quietBytes 6000 0), (5003, quietBytes 5003 50)])
          (HighwayPortable.catNew key)
        let first ← finishCxx arm32 true st
        let st ← appendCxx arm32 true (sizes [(5000, quietBytes 5000 5), (6000, quietBytes 6000 0), (5003, quietBytes 5003 50)]) st
        let second ← finishCxx arm32 true st
        pure (first, second)) quiet start (first, second) s' t ∧
      first = highwayResults key
        (whole [(5000, quietBytes 5000 5), (6000, quietBytes 6000 0), (5003, quietBytes 5003 50)]) := by
  obtain ⟨first, second, s', t, h, -, -, -, -, h'⟩ :=
    highway_cxx_chunking (pieces_there arm32) (pieces_there arm32) _ (Or.inl rfl)
  exact ⟨first, second, s', t, h, (h' rfl).1⟩

end T1ha.Props
