import Verif.Props.HighwayCat
import Verif.Props.OthersVerify
import Verif.Proofs.HighwaySimdCat

/-!
# HighwayHash with vector instructions: C76

`sse41` and `avx2` (in `Verif/Model/HighwaySimd.lean`) are the two implementations of the state; the templates of
highwayhash.h, with one of them, are the functions.
-/

namespace T1ha.Model

variable {σ : Type}

/-- Append pieces (addresses and sizes), with vector instructions. -/
def appendSimd (T : HHState σ) (cfg : Cfg) (strict : Bool) :
    List (Nat × Nat) → HighwaySimd.HighwayHashCatT σ → M (HighwaySimd.HighwayHashCatT σ)
  | [], st => pure st
  | (data, len) :: ps, st => do
    let st ← HighwaySimd.catAppend T cfg strict data len st
    appendSimd T cfg strict ps st

/-- All three results with vector instructions. -/
def finishSimd (T : HHState σ) (cfg : Cfg) (strict : Bool) (st : HighwaySimd.HighwayHashCatT σ) :
    M (U64 × (U64 × U64) × Quad) := do
  let a ← HighwaySimd.catFinalize64 T cfg strict st
  let b ← HighwaySimd.catFinalize128 T cfg strict st
  let c ← HighwaySimd.catFinalize256 T cfg strict st
  pure (a, b, c)

end T1ha.Model

namespace T1ha.Props

open Model Examples

variable {cfg : Cfg} {w : World} {s : Sys} {strict : Bool} {key : Quad} {data : Nat} {m : List Byte}
variable {σ : Type} {T : HHState σ} {rep : Spec.Highway → σ} {cost : Nat → Nat}

/-! ## One message -/

theorem simd_correct (t : Refines T rep cost) (h : Message cfg w s.ov data m) (strict : Bool) (key : Quad) :
    Hashes w s (HighwaySimd.HighwayHash64 T cfg strict key data m.length) (Spec.highway64 key m) 0 data m.length
        (m.length / 32) ∧
      Hashes w s (HighwaySimd.HighwayHash128 T cfg strict key data m.length) (Spec.highway128 key m) 0 data m.length
        (m.length / 32) ∧
      Hashes w s (HighwaySimd.HighwayHash256 T cfg strict key data m.length) (Spec.highway256 key m) 0 data m.length
        (m.length / 32) := by
  have hr := simd_HighwayHashT (strict := strict) t (h.space 0) h.holds (Nat.le_refl _) (Nat.le_refl _) h.room key
  have fin : ∀ {α : Type} (g : σ → α),
      Hashes w s (HighwaySimd.HighwayHashT T cfg strict (T.Reset key) data m.length >>= fun x => pure (g x))
        (g (rep (Spec.highwayAll key m))) 0 data m.length (m.length / 32) := fun g =>
    hashes_of_reads (Exec.cov (Reads.bind hr (Reads.pure (g _))) (fun a h => Or.inl h) rfl) (Nat.le_refl _)
  unfold Spec.highway64 Spec.highway128 Spec.highway256
  refine ⟨?_, ?_, ?_⟩
  · rw [← t.finalize64]; exact fin _
  · rw [← t.finalize128]; exact fin _
  · rw [← t.finalize256]; exact fin _

/-- C76: HighwayHash with SSE4.1 returns the value of HighwayHash (64, 128 and 256 bits), for every message, at every
address, with every key. It reads every byte of the message and no other byte (also when it reads 4, 8 or 16 at once),
forms no address outside it, writes nothing, and takes one iteration for each 32 bytes. -/
theorem highway_sse41_correct (h : Message cfg w s.ov data m) (strict : Bool) (key : Quad) :
    Hashes w s (HighwaySimd.HighwayHash64 sse41 cfg strict key data m.length) (Spec.highway64 key m) 0 data m.length
        (m.length / 32) ∧
      Hashes w s (HighwaySimd.HighwayHash128 sse41 cfg strict key data m.length) (Spec.highway128 key m) 0 data m.length
        (m.length / 32) ∧
      Hashes w s (HighwaySimd.HighwayHash256 sse41 cfg strict key data m.length) (Spec.highway256 key m) 0 data m.length
        (m.length / 32) :=
  simd_correct refines_sse41 h strict key

/-- C76: the same for AVX2; its masked loads touch no byte outside the message. -/
theorem highway_avx2_correct (h : Message cfg w s.ov data m) (strict : Bool) (key : Quad) :
    Hashes w s (HighwaySimd.HighwayHash64 avx2 cfg strict key data m.length) (Spec.highway64 key m) 0 data m.length
        (m.length / 32) ∧
      Hashes w s (HighwaySimd.HighwayHash128 avx2 cfg strict key data m.length) (Spec.highway128 key m) 0 data m.length
        (m.length / 32) ∧
      Hashes w s (HighwaySimd.HighwayHash256 avx2 cfg strict key data m.length) (Spec.highway256 key m) 0 data m.length
        (m.length / 32) :=
  simd_correct refines_avx2 h strict key

/-- C76: the functions which the test program measures return HighwayHash of 64 bits with four times the seed as key. -/
theorem highway_simd_thunk_correct (h : Message cfg w s.ov data m) (strict : Bool) (seed : U64) :
    Hashes w s (HighwaySimd.thunk_HighwayHash64 sse41 cfg strict data m.length seed)
        (Spec.highway64 ⟨seed, seed, seed, seed⟩ m) 0 data m.length (m.length / 32) ∧
      Hashes w s (HighwaySimd.thunk_HighwayHash64 avx2 cfg strict data m.length seed)
        (Spec.highway64 ⟨seed, seed, seed, seed⟩ m) 0 data m.length (m.length / 32) :=
  ⟨(highway_sse41_correct h strict _).1, (highway_avx2_correct h strict _).1⟩

/-- C76: on a little-endian machine, all four implementations return the same value for the same message and key,
wherever it is. -/
theorem highway_all_same (h : Message cfg w s.ov data m) (he : cfg.endian = .little) (strict : Bool) (key : Quad) :
    ∃ v, ∀ f ∈ [HighwayC.HighwayHash64_pure_c cfg false key data m.length,
        HighwayPortable.HighwayHash64_Portable cfg strict key data m.length,
        HighwaySimd.HighwayHash64 sse41 cfg strict key data m.length,
        HighwaySimd.HighwayHash64 avx2 cfg strict key data m.length],
      ∃ s' t, Returns f w s v s' t ∧ s'.ov = s.ov := by
  refine ⟨Spec.highway64 key m, ?_⟩
  intro f hf
  simp only [List.mem_cons, List.not_mem_nil, or_false] at hf
  rcases hf with rfl | rfl | rfl | rfl
  · obtain ⟨s', t, h1, h2, -⟩ := (highway_c_correct_partial h false (Or.inl rfl) key).1
    exact ⟨s', t, h1, h2⟩
  · obtain ⟨s', t, h1, h2, -⟩ := (highway_cxx_correct_partial h (Or.inl he) strict key).1
    exact ⟨s', t, h1, h2⟩
  · obtain ⟨s', t, h1, h2, -⟩ := (highway_sse41_correct h strict key).1
    exact ⟨s', t, h1, h2⟩
  · obtain ⟨s', t, h1, h2, -⟩ := (highway_avx2_correct h strict key).1
    exact ⟨s', t, h1, h2⟩

/-- 43 bytes at the end of the only mapped page, with the strict reading of C. -/
example (key : Quad) : Hashes (atEnd 43) start (HighwaySimd.HighwayHash64 avx2 amd64 true key (8192 - 43) (msg 43).length)
    (Spec.highway64 key (msg 43)) 0 (8192 - 43) (msg 43).length ((msg 43).length / 32) :=
  (highway_avx2_correct (message43 amd64) true key).1

/-- 50 bytes in the middle of a page. -/
example (key : Quad) : Hashes (memory 4096 8192 5001 (msg 50)) start
    (HighwaySimd.HighwayHash256 sse41 win64 true key 5001 (msg 50).length)
    (Spec.highway256 key (msg 50)) 0 5001 (msg 50).length ((msg 50).length / 32) :=
  (highway_sse41_correct (message50 win64) true key).2.2

example (seed : U64) : Hashes (memory 4096 8192 5001 (msg 50)) start
    (HighwaySimd.thunk_HighwayHash64 avx2 amd64 true 5001 (msg 50).length seed)
    (Spec.highway64 ⟨seed, seed, seed, seed⟩ (msg 50)) 0 5001 (msg 50).length ((msg 50).length / 32) :=
  (highway_simd_thunk_correct (message50 amd64) true seed).2

example (key : Quad) : ∃ v, ∀ f ∈ [HighwayC.HighwayHash64_pure_c amd64 false key 5001 (msg 50).length,
        HighwayPortable.HighwayHash64_Portable amd64 true key 5001 (msg 50).length,
        HighwaySimd.HighwayHash64 sse41 amd64 true key 5001 (msg 50).length,
        HighwaySimd.HighwayHash64 avx2 amd64 true key 5001 (msg 50).length],
      ∃ s' t, Returns f (memory 4096 8192 5001 (msg 50)) start v s' t ∧ s'.ov = start.ov :=
  highway_all_same (message50 amd64) rfl true key

/-! ## The verification -/

theorem simd_verified (t : Refines T rep cost) (strict : Bool) (hw : Writable w data 65) (hf : data + 65 < 2 ^ cfg.bits) :
    ∃ s' t, Returns (HighwayHash64_verify cfg data (HighwaySimd.HighwayHash64 T cfg strict)) w s false s' t := by
  have code : HashesAt w data (HighwaySimd.HighwayHash64 T cfg strict) Spec.highway64 := by
    intro key m s hm hh
    obtain ⟨s', t, h1, h2, -⟩ := (simd_correct (cfg := cfg) t (message_of_holds (by omega) hh (by omega)) strict key).1
    exact ⟨s', t, h1, h2⟩
  obtain ⟨failed, s', t, h1, h2, -⟩ := highway_verify_correct (s := s) code hw hf
  rw [h2.2 values_highway] at h1
  exact ⟨s', t, h1⟩

/-- C76: both pass the verification of the test program. -/
theorem highway_simd_verified (strict : Bool) (hw : Writable w data 65) (hf : data + 65 < 2 ^ cfg.bits) :
    (∃ s' t, Returns (HighwayHash64_verify cfg data (HighwaySimd.HighwayHash64 sse41 cfg strict)) w s false s' t) ∧
      ∃ s' t, Returns (HighwayHash64_verify cfg data (HighwaySimd.HighwayHash64 avx2 cfg strict)) w s false s' t :=
  ⟨simd_verified refines_sse41 strict hw hf, simd_verified refines_avx2 strict hw hf⟩

example : (∃ s' t, Returns (HighwayHash64_verify amd64 5001 (HighwaySimd.HighwayHash64 sse41 amd64 true)) quiet start false
      s' t) ∧
    ∃ s' t, Returns (HighwayHash64_verify amd64 5001 (HighwaySimd.HighwayHash64 avx2 amd64 true)) quiet start false s' t :=
  highway_simd_verified true (quiet_writable (by decide) (by decide)) (by decide)

/-! ## Pieces -/

theorem appendSimd_returns (t : Refines T rep cost) (ps : List (Nat × List Byte)) {qs : List (Nat × List Byte)}
    (hq : ∀ p ∈ ps, p ∈ qs) {s : Sys} (h : AllThere cfg w s.ov ps) {m : List Byte} {st : HighwaySimd.HighwayHashCatT σ}
    (f : KeptBy rep key m st) :
    ∃ st' s' t, Returns (appendSimd T cfg strict (sizes ps) st) w s st' s' t ∧ s'.ov = s.ov ∧
      (∀ x ∈ t, OnlyPieces qs x) ∧ KeptBy rep key (m ++ whole ps) st' := by
  induction ps generalizing s m st with
  | nil =>
    refine ⟨st, s, [], Returns.pure _, rfl, by simp, ?_⟩
    rwa [whole, List.map_nil, List.flatten_nil, List.append_nil]
  | cons p ps ih =>
    have hp := h p List.mem_cons_self
    have hm := hq p List.mem_cons_self
    obtain ⟨st1, s1, t1, h1, ⟨h2, h3⟩, h4, -⟩ := returns_of_exec
      (simd_catAppend (strict := strict) t (P := OnlyPieces qs) (d := 0) (lo := p.1) (hi := p.1 + p.2.length)
        ⟨hp.fits, fun a n g1 g2 => ⟨p, hm, g1, g2⟩, trivial, fun a g1 g2 => ⟨p, hm, g1, g2⟩⟩ hp.holds (Nat.le_refl _)
        (Nat.le_refl _) f)
    obtain ⟨st2, s2, t2, g1, g2, g3, g4⟩ := ih (fun p hp => hq p (List.mem_cons_of_mem _ hp))
      (fun p hp => h2 ▸ h p (List.mem_cons_of_mem _ hp)) h3
    refine ⟨st2, s2, _, h1.bind g1, g2.trans h2, ?_, ?_⟩
    · intro x hx
      rcases List.mem_append.1 hx with hx | hx
      · exact g3 x hx
      · exact h4 x hx
    · rw [List.append_assoc] at g4
      exact g4

theorem finishSimd_returns (t : Refines T rep cost) {qs : List (Nat × List Byte)} {s : Sys} {m : List Byte}
    {st : HighwaySimd.HighwayHashCatT σ} (f : KeptBy rep key m st) :
    ∃ s' t, Returns (finishSimd T cfg strict st) w s (highwayResults key m) s' t ∧ s'.ov = s.ov ∧
      ∀ x ∈ t, OnlyPieces qs x := by
  have hc := simd_catCopy (w := w) (ov := s.ov) (cfg := cfg) (strict := strict) (P := OnlyPieces qs) t trivial f
  have fin : ∀ {α : Type} (g : σ → α), Reads w s.ov (OnlyPieces qs) nowhere _
      (HighwaySimd.catCopy T cfg strict st >>= fun x => pure (g x)) (g (rep (Spec.highwayAll key m))) := fun g =>
    Exec.cov (Reads.bind hc (Reads.pure (g _))) (fun a h => nomatch h) rfl
  have h : ∃ n, Reads w s.ov (OnlyPieces qs) nowhere n (finishSimd T cfg strict st) (highwayResults key m) := by
    unfold finishSimd highwayResults Spec.highway64 Spec.highway128 Spec.highway256
    rw [← t.finalize64, ← t.finalize128, ← t.finalize256]
    exact ⟨_, Exec.cov (Reads.bind (fin _) <| Reads.bind (fin _) <| Reads.bind (fin _) <| Reads.pure _)
      (fun a h => nomatch h) rfl⟩
  obtain ⟨n, h⟩ := h
  obtain ⟨v, s', t, h1, ⟨rfl, h2⟩, h3, -⟩ := returns_of_exec h
  exact ⟨s', t, h1, h2, h3⟩

theorem simd_chunking (t : Refines T rep cost) {ps qs : List (Nat × List Byte)} (hp : AllThere cfg w s.ov ps)
    (hq : AllThere cfg w s.ov qs) (st : HighwaySimd.HighwayHashCatT σ)
    (h32 : st = HighwaySimd.catNew T key ∨ ∃ used, used.buffer.length = 32 ∧ st = HighwaySimd.catReset T key used) :
    ∃ s' t, Returns (do
        let st ← appendSimd T cfg strict (sizes ps) st
        let first ← finishSimd T cfg strict st
        let st ← appendSimd T cfg strict (sizes qs) st
        let second ← finishSimd T cfg strict st
        pure (first, second)) w s
      (highwayResults key (whole ps), highwayResults key (whole ps ++ whole qs)) s' t ∧
      s'.ov = s.ov ∧ ∀ x ∈ t, OnlyPieces (ps ++ qs) x := by
  have f0 : KeptBy rep key [] st := by
    rcases h32 with rfl | ⟨used, h32, rfl⟩
    · exact simd_new t key
    · exact simd_reset t key used h32
  obtain ⟨st1, s1, t1, a1, a2, a3, a4⟩ := appendSimd_returns (cfg := cfg) (strict := strict) t (qs := ps ++ qs) ps
    (fun p h => List.mem_append_left _ h) hp f0
  rw [List.nil_append] at a4
  obtain ⟨s2, t2, b1, b2, b3⟩ := finishSimd_returns (cfg := cfg) (strict := strict) t (w := w) (qs := ps ++ qs) (s := s1) a4
  obtain ⟨st3, s3, t3, c1, c2, c3, c4⟩ := appendSimd_returns (cfg := cfg) (strict := strict) t (qs := ps ++ qs) (s := s2) qs
    (fun p h => List.mem_append_right _ h) (b2.trans a2 ▸ hq) a4
  obtain ⟨s4, t4, d1, d2, d3⟩ := finishSimd_returns (cfg := cfg) (strict := strict) t (w := w) (qs := ps ++ qs) (s := s3) c4
  refine ⟨s4, _, a1.bind (b1.bind (c1.bind (d1.done (g := fun second => (highwayResults key (whole ps), second))))),
    d2.trans (c2.trans (b2.trans a2)), ?_⟩
  intro x hx
  simp only [List.mem_append] at hx
  rcases hx with ((hx | hx) | hx) | hx
  · exact d3 x hx
  · exact c3 x hx
  · exact b3 x hx
  · exact a3 x hx

/-- C76: HighwayHash with SSE4.1, appending a message in pieces. However the message is cut into pieces (of any size,
also empty), wherever they are, with a new object or after a reset of one which has been used in any way (its array has
32 bytes): the results are those of the whole message. After the results have been asked for, more pieces can be
appended, and the results are then those of the longer message. Nothing but bytes of the pieces is read, and nothing is
written. -/
theorem highway_sse41_chunking {ps qs : List (Nat × List Byte)} (hp : AllThere cfg w s.ov ps)
    (hq : AllThere cfg w s.ov qs) (st : HighwaySimd.HighwayHashCatT HighwaySse41.State)
    (h32 : st = HighwaySimd.catNew sse41 key ∨
      ∃ used, used.buffer.length = 32 ∧ st = HighwaySimd.catReset sse41 key used) :
    ∃ s' t, Returns (do
        let st ← appendSimd sse41 cfg strict (sizes ps) st
        let first ← finishSimd sse41 cfg strict st
        let st ← appendSimd sse41 cfg strict (sizes qs) st
        let second ← finishSimd sse41 cfg strict st
        pure (first, second)) w s
      (highwayResults key (whole ps), highwayResults key (whole ps ++ whole qs)) s' t ∧
      s'.ov = s.ov ∧ ∀ x ∈ t, OnlyPieces (ps ++ qs) x :=
  simd_chunking refines_sse41 hp hq st h32

/-- C76: the same for AVX2, which keeps what is left of a piece with shuffles and masks instead of copying bytes. -/
theorem highway_avx2_chunking {ps qs : List (Nat × List Byte)} (hp : AllThere cfg w s.ov ps)
    (hq : AllThere cfg w s.ov qs) (st : HighwaySimd.HighwayHashCatT HighwayAvx2.State)
    (h32 : st = HighwaySimd.catNew avx2 key ∨
      ∃ used, used.buffer.length = 32 ∧ st = HighwaySimd.catReset avx2 key used) :
    ∃ s' t, Returns (do
        let st ← appendSimd avx2 cfg strict (sizes ps) st
        let first ← finishSimd avx2 cfg strict st
        let st ← appendSimd avx2 cfg strict (sizes qs) st
        let second ← finishSimd avx2 cfg strict st
        pure (first, second)) w s
      (highwayResults key (whole ps), highwayResults key (whole ps ++ whole qs)) s' t ∧
      s'.ov = s.ov ∧ ∀ x ∈ t, OnlyPieces (ps ++ qs) x :=
  simd_chunking refines_avx2 hp hq st h32

/-- Pieces of 5, 0 and 50 bytes. -/
example : ∃ s' t, Returns (do
        let st ← appendSimd avx2 amd64 true (sizes [(5000, quietBytes 5000 5), (6000, quietBytes 6000 0), (5003, quietBytes 5003 50)])
          (HighwaySimd.catNew avx2 key)
        let first ← finishSimd avx2 amd64 true st
        let st ← appendSimd avx2 amd64 true (sizes [(5000, quietBytes 5000 5), (6000, quietBytes 6000 0), (5003, quietBytes 5003 50)]) st
        let second ← finishSimd avx2 amd64 true st
        pure (first, second)) quiet start
      (highwayResults key (whole [(5000, quietBytes 5000 5), (6000, quietBytes 6000 0), (5003, quietBytes 5003 50)]),
       highwayResults key (whole [(5000, quietBytes 5000 5), (6000, quietBytes 6000 0), (5003, quietBytes 5003 50)] ++
        whole [(5000, quietBytes 5000 5), (6000, quietBytes 6000 0), (5003, quietBytes 5003 50)])) s' t := by
  obtain ⟨s', t, h, -⟩ := highway_avx2_chunking (pieces_there amd64) (pieces_there amd64) _ (Or.inl rfl)
  exact ⟨s', t, h⟩

example (used : HighwaySimd.HighwayHashCatT HighwaySse41.State) (h32 : used.buffer.length = 32) : ∃ s' t, Returns (do
        let st ← appendSimd sse41 amd64 true (sizes [(5000, quietBytes 5000 5), (6000, quietBytes 6000 0), (5003, quietBytes 5003 50)])
          (HighwaySimd.catReset sse41 key used)
        let first ← finishSimd sse41 amd64 true st
        let st ← appendSimd sse41 amd64 true (sizes [(5000, quietBytes 5000 5), (6000, quietBytes 6000 0), (5003, quietBytes 5003 50)]) st
        let second ← finishSimd sse41 amd64 true st
        pure (first, second)) quiet start
      (highwayResults key (whole [(5000, quietBytes 5000 5), (6000, quietBytes 6000 0), (5003, quietBytes 5003 50)]),
       highwayResults key (whole [(5000, quietBytes 5000 5), (6000, quietBytes 6000 0), (5003, quietBytes 5003 50)] ++
        whole [(5000, quietBytes 5000 5), (6000, quietBytes 6000 0), (5003, quietBytes 5003 50)])) s' t := by
  obtain ⟨s', t, h, -⟩ := highway_sse41_chunking (pieces_there amd64) (pieces_there amd64) _ (Or.inr ⟨used, h32, rfl⟩)
  exact ⟨s', t, h⟩

end T1ha.Props
