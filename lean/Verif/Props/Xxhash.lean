import Verif.Props.HighwayCat
import Verif.Proofs.XxhashCat64
import Verif.Proofs.XxhashFail
import Verif.Proofs.XxhashCanonical

/-!
# XXH32 and XXH64: C77, C78, C79
-/

namespace T1ha.Model

/-- Pass pieces (addresses and sizes) to `XXH32_update`, `XXH64_update` or a similar function. The second result: all
the calls returned `XXH_OK`. -/
def feed {σ : Type} (update : σ → Nat → Nat → M (σ × XXH_errorcode)) : List (Nat × Nat) → σ → M (σ × Bool)
  | [], st => pure (st, true)
  | (data, len) :: ps, st => do
    let (st, code) ← update st data len
    let (st, ok) ← feed update ps st
    pure (st, decide (code = .ok) && ok)

/-- A program which hashes a message in pieces: it passes the pieces `ps` to `update`, asks for the hash, passes the
pieces `qs`, and asks for the hash again. -/
def session {σ α : Type} (update : σ → Nat → Nat → M (σ × XXH_errorcode)) (digest : σ → M α) (st : σ)
    (ps qs : List (Nat × Nat)) : M ((Bool × α) × (Bool × α)) := do
  let (st, ok) ← feed update ps st
  let first ← digest st
  let (st, ok') ← feed update qs st
  let second ← digest st
  pure ((ok, first), (ok', second))

/-- Only bytes of the pieces are read, and pointers are computed at most `below` bytes before and `above` bytes after a
piece. -/
def NearPieces (below above : Nat) (ps : List (Nat × List Byte)) : Ev → Prop
  | .rd a n => ∃ p ∈ ps, p.1 ≤ a ∧ a + n ≤ p.1 + p.2.length
  | .wr _ _ => False
  | .iter => True
  | .ptr a => ∃ p ∈ ps, p.1 ≤ a + below ∧ a ≤ p.1 + p.2.length + above

end T1ha.Model

namespace T1ha.Examples

open Model

/-- x86-64 with gcc -/
def xxhGcc : Xxh := ⟨.memcpy, false, false, false, .builtin, true, true⟩
/-- 32-bit MIPS with clang -Os, which gives no intrinsic for swapping bytes -/
def xxhMips : Xxh := ⟨.shift, true, true, true, .portable, false, false⟩
/-- ARMv6 with gcc -/
def xxhArm6 : Xxh := ⟨.direct, true, false, true, .builtin, true, false⟩

/-- Memory from address 1 on, all zero. -/
def low : World := ⟨fun _ a => if 1 ≤ a ∧ a < 4096 then some 0 else none, fun _ => true⟩

/-- Memory at the end of a 32-bit address space, all zero. -/
def high : World := ⟨fun _ a => if 2 ^ 32 - 4096 ≤ a ∧ a < 2 ^ 32 - 1 then some 0 else none, fun _ => true⟩

theorem holds_low {p n : Nat} (h1 : 1 ≤ p) (h2 : p + n ≤ 4096) : Holds low start.ov p (List.replicate n 0) := by
  intro t i b hb
  rw [List.getElem?_replicate] at hb
  split at hb
  · simp only [low, see, start]
    rw [if_pos (by omega)]
    exact hb
  · cases hb

theorem holds_high {p n : Nat} (h1 : 2 ^ 32 - 4096 ≤ p) (h2 : p + n ≤ 2 ^ 32 - 1) :
    Holds high start.ov p (List.replicate n 0) := by
  intro t i b hb
  rw [List.getElem?_replicate] at hb
  split at hb
  · simp only [high, see, start]
    rw [if_pos (by omega)]
    exact hb
  · cases hb

end T1ha.Examples

namespace T1ha.Props

open Model Examples

variable {cfg cfg' : Cfg} {w w' : World} {s s' : Sys} {x x' : Xxh} {data data' : Nat} {m : List Byte}

/-! The specification gives the values which are published for xxHash (a test of `SpecXxhash.lean`; the test program has no
reference values for xxHash). -/

example : Spec.xxh32 [] 0 = 0x02CC5D05 ∧ Spec.xxh64 [] 0 = 0xEF46DB3751D8E999 ∧
    Spec.xxh32 ("abc".toList.map fun c => BitVec.ofNat 8 c.toNat) 0 = 0x32D153FF ∧
    Spec.xxh64 ("abc".toList.map fun c => BitVec.ofNat 8 c.toNat) 0 = 0x44BC2CF5AD770999 ∧
    Spec.xxh32 ("Nobody inspects the spammish repetition".toList.map fun c => BitVec.ofNat 8 c.toNat) 0 = 0xE2293B2F ∧
    Spec.xxh64 ("Nobody inspects the spammish repetition".toList.map fun c => BitVec.ofNat 8 c.toNat) 0 =
      0xFBCEA83C8A378BF1 := by
  decide +kernel

/-! ## C77: the functions which hash a message at once -/

/-- C77: XXH32 returns a function of the bytes and of the seed, for every build configuration (byte order, how words are
read, whether aligned messages are read in another way, how the last bytes are processed, how bytes are swapped), address
and memory; it reads every byte of the message and nothing else, and computes no pointer outside of the message.
Words are read by way of a pointer only if the processor does not mind, or the message is aligned. -/
theorem xxh32_correct (h : Message cfg w s.ov data m) (seed : U32)
    (hx : x.access = .direct → x.lenient32 = true ∨ x.alignCheck = true ∧ data % 4 = 0) :
    Hashes w s (XXH32 cfg x data m.length seed) (Spec.xxh32 m seed) 0 data m.length (m.length / 16 + 6) := by
  refine hashes_of_reads (reads_xxh32 (h.space 0) h.holds (Nat.le_refl _) (Nat.le_refl _) seed hx) ?_
  unfold loops32
  split <;> omega

/-- C77: XXH64, in the same way. -/
theorem xxh64_correct_partial (h : Message cfg w s.ov data m) (seed : U64)
    (hx : x.access = .direct → x.lenient32 = true ∧ x.lenient64 = true ∨ x.alignCheck = true ∧ data % 8 = 0) :
    Hashes w s (XXH64 cfg x data m.length seed) (Spec.xxh64 m seed) 0 data m.length (m.length / 32 + 6) := by
  refine hashes_of_reads (reads_xxh64 (h.space 0) h.holds (Nat.le_refl _) (Nat.le_refl _) seed hx) ?_
  unfold loops64
  split <;> omega

/-- C77 for XXH64 is false for the build which the code chooses for ARMv6 and gcc: words are read by way of a pointer to
a 64-bit integer, also if the message is not aligned, and the instructions which read such words need alignment. Every
message of 8 bytes or more at such an address shows it, whatever the bytes are. -/
theorem xxh64_misaligned (hd : x.access = .direct) (hl : x.lenient64 = false) (h : Message cfg w s.ov data m)
    (ha : data % 8 ≠ 0) (h8 : 8 ≤ m.length) (seed : U64) :
    XXH64 cfg x data m.length seed w s = .error .misaligned :=
  fails_xxh64 (ov := s.ov) hd hl ha h8 h.fits seed s.log

/-- C77: the function which the test program measures as XXH32: of its 64-bit seed, the upper half is ignored. -/
theorem xxh32_thunk_correct (h : Message cfg w s.ov data m) (seed : U64)
    (hx : x.access = .direct → x.lenient32 = true ∨ x.alignCheck = true ∧ data % 4 = 0) :
    Hashes w s (thunk_XXH_32 cfg x data m.length seed) ((Spec.xxh32 m (BitVec.ofNat 32 seed.toNat)).setWidth 64) 0 data
      m.length (m.length / 16 + 6) := by
  refine hashes_of_reads (Exec.cov (Reads.bind
    (reads_xxh32 (h.space 0) h.holds (Nat.le_refl _) (Nat.le_refl _) _ hx) (Reads.pure _)) (fun a h => Or.inl h) rfl) ?_
  unfold loops32
  split <;> omega

/-- C77: two builds of XXH32 and XXH64, on two machines, return the same values for equal messages. -/
theorem xxh_portable (h : Message cfg w s.ov data m) (h' : Message cfg' w' s'.ov data' m)
    (hx : x.access = .direct → x.lenient32 = true ∧ x.lenient64 = true ∨ x.alignCheck = true ∧ data % 8 = 0)
    (hx' : x'.access = .direct → x'.lenient32 = true ∧ x'.lenient64 = true ∨ x'.alignCheck = true ∧ data' % 8 = 0)
    (seed : U64) :
    (∃ v r t r' t', Returns (thunk_XXH_32 cfg x data m.length seed) w s v r t ∧
      Returns (thunk_XXH_32 cfg' x' data' m.length seed) w' s' v r' t') ∧
    (∃ v r t r' t', Returns (thunk_XXH_64 cfg x data m.length seed) w s v r t ∧
      Returns (thunk_XXH_64 cfg' x' data' m.length seed) w' s' v r' t') := by
  refine ⟨?_, ?_⟩
  · obtain ⟨r, t, h1, -⟩ := xxh32_thunk_correct h seed
      (fun hd => (hx hd).imp And.left fun g => ⟨g.1, by have := g.2; omega⟩)
    obtain ⟨r', t', h2, -⟩ := xxh32_thunk_correct h' seed
      (fun hd => (hx' hd).imp And.left fun g => ⟨g.1, by have := g.2; omega⟩)
    exact ⟨_, r, t, r', t', h1, h2⟩
  · obtain ⟨r, t, h1, -⟩ := xxh64_correct_partial h seed hx
    obtain ⟨r', t', h2, -⟩ := xxh64_correct_partial h' seed hx'
    exact ⟨_, r, t, r', t', h1, h2⟩

/-- `xxh_portable`: 43 bytes at the end of a page of an x86-64 computer, and in the middle of one of a MIPS computer. -/
example : (∃ v r t r' t', Returns (thunk_XXH_32 amd64 xxhGcc (8192 - 43) (msg 43).length 7) (atEnd 43) start v r t ∧
      Returns (thunk_XXH_32 mips32 xxhMips 5001 (msg 43).length 7) (memory 4096 8192 5001 (msg 43)) start v r' t') ∧
    (∃ v r t r' t', Returns (thunk_XXH_64 amd64 xxhGcc (8192 - 43) (msg 43).length 7) (atEnd 43) start v r t ∧
      Returns (thunk_XXH_64 mips32 xxhMips 5001 (msg 43).length 7) (memory 4096 8192 5001 (msg 43)) start v r' t') :=
  xxh_portable (message43 amd64) (message mips32 (by decide) (by rw [length_msg]; decide) (by decide))
    (fun h => absurd h (by decide)) (fun h => absurd h (by decide)) 7

/-- ARMv6: XXH32 works at 5001, XXH64 works at 5000 but not at 5001. -/
example (seed : U32) : Hashes (memory 4096 8192 5001 (msg 50)) start (XXH32 arm32 xxhArm6 5001 (msg 50).length seed)
    (Spec.xxh32 (msg 50) seed) 0 5001 (msg 50).length ((msg 50).length / 16 + 6) :=
  xxh32_correct (message50 arm32) seed fun _ => Or.inl rfl

example (seed : U64) : Hashes (memory 4096 8192 5000 (msg 50)) start (XXH64 arm32 xxhArm6 5000 (msg 50).length seed)
    (Spec.xxh64 (msg 50) seed) 0 5000 (msg 50).length ((msg 50).length / 32 + 6) :=
  xxh64_correct_partial (message arm32 (by decide) (by rw [length_msg]; decide) (by decide)) seed
    fun _ => Or.inr ⟨rfl, by decide⟩

example (seed : U64) : XXH64 arm32 xxhArm6 5001 (msg 50).length seed (memory 4096 8192 5001 (msg 50)) start =
    .error .misaligned :=
  xxh64_misaligned rfl rfl (message50 arm32) (by decide) (by rw [length_msg]; decide) seed

example (seed : U64) : Hashes (atEnd 43) start (thunk_XXH_32 mips32 xxhMips (8192 - 43) (msg 43).length seed)
    ((Spec.xxh32 (msg 43) (BitVec.ofNat 32 seed.toNat)).setWidth 64) 0 (8192 - 43) (msg 43).length
    ((msg 43).length / 16 + 6) :=
  xxh32_thunk_correct (message43 mips32) seed fun h => absurd h (by decide)

/-! ## C78: hashing a message in pieces -/

section

variable {σ α : Type} {update : σ → Nat → Nat → M (σ × XXH_errorcode)} {digest : σ → M α} {Fed : List Byte → σ → Prop}
  {E : Ev → Prop}

theorem feed_returns {ov : Overlay} (ps : List (Nat × List Byte))
    (hu : ∀ p ∈ ps, ∀ m st, Fed m st → ∃ C n, Exec w ov E C n (update st p.1 p.2.length)
      (fun r o => o = ov ∧ r.2 = .ok ∧ Fed (m ++ p.2) r.1))
    {s : Sys} (hs : s.ov = ov) {m : List Byte} {st : σ} (f : Fed m st) :
    ∃ st' s' t, Returns (feed update (sizes ps) st) w s (st', true) s' t ∧ s'.ov = ov ∧ (∀ x ∈ t, E x) ∧
      Fed (m ++ whole ps) st' := by
  induction ps generalizing s m st with
  | nil =>
    refine ⟨st, s, [], Returns.pure _, hs, by simp, ?_⟩
    rwa [whole, List.map_nil, List.flatten_nil, List.append_nil]
  | cons p ps ih =>
    subst hs
    obtain ⟨C, n, hp⟩ := hu p List.mem_cons_self m st f
    obtain ⟨⟨st1, code⟩, s1, t1, h1, ⟨h2, h3, h4⟩, h5, -⟩ := returns_of_exec hp
    obtain ⟨st2, s2, t2, g1, g2, g3, g4⟩ := ih (fun p hp => hu p (List.mem_cons_of_mem _ hp)) h2 h4
    simp only [] at h3
    subst h3
    have hlast : Returns (pure (st2, decide (XXH_errorcode.ok = .ok) && true)) w s2 (st2, true) s2 [] := Returns.pure _
    refine ⟨st2, s2, _, h1.bind (g1.bind hlast), g2, ?_, ?_⟩
    · intro x hx
      rw [List.nil_append] at hx
      rcases List.mem_append.1 hx with hx | hx
      · exact g3 x hx
      · exact h5 x hx
    · rw [List.append_assoc] at g4
      exact g4

theorem session_returns {hash : List Byte → α} {ps qs : List (Nat × List Byte)} {st : σ}
    (hu : ∀ p ∈ ps ++ qs, ∀ m st, Fed m st → ∃ C n, Exec w s.ov E C n (update st p.1 p.2.length)
      (fun r o => o = s.ov ∧ r.2 = .ok ∧ Fed (m ++ p.2) r.1))
    (hd : ∀ m st, Fed m st → m = whole ps ∨ m = whole ps ++ whole qs →
      ∃ n, Reads w s.ov E nowhere n (digest st) (hash m))
    (f : Fed [] st) :
    ∃ s' t, Returns (session update digest st (sizes ps) (sizes qs)) w s
      ((true, hash (whole ps)), (true, hash (whole ps ++ whole qs))) s' t ∧ s'.ov = s.ov ∧ ∀ x ∈ t, E x := by
  obtain ⟨st1, s1, t1, a1, a2, a3, a4⟩ := feed_returns ps (fun p hp => hu p (List.mem_append_left _ hp)) rfl f
  rw [List.nil_append] at a4
  obtain ⟨n, hd1⟩ := hd _ _ a4 (Or.inl rfl)
  obtain ⟨v, s2, t2, b1, ⟨rfl, b2⟩, b3, -⟩ := returns_of_exec (s := s1) (a2 ▸ hd1)
  obtain ⟨st3, s3, t3, c1, c2, c3, c4⟩ := feed_returns qs (fun p hp => hu p (List.mem_append_right _ hp)) (s := s2)
    (b2.trans a2) a4
  obtain ⟨n', hd2⟩ := hd _ _ c4 (Or.inr rfl)
  obtain ⟨v, s4, t4, d1, ⟨rfl, d2⟩, d3, -⟩ := returns_of_exec (s := s3) (c2 ▸ hd2)
  refine ⟨s4, _, a1.bind (b1.bind (c1.bind (d1.done (g := fun second => ((true, hash (whole ps)), (true, second)))))),
    d2.trans c2, ?_⟩
  intro x hx
  simp only [List.mem_append] at hx
  rcases hx with ((hx | hx) | hx) | hx
  · exact d3 x hx
  · exact c3 x hx
  · exact b3 x hx
  · exact a3 x hx

end

theorem update32_exec {qs : List (Nat × List Byte)} {ov : Overlay} (h : AllThere cfg w ov qs)
    (h16 : ∀ p ∈ qs, 16 ≤ p.1) (hx : x.access = .direct → x.lenient32 = true) {seed : U32} :
    ∀ p ∈ qs, ∀ m st, Fed32 seed m st → ∃ C n, Exec w ov (NearPieces 16 0 qs) C n (XXH32_update cfg x st p.1 p.2.length)
      (fun r o => o = ov ∧ r.2 = .ok ∧ Fed32 seed (m ++ p.2) r.1) := by
  intro p hp m st f
  have hm := h p hp
  have h16 := h16 p hp
  exact ⟨_, _, exec_update32 (P := NearPieces 16 0 qs) (d := 16) (lo := p.1) (hi := p.1 + p.2.length)
    ⟨hm.fits, fun a n g1 g2 => ⟨p, hp, g1, g2⟩, trivial, fun a g1 g2 => ⟨p, hp, g1, g2⟩⟩ (Nat.le_refl _) hm.holds
    (Nat.le_refl _) (Nat.le_refl _) (by omega) h16 hx hm.room f⟩

theorem update64_exec {qs : List (Nat × List Byte)} {ov : Overlay} (h : AllThere cfg w ov qs)
    (h0 : ∀ p ∈ qs, p.1 ≠ 0 ∧ p.1 + p.2.length + 32 < 2 ^ cfg.bits) (hx : x.access = .direct → x.lenient64 = true)
    {seed : U64} :
    ∀ p ∈ qs, ∀ m st, Fed64 seed m st → ∃ C n, Exec w ov (NearPieces 0 32 qs) C n (XXH64_update cfg x st p.1 p.2.length)
      (fun r o => o = ov ∧ r.2 = .ok ∧ Fed64 seed (m ++ p.2) r.1) := by
  intro p hp m st f
  have hm := h p hp
  have h0 := h0 p hp
  exact ⟨_, _, exec_update64 (P := NearPieces 0 32 qs) (d := 0) (lo := p.1) (hi := p.1 + p.2.length)
    ⟨hm.fits, fun a n g1 g2 => ⟨p, hp, g1, g2⟩, trivial, fun a g1 g2 => ⟨p, hp, g1, by omega⟩⟩
    (fun a g1 g2 => ⟨p, hp, g1, g2⟩) h0.2 hm.holds (Nat.le_refl _) (Nat.le_refl _) h0.1 hx hm.room f⟩

/-- C78: XXH32 of a message in pieces. However the message is cut into pieces (of any size, also empty; together they may
be longer than 2^32 bytes), wherever they are (but not in the first 16 bytes of the address space): all calls succeed, and
the hash is that of the whole message. After the hash has been asked for, more pieces can be added, and the hash is then
that of the longer message. Nothing but bytes of the pieces is read, and nothing is written. -/
theorem xxh32_chunking_partial {ps qs : List (Nat × List Byte)} (hp : AllThere cfg w s.ov ps)
    (hq : AllThere cfg w s.ov qs) (h16 : ∀ p ∈ ps ++ qs, 16 ≤ p.1) (hx : x.access = .direct → x.lenient32 = true)
    (seed : U32) :
    ∃ s' t, Returns (session (XXH32_update cfg x) (XXH32_digest cfg x) (XXH32_reset seed) (sizes ps) (sizes qs)) w s
      ((true, Spec.xxh32 (whole ps) seed), (true, Spec.xxh32 (whole ps ++ whole qs) seed)) s' t ∧ s'.ov = s.ov ∧
      ∀ x ∈ t, NearPieces 16 0 (ps ++ qs) x :=
  session_returns (hash := fun m => Spec.xxh32 m seed)
    (update32_exec (fun p h => (List.mem_append.1 h).elim (hp p) (hq p)) h16 hx)
    (fun _ _ f _ => ⟨_, reads_digest32 trivial f⟩) (fed32_reset seed)

/-- C78: XXH64 of a message in pieces, in the same way, for less than 2^64 bytes, and pieces which are not in the last 32
bytes of the address space. -/
theorem xxh64_chunking_partial {ps qs : List (Nat × List Byte)} (hp : AllThere cfg w s.ov ps)
    (hq : AllThere cfg w s.ov qs) (h0 : ∀ p ∈ ps ++ qs, p.1 ≠ 0 ∧ p.1 + p.2.length + 32 < 2 ^ cfg.bits)
    (hx : x.access = .direct → x.lenient64 = true) (hlen : (whole ps ++ whole qs).length < 2 ^ 64) (seed : U64) :
    ∃ s' t, Returns (session (XXH64_update cfg x) (XXH64_digest cfg x) (XXH64_reset seed) (sizes ps) (sizes qs)) w s
      ((true, Spec.xxh64 (whole ps) seed), (true, Spec.xxh64 (whole ps ++ whole qs) seed)) s' t ∧ s'.ov = s.ov ∧
      ∀ x ∈ t, NearPieces 0 32 (ps ++ qs) x :=
  session_returns (hash := fun m => Spec.xxh64 m seed)
    (update64_exec (fun p h => (List.mem_append.1 h).elim (hp p) (hq p)) h0 hx)
    (fun _ _ f hm => ⟨_, reads_digest64 trivial f (by
      rcases hm with rfl | rfl
      · rw [List.length_append] at hlen; omega
      · exact hlen)⟩) (fed64_reset seed)

/-- C78: a null pointer is refused, with `XXH_ERROR`, even if the length is 0; the message is as it was before the
call. -/
theorem xxh_null_refused {ps qs : List (Nat × List Byte)} (hp : AllThere cfg w s.ov ps) (hq : AllThere cfg w s.ov qs)
    (h0 : ∀ p ∈ ps ++ qs, 16 ≤ p.1 ∧ p.1 + p.2.length + 32 < 2 ^ cfg.bits)
    (hx : x.access = .direct → x.lenient32 = true ∧ x.lenient64 = true) (hlen : (whole ps ++ whole qs).length < 2 ^ 64)
    (seed : U32) (seed64 : U64) (len : Nat) :
    (∃ s' t, Returns (do
        let (st, _) ← feed (XXH32_update cfg x) (sizes ps) (XXH32_reset seed)
        let (st, code) ← XXH32_update cfg x st 0 len
        let (st, _) ← feed (XXH32_update cfg x) (sizes qs) st
        let h ← XXH32_digest cfg x st
        pure (code, h)) w s (.error, Spec.xxh32 (whole ps ++ whole qs) seed) s' t) ∧
    (∃ s' t, Returns (do
        let (st, _) ← feed (XXH64_update cfg x) (sizes ps) (XXH64_reset seed64)
        let (st, code) ← XXH64_update cfg x st 0 len
        let (st, _) ← feed (XXH64_update cfg x) (sizes qs) st
        let h ← XXH64_digest cfg x st
        pure (code, h)) w s (.error, Spec.xxh64 (whole ps ++ whole qs) seed64) s' t) := by
  constructor
  · obtain ⟨st1, s1, t1, a1, a2, -, a4⟩ := feed_returns (s := s) ps (update32_exec (x := x) hp
      (fun p h => (h0 p (List.mem_append_left _ h)).1) (fun hd => (hx hd).1)) rfl (fed32_reset seed)
    obtain ⟨st2, s2, t2, b1, b2, -, b4⟩ := feed_returns (s := s1) qs (update32_exec (x := x) hq
      (fun p h => (h0 p (List.mem_append_right _ h)).1) (fun hd => (hx hd).1)) a2 a4
    obtain ⟨v, s3, t3, c1, ⟨rfl, -⟩, -⟩ := returns_of_exec
      (reads_digest32 (w := w) (ov := s2.ov) (cfg := cfg) (x := x) (P := fun _ => True) trivial b4)
    have hn : Returns (XXH32_update cfg x st1 0 len) w s1 (st1, .error) s1 [] := Returns.pure _
    exact ⟨_, _, a1.bind (hn.bind (b1.bind (c1.done (g := fun h => (XXH_errorcode.error, h)))))⟩
  · obtain ⟨st1, s1, t1, a1, a2, -, a4⟩ := feed_returns (s := s) ps (update64_exec (x := x) hp
      (fun p h => ⟨by have := (h0 p (List.mem_append_left _ h)).1; omega, (h0 p (List.mem_append_left _ h)).2⟩)
      (fun hd => (hx hd).2)) rfl (fed64_reset seed64)
    obtain ⟨st2, s2, t2, b1, b2, -, b4⟩ := feed_returns (s := s1) qs (update64_exec (x := x) hq
      (fun p h => ⟨by have := (h0 p (List.mem_append_right _ h)).1; omega, (h0 p (List.mem_append_right _ h)).2⟩)
      (fun hd => (hx hd).2)) a2 a4
    obtain ⟨v, s3, t3, c1, ⟨rfl, -⟩, -⟩ := returns_of_exec
      (reads_digest64 (w := w) (ov := s2.ov) (cfg := cfg) (x := x) (P := fun _ => True) trivial b4 hlen)
    have hn : Returns (XXH64_update cfg x st1 0 len) w s1 (st1, .error) s1 [] := Returns.pure _
    exact ⟨_, _, a1.bind (hn.bind (b1.bind (c1.done (g := fun h => (XXH_errorcode.error, h)))))⟩

/-- C78 for XXH32 is false for pieces in the first 16 bytes of the address space (there is memory on some
microcontrollers): from the end of such a piece 16 is subtracted (tests/xxhash/xxhash.h:1452), and the result is not a
pointer. This happens whenever the piece ends before address 16 and completes a block. -/
theorem xxh32_pointer_before {ps : List (Nat × List Byte)} (hp : AllThere cfg w s.ov ps) (h16 : ∀ p ∈ ps, 16 ≤ p.1)
    (hx : x.access = .direct → x.lenient32 = true) (seed : U32) (h : Message cfg w s.ov data m) (h0 : data ≠ 0)
    (hfull : 16 ≤ (whole ps).length % 16 + m.length) (hlow : data + m.length < 16) :
    (do
      let (st, _) ← feed (XXH32_update cfg x) (sizes ps) (XXH32_reset seed)
      XXH32_update cfg x st data m.length) w s = .error .ptrWrap := by
  obtain ⟨st1, s1, t1, ⟨a1, -⟩, a2, -, a4⟩ := feed_returns (s := s) ps (update32_exec (x := x) hp h16 hx) rfl
    (fed32_reset seed)
  rw [List.nil_append] at a4
  show M.bind _ _ w s = _
  simp only [M.bind, a1]
  exact fails_update32 (ov := s1.ov) (a2 ▸ h.holds) h.fits h0 h.room a4 hfull hlow s1.log

/-- C78 for XXH64 is false for pieces at the end of the address space: 32 is added to a pointer into such a piece
(tests/xxhash/xxhash.h:1989), and the result is not a pointer. This happens whenever the piece completes a block, and
that block ends less than 32 bytes before the end of the address space. -/
theorem xxh64_pointer_after {ps : List (Nat × List Byte)} (hp : AllThere cfg w s.ov ps)
    (h0 : ∀ p ∈ ps, p.1 ≠ 0 ∧ p.1 + p.2.length + 32 < 2 ^ cfg.bits) (hx : x.access = .direct → x.lenient64 = true)
    (seed : U64) (h : Message cfg w s.ov data m) (hd : data ≠ 0) (hfull : 32 ≤ (whole ps).length % 32 + m.length)
    (hhigh : 2 ^ cfg.bits ≤ data + (32 - (whole ps).length % 32) % 32 + 32) :
    (do
      let (st, _) ← feed (XXH64_update cfg x) (sizes ps) (XXH64_reset seed)
      XXH64_update cfg x st data m.length) w s = .error .ptrWrap := by
  obtain ⟨st1, s1, t1, ⟨a1, -⟩, a2, -, a4⟩ := feed_returns (s := s) ps (update64_exec (x := x) hp h0 hx) rfl
    (fed64_reset seed)
  rw [List.nil_append] at a4
  show M.bind _ _ w s = _
  simp only [M.bind, a1]
  exact fails_update64 (ov := s1.ov) (a2 ▸ h.holds) h.fits hd h.room a4 hfull hhigh s1.log

/-- Pieces of 5, 0 and 50 bytes, then again; then the hash of 110 bytes. -/
example (seed : U32) : ∃ s' t, Returns (session (XXH32_update mips32 xxhMips) (XXH32_digest mips32 xxhMips)
      (XXH32_reset seed) (sizes [(5000, quietBytes 5000 5), (6000, quietBytes 6000 0), (5003, quietBytes 5003 50)])
      (sizes [(5000, quietBytes 5000 5), (6000, quietBytes 6000 0), (5003, quietBytes 5003 50)])) quiet start
    ((true, Spec.xxh32 (whole [(5000, quietBytes 5000 5), (6000, quietBytes 6000 0), (5003, quietBytes 5003 50)]) seed),
      (true, Spec.xxh32 (whole [(5000, quietBytes 5000 5), (6000, quietBytes 6000 0), (5003, quietBytes 5003 50)] ++
        whole [(5000, quietBytes 5000 5), (6000, quietBytes 6000 0), (5003, quietBytes 5003 50)]) seed)) s' t := by
  obtain ⟨s', t, h, -⟩ := xxh32_chunking_partial (x := xxhMips) (pieces_there mips32) (pieces_there mips32)
    (by simp) (fun h => absurd h (by decide)) seed
  exact ⟨s', t, h⟩

theorem pieces_inside (cfg : Cfg) : ∀ p ∈ [(5000, quietBytes 5000 5), (6000, quietBytes 6000 0),
    (5003, quietBytes 5003 50)] ++ [(5000, quietBytes 5000 5), (6000, quietBytes 6000 0), (5003, quietBytes 5003 50)],
    16 ≤ p.1 ∧ p.1 + p.2.length + 32 < 2 ^ cfg.bits := by
  have hb : (2 : Nat) ^ 32 ≤ 2 ^ cfg.bits := by unfold Cfg.bits; split <;> decide
  simp only [List.cons_append, List.nil_append, List.forall_mem_cons, length_quietBytes, List.not_mem_nil,
    false_implies, implies_true, and_true]
  omega

theorem pieces_short : (whole [(5000, quietBytes 5000 5), (6000, quietBytes 6000 0), (5003, quietBytes 5003 50)] ++
    whole [(5000, quietBytes 5000 5), (6000, quietBytes 6000 0), (5003, quietBytes 5003 50)]).length < 2 ^ 64 := by
  simp [whole, length_quietBytes]

example (seed : U64) : ∃ s' t, Returns (session (XXH64_update amd64 xxhGcc) (XXH64_digest amd64 xxhGcc)
      (XXH64_reset seed) (sizes [(5000, quietBytes 5000 5), (6000, quietBytes 6000 0), (5003, quietBytes 5003 50)])
      (sizes [(5000, quietBytes 5000 5), (6000, quietBytes 6000 0), (5003, quietBytes 5003 50)])) quiet start
    ((true, Spec.xxh64 (whole [(5000, quietBytes 5000 5), (6000, quietBytes 6000 0), (5003, quietBytes 5003 50)]) seed),
      (true, Spec.xxh64 (whole [(5000, quietBytes 5000 5), (6000, quietBytes 6000 0), (5003, quietBytes 5003 50)] ++
        whole [(5000, quietBytes 5000 5), (6000, quietBytes 6000 0), (5003, quietBytes 5003 50)]) seed)) s' t := by
  obtain ⟨s', t, h, -⟩ := xxh64_chunking_partial (x := xxhGcc) (pieces_there amd64) (pieces_there amd64)
    (fun p hp => ⟨by have := (pieces_inside amd64 p hp).1; omega, (pieces_inside amd64 p hp).2⟩)
    (fun h => absurd h (by decide)) pieces_short seed
  exact ⟨s', t, h⟩

example (seed : U32) (seed64 : U64) := xxh_null_refused (x := xxhGcc) (pieces_there amd64) (pieces_there amd64)
  (pieces_inside amd64) (fun h => absurd h (by decide)) pieces_short seed seed64 0

/-- 15 bytes at 16, then 5 at 8. -/
example (seed : U32) : (do
      let (st, _) ← feed (XXH32_update arm32 xxhArm6) (sizes [(16, List.replicate 15 0)]) (XXH32_reset seed)
      XXH32_update arm32 xxhArm6 st 8 (List.replicate 5 (0 : Byte)).length) low start = .error .ptrWrap := by
  have hm : ∀ p n, 1 ≤ p → p + n ≤ 4096 → Message arm32 low start.ov p (List.replicate n 0) := fun p n h1 h2 =>
    ⟨holds_low h1 h2, by
      rw [List.length_replicate]
      exact Nat.lt_of_le_of_lt h2 (by decide), by
      rw [List.length_replicate]
      exact Nat.lt_of_le_of_lt (Nat.add_le_add_right (by omega : n ≤ 4096) 32) (by decide)⟩
  exact xxh32_pointer_before (ps := [(16, List.replicate 15 0)])
    (fun p hp => by rw [List.mem_singleton.1 hp]; exact hm 16 15 (by decide) (by decide))
    (fun p hp => by rw [List.mem_singleton.1 hp]) (fun _ => rfl) seed (hm 8 5 (by decide) (by decide)) (by decide)
    (by decide) (by decide)

/-- 31 bytes, then 5 bytes at the end of the address space. -/
example (seed : U64) : (do
      let (st, _) ← feed (XXH64_update mips32 xxhMips) (sizes [(2 ^ 32 - 4000, List.replicate 31 0)]) (XXH64_reset seed)
      XXH64_update mips32 xxhMips st (2 ^ 32 - 6) (List.replicate 5 (0 : Byte)).length) high start =
      .error .ptrWrap := by
  have hm : ∀ p n, 2 ^ 32 - 4096 ≤ p → p + n ≤ 2 ^ 32 - 1 → n ≤ 4096 →
      Message mips32 high start.ov p (List.replicate n 0) := fun p n h1 h2 h3 =>
    ⟨holds_high h1 h2, by
      rw [List.length_replicate]
      exact Nat.lt_of_le_of_lt h2 (by decide), by
      rw [List.length_replicate]
      exact Nat.lt_of_le_of_lt (Nat.add_le_add_right h3 32) (by decide)⟩
  exact xxh64_pointer_after (ps := [(2 ^ 32 - 4000, List.replicate 31 0)])
    (fun p hp => by rw [List.mem_singleton.1 hp]; exact hm _ 31 (by decide) (by decide) (by decide))
    (fun p hp => by rw [List.mem_singleton.1 hp]; exact ⟨by decide, by decide⟩) (fun h => absurd h (by decide)) seed
    (hm (2 ^ 32 - 6) 5 (by decide) (by decide) (by decide)) (by decide) (by decide) (by decide)

/-! ## C79: the canonical representation -/

/-- C79: a hash is stored as the same 4 bytes by every build: the most significant first (`Spec.canonical32`). Nothing else
is written, and nothing is read. -/
theorem xxh32_canonical_written {dst : Nat} (hw : Writable w dst 4) (h : U32) :
    ∃ s' t, Returns (XXH32_canonicalFromHash cfg x dst h) w s () s' t ∧ Holds w s'.ov dst (Spec.canonical32 h) ∧
      (∀ a, a < dst ∨ dst + 4 ≤ a → s'.ov a = s.ov a) ∧ t = [.wr dst 4] := by
  rw [canonicalFromHash32_eq]
  have hc : canWrite w s.log.length dst (Spec.canonical32 h).length = true := canWrite_of (hw.1 _) hw.2
  refine ⟨⟨.wr dst 4 :: s.log, put s.ov dst (Spec.canonical32 h)⟩, [.wr dst 4], ⟨?_, rfl⟩, holds_put hw.1,
    fun a ha => put_other ha, rfl⟩
  unfold store
  rw [if_pos hc]
  rfl

/-- C79: and read back from these bytes by every build, at every address (at an aligned one, if words are read by way of a
pointer and the processor minds). -/
theorem xxh32_canonical_read {src : Nat} (h : U32) (hh : Message cfg w s.ov src (Spec.canonical32 h))
    (hx : x.access = .direct → x.lenient32 = true ∨ src % 4 = 0) :
    Hashes w s (XXH32_hashFromCanonical cfg x src) h 0 src 4 0 := by
  have g : ByteSource w s.ov cfg (Looks 0 src 4) (.memory src) (Spec.canonical32 h) :=
    (hh.space 0).source hh.holds (Nat.le_refl _) (Nat.le_refl _)
  have := g.readBE32 (x := x) 0 (Nat.le_refl 4) (fun hd => (hx hd).imp_right fun h => by simpa [Bytes.isAligned] using h)
  rw [List.drop_zero, show (Spec.canonical32 h).take 4 = Spec.canonical32 h from rfl, canonical32_value] at this
  exact hashes_of_reads this (Nat.le_refl _)

/-- C79: a hash is stored as the same 8 bytes by every build. -/
theorem xxh64_canonical_written {dst : Nat} (hw : Writable w dst 8) (h : U64) :
    ∃ s' t, Returns (XXH64_canonicalFromHash cfg x dst h) w s () s' t ∧ Holds w s'.ov dst (Spec.canonical64 h) ∧
      (∀ a, a < dst ∨ dst + 8 ≤ a → s'.ov a = s.ov a) ∧ t = [.wr dst 8] := by
  rw [canonicalFromHash64_eq]
  have hc : canWrite w s.log.length dst (Spec.canonical64 h).length = true := canWrite_of (hw.1 _) hw.2
  refine ⟨⟨.wr dst 8 :: s.log, put s.ov dst (Spec.canonical64 h)⟩, [.wr dst 8], ⟨?_, rfl⟩, holds_put hw.1,
    fun a ha => put_other ha, rfl⟩
  unfold store
  rw [if_pos hc]
  rfl

/-- C79: and read back from these bytes by every build. -/
theorem xxh64_canonical_read {src : Nat} (h : U64) (hh : Message cfg w s.ov src (Spec.canonical64 h))
    (hx : x.access = .direct → x.lenient64 = true ∨ src % 8 = 0) :
    Hashes w s (XXH64_hashFromCanonical cfg x src) h 0 src 8 0 := by
  have g : ByteSource w s.ov cfg (Looks 0 src 8) (.memory src) (Spec.canonical64 h) :=
    (hh.space 0).source hh.holds (Nat.le_refl _) (Nat.le_refl _)
  have := g.readBE64 (x := x) 0 (Nat.le_refl 8) (fun hd => (hx hd).imp_right fun h => by simpa [Bytes.isAligned] using h)
  rw [List.drop_zero, show (Spec.canonical64 h).take 8 = Spec.canonical64 h from rfl, canonical64_value] at this
  exact hashes_of_reads this (Nat.le_refl _)

/-- One computer stores hashes, another one (of the other byte order) reads them. -/
example (h : U32) (h64 : U64) : (∃ s' t, Returns (XXH32_canonicalFromHash amd64 xxhGcc 9001 h) quiet start () s' t ∧
      Hashes quiet s' (XXH32_hashFromCanonical mips32 xxhMips 9001) h 0 9001 4 0) ∧
    (∃ s' t, Returns (XXH64_canonicalFromHash amd64 xxhGcc 9001 h64) quiet start () s' t ∧
      Hashes quiet s' (XXH64_hashFromCanonical mips32 xxhMips 9001) h64 0 9001 8 0) := by
  refine ⟨?_, ?_⟩
  · obtain ⟨s', t, h1, h2, -⟩ := xxh32_canonical_written (cfg := amd64) (x := xxhGcc) (s := start)
      (quiet_writable (p := 9001) (by decide) (by decide)) h
    exact ⟨s', t, h1, xxh32_canonical_read h ⟨h2, (by decide : 9001 + 4 < 2 ^ 32), (by decide : 4 + 32 < 2 ^ 32)⟩ fun h => absurd h (by decide)⟩
  · obtain ⟨s', t, h1, h2, -⟩ := xxh64_canonical_written (cfg := amd64) (x := xxhGcc) (s := start)
      (quiet_writable (p := 9001) (by decide) (by decide)) h64
    exact ⟨s', t, h1, xxh64_canonical_read h64 ⟨h2, (by decide : 9001 + 8 < 2 ^ 32), (by decide : 8 + 32 < 2 ^ 32)⟩ fun h => absurd h (by decide)⟩

end T1ha.Props
