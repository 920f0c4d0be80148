import Verif.Props.Xxhash
import Verif.Proofs.Xxh3Fail

/-!
# XXH3: C80
-/

namespace T1ha.Model

/-- The call `f` returns `v` and changes nothing. It reads bytes of `ps` and nothing else, and every byte of the message
of `len` bytes at `data`; pointers are computed at most `above` bytes after one of `ps`. There are at most `steps`
iterations of loops. -/
def HashesNear (w : World) (s : Sys) {α : Type} (f : M α) (v : α) (above : Nat) (ps : List (Nat × List Byte))
    (data len steps : Nat) : Prop :=
  ∃ s' t, Returns f w s v s' t ∧ s'.ov = s.ov ∧ (∀ x ∈ t, NearPieces 0 above ps x) ∧
    (∀ i < len, ∃ p n, Ev.rd p n ∈ t ∧ p ≤ data + i ∧ data + i < p + n) ∧ t.count .iter ≤ steps

/-- How far after a message of `len` bytes pointers are computed. -/
def Xxh3.reach (x : Xxh3) (len : Nat) : Nat := if len ≤ 240 then 0 else x.prefetch

end T1ha.Model

namespace T1ha.Examples

open Model

/-- x86-64 with gcc -/
def xxh3Gcc : Xxh3 := { xxhGcc with wide := true, prefetch := 384, debug := false, vector := .scalar }
/-- 32-bit MIPS with clang -Os, with assertions -/
def xxh3Mips : Xxh3 := { xxhMips with wide := false, prefetch := 320, debug := true, vector := .scalar }
/-- ARMv6 with gcc -/
def xxh3Arm6 : Xxh3 := { xxhArm6 with wide := false, prefetch := 384, debug := false, vector := .scalar }

end T1ha.Examples

namespace T1ha.Props

open Model Examples

variable {cfg cfg' : Cfg} {w w' : World} {s s' : Sys} {x x' : Xxh3} {data data' : Nat} {m : List Byte}

/-! The specification gives the values which are published for XXH3 (a test of `SpecXxh3.lean`; the test program has no
reference values for XXH3). -/

example : Spec.xxh3WithSeed [] 0 = 0x2D06800538D394C2 ∧
    Spec.xxh3_128WithSeed [] 0 = ⟨0x6001C324468D497F, 0x99AA06D3014798D8⟩ := by
  decide +kernel

theorem near_of_reads {α : Type} {f : M α} {v : α} {above len n steps : Nat} {ps : List (Nat × List Byte)}
    (h : Reads w s.ov (NearPieces 0 above ps) (range data len) n f v) (hn : n ≤ steps) :
    HashesNear w s f v above ps data len steps := by
  obtain ⟨v', s', t, h1, ⟨h2, h3⟩, h4, h5, h6⟩ := returns_of_exec h
  subst h2
  refine ⟨s', t, h1, h3, h4, fun i hi => ?_, h6 ▸ hn⟩
  obtain ⟨x, hx, hc⟩ := h5 (data + i) ⟨by omega, by omega⟩
  cases x with
  | rd p n => exact ⟨p, n, hx, hc.1, hc.2⟩
  | wr p n => exact absurd hc (by simp [Ev.covers])
  | iter => exact absurd hc (by simp [Ev.covers])
  | ptr p => exact absurd hc (by simp [Ev.covers])

theorem source_near {ps : List (Nat × List Byte)} {ov : Overlay} (h : Message cfg w ov data m) (above : Nat)
    (hp : (data, m) ∈ ps) : ByteSource w ov cfg (NearPieces 0 above ps) (.memory data) m :=
  Space.source (d := 0) (lo := data) (hi := data + m.length) ⟨h.fits, fun a n g1 g2 => ⟨(data, m), hp, g1, g2⟩, trivial,
    fun a g1 g2 => ⟨(data, m), hp, g1, by dsimp only; omega⟩⟩ h.holds (Nat.le_refl _) (Nat.le_refl _)

theorem ahead_near {ps : List (Nat × List Byte)} {ov : Overlay} (hp : (data, m) ∈ ps)
    (hf : data + m.length + x.reach m.length < 2 ^ cfg.bits) (h240 : 240 < m.length) :
    Ahead w ov cfg x (NearPieces 0 (x.reach m.length) ps) (.memory data) m.length := by
  unfold Xxh3.reach at *
  rw [if_neg (by omega)] at *
  intro i hi
  exact Exec.bindR (Reads.ptrAdd (by omega) ⟨(data, m), hp, by dsimp only; omega, by dsimp only; omega⟩) (Reads.pure ())

theorem rounds3_le (n pb len : Nat) (hn : 16 ≤ n) (hp : 0 < pb) : rounds3 n pb len ≤ len / 16 := by
  unfold rounds3
  split
  · omega
  · split
    · exact Nat.div_le_div_left hn (by omega)
    · have h1 : (len - 1) / (64 * pb) ≤ (len - 1) / 64 := Nat.div_le_div_left (by omega) (by omega)
      omega

/-! ## C80: the functions which hash a message at once -/

/-- C80: XXH3 with 64 bits returns a function of the bytes and of the seed, for every build configuration, address and
memory; it reads every byte of the message and nothing else, and writes nothing.
Messages of more than 240 bytes must be followed by `XXH_PREFETCH_DIST` bytes of the address space, words are read by way
of a pointer only if the processor does not mind, and with assertions there must not be 8 bytes. -/
theorem xxh3_correct_partial (h : Message cfg w s.ov data m) (hx : x.access = .direct → x.lenient32 = true ∧ x.lenient64 = true)
    (hf : data + m.length + x.reach m.length < 2 ^ cfg.bits)
    (hd : x.debug = true → (m.length ≠ 0 → data ≠ 0) ∧ m.length ≠ 8) (seed : U64) :
    HashesNear w s (XXH3_64bits_withSeed cfg x (.memory data) m.length seed) (Spec.xxh3WithSeed m seed)
      (x.reach m.length) [(data, m)] data m.length (m.length / 16) ∧
    HashesNear w s (XXH3_64bits cfg x (.memory data) m.length) (Spec.xxh3WithSeed m 0)
      (x.reach m.length) [(data, m)] data m.length (m.length / 16) := by
  have g := source_near h (x.reach m.length) (List.mem_singleton.2 rfl)
  have hn : x.debug = true → m.length ≠ 0 → (Bytes.memory data).isNull = false := fun a b => by
    simpa [Bytes.isNull] using (hd a).1 b
  exact ⟨near_of_reads (withSeed64 g hx hn (ahead_near (List.mem_singleton.2 rfl) hf) (fun a => (hd a).2) seed)
    (rounds3_le _ _ _ (by decide) (by decide)),
    near_of_reads (bits64_default g hx hn (ahead_near (List.mem_singleton.2 rfl) hf) (fun a => (hd a).2))
    (rounds3_le _ _ _ (by decide) (by decide))⟩

/-- C80: XXH3 with 128 bits, in the same way; with assertions, too, there may be 8 bytes. -/
theorem xxh3_128_correct_partial (h : Message cfg w s.ov data m)
    (hx : x.access = .direct → x.lenient32 = true ∧ x.lenient64 = true)
    (hf : data + m.length + x.reach m.length < 2 ^ cfg.bits) (hd : x.debug = true → m.length ≠ 0 → data ≠ 0)
    (seed : U64) :
    HashesNear w s (XXH3_128bits_withSeed cfg x (.memory data) m.length seed) (Spec.xxh3_128WithSeed m seed)
      (x.reach m.length) [(data, m)] data m.length (m.length / 16) ∧
    HashesNear w s (XXH3_128bits cfg x (.memory data) m.length) (Spec.xxh3_128WithSeed m 0)
      (x.reach m.length) [(data, m)] data m.length (m.length / 16) := by
  have g := source_near h (x.reach m.length) (List.mem_singleton.2 rfl)
  have hn : x.debug = true → m.length ≠ 0 → (Bytes.memory data).isNull = false := fun a b => by
    simpa [Bytes.isNull] using hd a b
  exact ⟨near_of_reads (withSeed128 g hx hn (ahead_near (List.mem_singleton.2 rfl) hf) seed)
    (rounds3_le _ _ _ (by decide) (by decide)),
    near_of_reads (bits128_default g hx hn (ahead_near (List.mem_singleton.2 rfl) hf))
    (rounds3_le _ _ _ (by decide) (by decide))⟩

/-- C80: with a secret of the caller, of at least 136 bytes, and of less than an eighth of the address space. Bytes of
the message and of the secret are read, and nothing else. -/
theorem xxh3_secret_correct_partial {secret : Nat} {k : List Byte} (h : Message cfg w s.ov data m)
    (hk : Message cfg w s.ov secret k) (h136 : 136 ≤ k.length) (hlong : 8 * k.length < 2 ^ cfg.bits)
    (hx : x.access = .direct → x.lenient32 = true ∧ x.lenient64 = true)
    (hf : data + m.length + x.reach m.length < 2 ^ cfg.bits)
    (hd : x.debug = true → (m.length ≠ 0 → data ≠ 0) ∧ m.length ≠ 8 ∧ secret ≠ 0) :
    HashesNear w s (XXH3_64bits_withSecret cfg x (.memory data) m.length (.memory secret) k.length)
      (Spec.xxh3WithSecret m k) (x.reach m.length) [(data, m), (secret, k)] data m.length (m.length / 16) ∧
    HashesNear w s (XXH3_128bits_withSecret cfg x (.memory data) m.length (.memory secret) k.length)
      (Spec.xxh3_128WithSecret m k) (x.reach m.length) [(data, m), (secret, k)] data m.length (m.length / 16) := by
  have g : Hashing w s.ov cfg x (NearPieces 0 (x.reach m.length) [(data, m), (secret, k)]) (.memory data) m
      (.memory secret) k :=
    ⟨source_near h _ (by simp), source_near hk _ (by simp), hx⟩
  have hn : x.debug = true → m.length ≠ 0 → (Bytes.memory data).isNull = false := fun a b => by
    simpa [Bytes.isNull] using (hd a).1 b
  have hs : x.debug = true → (Bytes.memory secret).isNull = false := fun a => by
    simpa [Bytes.isNull] using (hd a).2.2
  have hp : 0 < Spec.xxh3PerBlock k := by unfold Spec.xxh3PerBlock; omega
  exact ⟨near_of_reads (g.withSecret64 h136 hn hs (fun a => (hd a).2.1) hlong (ahead_near (by simp) hf))
    (rounds3_le _ _ _ (by decide) hp),
    near_of_reads (g.withSecret128 h136 hn hs hlong (ahead_near (by simp) hf)) (rounds3_le _ _ _ (by decide) hp)⟩

/-- C80: what the test program measures as XXH3_64 and XXH3_128 (of which it takes the lower half) has the same value for
two builds, on two machines. -/
theorem xxh3_portable (h : Message cfg w s.ov data m) (h' : Message cfg' w' s'.ov data' m)
    (hx : x.access = .direct → x.lenient32 = true ∧ x.lenient64 = true)
    (hx' : x'.access = .direct → x'.lenient32 = true ∧ x'.lenient64 = true)
    (hf : data + m.length + x.reach m.length < 2 ^ cfg.bits)
    (hf' : data' + m.length + x'.reach m.length < 2 ^ cfg'.bits)
    (hd : x.debug = true → (m.length ≠ 0 → data ≠ 0) ∧ m.length ≠ 8)
    (hd' : x'.debug = true → (m.length ≠ 0 → data' ≠ 0) ∧ m.length ≠ 8) (seed : U64) :
    (∃ r t r' t', Returns (thunk_XXH3_64 cfg x data m.length seed) w s (Spec.xxh3WithSeed m seed) r t ∧
      Returns (thunk_XXH3_64 cfg' x' data' m.length seed) w' s' (Spec.xxh3WithSeed m seed) r' t') ∧
    (∃ r t r' t', Returns (thunk_XXH3_128 cfg x data m.length seed) w s (Spec.xxh3_128WithSeed m seed).low64 r t ∧
      Returns (thunk_XXH3_128 cfg' x' data' m.length seed) w' s' (Spec.xxh3_128WithSeed m seed).low64 r' t') := by
  refine ⟨?_, ?_⟩
  · obtain ⟨⟨r, t, h1, -⟩, -⟩ := xxh3_correct_partial h hx hf hd seed
    obtain ⟨⟨r', t', h2, -⟩, -⟩ := xxh3_correct_partial h' hx' hf' hd' seed
    exact ⟨r, t, r', t', h1, h2⟩
  · obtain ⟨⟨r, t, h1, -⟩, -⟩ := xxh3_128_correct_partial h hx hf (fun a => (hd a).1) seed
    obtain ⟨⟨r', t', h2, -⟩, -⟩ := xxh3_128_correct_partial h' hx' hf' (fun a => (hd' a).1) seed
    exact ⟨r, _, r', _, h1.done (g := Hash128.low64), h2.done (g := Hash128.low64)⟩

/-- C80 is false for the build which the code chooses for ARMv6 and gcc: no message of 129 to 240 bytes can be hashed,
wherever it is. Words of the secret are read by way of a pointer to a 64-bit integer at addresses which are not multiples of
8 (tests/xxhash/xxh3.h:913, 917), and the instructions which read such words need alignment. -/
theorem xxh3_misaligned (hd : x.access = .direct) (hl : x.lenient64 = false) (h : Message cfg w s.ov data m)
    (h1 : 128 < m.length) (h2 : m.length ≤ 240) (seed : U64) :
    XXH3_64bits_withSeed cfg x (.memory data) m.length seed w s = .error .misaligned :=
  fails_middle (ov := s.ov) hd hl h h1 h2 s.log

/-- C80 is false for messages of more than 240 bytes in the last `XXH_PREFETCH_DIST` bytes of the address space: the
pointer to what is fetched ahead (tests/xxhash/xxh3.h:1625) is not one. -/
theorem xxh3_pointer_after (hx : x.access = .direct → x.lenient32 = true ∧ x.lenient64 = true) (_ : Message cfg w s.ov data m)
    (h240 : 240 < m.length) (hh : 2 ^ cfg.bits ≤ data + x.prefetch) (seed : U64) :
    XXH3_64bits_withSeed cfg x (.memory data) m.length seed w s = .error .ptrWrap :=
  fails_ahead_seed (ov := s.ov) hx h240 hh s.log

/-- C80 is false with assertions (`XXH_DEBUGLEVEL` is 1 or more) for messages of 8 bytes: `XXH3_len_4to8_64b` asserts that
there are less (tests/xxhash/xxh3.h:741), and the program ends. -/
theorem xxh3_eight_bytes_assert (hx : x.debug = true) (h0 : data ≠ 0) (seed : U64) :
    XXH3_64bits_withSeed cfg x (.memory data) 8 seed w s = .error .assertFail :=
  fails_eight (ov := s.ov) hx h0 s.log

/-- C80 is false for long secrets: if the number of bytes of a block is a multiple of the size of the address space (on
32-bit machines, a secret of 512 MiB and 64 bytes), the code divides by 0 (tests/xxhash/xxh3.h:1641). -/
theorem xxh3_long_secret_divides_by_zero {secret n len : Nat} (hs : 136 ≤ n)
    (hz : 64 * ((n - 64) / 8) % 2 ^ cfg.bits = 0) (hlen : 240 < len) :
    XXH3_64bits_withSecret cfg x (.memory data) len (.memory secret) n w s = .error .divideByZero ∧
    XXH3_128bits_withSecret cfg x (.memory data) len (.memory secret) n w s = .error .divideByZero := by
  have := fails_secret (w := w) (ov := s.ov) (cfg := cfg) (x := x) (b := .memory data) (secret := .memory secret) hs hz
    hlen
  exact ⟨this.1 s.log, this.2 s.log⟩

/-- C80: who knows the seed knows 2^64 messages of 32 bytes with the same 64-bit hash: there are eight bytes such that for
all messages which begin with them, the next eight bytes do not matter. -/
theorem xxh3_collisions (seed : U64) : ∃ a : List Byte, a.length = 8 ∧
    ∀ (b b' c : List Byte), b.length = 8 → b'.length = 8 → c.length = 16 →
    ∀ {cfg : Cfg} {w : World} {s : Sys} {x : Xxh3} {p p' : Nat}, Message cfg w s.ov p (a ++ b ++ c) →
      Message cfg w s.ov p' (a ++ b' ++ c) → (x.access = .direct → x.lenient32 = true ∧ x.lenient64 = true) →
      (x.debug = true → p ≠ 0 ∧ p' ≠ 0) →
      ∃ v r t r' t', Returns (XXH3_64bits_withSeed cfg x (.memory p) 32 seed) w s v r t ∧
        Returns (XXH3_64bits_withSeed cfg x (.memory p') 32 seed) w s v r' t' := by
  refine ⟨leBytes 8 (Spec.at64 Spec.xxh3Secret 0 + seed).toNat, leBytes_length .., ?_⟩
  intro b b' c hb hb' hc cfg w s x p p' h h' hx hd
  have hl : ∀ b : List Byte, b.length = 8 →
      (leBytes 8 (Spec.at64 Spec.xxh3Secret 0 + seed).toNat ++ b ++ c).length = 32 := fun b hb => by
    simp [leBytes_length, hb, hc]
  have l1 := hl b hb
  have l2 := hl b' hb'
  have hf := h.fits
  have hf' := h'.fits
  obtain ⟨⟨r, t, h1, -⟩, -⟩ := xxh3_correct_partial h hx (by rw [l1] at *; exact hf)
    (fun a => ⟨fun _ => (hd a).1, by rw [l1]; decide⟩) seed
  obtain ⟨⟨r', t', h2, -⟩, -⟩ := xxh3_correct_partial h' hx (by rw [l2] at *; exact hf')
    (fun a => ⟨fun _ => (hd a).2, by rw [l2]; decide⟩) seed
  rw [l1] at h1
  rw [l2, xxh3_blind hb' hb hc] at h2
  exact ⟨_, r, t, r', t', h1, h2⟩

/-- Zeros in the first page. -/
theorem message_low (cfg : Cfg) {p n : Nat} (h1 : 1 ≤ p) (h2 : p + n ≤ 4096) :
    Message cfg low start.ov p (List.replicate n 0) where
  holds := holds_low h1 h2
  fits := by
    rw [List.length_replicate]
    unfold Cfg.bits
    split
    · exact Nat.lt_trans (by omega : p + n < 2 ^ 32) (by decide)
    · omega
  room := by
    rw [List.length_replicate]
    unfold Cfg.bits
    split
    · exact Nat.lt_trans (by omega : n + 32 < 2 ^ 32) (by decide)
    · omega

/-- `xxh3_correct_partial`: 43 bytes at the end of a page. -/
example (seed : U64) := xxh3_correct_partial (x := xxh3Gcc) (message43 amd64) (fun h => absurd h (by decide))
  (by rw [length_msg]; decide) (fun h => absurd h (by decide)) seed

/-- `xxh3_correct_partial`: 1500 bytes, with assertions. -/
example (seed : U64) := xxh3_correct_partial (x := xxh3Mips) (message_low mips32 (p := 7) (n := 1500) (by decide) (by decide))
  (fun h => absurd h (by decide)) (by rw [List.length_replicate]; decide)
  (fun _ => ⟨fun _ => by decide, by rw [List.length_replicate]; decide⟩) seed

/-- `xxh3_128_correct_partial`: 8 bytes, with assertions. -/
example (seed : U64) := xxh3_128_correct_partial (x := xxh3Mips) (message_low mips32 (p := 7) (n := 8) (by decide) (by decide))
  (fun h => absurd h (by decide)) (by rw [List.length_replicate]; decide) (fun _ _ => by decide) seed

/-- `xxh3_secret_correct_partial`: 1500 bytes and a secret of 137 bytes. -/
example := xxh3_secret_correct_partial (x := xxh3Mips) (message_low mips32 (p := 7) (n := 1500) (by decide) (by decide))
  (message_low mips32 (p := 2001) (n := 137) (by decide) (by decide)) (by rw [List.length_replicate]; decide)
  (by rw [List.length_replicate]; decide) (fun h => absurd h (by decide)) (by rw [List.length_replicate]; decide)
  (fun _ => ⟨fun _ => by decide, by rw [List.length_replicate]; decide, by decide⟩)

/-- `xxh3_misaligned`: 200 bytes at the address 2000, a multiple of 8, on ARMv6. -/
example (seed : U64) := xxh3_misaligned (x := xxh3Arm6) rfl rfl (message_low arm32 (p := 2000) (n := 200) (by decide)
  (by decide)) (by rw [List.length_replicate]; decide) (by rw [List.length_replicate]; decide) seed

/-- `xxh3_pointer_after`: the last 300 bytes of the address space, but for one. -/
example (seed : U64) := xxh3_pointer_after (cfg := mips32) (x := xxh3Mips) (w := high) (s := start)
  (m := List.replicate 299 0) (data := 2 ^ 32 - 300) (fun h => absurd h (by decide))
  ⟨holds_high (by decide) (by decide), by rw [List.length_replicate]; decide, by rw [List.length_replicate]; decide⟩
  (by rw [List.length_replicate]; decide) (by decide) seed

/-- `xxh3_eight_bytes_assert`: 8 bytes in the first page, which C80 is about. -/
example (seed : U64) : Message mips32 low start.ov 7 (List.replicate 8 0) ∧
    XXH3_64bits_withSeed mips32 xxh3Mips (.memory 7) 8 seed low start = .error .assertFail :=
  ⟨message_low mips32 (by decide) (by decide), xxh3_eight_bytes_assert rfl (by decide) seed⟩

/-- `xxh3_long_secret_divides_by_zero`: a secret of 512 MiB and 64 bytes on a 32-bit machine. -/
example := xxh3_long_secret_divides_by_zero (cfg := mips32) (x := xxh3Mips) (w := low) (s := start) (data := 7)
  (secret := 4096) (n := 2 ^ 29 + 64) (len := 1000) (by decide) (by decide) (by decide)

/-- `xxh3_collisions`: there are messages as in the theorem, at different addresses. -/
example (a b b' c : List Byte) (ha : a.length = 8) (hb : b.length = 8) (hb' : b'.length = 8) (hc : c.length = 16) :
    ∃ (w : World) (p p' : Nat), Message amd64 w start.ov p (a ++ b ++ c) ∧ Message amd64 w start.ov p' (a ++ b' ++ c) := by
  have hl : (a ++ b ++ c).length = 32 := by simp [ha, hb, hc]
  have hl' : (a ++ b' ++ c).length = 32 := by simp [ha, hb', hc]
  have hm := message amd64 (lo := 64) (hi := 128) (data := 64) (m := (a ++ b ++ c) ++ (a ++ b' ++ c)) (by decide)
    (by rw [List.length_append, hl, hl']) (by decide)
  have h1 := hm.holds.take 32
  have h2 := hm.holds.drop 32
  rw [List.take_left' hl] at h1
  rw [List.drop_left' hl] at h2
  exact ⟨_, 64, 96, ⟨h1, by rw [hl]; decide, by rw [hl]; decide⟩, ⟨h2, by rw [hl']; decide, by rw [hl']; decide⟩⟩

/-- `xxh3_portable`: 43 bytes at the end of a page of an x86-64 computer, and in the middle of one of a MIPS computer. -/
example (seed : U64) := xxh3_portable (x := xxh3Gcc) (x' := xxh3Mips) (message43 amd64)
  (message mips32 (m := msg 43) (data := 5001) (lo := 4096) (hi := 8192) (by decide) (by rw [length_msg]; decide) (by decide))
  (fun h => absurd h (by decide)) (fun h => absurd h (by decide)) (by rw [length_msg]; decide) (by rw [length_msg]; decide)
  (fun h => absurd h (by decide)) (fun _ => ⟨fun _ => by decide, by rw [length_msg]; decide⟩) seed

end T1ha.Props
