import Verif.Props.Xxh3Cat

/-!
# XXH3 with vector instructions: C90
-/

namespace T1ha.Examples

open Model

/-- Every `XXH_VECTOR` -/
def vectors : List XxhVector := [.scalar, .sse2, .avx2, .avx512, .neon false, .neon true, .vsx]

/-- A stripe, the bytes 1 to 64 -/
def stripe : List Byte := (List.range 64).map fun i => BitVec.ofNat 8 (i + 1)

end T1ha.Examples

namespace T1ha.Props

open Model Examples

variable {cfg : Cfg} {w : World} {s : Sys} {x : Xxh3} {data secret : Nat} {m k : List Byte}

/-- The number which begins at the byte `i` of `b`, the least significant byte first. -/
def word (b : List Byte) (i : Nat) : U64 := BitVec.ofNat 64 (leVal ((b.drop i).take 8))

/-- C90: what is done with 64 bytes of the message and 64 bytes of the secret is the same with SSE2, AVX2, AVX-512, NEON,
VSX and without: to every one of eight numbers, the neighbour of its word is added, and the product of the halves of its
word with the secret applied. The bytes of the message are read, and nothing but them and the secret. -/
theorem xxh3_accumulate_correct_partial (h : Message cfg w s.ov data m) (hk : Message cfg w s.ov secret k)
    (hx : x.access = .direct → x.lenient32 = true ∧ x.lenient64 = true) (acc : Fin 8 → U64) {i j : Nat}
    (hi : i + 64 ≤ m.length) (hj : j + 64 ≤ k.length) :
    ∃ s' t, Returns (XXH3_accumulate_512 cfg x acc (.memory data) i (.memory secret) j) w s
        (fun q => acc q + word m (i + 8 * (q.val ^^^ 1)) +
          BitVec.ofNat 64 ((word m (i + 8 * q) ^^^ word k (j + 8 * q)).toNat % 2 ^ 32 *
            ((word m (i + 8 * q) ^^^ word k (j + 8 * q)).toNat / 2 ^ 32))) s' t ∧ s'.ov = s.ov ∧
      (∀ e ∈ t, NearPieces 0 0 [(data, m), (secret, k)] e) ∧
      ∀ a < 64, ∃ p n, Ev.rd p n ∈ t ∧ p ≤ data + i + a ∧ data + i + a < p + n := by
  have g : Hashing w s.ov cfg x (NearPieces 0 0 [(data, m), (secret, k)]) (.memory data) m (.memory secret) k :=
    ⟨source_near h _ (by simp), source_near hk _ (by simp), hx⟩
  obtain ⟨v, s', t, h1, ⟨rfl, h3⟩, h4, h5, -⟩ := returns_of_exec (g.accumulate_512 acc i j hi hj)
  refine ⟨s', t, ?_, h3, h4, fun a ha => ?_⟩
  · have e : Spec.xxh3Accumulate k j acc ((m.drop i).take 64) = fun q : Fin 8 => acc q + word m (i + 8 * (q.val ^^^ 1)) +
          BitVec.ofNat 64 ((word m (i + 8 * q) ^^^ word k (j + 8 * q)).toNat % 2 ^ 32 *
            ((word m (i + 8 * q) ^^^ word k (j + 8 * q)).toNat / 2 ^ 32)) := by
      funext q
      have hv : ((q ^^^ 1 : Fin 8) : Nat) = q.val ^^^ 1 := by revert q; decide
      unfold Spec.xxh3Accumulate
      rw [at64_slice _ _ _ (by omega), at64_slice _ _ _ (by omega), hv, halves_nat]
      rfl
    rwa [e] at h1
  · obtain ⟨e, he, hc⟩ := h5 (data + i + a) ⟨by omega, by omega⟩
    cases e with
    | rd p n => exact ⟨p, n, he, hc.1, hc.2⟩
    | wr p n => exact absurd hc (by simp [Ev.covers])
    | iter => exact absurd hc (by simp [Ev.covers])
    | ptr p => exact absurd hc (by simp [Ev.covers])

/-- C90: what is done at the end of a block is the same for all of them. -/
theorem xxh3_scramble_correct_partial (hk : Message cfg w s.ov secret k) (h64 : 64 ≤ k.length)
    (hx : x.access = .direct → x.lenient32 = true ∧ x.lenient64 = true) (acc : Fin 8 → U64) :
    ∃ s' t, Returns (XXH3_scrambleAcc cfg x acc (.memory secret) (k.length - 64)) w s
        (fun q => (acc q ^^^ acc q >>> 47 ^^^ word k (k.length - 64 + 8 * q)) * 0x9E3779B1) s' t ∧ s'.ov = s.ov ∧
      ∀ e ∈ t, NearPieces 0 0 [(secret, k)] e := by
  have g : Hashing w s.ov cfg x (NearPieces 0 0 [(secret, k)]) (.memory secret) k (.memory secret) k :=
    ⟨source_near hk _ (by simp), source_near hk _ (by simp), hx⟩
  obtain ⟨v, s', t, h1, ⟨rfl, h3⟩, h4, -⟩ := returns_of_exec (g.scramble acc h64)
  exact ⟨s', t, h1, h3, h4⟩

/-- C90: the secret of a seed is the same for all of them, and no memory is read for it. -/
theorem xxh3_seeded_secret_correct_partial (hx : x.access = .direct → x.lenient32 = true ∧ x.lenient64 = true)
    (seed : U64) :
    ∃ s' t, Returns (XXH3_initCustomSecret cfg x seed) w s (Spec.xxh3Seeded seed) s' t ∧ s'.ov = s.ov ∧
      ∀ e ∈ t, e = .iter := by
  obtain ⟨v, s', t, h1, ⟨rfl, h3⟩, h4, -⟩ := returns_of_exec (s := s)
    (reads_initCustomSecret (w := w) (ov := s.ov) (cfg := cfg) (x := x) (P := fun e => e = .iter) rfl hx seed)
  exact ⟨s', t, h1, h3, h4⟩

/-- C90: the hash of a message does not depend on the instructions, for all messages, and for both hashes. -/
theorem xxh3_vectors_agree (v v' : XxhVector) (h : Message cfg w s.ov data m)
    (hx : x.access = .direct → x.lenient32 = true ∧ x.lenient64 = true)
    (hf : data + m.length + x.reach m.length < 2 ^ cfg.bits)
    (hd : x.debug = true → (m.length ≠ 0 → data ≠ 0) ∧ m.length ≠ 8) (seed : U64) :
    (∃ h64 r t r' t',
      Returns (XXH3_64bits_withSeed cfg { x with vector := v } (.memory data) m.length seed) w s h64 r t ∧
      Returns (XXH3_64bits_withSeed cfg { x with vector := v' } (.memory data) m.length seed) w s h64 r' t') ∧
    ∃ h128 r t r' t',
      Returns (XXH3_128bits_withSeed cfg { x with vector := v } (.memory data) m.length seed) w s h128 r t ∧
      Returns (XXH3_128bits_withSeed cfg { x with vector := v' } (.memory data) m.length seed) w s h128 r' t' := by
  obtain ⟨⟨r1, t1, a1, -⟩, -⟩ := xxh3_correct_partial (x := { x with vector := v }) h hx hf hd seed
  obtain ⟨⟨r2, t2, a2, -⟩, -⟩ := xxh3_correct_partial (x := { x with vector := v' }) h hx hf hd seed
  obtain ⟨⟨r3, t3, a3, -⟩, -⟩ := xxh3_128_correct_partial (x := { x with vector := v }) h hx hf (fun a => (hd a).1) seed
  obtain ⟨⟨r4, t4, a4, -⟩, -⟩ := xxh3_128_correct_partial (x := { x with vector := v' }) h hx hf (fun a => (hd a).1) seed
  exact ⟨⟨_, r1, t1, r2, t2, a1, a2⟩, _, r3, t3, r4, t4, a3, a4⟩

/-- C90: a state can be handed over between parts of a program which are compiled for different instructions: it may be
reset by one, be fed by two others, and the hash may be asked for from a fourth one. -/
theorem xxh3_handover_partial {x0 x1 x2 x3 : Xxh3} {ps qs : List (Nat × List Byte)} (hp : AllThere cfg w s.ov ps)
    (hq : AllThere cfg w s.ov qs) (h1 : ∀ p ∈ ps, p.1 ≠ 0 ∧ p.1 + p.2.length + x1.ahead < 2 ^ cfg.bits)
    (h2 : ∀ p ∈ qs, p.1 ≠ 0 ∧ p.1 + p.2.length + x2.ahead < 2 ^ cfg.bits)
    (hx : ∀ x ∈ [x0, x1, x2, x3], x.access = .direct → x.lenient32 = true ∧ x.lenient64 = true)
    (hlen : (whole ps ++ whole qs).length < 2 ^ 64) (seed : U64) :
    (∃ s' t, Returns (do
        let st ← XXH3_reset_withSeed cfg x0 seed
        let (st, _) ← feed (XXH3_update cfg x1) (sizes ps) st
        let (st, _) ← feed (XXH3_update cfg x2) (sizes qs) st
        XXH3_128bits_digest cfg x3 st) w s (Spec.xxh3_128WithSeed (whole ps ++ whole qs) seed) s' t ∧ s'.ov = s.ov) ∧
    ((x3.debug = true → (whole ps ++ whole qs).length ≠ 8) →
      ∃ s' t, Returns (do
        let st ← XXH3_reset_withSeed cfg x0 seed
        let (st, _) ← feed (XXH3_update cfg x1) (sizes ps) st
        let (st, _) ← feed (XXH3_update cfg x2) (sizes qs) st
        XXH3_64bits_digest cfg x3 st) w s (Spec.xxh3WithSeed (whole ps ++ whole qs) seed) s' t ∧ s'.ov = s.ov) := by
  have g : ∀ n ov, ByteSource w ov cfg (NearPieces 0 n (ps ++ qs)) (.array (Spec.xxh3Seeded seed))
      (Spec.xxh3Seeded seed) := fun n ov => source_array trivial (List.prefix_refl (Spec.xxh3Seeded seed))
  have hk136 : 136 ≤ (Spec.xxh3Seeded seed).length := by rw [length_xxh3Seeded]; decide
  have hkb : (Spec.xxh3Seeded seed).length < 2 ^ cfg.bits := by rw [length_xxh3Seeded]; exact small192
  obtain ⟨st, s0, t0, z1, ⟨z2, z4⟩, -⟩ := returns_of_exec (s := s)
    (exec_reset3_seed (w := w) (cfg := cfg) (ov := s.ov) (P := fun _ => True) trivial (hx x0 (by simp)) seed)
  obtain ⟨st1, s1, t1, a1, a2, -, a4⟩ := feed_returns (s := s0) ps (update3_exec (x := x1) hp
    (fun p h => List.mem_append_left qs h) h1 (hx x1 (by simp)) (g _ _) hk136 hkb) z2 z4
  obtain ⟨st2, s2, t2, b1, b2, -, b4⟩ := feed_returns (s := s1) qs (update3_exec (x := x2) hq
    (fun p h => List.mem_append_right ps h) h2 (hx x2 (by simp)) (g _ _) hk136 hkb) a2 a4
  rw [List.nil_append] at b4
  constructor
  · obtain ⟨n, hd⟩ := reads_digest3_128 (w := w) (ov := s2.ov) (cfg := cfg) (x := x3) (P := NearPieces 0 0 (ps ++ qs))
      trivial (g _ _) hk136 hkb (hx x3 (by simp)) b4 (fun _ => rfl) (fun _ => rfl) hlen
    rw [(if_seed _ seed).2] at hd
    obtain ⟨v, s3, t3, c1, ⟨rfl, c2⟩, -⟩ := returns_of_exec hd
    exact ⟨_, _, z1.bind (a1.bind (b1.bind c1)), c2.trans b2⟩
  · intro h8
    obtain ⟨n, hd⟩ := reads_digest3_64 (w := w) (ov := s2.ov) (cfg := cfg) (x := x3) (P := NearPieces 0 0 (ps ++ qs))
      trivial (g _ _) hk136 hkb (hx x3 (by simp)) b4 (fun _ => rfl) (fun _ => rfl) hlen h8
    rw [(if_seed _ seed).1] at hd
    obtain ⟨v, s3, t3, c1, ⟨rfl, c2⟩, -⟩ := returns_of_exec hd
    exact ⟨_, _, z1.bind (a1.bind (b1.bind c1)), c2.trans b2⟩

end T1ha.Props

/-! ## Examples -/

namespace T1ha.Props

open Model Examples

/-- Every vector, on both kinds of machines, with the first 64 bytes of the secret (the numbers were computed apart from
the model): the functions do what is said. -/
example : (vectors.all fun v => [amd64, mips32].all fun c =>
    (match XXH3_accumulate_512 c { xxh3Gcc with vector := v } (fun q => BitVec.ofNat 64 q) (.array stripe) 0
      (.array XXH3_kSecret) 0 quiet start with
    | .ok (acc, _) => acc 0 == 0x3bcf0fe195839f7f && acc 1 == 0x9a21c02def6ad44 && acc 2 == 0xe1b5f43514f3f165 &&
        acc 3 == 0x45e5445bca676c22 && acc 7 == 0x428c99b32e433994
    | .error _ => false) &&
    (match XXH3_scrambleAcc c { xxh3Gcc with vector := v } (fun q => BitVec.ofNat 64 q * 0x9E3779B97F4A7C15)
      (.array XXH3_kSecret) 0 quiet start with
    | .ok (acc, _) => acc 0 == 0x53e3be1f82491538 && acc 7 == 0x828e1bc19b608e0b
    | .error _ => false) &&
    (match XXH3_initCustomSecret c { xxh3Gcc with vector := v } 1 quiet start with
    | .ok (k, _) => k.take 10 == [0xb9, 0xfe, 0x6c, 0x39, 0x23, 0xa4, 0x4b, 0xbe, 0x7b, 0x01] && k.length == 192
    | .error _ => false)) = true := by
  decide +kernel

/-- The second of three stripes, with AVX-512. -/
example (acc : Fin 8 → U64) := xxh3_accumulate_correct_partial (x := { xxh3Gcc with vector := .avx512 })
  (message_low amd64 (p := 7) (n := 200) (by decide) (by decide))
  (message_low amd64 (p := 301) (n := 192) (by decide) (by decide)) (fun h => absurd h (by decide)) acc (i := 64) (j := 8)
  (by rw [List.length_replicate]; decide) (by rw [List.length_replicate]; decide)

example (acc : Fin 8 → U64) := xxh3_scramble_correct_partial (cfg := mips32) (x := { xxh3Gcc with vector := .vsx })
  (message_low mips32 (p := 301) (n := 192) (by decide) (by decide)) (by rw [List.length_replicate]; decide)
  (fun h => absurd h (by decide)) acc

example (seed : U64) := xxh3_seeded_secret_correct_partial (cfg := amd64) (w := low) (s := start)
  (x := { xxh3Gcc with vector := .avx2 }) (fun h => absurd h (by decide)) seed

/-- AVX2 and none, and a message of 3000 bytes. -/
example (seed : U64) := xxh3_vectors_agree (x := xxh3Gcc) .avx2 .scalar
  (message_low amd64 (p := 7) (n := 3000) (by decide) (by decide)) (fun h => absurd h (by decide))
  (by rw [List.length_replicate]; decide) (fun h => absurd h (by decide)) seed

/-- A state of four parts of a program. -/
example (seed : U64) := xxh3_handover_partial (x0 := xxh3Gcc) (x1 := { xxh3Gcc with vector := .avx512, prefetch := 512 })
  (x2 := { xxh3Gcc with vector := .scalar }) (x3 := { xxh3Gcc with vector := .avx2 }) (pieces_low amd64) (pieces_low amd64)
  (fun p h => pieces_low_inside amd64 (by decide) p (List.mem_append_left _ h))
  (fun p h => pieces_low_inside amd64 (by decide) p (List.mem_append_right _ h))
  (by decide) (by rw [pieces_low_short]; decide) seed

end T1ha.Props
