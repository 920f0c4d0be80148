import Verif.Props.Xxh3
import Verif.Proofs.Xxh3Digest

/-!
# XXH3 of a message in pieces: C81
-/

namespace T1ha.Model

/-- How far after a piece `XXH3_update` computes pointers. -/
def Xxh3.ahead (x : Xxh3) : Nat := max 256 x.prefetch

end T1ha.Model

namespace T1ha.Props

open Model Examples

variable {cfg : Cfg} {w : World} {s : Sys} {x : Xxh3} {data : Nat} {m : List Byte}

theorem update3_exec {ps qs : List (Nat × List Byte)} {ov : Overlay} {secret : Bytes} {k : List Byte} {seed : U64}
    (h : AllThere cfg w ov ps) (hq : ∀ p ∈ ps, p ∈ qs) (h0 : ∀ p ∈ ps, p.1 ≠ 0 ∧ p.1 + p.2.length + x.ahead < 2 ^ cfg.bits)
    (hx : x.access = .direct → x.lenient32 = true ∧ x.lenient64 = true)
    (g : ByteSource w ov cfg (NearPieces 0 x.ahead qs) secret k) (hk136 : 136 ≤ k.length) (hkb : k.length < 2 ^ cfg.bits) :
    ∀ p ∈ ps, ∀ m st, Fed3 secret k seed m st → ∃ C n, Exec w ov (NearPieces 0 x.ahead qs) C n
      (XXH3_update cfg x st p.1 p.2.length) (fun r o => o = ov ∧ r.2 = .ok ∧ Fed3 secret k seed (m ++ p.2) r.1) := by
  intro p hp m st f
  have hm := h p hp
  have h0 := h0 p hp
  obtain ⟨n, hr⟩ := exec_update3 (P := NearPieces 0 x.ahead qs) (above := x.ahead) (fun _ h => h) hm.holds h0.1
    ⟨hm.fits, fun a n g1 g2 => ⟨p, hq p hp, g1, g2⟩, trivial, fun a g1 g2 => ⟨p, hq p hp, g1, by omega⟩⟩
    (fun a g1 g2 => ⟨p, hq p hp, g1, g2⟩) h0.2 (Nat.le_max_left _ _) (Nat.le_max_right _ _) g hk136 hkb hx f
  exact ⟨_, n, hr⟩

section
variable {ps qs : List (Nat × List Byte)} (hp : AllThere cfg w s.ov ps) (hq : AllThere cfg w s.ov qs)
  (h0 : ∀ p ∈ ps ++ qs, p.1 ≠ 0 ∧ p.1 + p.2.length + x.ahead < 2 ^ cfg.bits)
  (hx : x.access = .direct → x.lenient32 = true ∧ x.lenient64 = true)
  (hlen : (whole ps ++ whole qs).length < 2 ^ 64)
include hp hq h0 hx hlen

/-- Any way to begin; `v` is what is returned by it, besides the state. -/
theorem session3 {rs : List (Nat × List Byte)} (hrs : ∀ p ∈ ps ++ qs, p ∈ rs) {secret : Bytes} {k : List Byte} {seed : U64}
    (g : ByteSource w s.ov cfg (NearPieces 0 x.ahead rs) secret k) (hk136 : 136 ≤ k.length) (hkb : k.length < 2 ^ cfg.bits)
    (hkn : x.debug = true → secret.isNull = false) (hseed : seed ≠ 0 → k = Spec.xxh3Seeded seed)
    {σ β : Type} {reset : M σ} {state : σ → XXH3_state} {out : σ → β} {v : β}
    (hr : Exec w s.ov (NearPieces 0 x.ahead rs) nowhere 0 reset
      (fun r o => o = s.ov ∧ out r = v ∧ Fed3 secret k seed [] (state r))) :
    ((x.debug = true → (whole ps).length ≠ 8 ∧ (whole ps ++ whole qs).length ≠ 8) →
      ∃ s' t, Returns (do
          let r ← reset
          let h ← session (XXH3_update cfg x) (XXH3_64bits_digest cfg x) (state r) (sizes ps) (sizes qs)
          pure (out r, h)) w s
        (v, (true, if seed = 0 then Spec.xxh3WithSecret (whole ps) k else Spec.xxh3WithSeed (whole ps) seed),
          (true, if seed = 0 then Spec.xxh3WithSecret (whole ps ++ whole qs) k
            else Spec.xxh3WithSeed (whole ps ++ whole qs) seed)) s' t ∧ s'.ov = s.ov ∧
        ∀ e ∈ t, NearPieces 0 x.ahead rs e) ∧
    (∃ s' t, Returns (do
        let r ← reset
        let h ← session (XXH3_update cfg x) (XXH3_128bits_digest cfg x) (state r) (sizes ps) (sizes qs)
        pure (out r, h)) w s
      (v, (true, if seed = 0 then Spec.xxh3_128WithSecret (whole ps) k else Spec.xxh3_128WithSeed (whole ps) seed),
        (true, if seed = 0 then Spec.xxh3_128WithSecret (whole ps ++ whole qs) k
          else Spec.xxh3_128WithSeed (whole ps ++ whole qs) seed)) s' t ∧ s'.ov = s.ov ∧
      ∀ e ∈ t, NearPieces 0 x.ahead rs e) := by
  have hl : ∀ m, m = whole ps ∨ m = whole ps ++ whole qs → m.length < 2 ^ 64 := by
    rintro m (rfl | rfl)
    · rw [List.length_append] at hlen; omega
    · exact hlen
  obtain ⟨r, s1, t1, a1, ⟨a2, a3, a4⟩, a5, -⟩ := returns_of_exec hr
  have hall : AllThere cfg w s1.ov (ps ++ qs) := fun p h => a2 ▸ (List.mem_append.1 h).elim (hp p) (hq p)
  rw [← a2] at g
  subst a3
  refine ⟨fun h8 => ?_, ?_⟩
  · obtain ⟨s2, t2, b1, b2, b3⟩ := session_returns
      (hash := fun m => if seed = 0 then Spec.xxh3WithSecret m k else Spec.xxh3WithSeed m seed) (s := s1)
      (update3_exec hall hrs h0 hx g hk136 hkb)
      (fun m st f hm => reads_digest3_64 trivial g hk136 hkb hx f hkn hseed (hl m hm) (fun hd => by
        rcases hm with rfl | rfl
        · exact (h8 hd).1
        · exact (h8 hd).2)) a4
    refine ⟨s2, _, a1.bind (b1.done (g := fun h => (out r, h))), b2.trans a2, fun e he => ?_⟩
    rcases List.mem_append.1 he with he | he
    · exact b3 e he
    · exact a5 e he
  · obtain ⟨s2, t2, b1, b2, b3⟩ := session_returns
      (hash := fun m => if seed = 0 then Spec.xxh3_128WithSecret m k else Spec.xxh3_128WithSeed m seed) (s := s1)
      (update3_exec hall hrs h0 hx g hk136 hkb)
      (fun m st f hm => reads_digest3_128 trivial g hk136 hkb hx f hkn hseed (hl m hm)) a4
    refine ⟨s2, _, a1.bind (b1.done (g := fun h => (out r, h))), b2.trans a2, fun e he => ?_⟩
    rcases List.mem_append.1 he with he | he
    · exact b3 e he
    · exact a5 e he

end

/-- The secret of a seed gives the values of the specification, for the seed 0, too. -/
theorem if_seed (m : List Byte) (seed : U64) :
    (if seed = 0 then Spec.xxh3WithSecret m (Spec.xxh3Seeded seed) else Spec.xxh3WithSeed m seed) = Spec.xxh3WithSeed m seed ∧
    (if seed = 0 then Spec.xxh3_128WithSecret m (Spec.xxh3Seeded seed) else Spec.xxh3_128WithSeed m seed) =
      Spec.xxh3_128WithSeed m seed := by
  constructor
  · split
    · rename_i h
      subst h
      unfold Spec.xxh3WithSecret Spec.xxh3WithSeed
      rw [xxh3Seeded_zero]
    · rfl
  · split
    · rename_i h
      subst h
      unfold Spec.xxh3_128WithSecret Spec.xxh3_128WithSeed
      rw [xxh3Seeded_zero]
    · rfl

theorem default_seed (m : List Byte) : Spec.xxh3WithSecret m Spec.xxh3Secret = Spec.xxh3WithSeed m 0 ∧
    Spec.xxh3_128WithSecret m Spec.xxh3Secret = Spec.xxh3_128WithSeed m 0 := by
  have := if_seed m 0
  rwa [if_pos rfl, if_pos rfl, xxh3Seeded_zero] at this

section
variable {ps qs : List (Nat × List Byte)} (hp : AllThere cfg w s.ov ps) (hq : AllThere cfg w s.ov qs)
  (h0 : ∀ p ∈ ps ++ qs, p.1 ≠ 0 ∧ p.1 + p.2.length + x.ahead < 2 ^ cfg.bits)
  (hx : x.access = .direct → x.lenient32 = true ∧ x.lenient64 = true)
  (hlen : (whole ps ++ whole qs).length < 2 ^ 64)
include hp hq h0 hx hlen

/-- C81: a message in pieces has the same XXH3 with 128 bits as the whole, however it is cut, and one can go on after
asking for the hash; with a seed, and without. Nothing but bytes of the pieces is read, and nothing is written.
The pieces must not be at address 0 or at the end of the address space. -/
theorem xxh3_128_chunking_partial (seed : U64) :
    (∃ s' t, Returns (do
        let st ← XXH3_reset_withSeed cfg x seed
        let h ← session (XXH3_update cfg x) (XXH3_128bits_digest cfg x) st (sizes ps) (sizes qs)
        pure ((), h)) w s
      ((), (true, Spec.xxh3_128WithSeed (whole ps) seed), (true, Spec.xxh3_128WithSeed (whole ps ++ whole qs) seed)) s' t ∧
      s'.ov = s.ov ∧ ∀ e ∈ t, NearPieces 0 x.ahead (ps ++ qs) e) ∧
    (∃ s' t, Returns (do
        let st ← XXH3_reset cfg x
        let h ← session (XXH3_update cfg x) (XXH3_128bits_digest cfg x) st (sizes ps) (sizes qs)
        pure ((), h)) w s
      ((), (true, Spec.xxh3_128WithSeed (whole ps) 0), (true, Spec.xxh3_128WithSeed (whole ps ++ whole qs) 0)) s' t ∧
      s'.ov = s.ov ∧ ∀ e ∈ t, NearPieces 0 x.ahead (ps ++ qs) e) := by
  constructor
  · have := (session3 hp hq h0 hx hlen (rs := ps ++ qs) (fun _ h => h) (seed := seed)
      (source_array trivial (List.prefix_refl (Spec.xxh3Seeded seed))) (by rw [length_xxh3Seeded]; decide)
      (by rw [length_xxh3Seeded]; exact small192) (fun _ => rfl) (fun _ => rfl) (state := id) (out := fun _ => ()) (v := ())
      ((exec_reset3_seed (cfg := cfg) trivial hx seed).post fun r o h => ⟨h.1, rfl, h.2⟩)).2
    rw [(if_seed _ seed).2, (if_seed _ seed).2] at this
    exact this
  · have := (session3 hp hq h0 hx hlen (rs := ps ++ qs) (fun _ h => h) (seed := 0)
      (source_array trivial (List.prefix_refl Spec.xxh3Secret)) (by rw [length_xxh3Secret]; decide)
      (by rw [length_xxh3Secret]; exact small192) (fun _ => rfl) (fun h => absurd rfl h) (state := id) (out := fun _ => ())
      (v := ()) ((exec_reset3_default (cfg := cfg) (x := x)).post fun r o h => ⟨h.1, rfl, h.2⟩)).2
    rw [if_pos rfl, if_pos rfl, (default_seed _).2, (default_seed _).2] at this
    exact this

/-- C81: the same for XXH3 with 64 bits. With assertions, the hash of 8 bytes cannot be asked for. -/
theorem xxh3_chunking_partial
    (h8 : x.debug = true → (whole ps).length ≠ 8 ∧ (whole ps ++ whole qs).length ≠ 8) (seed : U64) :
    (∃ s' t, Returns (do
        let st ← XXH3_reset_withSeed cfg x seed
        let h ← session (XXH3_update cfg x) (XXH3_64bits_digest cfg x) st (sizes ps) (sizes qs)
        pure ((), h)) w s
      ((), (true, Spec.xxh3WithSeed (whole ps) seed), (true, Spec.xxh3WithSeed (whole ps ++ whole qs) seed)) s' t ∧
      s'.ov = s.ov ∧ ∀ e ∈ t, NearPieces 0 x.ahead (ps ++ qs) e) ∧
    (∃ s' t, Returns (do
        let st ← XXH3_reset cfg x
        let h ← session (XXH3_update cfg x) (XXH3_64bits_digest cfg x) st (sizes ps) (sizes qs)
        pure ((), h)) w s
      ((), (true, Spec.xxh3WithSeed (whole ps) 0), (true, Spec.xxh3WithSeed (whole ps ++ whole qs) 0)) s' t ∧
      s'.ov = s.ov ∧ ∀ e ∈ t, NearPieces 0 x.ahead (ps ++ qs) e) := by
  constructor
  · have := (session3 hp hq h0 hx hlen (rs := ps ++ qs) (fun _ h => h) (seed := seed)
      (source_array trivial (List.prefix_refl (Spec.xxh3Seeded seed))) (by rw [length_xxh3Seeded]; decide)
      (by rw [length_xxh3Seeded]; exact small192) (fun _ => rfl) (fun _ => rfl) (state := id) (out := fun _ => ()) (v := ())
      ((exec_reset3_seed (cfg := cfg) trivial hx seed).post fun r o h => ⟨h.1, rfl, h.2⟩)).1 h8
    rw [(if_seed _ seed).1, (if_seed _ seed).1] at this
    exact this
  · have := (session3 hp hq h0 hx hlen (rs := ps ++ qs) (fun _ h => h) (seed := 0)
      (source_array trivial (List.prefix_refl Spec.xxh3Secret)) (by rw [length_xxh3Secret]; decide)
      (by rw [length_xxh3Secret]; exact small192) (fun _ => rfl) (fun h => absurd rfl h) (state := id) (out := fun _ => ())
      (v := ()) ((exec_reset3_default (cfg := cfg) (x := x)).post fun r o h => ⟨h.1, rfl, h.2⟩)).1 h8
    rw [if_pos rfl, if_pos rfl, (default_seed _).1, (default_seed _).1] at this
    exact this

/-- C81: with a secret of the caller, of at least 136 bytes; here, it may be as long as there is memory. -/
theorem xxh3_secret_chunking_partial {secret : Nat} {k : List Byte} (hk : Message cfg w s.ov secret k)
    (hs : secret ≠ 0) (h136 : 136 ≤ k.length) :
    ((x.debug = true → (whole ps).length ≠ 8 ∧ (whole ps ++ whole qs).length ≠ 8) →
      ∃ s' t, Returns (do
          let r ← XXH3_reset_withSecret cfg x secret k.length
          let h ← session (XXH3_update cfg x) (XXH3_64bits_digest cfg x) r.1 (sizes ps) (sizes qs)
          pure (r.2, h)) w s
        (XXH_errorcode.ok, (true, Spec.xxh3WithSecret (whole ps) k), (true, Spec.xxh3WithSecret (whole ps ++ whole qs) k)) s' t ∧
        s'.ov = s.ov ∧ ∀ e ∈ t, NearPieces 0 x.ahead (ps ++ qs ++ [(secret, k)]) e) ∧
    (∃ s' t, Returns (do
        let r ← XXH3_reset_withSecret cfg x secret k.length
        let h ← session (XXH3_update cfg x) (XXH3_128bits_digest cfg x) r.1 (sizes ps) (sizes qs)
        pure (r.2, h)) w s
      (XXH_errorcode.ok, (true, Spec.xxh3_128WithSecret (whole ps) k), (true, Spec.xxh3_128WithSecret (whole ps ++ whole qs) k)) s' t ∧
      s'.ov = s.ov ∧ ∀ e ∈ t, NearPieces 0 x.ahead (ps ++ qs ++ [(secret, k)]) e) := by
  have hkb : k.length < 2 ^ cfg.bits := by have := hk.fits; omega
  have := session3 hp hq h0 hx hlen (rs := ps ++ qs ++ [(secret, k)]) (fun _ h => List.mem_append_left _ h) (seed := 0)
    (source_near hk x.ahead (by simp)) h136 hkb (fun _ => by simpa [Bytes.isNull] using hs) (fun h => absurd rfl h)
    (state := Prod.fst) (out := Prod.snd) (v := XXH_errorcode.ok) (exec_reset3_secret (x := x) hs h136 hkb)
  simp only [if_true] at this
  exact this

end

/-- C81: an update with a null pointer, whatever the length, is refused, and does not change the hash of the rest. -/
theorem xxh3_null_refused {ps qs : List (Nat × List Byte)} (hp : AllThere cfg w s.ov ps) (hq : AllThere cfg w s.ov qs)
    (h0 : ∀ p ∈ ps ++ qs, p.1 ≠ 0 ∧ p.1 + p.2.length + x.ahead < 2 ^ cfg.bits)
    (hx : x.access = .direct → x.lenient32 = true ∧ x.lenient64 = true)
    (hlen : (whole ps ++ whole qs).length < 2 ^ 64) (seed : U64) (len : Nat) :
    ∃ s' t, Returns (do
        let st ← XXH3_reset_withSeed cfg x seed
        let (st, _) ← feed (XXH3_update cfg x) (sizes ps) st
        let (st, code) ← XXH3_update cfg x st 0 len
        let (st, _) ← feed (XXH3_update cfg x) (sizes qs) st
        let h ← XXH3_128bits_digest cfg x st
        pure (code, h)) w s (.error, Spec.xxh3_128WithSeed (whole ps ++ whole qs) seed) s' t := by
  have g : ∀ ov, ByteSource w ov cfg (NearPieces 0 x.ahead (ps ++ qs)) (.array (Spec.xxh3Seeded seed))
      (Spec.xxh3Seeded seed) := fun ov => source_array trivial (List.prefix_refl (Spec.xxh3Seeded seed))
  have hk136 : 136 ≤ (Spec.xxh3Seeded seed).length := by rw [length_xxh3Seeded]; decide
  have hkb : (Spec.xxh3Seeded seed).length < 2 ^ cfg.bits := by rw [length_xxh3Seeded]; exact small192
  obtain ⟨st, s0, t0, z1, ⟨z2, z4⟩, -⟩ := returns_of_exec (s := s)
    (exec_reset3_seed (w := w) (cfg := cfg) (ov := s.ov) (P := fun _ => True) trivial hx seed)
  obtain ⟨st1, s1, t1, a1, a2, -, a4⟩ := feed_returns (s := s0) ps (update3_exec (x := x) hp
    (fun p h => List.mem_append_left qs h) (fun p h => h0 p (List.mem_append_left _ h)) hx (g _) hk136 hkb) z2 z4
  obtain ⟨st2, s2, t2, b1, b2, -, b4⟩ := feed_returns (s := s1) qs (update3_exec (x := x) hq
    (fun p h => List.mem_append_right ps h) (fun p h => h0 p (List.mem_append_right _ h)) hx (g _) hk136 hkb) a2 a4
  rw [List.nil_append] at b4
  obtain ⟨n, hd⟩ := reads_digest3_128 (w := w) (ov := s2.ov) (cfg := cfg) (x := x) (P := NearPieces 0 x.ahead (ps ++ qs))
    trivial (g _) hk136 hkb hx b4 (fun _ => rfl) (fun _ => rfl) hlen
  rw [(if_seed _ seed).2] at hd
  obtain ⟨v, s3, t3, c1, ⟨rfl, -⟩, -⟩ := returns_of_exec hd
  have hn : Returns (XXH3_update cfg x st1 0 len) w s1 (st1, .error) s1 [] := Returns.pure _
  exact ⟨_, _, z1.bind (a1.bind (hn.bind (b1.bind (c1.done (g := fun h => (XXH_errorcode.error, h))))))⟩

/-- C81: a secret which is missing, or shorter than 136 bytes, is refused, and nothing is read. -/
theorem xxh3_secret_refused (hx : x.debug = false) {secret n : Nat} (h : secret = 0 ∨ n < 136) :
    ∃ st, Returns (XXH3_reset_withSecret cfg x secret n) w s (st, .error) s [] := by
  have hi : ∃ st, Returns (XXH3_reset_internal cfg x 0 (.memory secret) n) w s st s [] := by
    unfold XXH3_reset_internal XXH_ASSERT
    simp only [hx, Bool.false_and, Bool.false_eq_true, if_false]
    exact ⟨_, Returns.bind (Returns.pure _) (Returns.bind (Returns.pure _) (Returns.pure _))⟩
  obtain ⟨st, hi⟩ := hi
  refine ⟨st, hi.bind (t₂ := []) ?_⟩
  rcases h with h | h
  · rw [if_pos h]; exact Returns.pure _
  · by_cases h0 : secret = 0
    · rw [if_pos h0]; exact Returns.pure _
    · rw [if_neg h0, if_pos h]; exact Returns.pure _

/-- C81 is false with assertions: there, the check for such a secret is made too late, after an assertion which ends the
program (tests/xxhash/xxh3.h:1934-1936, 1954-1956). -/
theorem xxh3_secret_asserts (hx : x.debug = true) {secret n : Nat} (h : secret = 0 ∨ n < 136) :
    XXH3_reset_withSecret cfg x secret n w s = .error .assertFail := by
  have : Fails w s.ov (XXH3_reset_withSecret cfg x secret n) .assertFail := by
    unfold XXH3_reset_withSecret XXH3_reset_internal
    refine Fails.now ?_ _
    by_cases h0 : secret = 0
    · refine Fails.now ?_ _
      unfold XXH_ASSERT
      rw [if_pos (by simp [hx, h0, Bytes.isNull])]
      exact fails_fail _
    · refine Fails.asserted (by simpa [Bytes.isNull] using h0) <| Fails.now ?_ _
      unfold XXH_ASSERT
      rw [if_pos (by simp [hx]; omega)]
      exact fails_fail _
  exact this s.log

/-- C81 is false with assertions for the 64-bit hash of 8 bytes, in whatever pieces: the program ends. -/
theorem xxh3_digest_eight_bytes_assert (hd : x.debug = true) {ps : List (Nat × List Byte)} (hp : AllThere cfg w s.ov ps)
    (h0 : ∀ p ∈ ps, p.1 ≠ 0 ∧ p.1 + p.2.length + x.ahead < 2 ^ cfg.bits)
    (hx : x.access = .direct → x.lenient32 = true ∧ x.lenient64 = true) (h8 : (whole ps).length = 8) (seed : U64) :
    (do
      let st ← XXH3_reset_withSeed cfg x seed
      let (st, _) ← feed (XXH3_update cfg x) (sizes ps) st
      XXH3_64bits_digest cfg x st) w s = .error .assertFail := by
  have hk136 : 136 ≤ (Spec.xxh3Seeded seed).length := by rw [length_xxh3Seeded]; decide
  have hkb : (Spec.xxh3Seeded seed).length < 2 ^ cfg.bits := by rw [length_xxh3Seeded]; exact small192
  obtain ⟨st, s0, t0, ⟨z1, -⟩, ⟨z2, z4⟩, -⟩ := returns_of_exec (s := s)
    (exec_reset3_seed (w := w) (cfg := cfg) (ov := s.ov) (P := fun _ => True) trivial hx seed)
  obtain ⟨st1, s1, t1, ⟨a1, -⟩, a2, -, a4⟩ := feed_returns (s := s0) ps (update3_exec (x := x) hp
    (fun p h => h) h0 hx (source_array trivial (List.prefix_refl (Spec.xxh3Seeded seed))) hk136 hkb) z2 z4
  rw [List.nil_append] at a4
  show M.bind _ _ w s = _
  simp only [M.bind, z1]
  show M.bind _ _ w s0 = _
  simp only [M.bind, a1]
  exact fails_digest3_eight hd a4 h8 hk136 hkb rfl s1.log

/-- C81 is false for pieces at the end of the address space: 256 is added to a pointer into such a piece
(tests/xxhash/xxh3.h:2046), and the result is not a pointer. This happens whenever the piece completes the buffer (of 256
bytes, with at least one byte more), and the buffer ends less than 256 bytes before the end of the address space. -/
theorem xxh3_update_pointer_after {ps : List (Nat × List Byte)} (hp : AllThere cfg w s.ov ps)
    (h0 : ∀ p ∈ ps, p.1 ≠ 0 ∧ p.1 + p.2.length + x.ahead < 2 ^ cfg.bits)
    (hx : x.access = .direct → x.lenient32 = true ∧ x.lenient64 = true) (seed : U64)
    (h : Message cfg w s.ov data m) (hd : data ≠ 0) (hroom : m.length + 256 < 2 ^ cfg.bits)
    {n : Nat} (hn : n = (whole ps).length - 256 * (((whole ps).length - 1) / 256)) (hfull : 256 < n + m.length)
    (hhigh : 2 ^ cfg.bits ≤ data + (256 - n) % 256 + 256) :
    (do
      let st ← XXH3_reset_withSeed cfg x seed
      let (st, _) ← feed (XXH3_update cfg x) (sizes ps) st
      XXH3_update cfg x st data m.length) w s = .error .ptrWrap := by
  have hk136 : 136 ≤ (Spec.xxh3Seeded seed).length := by rw [length_xxh3Seeded]; decide
  have hkb : (Spec.xxh3Seeded seed).length < 2 ^ cfg.bits := by rw [length_xxh3Seeded]; exact small192
  obtain ⟨st, s0, t0, ⟨z1, -⟩, ⟨z2, z4⟩, -⟩ := returns_of_exec (s := s)
    (exec_reset3_seed (w := w) (cfg := cfg) (ov := s.ov) (P := fun _ => True) trivial hx seed)
  obtain ⟨st1, s1, t1, ⟨a1, -⟩, a2, -, a4⟩ := feed_returns (s := s0) ps (update3_exec (x := x) hp
    (fun p h => h) h0 hx (source_array trivial (List.prefix_refl (Spec.xxh3Seeded seed))) hk136 hkb) z2 z4
  rw [List.nil_append] at a4
  subst hn
  show M.bind _ _ w s = _
  simp only [M.bind, z1]
  show M.bind _ _ w s0 = _
  simp only [M.bind, a1]
  exact fails_update3 (ov := s1.ov) (a2 ▸ h.holds) h.fits hd (source_array trivial (List.prefix_refl _)) hk136 hkb hx hroom
    a4 hfull hhigh s1.log

/-! ## Examples -/

theorem pieces_low (cfg : Cfg) : AllThere cfg low start.ov
    [(7, List.replicate 700 0), (900, []), (901, List.replicate 100 0)] := by
  intro p hp
  simp only [List.mem_cons, List.not_mem_nil, or_false] at hp
  rcases hp with rfl | rfl | rfl
  · exact message_low cfg (by decide) (by decide)
  · exact message_low cfg (n := 0) (by decide) (by decide)
  · exact message_low cfg (by decide) (by decide)

theorem pieces_low_inside (cfg : Cfg) {n : Nat} (hn : n ≤ 4096) :
    ∀ p ∈ [(7, List.replicate 700 0), (900, []), (901, List.replicate 100 0)] ++
      [(7, List.replicate 700 (0 : Byte)), (900, []), (901, List.replicate 100 0)],
    p.1 ≠ 0 ∧ p.1 + p.2.length + n < 2 ^ cfg.bits := by
  have hb : (2 : Nat) ^ 32 ≤ 2 ^ cfg.bits := by unfold Cfg.bits; split <;> decide
  have h2 : (5000 : Nat) < 2 ^ 32 := by decide
  intro p hp
  simp only [List.mem_append, List.mem_cons, List.not_mem_nil, or_false, or_self] at hp
  have : 0 < p.1 ∧ p.1 + p.2.length ≤ 1001 → p.1 ≠ 0 ∧ p.1 + p.2.length + n < 2 ^ cfg.bits := by omega
  apply this
  rcases hp with rfl | rfl | rfl
  · rw [List.length_replicate]; decide
  · decide
  · rw [List.length_replicate]; decide

theorem length_whole_cons (a : Nat) (l : List Byte) (ps : List (Nat × List Byte)) :
    (whole ((a, l) :: ps)).length = l.length + (whole ps).length := by
  simp [whole]

theorem length_whole_nil : (whole []).length = 0 := rfl

theorem pieces_low_short : (whole [(7, List.replicate 700 (0 : Byte)), (900, []), (901, List.replicate 100 0)] ++
    whole [(7, List.replicate 700 (0 : Byte)), (900, []), (901, List.replicate 100 0)]).length = 1600 := by
  simp only [List.length_append, length_whole_cons, List.length_replicate, List.length_nil, length_whole_nil]

/-- Pieces of 700, 0 and 100 bytes, then again, with assertions. -/
example (seed : U64) := xxh3_chunking_partial (x := xxh3Mips) (pieces_low mips32) (pieces_low mips32)
  (pieces_low_inside mips32 (by decide)) (fun h => absurd h (by decide)) (by rw [pieces_low_short]; decide)
  (fun _ => ⟨by
    simp only [length_whole_cons, List.length_replicate, List.length_nil, length_whole_nil]; decide, by
    rw [pieces_low_short]; decide⟩) seed

example (seed : U64) := xxh3_128_chunking_partial (x := xxh3Gcc) (pieces_low amd64) (pieces_low amd64)
  (pieces_low_inside amd64 (by decide)) (fun h => absurd h (by decide)) (by rw [pieces_low_short]; decide) seed

/-- A secret of 137 bytes. -/
example := xxh3_secret_chunking_partial (x := xxh3Gcc) (pieces_low amd64) (pieces_low amd64)
  (pieces_low_inside amd64 (by decide)) (fun h => absurd h (by decide)) (by rw [pieces_low_short]; decide)
  (message_low amd64 (p := 2001) (n := 137) (by decide) (by decide)) (by decide) (by rw [List.length_replicate]; decide)

example (seed : U64) := xxh3_null_refused (x := xxh3Gcc) (pieces_low amd64) (pieces_low amd64)
  (pieces_low_inside amd64 (by decide)) (fun h => absurd h (by decide)) (by rw [pieces_low_short]; decide) seed 5

example := xxh3_secret_refused (cfg := amd64) (x := xxh3Gcc) (w := low) (s := start) (secret := 2001) (n := 135) rfl
  (Or.inr (by decide))

example := xxh3_secret_asserts (cfg := mips32) (x := xxh3Mips) (w := low) (s := start) (secret := 2001) (n := 135) rfl
  (Or.inr (by decide))

/-- 5 and 3 bytes. -/
example (seed : U64) := xxh3_digest_eight_bytes_assert (cfg := mips32) (x := xxh3Mips) (w := low) (s := start)
  (ps := [(7, List.replicate 5 0), (901, List.replicate 3 0)]) rfl (by
    intro p hp
    simp only [List.mem_cons, List.not_mem_nil, or_false] at hp
    rcases hp with rfl | rfl
    · exact message_low mips32 (by decide) (by decide)
    · exact message_low mips32 (by decide) (by decide)) (by decide) (fun h => absurd h (by decide)) (by simp [whole]) seed

/-- 200 bytes, then the last 99 bytes of the address space, but for one. -/
example (seed : U64) := xxh3_update_pointer_after (cfg := mips32) (x := xxh3Mips) (w := high) (s := start)
  (ps := [(2 ^ 32 - 2000, List.replicate 200 0)]) (m := List.replicate 99 0) (data := 2 ^ 32 - 100) (n := 200) (by
    intro p hp
    simp only [List.mem_cons, List.not_mem_nil, or_false] at hp
    subst hp
    exact ⟨holds_high (by decide) (by decide), by rw [List.length_replicate]; decide, by rw [List.length_replicate]; decide⟩)
  (by
    intro p hp
    simp only [List.mem_cons, List.not_mem_nil, or_false] at hp
    subst hp
    exact ⟨by decide, by rw [List.length_replicate]; decide⟩) (fun h => absurd h (by decide)) seed
  ⟨holds_high (by decide) (by decide), by rw [List.length_replicate]; decide, by rw [List.length_replicate]; decide⟩
  (by decide) (by rw [List.length_replicate]; decide)
  (by simp only [length_whole_cons, List.length_replicate, length_whole_nil]) (by rw [List.length_replicate]; decide) (by decide)

end T1ha.Props
