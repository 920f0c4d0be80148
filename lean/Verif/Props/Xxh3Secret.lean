import Verif.Props.Xxh3
import Verif.Proofs.Xxh3Secret

/-!
# Secrets for XXH3, and hashes of 128 bits as values: C82, C83
-/

namespace T1ha.Model

/-- What `XXH3_generateSecret` does: the bytes of the seed are read, the 192 bytes of the secret are written, and pointers are
computed at most `above` bytes after the seed. -/
def Generates (dst src len above : Nat) : Ev → Prop
  | .rd a n => src ≤ a ∧ a + n ≤ src + len
  | .wr a n => dst ≤ a ∧ a + n ≤ dst + 192
  | .iter => True
  | .ptr a => src ≤ a ∧ a ≤ src + len + above

end T1ha.Model

namespace T1ha.Props

open Model Examples

variable {cfg : Cfg} {w : World} {s : Sys} {x : Xxh3} {data : Nat} {m : List Byte}

/-! ## C82: secrets -/

section
variable {dst src : Nat} {c : List Byte} (h : Message cfg w s.ov src c) (hw : Writable w dst 192)
  (hx : x.access = .direct → x.lenient32 = true ∧ x.lenient64 = true)
  (hf : src + c.length + x.reach c.length < 2 ^ cfg.bits) (hd : x.debug = true → dst ≠ 0 ∧ (c ≠ [] → src ≠ 0))
include h hw hx hf hd

/-- C82: the secret of a seed is the same for every machine and build, whether or not the seed is where the secret is to be
written. Nothing but the 192 bytes of the secret is written, and nothing but the seed is read. The seed must not be at the end
of the address space. -/
theorem xxh3_generate_partial :
    ∃ s' t, Returns (XXH3_generateSecret cfg x dst src c.length) w s () s' t ∧
      Holds w s'.ov dst (Spec.xxh3Generated c) ∧ (∀ a, a < dst ∨ dst + 192 ≤ a → s'.ov a = s.ov a) ∧
      (∀ e ∈ t, Generates dst src c.length (x.reach c.length) e) ∧
      t.count .iter ≤ c.length / 16 + 106 := by
  have g : ByteSource w s.ov cfg (Generates dst src c.length (x.reach c.length)) (.memory src) c :=
    Space.source (d := 0) (lo := src) (hi := src + c.length) ⟨h.fits, fun a n g1 g2 => ⟨g1, g2⟩, trivial,
      fun a g1 g2 => ⟨g1, by omega⟩⟩ h.holds (Nat.le_refl _) (Nat.le_refl _)
  obtain ⟨n, hn, he⟩ := exec_generate (P := Generates dst src c.length (x.reach c.length)) (x := x) trivial
    (fun a n g1 g2 => ⟨g1, g2⟩) hw hx g h.holds (fun a n g1 g2 => ⟨g1, g2⟩) (fun h240 => by
      unfold Xxh3.reach at *
      rw [if_neg (by omega)] at *
      intro i hi
      exact Exec.bindR (Reads.ptrAdd (by omega) ⟨by omega, by omega⟩) (Reads.pure ())) hd
  obtain ⟨v, s', t, h1, h2, h3, -, h5⟩ := returns_of_exec he
  refine ⟨s', t, h1, ?_, fun a ha => ?_, h3, ?_⟩
  · rw [h2]; exact holds_put (by rw [length_generated]; exact hw.1)
  · rw [h2]; exact put_other (by rw [length_generated]; exact ha)
  · omega

/-- C82: and hashes with this secret are those with the secret of the specification. -/
theorem xxh3_generated_used_partial (hm : Message cfg w s.ov data m)
    (hfar : data + m.length ≤ dst ∨ dst + 192 ≤ data) (hfit : dst + 192 < 2 ^ cfg.bits)
    (hr : data + m.length + x.reach m.length < 2 ^ cfg.bits) (hdm : x.debug = true → m.length ≠ 0 → data ≠ 0) :
    ∃ s' t, Returns (do
        XXH3_generateSecret cfg x dst src c.length
        XXH3_128bits_withSecret cfg x (.memory data) m.length (.memory dst) 192) w s
      (Spec.xxh3_128WithSecret m (Spec.xxh3Generated c)) s' t := by
  obtain ⟨s1, t1, a1, a2, a3, -⟩ := xxh3_generate_partial h hw hx hf hd
  have hl := length_generated c
  have hb : 8 * 192 < 2 ^ cfg.bits := by unfold Cfg.bits; split <;> decide
  have hold : Holds w s1.ov data m := by
    intro t i b hb
    have hi : i < m.length := by
      rcases Nat.lt_or_ge i m.length with g | g
      · exact g
      · rw [List.getElem?_eq_none g] at hb; cases hb
    have := hm.holds t i b hb
    unfold see at this ⊢
    rwa [a3 _ (by omega)]
  have g : Hashing w s1.ov cfg x (NearPieces 0 (x.reach m.length) [(data, m), (dst, Spec.xxh3Generated c)]) (.memory data) m
      (.memory dst) (Spec.xxh3Generated c) :=
    ⟨source_near ⟨hold, hm.fits, hm.room⟩ _ (by simp), source_near ⟨a2, by omega, by omega⟩ _ (by simp), hx⟩
  have := g.withSecret128 (by omega) (fun a b => by simpa [Bytes.isNull] using hdm a b)
    (fun a => by simpa [Bytes.isNull] using (hd a).1) (by omega) (ahead_near (by simp) hr)
  rw [hl] at this
  obtain ⟨v, s2, t2, b1, ⟨rfl, -⟩, -⟩ := returns_of_exec this
  exact ⟨s2, _, a1.bind b1⟩

end

/-- C82 is false for a seed of more than 240 bytes at the end of the address space. -/
theorem xxh3_generate_pointer_after {dst src : Nat} {c : List Byte} (_ : Message cfg w s.ov src c)
    (hd : x.debug = true → dst ≠ 0) (hs : src ≠ 0) (h240 : 240 < c.length) (hh : 2 ^ cfg.bits ≤ src + x.prefetch) :
    XXH3_generateSecret cfg x dst src c.length w s = .error .ptrWrap :=
  fails_generate (ov := s.ov) hd h240 hs hh s.log

/-! ## C83: hashes of 128 bits as values -/

/-- C83: two hashes are reported to be equal if and only if they are. -/
theorem xxh128_isEqual_correct (h h' : Hash128) :
    (XXH128_isEqual cfg h h' = 1 ↔ h = h') ∧ (XXH128_isEqual cfg h h' = 0 ↔ h ≠ h') := by
  unfold XXH128_isEqual
  by_cases he : h = h'
  · subst he; simp
  · rw [if_neg fun e => he (hash128Bytes_inj e)]; simp [he]

/-- C83: the order of the hashes is that of the numbers, and that of the stored bytes: a file of canonical hashes, sorted
bytewise, is sorted for `XXH128_cmp`, too. -/
theorem xxh128_cmp_correct (h h' : Hash128) :
    (XXH128_cmp h h' < 0 ↔ Spec.Hash128.number h < Spec.Hash128.number h') ∧
    (XXH128_cmp h h' = 0 ↔ h = h') ∧
    (0 < XXH128_cmp h h' ↔ Spec.Hash128.number h' < Spec.Hash128.number h) ∧
    (XXH128_cmp h h' < 0 ↔ Spec.canonical128 h < Spec.canonical128 h') := by
  have key : (XXH128_cmp h h' < 0 ↔ Spec.Hash128.number h < Spec.Hash128.number h') ∧
      (XXH128_cmp h h' = 0 ↔ Spec.Hash128.number h = Spec.Hash128.number h') ∧
      (0 < XXH128_cmp h h' ↔ Spec.Hash128.number h' < Spec.Hash128.number h) := by
    unfold XXH128_cmp Spec.Hash128.number
    have h1 := h.low64.isLt
    have h2 := h'.low64.isLt
    simp only [gt_iff_lt, BitVec.lt_def]
    generalize h.low64.toNat = a at *
    generalize h'.low64.toNat = b at *
    generalize h.high64.toNat = p at *
    generalize h'.high64.toNat = q at *
    rcases Nat.lt_trichotomy p q with g | g | g <;> rcases Nat.lt_trichotomy a b with g' | g' | g' <;>
      simp [g, g', Nat.lt_asymm] <;> omega
  refine ⟨key.1, key.2.1.trans ⟨number_inj, fun e => by rw [e]⟩, key.2.2, key.1.trans ?_⟩
  rw [lt_iff_beVal (Spec.canonical128 h) (Spec.canonical128 h') rfl, beVal_canonical128, beVal_canonical128]

/-- C83: a hash is stored as the same 16 bytes by every build. -/
theorem xxh128_canonical_written {dst : Nat} (hw : Writable w dst 16) (h : Hash128) :
    ∃ s' t, Returns (XXH128_canonicalFromHash cfg x dst h) w s () s' t ∧ Holds w s'.ov dst (Spec.canonical128 h) ∧
      (∀ a, a < dst ∨ dst + 16 ≤ a → s'.ov a = s.ov a) ∧ t = [.wr (dst + 8) 8, .wr dst 8] := by
  have e1 : (XXH128_canonical cfg x h).take 8 = Spec.canonical64 h.high64 := by rw [canonical128_eq]; rfl
  have e2 : (XXH128_canonical cfg x h).drop 8 = Spec.canonical64 h.low64 := by rw [canonical128_eq]; rfl
  have hp : put (put s.ov dst (Spec.canonical64 h.high64)) (dst + 8) (Spec.canonical64 h.low64) =
      put s.ov dst (Spec.canonical128 h) := put_append dst (Spec.canonical64 h.high64) (Spec.canonical64 h.low64)
  have hc1 : canWrite w s.log.length dst (Spec.canonical64 h.high64).length = true :=
    canWrite_of ((hw.sub (Nat.le_refl _) (by omega : dst + 8 ≤ dst + 16)).1 _) (hw.sub (Nat.le_refl _) (by omega : dst + 8 ≤ dst + 16)).2
  have hc2 : canWrite w (Ev.wr dst (Spec.canonical64 h.high64).length :: s.log).length (dst + 8) (Spec.canonical64 h.low64).length = true :=
    canWrite_of ((hw.sub (by omega) (by omega : dst + 8 + 8 ≤ dst + 16)).1 _) (hw.sub (by omega) (by omega : dst + 8 + 8 ≤ dst + 16)).2
  refine ⟨⟨.wr (dst + 8) 8 :: .wr dst 8 :: s.log, put s.ov dst (Spec.canonical128 h)⟩, [.wr (dst + 8) 8, .wr dst 8], ⟨?_, rfl⟩,
    holds_put hw.1, fun a ha => put_other ha, rfl⟩
  unfold XXH128_canonicalFromHash
  rw [e1, e2]
  show M.bind _ _ w s = _
  unfold M.bind store
  rw [if_pos hc1]
  dsimp only
  rw [if_pos hc2, ← hp]
  rfl

/-- C83: and read back from these bytes by every build. -/
theorem xxh128_canonical_read {src : Nat} (h : Hash128) (hh : Message cfg w s.ov src (Spec.canonical128 h))
    (hx : x.access = .direct → x.lenient64 = true ∨ src % 8 = 0) :
    Hashes w s (XXH128_hashFromCanonical cfg x src) h 0 src 16 0 := by
  have g : ByteSource w s.ov cfg (Looks 0 src 16) (.memory src) (Spec.canonical128 h) :=
    (hh.space 0).source hh.holds (Nat.le_refl _) (Nat.le_refl _)
  have h1 := g.readBE64 (x := x.toXxh) 0 (by decide : 8 ≤ 16) (fun hd => (hx hd).imp_right fun h => by simpa [Bytes.isAligned] using h)
  have h2 := g.readBE64 (x := x.toXxh) 8 (by decide : 8 + 8 ≤ 16) (fun hd => (hx hd).imp_right fun h => by
    simpa [Bytes.isAligned] using h)
  rw [List.drop_zero, show (Spec.canonical128 h).take 8 = Spec.canonical64 h.high64 from rfl, canonical64_value] at h1
  rw [show ((Spec.canonical128 h).drop 8).take 8 = Spec.canonical64 h.low64 from rfl, canonical64_value] at h2
  have : Reads w s.ov (Looks 0 src 16) (range src 16) 0 (XXH128_hashFromCanonical cfg x src) h := by
    unfold XXH128_hashFromCanonical
    refine Exec.cov (Reads.bind h1 (Reads.bind h2 (C₂ := nowhere) (n₂ := 0) (Reads.pure _))) ?_ rfl
    intro a ha
    unfold range at ha
    simp only [Bytes.here, range]
    omega
  exact hashes_of_reads this (Nat.le_refl _)

/-! ## Examples -/

theorem low_writable {p n : Nat} (h1 : 1 ≤ p) (h2 : p + n ≤ 4096) : Writable low p n := by
  refine ⟨fun t i hi => ?_, fun _ _ => rfl⟩
  simp only [low]
  rw [if_pos (by omega)]
  rfl

/-- A seed of 43 bytes, at the same place as the secret. -/
example := xxh3_generate_partial (cfg := amd64) (x := xxh3Gcc) (w := low) (s := start) (dst := 100) (src := 100)
  (c := List.replicate 43 0) (message_low amd64 (by decide) (by decide)) (low_writable (by decide) (by decide))
  (fun h => absurd h (by decide)) (by decide) (fun h => absurd h (by decide))

/-- A seed of 300 bytes, with assertions; then a message of 1000 bytes is hashed. -/
example := xxh3_generated_used_partial (cfg := mips32) (x := xxh3Mips) (w := low) (s := start) (dst := 2000) (src := 2100)
  (c := List.replicate 300 0) (data := 7) (m := List.replicate 1000 0) (message_low mips32 (by decide) (by decide))
  (low_writable (by decide) (by decide)) (fun h => absurd h (by decide)) (by rw [List.length_replicate]; decide)
  (fun _ => ⟨by decide, fun _ => by decide⟩) (message_low mips32 (by decide) (by decide))
  (Or.inl (by rw [List.length_replicate]; decide)) (by decide) (by rw [List.length_replicate]; decide) (fun _ _ => by decide)

/-- The last 299 bytes of the address space, but for one. -/
example := xxh3_generate_pointer_after (cfg := mips32) (x := xxh3Mips) (w := high) (s := start)
  (c := List.replicate 299 0) (src := 2 ^ 32 - 300) (dst := 2 ^ 32 - 2000)
  ⟨holds_high (by decide) (by decide), by rw [List.length_replicate]; decide, by rw [List.length_replicate]; decide⟩
  (fun _ => by decide) (by decide) (by rw [List.length_replicate]; decide) (by decide)

/-- One computer stores hashes, another one (of the other byte order) reads them. -/
example (h : Hash128) : ∃ s' t, Returns (XXH128_canonicalFromHash amd64 xxh3Gcc 9001 h) quiet start () s' t ∧
    Hashes quiet s' (XXH128_hashFromCanonical mips32 xxh3Mips 9001) h 0 9001 16 0 := by
  obtain ⟨s', t, h1, h2, -⟩ := xxh128_canonical_written (cfg := amd64) (x := xxh3Gcc) (s := start)
    (quiet_writable (p := 9001) (by decide) (by decide)) h
  exact ⟨s', t, h1, xxh128_canonical_read h ⟨h2, (by decide : 9001 + 16 < 2 ^ 32), (by decide : 16 + 32 < 2 ^ 32)⟩
    fun h => absurd h (by decide)⟩

/-- The high half decides, then the low half. -/
example : XXH128_cmp ⟨5, 1⟩ ⟨4, 2⟩ = -1 ∧ XXH128_cmp ⟨5, 1⟩ ⟨4, 1⟩ = 1 := by decide

end T1ha.Props
