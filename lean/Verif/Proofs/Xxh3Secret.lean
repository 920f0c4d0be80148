import Verif.SpecXxh3Secret
import Verif.Proofs.XxhashCanonical
import Verif.Proofs.Xxh3Fail
import Verif.Proofs.T1ha2

/-!
# XXH3: hashes of 128 bits as values, and secrets
-/

namespace T1ha.Model

variable {w : World} {ov : Overlay} {cfg : Cfg} {x : Xxh3} {P : Ev → Prop}

/-! ## The canonical representation -/

theorem canonical128_eq (h : Hash128) : XXH128_canonical cfg x h = Spec.canonical128 h := by
  have h1 := canonical64_stored (cfg := cfg) (x := x.toXxh) h.high64
  have h2 := canonical64_stored (cfg := cfg) (x := x.toXxh) h.low64
  unfold XXH128_canonical Spec.canonical128
  cases he : cfg.endian with
  | little => rw [he] at h1 h2; exact congrArg₂ (· ++ ·) h1 h2
  | big => rw [he] at h1 h2; exact congrArg₂ (· ++ ·) h1 h2

theorem length_canonical64 (h : U64) : (Spec.canonical64 h).length = 8 := rfl

theorem length_canonical128 (h : Hash128) : (Spec.canonical128 h).length = 16 := rfl

theorem put_append (p : Nat) (xs ys : List Byte) : put (put ov p xs) (p + xs.length) ys = put ov p (xs ++ ys) := by
  funext a
  unfold put
  by_cases h1 : p ≤ a
  · by_cases h2 : p + xs.length ≤ a
    · rw [if_pos h2, if_pos h1, if_pos h1, List.getElem?_append_right (by omega), List.getElem?_eq_none (l := xs) (by omega),
        Option.none_or, Nat.sub_add_eq]
    · rw [if_neg h2, if_pos h1, if_pos h1, List.getElem?_append_left (by omega)]
  · rw [if_neg (by omega), if_neg h1, if_neg h1]

theorem beVal_canonical64 (h : U64) : beVal (Spec.canonical64 h) = h.toNat := by
  have := h.isLt
  rw [← canonical64_eq, beVal_eq, List.reverse_reverse, leVal_leBytes]
  omega

/-- Lists of the same length are ordered like the numbers whose digits they are. -/
theorem lt_iff_beVal : ∀ (a b : List Byte), a.length = b.length → (a < b ↔ beVal a < beVal b)
  | [], [], _ => by simp [beVal]
  | x :: a, y :: b, h => by
    have ih := lt_iff_beVal a b (by simpa using h)
    have ha := beVal_lt a
    have hb := beVal_lt b
    have hl : a.length = b.length := by simpa using h
    have e1 : beVal (x :: a) = x.toNat * 256 ^ a.length + beVal a := by
      rw [show x :: a = [x] ++ a from rfl, beVal_append]; simp [beVal]
    have e2 : beVal (y :: b) = y.toNat * 256 ^ a.length + beVal b := by
      rw [show y :: b = [y] ++ b from rfl, beVal_append, hl]; simp [beVal]
    rw [List.cons_lt_cons_iff, ih, e1, e2, BitVec.lt_def]
    rw [← hl] at hb
    rcases Nat.lt_trichotomy x.toNat y.toNat with hxy | hxy | hxy
    · have : (x.toNat + 1) * 256 ^ a.length ≤ y.toNat * 256 ^ a.length := Nat.mul_le_mul_right _ hxy
      rw [Nat.succ_mul] at this
      exact ⟨fun _ => by omega, fun _ => Or.inl hxy⟩
    · have : x = y := BitVec.eq_of_toNat_eq hxy
      subst this
      simp
    · have : (y.toNat + 1) * 256 ^ a.length ≤ x.toNat * 256 ^ a.length := Nat.mul_le_mul_right _ hxy
      rw [Nat.succ_mul] at this
      refine ⟨fun h => ?_, fun h => by omega⟩
      rcases h with h | ⟨h, -⟩
      · omega
      · subst h; omega

theorem endian_bytes_inj {e : Endian} {a b : U64} (h : e.bytes 8 a.toNat = e.bytes 8 b.toNat) : a = b := by
  have key : leBytes 8 a.toNat = leBytes 8 b.toNat := by
    cases e with
    | little => exact h
    | big => exact List.reverse_inj.1 h
  have := congrArg leVal key
  rw [leVal_leBytes, leVal_leBytes] at this
  have h1 := a.isLt
  have h2 := b.isLt
  exact BitVec.eq_of_toNat_eq (by omega)

theorem hash128Bytes_inj {h h' : Hash128} (e : hash128Bytes cfg h = hash128Bytes cfg h') : h = h' := by
  unfold hash128Bytes at e
  obtain ⟨h1, h2⟩ := List.append_inj e (by rw [length_bytes, length_bytes])
  cases h
  cases h'
  rw [Hash128.mk.injEq]
  exact ⟨endian_bytes_inj h1, endian_bytes_inj h2⟩

theorem beVal_canonical128 (h : Hash128) : beVal (Spec.canonical128 h) = Spec.Hash128.number h := by
  unfold Spec.canonical128 Spec.Hash128.number
  rw [beVal_append, beVal_canonical64, beVal_canonical64, length_canonical64, show (256 : Nat) ^ 8 = 2 ^ 64 by decide]

theorem number_inj {h h' : Hash128} (e : Spec.Hash128.number h = Spec.Hash128.number h') : h = h' := by
  unfold Spec.Hash128.number at e
  have h1 := h.low64.isLt
  have h2 := h'.low64.isLt
  cases h
  cases h'
  dsimp only at *
  rw [Hash128.mk.injEq]
  exact ⟨BitVec.eq_of_toNat_eq (by omega), BitVec.eq_of_toNat_eq (by omega)⟩

/-! ## Secrets -/

theorem rounds3_le' (n pb len : Nat) (hn : 16 ≤ n) (hp : 0 < pb) : rounds3 n pb len ≤ len / 16 := by
  unfold rounds3
  split
  · omega
  · split
    · exact Nat.div_le_div_left hn (by omega)
    · have h1 : (len - 1) / (64 * pb) ≤ (len - 1) / 64 := Nat.div_le_div_left (by omega) (by omega)
      omega

section
variable {c : List Byte}

theorem length_seeds (c : List Byte) : (Spec.xxh3Seeds c).length = 96 := by
  unfold Spec.xxh3Seeds; rw [List.length_map, List.length_range]

theorem seeds_get {i : Nat} (hi : i < 96) : (Spec.xxh3Seeds c)[i]? = some (c.getD (i % c.length) 0) := by
  unfold Spec.xxh3Seeds
  rw [List.getElem?_map, List.getElem?_range hi]
  rfl

/-- What has been filled so far is a prefix, and as long as it is not all, its length is a multiple of that of the seed. -/
structure Filled (c l : List Byte) : Prop where
  pos : 0 < l.length
  le : l.length ≤ 96
  whole : l.length < 96 → l.length % c.length = 0
  get : ∀ i, i < l.length → l[i]? = (Spec.xxh3Seeds c)[i]?

theorem filled_first (hc : c ≠ []) : Filled c (c.take (min c.length 96)) := by
  have := List.length_pos_iff.2 hc
  have hl : (c.take (min c.length 96)).length = min c.length 96 := by rw [List.length_take]; omega
  refine ⟨by omega, by omega, fun h => ?_, fun i hi => ?_⟩
  · rw [hl, show min c.length 96 = c.length by omega, Nat.mod_self]
  · rw [List.getElem?_take, if_pos (by omega), seeds_get (by omega), Nat.mod_eq_of_lt (by omega), List.getD_eq_getElem?_getD,
      List.getElem?_eq_getElem (by omega)]
    rfl

theorem Filled.more {l : List Byte} (f : Filled c l) (h : l.length < 96) :
    Filled c (l ++ l.take (min l.length (96 - l.length))) := by
  have hp := f.pos
  have hw := f.whole h
  have hl : (l ++ l.take (min l.length (96 - l.length))).length = l.length + min l.length (96 - l.length) := by
    rw [List.length_append, List.length_take]; omega
  refine ⟨by omega, by omega, fun h' => ?_, fun i hi => ?_⟩
  · rw [hl] at h' ⊢
    rw [show min l.length (96 - l.length) = l.length by omega, Nat.add_mod, hw]
    rfl
  · by_cases hi' : i < l.length
    · rw [List.getElem?_append_left hi']; exact f.get i hi'
    · rw [List.getElem?_append_right (by omega), List.getElem?_take, if_pos (by omega), f.get _ (by omega),
        seeds_get (by omega), seeds_get (by omega)]
      have : (i - l.length) % c.length = i % c.length := by
        conv => rhs; rw [show i = (i - l.length) + l.length by omega, Nat.add_mod, hw, Nat.add_zero, Nat.mod_mod]
      rw [this]

theorem Filled.all {l : List Byte} (f : Filled c l) (h : ¬ l.length < 96) : l = Spec.xxh3Seeds c := by
  have := f.le
  apply List.ext_getElem?
  intro i
  by_cases hi : i < l.length
  · exact f.get i hi
  · rw [List.getElem?_eq_none (by omega), List.getElem?_eq_none (by rw [length_seeds]; omega)]

theorem reads_seeds (hP : P .iter) : ∀ (fuel : Nat) (l : List Byte), 96 < fuel + l.length → Filled c l →
    ∃ n, n ≤ 96 - l.length ∧ Reads w ov P nowhere n (XXH3_seeds_loop fuel l) (Spec.xxh3Seeds c)
  | 0, l, h, f => by have := f.le; omega
  | fuel + 1, l, h, f => by
    unfold XXH3_seeds_loop
    by_cases h96 : l.length < 96
    · have hp := f.pos
      have hl : (l ++ l.take (min l.length (96 - l.length))).length = l.length + min l.length (96 - l.length) := by
        rw [List.length_append, List.length_take]; omega
      obtain ⟨n, hn, hr⟩ := reads_seeds hP fuel _ (by omega) (f.more h96)
      rw [if_pos h96]
      exact ⟨1 + n, by omega, Exec.cov (Reads.bind (Reads.iterate hP) hr) (fun a h => h.elim) rfl⟩
    · rw [if_neg h96]
      refine ⟨0, by omega, ?_⟩
      rw [f.all h96]
      exact Reads.pure _

/-- The segments from `i` on. -/
def segmentsFrom (first seeds : List Byte) (i : Nat) : List Byte :=
  (List.range' i (12 - i)).flatMap fun i =>
    Spec.canonical128 (Spec.xxh3_128WithSeed first (Spec.at64 seeds (8 * i) + BitVec.ofNat 64 i))

theorem segmentsFrom_step (first seeds : List Byte) {i : Nat} (h : i < 12) : segmentsFrom first seeds i =
    Spec.canonical128 (Spec.xxh3_128WithSeed first (Spec.at64 seeds (8 * i) + BitVec.ofNat 64 i)) ++
      segmentsFrom first seeds (i + 1) := by
  unfold segmentsFrom
  rw [show 12 - i = (12 - (i + 1)) + 1 by omega, List.range'_succ, List.flatMap_cons]

theorem generated_eq (hc : c ≠ []) : Spec.xxh3Generated c =
    Spec.canonical128 (Spec.xxh3_128WithSeed c 0) ++
      segmentsFrom (Spec.canonical128 (Spec.xxh3_128WithSeed c 0)) (Spec.xxh3Seeds c) 1 := by
  unfold Spec.xxh3Generated
  rw [if_neg hc]
  rfl

theorem length_segmentsFrom (first seeds : List Byte) : ∀ n i, n = 12 - i → (segmentsFrom first seeds i).length = 16 * n
  | 0, i, h => by unfold segmentsFrom; rw [← h]; rfl
  | n + 1, i, h => by
    rw [segmentsFrom_step _ _ (by omega), List.length_append, length_segmentsFrom first seeds n (i + 1) (by omega),
      length_canonical128]
    omega

theorem length_generated (c : List Byte) : (Spec.xxh3Generated c).length = 192 := by
  by_cases hc : c = []
  · unfold Spec.xxh3Generated
    rw [if_pos hc]
    exact length_xxh3Secret
  · rw [generated_eq hc, List.length_append, length_segmentsFrom _ _ 11 1 rfl, length_canonical128]

variable {dst : Nat} (hP : P .iter) (hwr : ∀ a n, dst ≤ a → a + n ≤ dst + 192 → P (.wr a n))
  (hw : Writable w dst 192) (fine : x.access = .direct → x.lenient32 = true ∧ x.lenient64 = true)
include hP hwr hw fine

theorem exec_segments {first seeds : List Byte} (hf : first.length = 16) (hs : seeds.length = 96) :
    ∀ (todo : Nat) (done : List Byte), todo ≤ 11 → done.length = 16 * (12 - todo) →
    Exec w (put ov dst done) P nowhere todo (XXH3_segments cfg x dst first seeds todo)
      (fun _ o => o = put ov dst (done ++ segmentsFrom first seeds (12 - todo)))
  | 0, done, _, _ => by
    unfold XXH3_segments
    refine Exec.pure () ?_
    rw [show segmentsFrom first seeds (12 - 0) = [] from rfl, List.append_nil]
  | todo + 1, done, h, hd => by
    have g : ByteSource w (put ov dst done) cfg P (.array seeds) seeds := source_array hP (List.prefix_refl _)
    have g' : ByteSource w (put ov dst done) cfg P (.array first) first := source_array hP (List.prefix_refl _)
    have hh := withSeed128 (x := x) g' fine (fun _ _ => rfl) (fun h240 => absurd h240 (by omega))
      (Spec.at64 seeds (8 * (12 - (todo + 1))) + BitVec.ofNat 64 (12 - (todo + 1)))
    rw [hf] at hh
    have hr : rounds3 32 16 16 = 0 := by decide
    rw [hr] at hh
    have hl : (Spec.canonical128 (Spec.xxh3_128WithSeed first (Spec.at64 seeds (8 * (12 - (todo + 1))) +
      BitVec.ofNat 64 (12 - (todo + 1))))).length = 16 := length_canonical128 _
    have ih := exec_segments hf hs todo (done ++ Spec.canonical128 (Spec.xxh3_128WithSeed first
      (Spec.at64 seeds (8 * (12 - (todo + 1))) + BitVec.ofNat 64 (12 - (todo + 1))))) (by omega) (by
        rw [List.length_append, hl]; omega)
    rw [List.append_assoc, show 12 - todo = 12 - (todo + 1) + 1 by omega, ← segmentsFrom_step _ _ (by omega)] at ih
    unfold XXH3_segments
    dsimp only
    refine Exec.cov (Reads.bind (Reads.iterate hP) <| Reads.bind (reads_le64 g fine _ (by omega)).uncovered <|
      Reads.bind hh.uncovered <| Exec.bind' (C := nowhere) (n := todo) (C₂ := nowhere) (n₂ := todo) (Exec.store ?_ ?_) ?_
        (fun a h => False.elim h) (Nat.zero_add _).symm)
      (fun a h => False.elim h) (by omega)
    · rw [canonical128_eq, hl]
      exact hw.sub (by omega) (by omega)
    · rw [canonical128_eq, hl]
      exact hwr _ _ (by omega) (by omega)
    · rintro _ o rfl
      rw [canonical128_eq, show dst + (12 - (todo + 1)) * 16 = dst + done.length by omega, put_append]
      exact ih

theorem exec_generate {src : Nat} (g : ByteSource w ov cfg P (.memory src) c) (hh : Holds w ov src c)
    (hrd : ∀ a n, src ≤ a → a + n ≤ src + c.length → P (.rd a n))
    (hahead : 240 < c.length → Ahead w ov cfg x P (.memory src) c.length)
    (hd : x.debug = true → dst ≠ 0 ∧ (c ≠ [] → src ≠ 0)) :
    ∃ n, n ≤ c.length / 16 + 106 ∧ Exec w ov P nowhere n (XXH3_generateSecret cfg x dst src c.length)
      (fun _ o => o = put ov dst (Spec.xxh3Generated c)) := by
  unfold XXH3_generateSecret
  by_cases hc : c = []
  · refine ⟨0, by omega, assert_ok (fun h => by simpa using (hd h).1) ?_⟩
    rw [if_pos (by rw [hc]; rfl), kSecret_eq]
    unfold Spec.xxh3Generated
    rw [if_pos hc]
    exact Exec.store (by rw [length_xxh3Secret]; exact hw)
      (hwr _ _ (Nat.le_refl _) (by rw [length_xxh3Secret]))
  · have hpos := List.length_pos_iff.2 hc
    have hh0 := withSeed128 g fine (fun h _ => by simpa [Bytes.isNull] using (hd h).2 hc) hahead 0
    obtain ⟨n, hn, hs⟩ := reads_seeds (w := w) (ov := ov) (P := P) (c := c) hP 97 _ (by omega) (filled_first hc)
    have hl : (Spec.canonical128 (Spec.xxh3_128WithSeed c 0)).length = 16 := length_canonical128 _
    have ih := exec_segments (cfg := cfg) (ov := ov) hP hwr hw fine hl (length_seeds c) 11
      (Spec.canonical128 (Spec.xxh3_128WithSeed c 0)) (by decide) hl
    refine ⟨rounds3 32 16 c.length + (n + 11), ?_, assert_ok (fun h => by simpa using (hd h).1) ?_⟩
    · have : rounds3 32 16 c.length ≤ c.length / 16 := rounds3_le' _ _ _ (by decide) (by decide)
      rw [List.length_take] at hn
      omega
    rw [if_neg (by omega)]
    refine assert_ok (fun h => by simpa using (hd h).2 hc) ?_
    refine Exec.cov (Reads.bind hh0.uncovered <| Reads.bind (Reads.load (hh.take (min c.length 96)) (by
        rw [List.length_take, Nat.min_assoc, Nat.min_comm 96, ← Nat.min_assoc, Nat.min_self]) (hrd _ _ (Nat.le_refl _) (by omega))).uncovered <| Reads.bind hs <|
      Exec.bind' (C := nowhere) (n := 11) (C₂ := nowhere) (n₂ := 11) (Exec.store ?_ ?_) ?_ (fun a h => False.elim h) rfl)
      (fun a h => False.elim h) (by omega)
    · rw [canonical128_eq, hl]
      exact hw.sub (by omega) (by omega)
    · rw [canonical128_eq, hl]
      exact hwr _ _ (by omega) (by omega)
    · rintro _ o rfl
      rw [canonical128_eq, generated_eq hc]
      exact ih

end

theorem fails_generate {c : List Byte} {dst src : Nat} (hd : x.debug = true → dst ≠ 0) (hlen : 240 < c.length)
    (hs : src ≠ 0) (hh : 2 ^ cfg.bits ≤ src + x.prefetch) :
    Fails w ov (XXH3_generateSecret cfg x dst src c.length) .ptrWrap := by
  have hb : 8 * 192 < 2 ^ cfg.bits := by unfold Cfg.bits; split <;> decide
  have key : Fails w ov (XXH3_128bits_withSeed cfg x (.memory src) c.length 0) .ptrWrap := by
    unfold XXH3_128bits_withSeed XXH3_128bits_internal
    refine Fails.asserted (by decide) ?_
    rw [if_neg (by omega), if_neg (by omega), if_neg (by omega)]
    unfold XXH3_hashLong_128b_withSeed
    rw [if_pos rfl]
    exact Fails.now (fails_ahead _ (by decide) hb hlen hh) _
  have tail : ∀ {β : Type} (f : Hash128 → M β), Fails w ov (do
      XXH_ASSERT x (src ≠ 0)
      let h ← XXH3_128bits_withSeed cfg x (.memory src) c.length 0
      f h) .ptrWrap := fun f => Fails.asserted (by simpa using hs) (Fails.now key _)
  unfold XXH3_generateSecret
  refine Fails.after (P := fun _ => True) (v := ()) (C := nowhere) (n := 0) ?_ ?_
  · unfold XXH_ASSERT
    rw [if_neg (by
      intro h
      simp only [Bool.and_eq_true, Bool.not_eq_true', decide_eq_false_iff_not] at h
      exact h.2 (hd h.1))]
    exact Reads.pure ()
  · rw [if_neg (by omega)]
    exact tail _

end T1ha.Model
