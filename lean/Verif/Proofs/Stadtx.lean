import Verif.Proofs.Others
import Verif.Proofs.Region
import Verif.Model.Stadtx

/-!
# StadtX computes its specification
-/

namespace T1ha.Model

variable {w : World} {ov : Overlay} {cfg : Cfg} {P : Ev → Prop} {lo hi d : Nat}

theorem ROTR64_eq (x : U64) (r : Nat) (h : 0 < r ∧ r < 64) : ROTR64 x r h = x.rotateRight r := rot64_eq _ _ _

theorem ROTL64_eq (x : U64) (r : Nat) (h : 0 < 64 - r ∧ 64 - r < 64) : ROTL64 x r h = x.rotateLeft r := by
  unfold ROTL64
  rw [rot64_eq]
  have h1 : r % 64 = r := Nat.mod_eq_of_lt (by omega)
  have h2 : (64 - r) % 64 = 64 - r := Nat.mod_eq_of_lt h.2
  simp only [BitVec.rotateRight, BitVec.rotateLeft, BitVec.rotateRightAux, BitVec.rotateLeftAux, h1, h2]
  rw [show 64 - (64 - r) = r by omega, BitVec.or_comm]

theorem K0_eq : STADTX_K0_uint64_t = Spec.stadtxK0 := (rfl)
theorem K1_eq : STADTX_K1_uint64_t = Spec.stadtxK1 := (rfl)
theorem K2_eq : STADTX_K2_uint64_t = Spec.stadtxK2 := (rfl)
theorem K3_eq : STADTX_K3_uint64_t = Spec.stadtxK3 := (rfl)
theorem K2s_eq : STADTX_K2_uint32_t.setWidth 64 = Spec.stadtxK2s := by decide
theorem K3s_eq : STADTX_K3_uint32_t.setWidth 64 = Spec.stadtxK3s := by decide
theorem K4s_eq : STADTX_K4_uint32_t.setWidth 64 = Spec.stadtxK4s := by decide
theorem K5s_eq : STADTX_K5_uint32_t.setWidth 64 = Spec.stadtxK5s := by decide

/-! ## Less than 32 bytes -/

theorem reads_stadtx_short_word (hs : Space cfg d P lo hi) (hb : Proxy cfg d lo hi) {v : Nat} {r : List Byte}
    (hh : Holds w ov v r) (hlo : lo ≤ v) (hhi : v + 8 ≤ hi) (hl : r.length = 8) (s : U64 × U64) :
    Reads w ov P (range v 8) 0 (stadtx_short_word cfg s.1 s.2 v)
      ((Spec.stadtxShortWord s (Spec.num r)).1, (Spec.stadtxShortWord s (Spec.num r)).2, v + 8) := by
  have hlt := hs.hi_lt
  unfold stadtx_short_word
  refine Exec.cov (Reads.bind (hs.fetch64 hb hh hlo hhi hl) <|
    Reads.bind (C₂ := nowhere) (n₂ := 0) (Reads.ptrAdd (by omega) (hs.ptr _ (by omega) (by omega))) ?_)
    (fun a h => Or.inl h) rfl
  simp only [ROTR64_eq, K3_eq]
  exact Reads.pure _

/-- The first `switch` as a loop. -/
def stadtxShortWords (cfg : Cfg) : Nat → U64 → U64 → Nat → M (U64 × U64 × Nat)
  | 0, v0, v1, key => pure (v0, v1, key)
  | n + 1, v0, v1, key => do
    let r ← stadtx_short_word cfg v0 v1 key
    stadtxShortWords cfg n r.1 r.2.1 r.2.2

theorem shiftRight_3 (n : Nat) : n >>> 3 = n / 8 := Nat.shiftRight_eq_div_pow n 3

theorem stadtx_short_words_eq (v0 v1 : U64) (key len : Nat) (h : len < 32) :
    stadtx_short_words cfg v0 v1 key len = stadtxShortWords cfg (len / 8) v0 v1 key := by
  unfold stadtx_short_words
  rw [shiftRight_3]
  have h4 : len / 8 < 4 := by omega
  generalize len / 8 = n at *
  match n, h4 with
  | 0, _ => rfl
  | 1, _ => simp [stadtxShortWords]
  | 2, _ => simp [stadtxShortWords]
  | 3, _ => simp [stadtxShortWords]

theorem reads_stadtxShortWords (hs : Space cfg d P lo hi) (hb : Proxy cfg d lo hi) (n : Nat) {v : Nat}
    {r : List Byte} (hh : Holds w ov v r) (hlo : lo ≤ v) (hhi : v + r.length ≤ hi) (hl : 8 * n ≤ r.length)
    (s : U64 × U64) :
    Reads w ov P (range v (8 * n)) 0 (stadtxShortWords cfg n s.1 s.2 v)
      ((((chunks 8 n r).map Spec.num).foldl Spec.stadtxShortWord s).1,
        (((chunks 8 n r).map Spec.num).foldl Spec.stadtxShortWord s).2, v + 8 * n) := by
  induction n generalizing v r s with
  | zero => exact Exec.cov (Reads.pure _) (fun a h => by simp only [range] at h; omega) rfl
  | succ n ih =>
    have hd : (r.drop 8).length = r.length - 8 := List.length_drop
    have := ih (hh.drop 8) (by omega) (by omega) (by omega) (Spec.stadtxShortWord s (Spec.num (r.take 8)))
    unfold stadtxShortWords
    refine Exec.cov (Reads.bind (C₂ := range (v + 8) (8 * n)) (n₂ := 0) (reads_stadtx_short_word hs hb (hh.take 8) hlo (by omega)
      (by rw [List.length_take]; omega) s) ?_)
      (C₁ := fun a => range v 8 a ∨ range (v + 8) (8 * n) a) (n₁ := 0) (fun a h => ?_) rfl
    · rw [show v + 8 * (n + 1) = v + 8 + 8 * n by omega]
      exact this
    · simp only [range] at *; omega

theorem and_7 (n : Nat) : n &&& 7 = n % 8 := Nat.and_two_pow_sub_one_eq_mod n 3

theorem reads_stadtx_short_tail (hs : Space cfg d P lo hi) (hb : Proxy cfg d lo hi) {v len : Nat}
    {r : List Byte} (hh : Holds w ov v r) (hlo : lo ≤ v) (hhi : v + r.length ≤ hi) (hl : r.length = len % 8)
    (v0 v1 : U64) :
    Reads w ov P (range v r.length) 0 (stadtx_short_tail cfg v0 v1 v len) (Spec.stadtxShortTail v0 v1 r) := by
  have h8 : r.length < 8 := by omega
  unfold stadtx_short_tail
  rw [and_7, ← hl]
  have hbyte := fun i b (h : r[i]? = some b) (hi' : i < r.length) =>
    hs.byte (v := v) hh hlo (i := i) (b := b) (by omega) h
  match r, h8 with
  | [], _ =>
    simp only [ROTL64_eq]
    exact Exec.cov (Reads.pure _) (fun a h => by simp only [range, List.length_nil] at h; omega) rfl
  | [a], _ =>
    simp only [List.length_cons, List.length_nil, ROTL64_eq] at *
    refine Exec.cov (Reads.bind (C₂ := nowhere) (n₂ := 0) (hbyte 0 _ rfl (by omega)) ?_) (fun a h => Or.inl h) rfl
    rw [setWidth_byte]
    exact Reads.pure _
  | [a, b], _ =>
    simp only [List.length_cons, List.length_nil] at *
    refine Exec.bindL (hs.fetch16 hb hh hlo hhi rfl) ?_
    rintro x o ⟨hx, rfl⟩
    rw [hx]
    exact Reads.pure _
  | [a, b, c], _ =>
    simp only [List.length_cons, List.length_nil] at *
    refine Exec.cov (Reads.bind (hbyte 2 _ rfl (by omega)) (Exec.bindL (C := range v 2) (n := 0)
      (hs.fetch16 hb (hh.take 2) hlo (by omega) rfl) ?_)) (fun a h => by simp only [range] at *; omega) rfl
    rintro x o ⟨hx, rfl⟩
    rw [hx, setWidth_byte]
    exact Reads.pure _
  | [a, b, c, e], _ =>
    simp only [List.length_cons, List.length_nil] at *
    refine Exec.bindL (hs.fetch32 hb hh hlo hhi rfl) ?_
    rintro x o ⟨hx, rfl⟩
    rw [hx]
    exact Reads.pure _
  | [a, b, c, e, f], _ =>
    simp only [List.length_cons, List.length_nil] at *
    refine Exec.cov (Reads.bind (hbyte 4 _ rfl (by omega)) (Exec.bindL (C := range v 4) (n := 0)
      (hs.fetch32 hb (hh.take 4) hlo (by omega) rfl) ?_)) (fun a h => by simp only [range] at *; omega) rfl
    rintro x o ⟨hx, rfl⟩
    rw [hx, setWidth_byte]
    exact Reads.pure _
  | [a, b, c, e, f, g], _ =>
    simp only [List.length_cons, List.length_nil] at *
    refine Exec.cov (Reads.bind (hbyte 5 _ rfl (by omega)) <| Reads.bind (hbyte 4 _ rfl (by omega)) <|
      Exec.bindL (C := range v 4) (n := 0)
      (hs.fetch32 hb (hh.take 4) hlo (by omega) rfl) ?_) (fun a h => by simp only [range] at *; omega) rfl
    rintro x o ⟨hx, rfl⟩
    rw [hx, setWidth_byte, setWidth_byte]
    exact Reads.pure _
  | [a, b, c, e, f, g, i], _ =>
    simp only [List.length_cons, List.length_nil] at *
    refine Exec.cov (Reads.bind (hbyte 6 _ rfl (by omega)) <| Reads.bind (hbyte 5 _ rfl (by omega)) <|
      Reads.bind (hbyte 4 _ rfl (by omega)) <| Exec.bindL (C := range v 4) (n := 0)
      (hs.fetch32 hb (hh.take 4) hlo (by omega) rfl) ?_) (fun a h => by simp only [range] at *; omega) rfl
    rintro x o ⟨hx, rfl⟩
    rw [hx, setWidth_byte, setWidth_byte, setWidth_byte]
    exact Reads.pure _

theorem stadtx_short_final_eq (v : U64 × U64) : stadtx_short_final v.1 v.2 = Spec.stadtxShortFinal v := by
  unfold stadtx_short_final Spec.stadtxShortFinal
  simp -zeta only [ROTR64_eq, ROTL64_eq]
  rfl

/-! ## At least 32 bytes -/

theorem stadtx_final_eq (v : Quad) : stadtx_final v = Spec.stadtxFinal v := by
  unfold stadtx_final Spec.stadtxFinal
  simp -zeta only [ROTR64_eq, ROTL64_eq]
  rfl

theorem Space.word {v i k : Nat} {r : List Byte} (hs : Space cfg d P lo hi) (hb : Proxy cfg d lo hi)
    (hh : Holds w ov v r) (hlo : lo ≤ v) (hhi : v + k ≤ hi) (hk : k ≤ r.length) (hi' : 8 * i + 8 ≤ k) :
    Reads w ov P (range (v + 8 * i) 8) 0 (fetch64_le_unaligned cfg (v + 8 * i))
      (Spec.word64 .little (r.take k) i) :=
  hs.fetch64 hb ((hh.take k).slice (8 * i) 8) (by omega) (by omega)
    (by simp only [List.length_take, List.length_drop]; omega)

theorem reads_stadtx_step (hs : Space cfg d P lo hi) (hb : Proxy cfg d lo hi) (s : Quad) (v len : Nat)
    (r : List Byte) (hh : Holds w ov v r) (hlo : lo ≤ v) (hhi : v + r.length ≤ hi) (hl : 32 ≤ r.length)
    {fuel : Nat} {C : Nat → Prop} {n : Nat} {Q : Quad × Nat × Nat → Overlay → Prop}
    (hnext : Exec w ov P C n (if 32 ≤ len - 32 then
        stadtx_loop cfg fuel (Spec.stadtxAbsorb s (r.take 32)) (v + 32) (len - 32)
      else pure (Spec.stadtxAbsorb s (r.take 32), v + 32, len - 32)) Q) :
    Exec w ov P (fun a => range v 32 a ∨ C a) (n + 1) (stadtx_loop cfg (fuel + 1) s v len) Q := by
  have hlt := hs.hi_lt
  have hw := fun i (hi4 : i < 4) => hs.word (k := 32) (i := i) hb hh hlo (by omega) hl (by omega)
  unfold stadtx_loop
  refine Exec.cov (Reads.bind (Reads.iterate hs.iter) <| Reads.bind (hw 0 (by omega)) <|
    Reads.bind (hw 1 (by omega)) <| Reads.bind (hw 2 (by omega)) <| Reads.bind (hw 3 (by omega)) <|
    Reads.bind (C₂ := C) (n₂ := n) (Reads.ptrAdd (by omega) (hs.ptr _ (by omega) (by omega))) ?_)
    (fun a h => ?_) (by omega)
  · simp only [ROTR64_eq, ROTL64_eq, K2s_eq, K3s_eq, K4s_eq, K5s_eq]
    exact hnext
  · by_cases hc : C a
    · simp only [hc, or_true]
    · simp only [range, nowhere, hc, or_false] at *; omega

theorem reads_stadtx_loop (hs : Space cfg d P lo hi) (hb : Proxy cfg d lo hi) (n : Nat) (s : Quad) (v : Nat)
    (r : List Byte) (hh : Holds w ov v r) (hlo : lo ≤ v) (hhi : v + r.length ≤ hi)
    (hn : r.length / 32 = n + 1) {fuel : Nat} (hf : n < fuel) :
    Reads w ov P (range v (32 * (n + 1))) (n + 1) (stadtx_loop cfg fuel s v r.length)
      ((chunks 32 (n + 1) r).foldl Spec.stadtxAbsorb s, v + 32 * (n + 1), r.length % 32) := by
  induction n generalizing s v r fuel with
  | zero =>
    obtain ⟨fuel, rfl⟩ : ∃ k, fuel = k + 1 := ⟨fuel - 1, by omega⟩
    refine Exec.cov (reads_stadtx_step (C := nowhere) (n := 0) hs hb s v r.length r hh hlo hhi (by omega) ?_)
      (fun a h => Or.inl h) rfl
    rw [if_neg (by omega), show r.length - 32 = r.length % 32 by omega,
      show chunks 32 (0 + 1) r = [r.take 32] from rfl, List.foldl_cons, List.foldl_nil]
    exact Reads.pure _
  | succ n ih =>
    obtain ⟨fuel, rfl⟩ : ∃ k, fuel = k + 1 := ⟨fuel - 1, by omega⟩
    refine Exec.cov (reads_stadtx_step (C := range (v + 32) (32 * (n + 1))) (n := n + 1) hs hb s v r.length r hh
      hlo hhi (by omega) ?_) (fun a h => ?_) rfl
    · rw [if_pos (by omega)]
      have hd' : (r.drop 32).length = r.length - 32 := List.length_drop
      have := ih (Spec.stadtxAbsorb s (r.take 32)) (v + 32) (r.drop 32)
        (hh.drop 32) (by omega) (by omega) (by omega) (fuel := fuel) (by omega)
      rw [show v + 32 * (n + 1 + 1) = v + 32 + 32 * (n + 1) by omega]
      rw [hd', show (r.length - 32) % 32 = r.length % 32 by omega] at this
      rw [show chunks 32 (n + 1 + 1) r = r.take 32 :: chunks 32 (n + 1) (r.drop 32) from rfl, List.foldl_cons]
      exact this
    · simp only [range] at *; omega

/-- One case of the `switch` over words. -/
def stadtxWordStep (s : Quad) (n : Nat) (x : U64) : Quad :=
  match n with
  | 0 => { s with x2 := (s.x2 + x * Spec.stadtxK4s).rotateRight 47 + s.x0 }
  | 1 => { s with x1 := (s.x1 + x * Spec.stadtxK3s).rotateLeft 63 ^^^ s.x2 }
  | _ => { s with x0 := (s.x0 + x * Spec.stadtxK2s).rotateLeft 57 ^^^ s.x3 }

/-- One case of the `switch` over words. -/
def stadtxWord (cfg : Cfg) (n : Nat) (s : Quad) (key : Nat) : M (Quad × Nat) := do
  let x ← fetch64_le_unaligned cfg key
  let key ← ptrAdd cfg key 8
  pure (stadtxWordStep s n x, key)

theorem stadtx_word_1_eq (s : Quad) (key : Nat) : stadtx_word_1 cfg s key = stadtxWord cfg 0 s key := by
  unfold stadtx_word_1 stadtxWord stadtxWordStep
  simp only [ROTR64_eq, K4s_eq]

theorem stadtx_word_2_eq (s : Quad) (key : Nat) : stadtx_word_2 cfg s key = stadtxWord cfg 1 s key := by
  unfold stadtx_word_2 stadtxWord stadtxWordStep
  simp only [ROTL64_eq, K3s_eq]

theorem stadtx_word_3_eq (s : Quad) (key : Nat) : stadtx_word_3 cfg s key = stadtxWord cfg 2 s key := by
  unfold stadtx_word_3 stadtxWord stadtxWordStep
  simp only [ROTL64_eq, K2s_eq]

/-- The `switch` over words as a loop. -/
def stadtxWordsLoop (cfg : Cfg) : Nat → Quad → Nat → M (Quad × Nat)
  | 0, s, key => pure ({ s with x3 := s.x3.rotateRight 11 - s.x1 }, key)
  | n + 1, s, key => do
    let r ← stadtxWord cfg n s key
    stadtxWordsLoop cfg n r.1 r.2

theorem stadtx_words_eq (s : Quad) (key len : Nat) (h : len < 32) :
    stadtx_words cfg s key len = stadtxWordsLoop cfg (len / 8) s key := by
  unfold stadtx_words
  rw [shiftRight_3]
  have h4 : len / 8 < 4 := by omega
  generalize len / 8 = n at *
  simp only [ROTR64_eq, stadtx_word_1_eq, stadtx_word_2_eq, stadtx_word_3_eq]
  match n, h4 with
  | 0, _ => simp [stadtxWordsLoop]
  | 1, _ => simp [stadtxWordsLoop]
  | 2, _ => simp [stadtxWordsLoop]
  | 3, _ => simp [stadtxWordsLoop]

theorem chunks_length (k n : Nat) (r : List Byte) : (chunks k n r).length = n := by
  induction n generalizing r with
  | zero => rfl
  | succ n ih => simp [chunks, ih]

theorem reads_stadtxWordsLoop (hs : Space cfg d P lo hi) (hb : Proxy cfg d lo hi) (n : Nat) {v : Nat}
    {r : List Byte} (hh : Holds w ov v r) (hlo : lo ≤ v) (hhi : v + r.length ≤ hi) (hl : 8 * n ≤ r.length)
    (s : Quad) :
    Reads w ov P (range v (8 * n)) 0 (stadtxWordsLoop cfg n s v)
      (Spec.stadtxWords ((chunks 8 n r).map Spec.num) s, v + 8 * n) := by
  have hlt := hs.hi_lt
  induction n generalizing v r s with
  | zero => exact Exec.cov (Reads.pure _) (fun a h => by simp only [range] at h; omega) rfl
  | succ n ih =>
    have hd : (r.drop 8).length = r.length - 8 := List.length_drop
    have := ih (hh.drop 8) (by omega) (by omega) (by omega) (stadtxWordStep s n (Spec.num (r.take 8)))
    unfold stadtxWordsLoop stadtxWord
    rw [bind_assoc]
    refine Exec.cov (Reads.bind (hs.fetch64 hb (hh.take 8) hlo (by omega)
      (by rw [List.length_take]; omega)) (C₂ := range (v + 8) (8 * n)) (n₂ := 0) ?_) (fun a h => ?_) rfl
    · rw [bind_assoc]
      refine Exec.bindR (Reads.ptrAdd (by omega) (hs.ptr _ (by omega) (by omega))) ?_
      rw [pure_bind, show v + 8 * (n + 1) = v + 8 + 8 * n by omega]
      simp only [chunks, List.map_cons, Spec.stadtxWords, List.length_map, chunks_length]
      exact this
    · simp only [range] at *; omega

theorem reads_stadtx_tail (hs : Space cfg d P lo hi) (hb : Proxy cfg d lo hi) {v len : Nat}
    {r : List Byte} (hh : Holds w ov v r) (hlo : lo ≤ v) (hhi : v + r.length ≤ hi) (hl : r.length = len % 8)
    (s : Quad) :
    Reads w ov P (range v r.length) 0 (stadtx_tail cfg s v len) (Spec.stadtxTail s r) := by
  have h8 : r.length < 8 := by omega
  unfold stadtx_tail
  rw [and_7, ← hl]
  have hbyte := fun i b (h : r[i]? = some b) (hi' : i < r.length) =>
    hs.byte (v := v) hh hlo (i := i) (b := b) (by omega) h
  match r, h8 with
  | [], _ =>
    simp only [ROTL64_eq]
    exact Exec.cov (Reads.pure _) (fun a h => by simp only [range, List.length_nil] at h; omega) rfl
  | [a], _ =>
    simp only [List.length_cons, List.length_nil, ROTL64_eq] at *
    refine Exec.cov (Reads.bind (C₂ := nowhere) (n₂ := 0) (hbyte 0 _ rfl (by omega)) ?_) (fun a h => Or.inl h) rfl
    rw [setWidth_byte]
    exact Reads.pure _
  | [a, b], _ =>
    simp only [List.length_cons, List.length_nil] at *
    refine Exec.bindL (hs.fetch16 hb hh hlo hhi rfl) ?_
    rintro x o ⟨hx, rfl⟩
    rw [hx]
    exact Reads.pure _
  | [a, b, c], _ =>
    simp only [List.length_cons, List.length_nil] at *
    refine Exec.cov (Reads.bind (hbyte 2 _ rfl (by omega)) (Exec.bindL (C := range v 2) (n := 0)
      (hs.fetch16 hb (hh.take 2) hlo (by omega) rfl) ?_)) (fun a h => by simp only [range] at *; omega) rfl
    rintro x o ⟨hx, rfl⟩
    rw [hx, setWidth_byte]
    exact Reads.pure _
  | [a, b, c, e], _ =>
    simp only [List.length_cons, List.length_nil] at *
    refine Exec.bindL (hs.fetch32 hb hh hlo hhi rfl) ?_
    rintro x o ⟨hx, rfl⟩
    rw [hx]
    exact Reads.pure _
  | [a, b, c, e, f], _ =>
    simp only [List.length_cons, List.length_nil] at *
    refine Exec.cov (Reads.bind (hbyte 4 _ rfl (by omega)) (Exec.bindL (C := range v 4) (n := 0)
      (hs.fetch32 hb (hh.take 4) hlo (by omega) rfl) ?_)) (fun a h => by simp only [range] at *; omega) rfl
    rintro x o ⟨hx, rfl⟩
    rw [hx, setWidth_byte]
    exact Reads.pure _
  | [a, b, c, e, f, g], _ =>
    simp only [List.length_cons, List.length_nil] at *
    refine Exec.bind' (C₂ := range v 4) (n₂ := 0)
      (hs.fetch16 hb (hh.drop 4) (by omega) (by omega) rfl) ?_ (fun a h => by simp only [range] at *; omega) rfl
    rintro x o ⟨hx, rfl⟩
    refine Exec.bindL (hs.fetch32 hb (hh.take 4) hlo (by omega) rfl) ?_
    rintro y o ⟨hy, rfl⟩
    rw [hx, hy]
    exact Reads.pure _
  | [a, b, c, e, f, g, i], _ =>
    simp only [List.length_cons, List.length_nil] at *
    refine Exec.cov (Reads.bind (hbyte 6 _ rfl (by omega)) <|
      Exec.bind' (C := range v 6) (n := 0) (C₂ := range v 4) (n₂ := 0)
      (hs.fetch16 hb (hh.slice 4 2) (by omega) (by omega) rfl) ?_
      (fun a h => by simp only [range] at *; omega) rfl) (fun a h => by simp only [range] at *; omega) rfl
    rintro x o ⟨hx, rfl⟩
    refine Exec.bindL (hs.fetch32 hb (hh.take 4) hlo (by omega) rfl) ?_
    rintro y o ⟨hy, rfl⟩
    rw [hx, hy, setWidth_byte]
    exact Reads.pure _

/-! ## All -/

theorem ofNat_szAdd {n k : Nat} (h : n + k < 2 ^ cfg.bits) :
    BitVec.ofNat 64 (szAdd cfg n k) = BitVec.ofNat 64 n + BitVec.ofNat 64 k := by
  unfold szAdd
  rw [Nat.mod_eq_of_lt h, BitVec.ofNat_add]

theorem reads_stadtx_short {data : Nat} {m : List Byte} (hs : Space cfg d P lo hi) (hb : Proxy cfg d lo hi)
    (s : U64 × U64) (hh : Holds w ov data m) (hlo : lo ≤ data) (hhi : data + m.length ≤ hi) (h : m.length < 32)
    {f : U64 × U64 → U64} :
    Reads w ov P (range data m.length) 0
      (do
        let (v0, v1, key) ← stadtx_short_words cfg s.1 s.2 data m.length
        let v ← stadtx_short_tail cfg v0 v1 key m.length
        pure (f v))
      (f (Spec.stadtxShortTail ((Spec.fullWords m).foldl Spec.stadtxShortWord s).1
        ((Spec.fullWords m).foldl Spec.stadtxShortWord s).2 (Spec.rest 8 m))) := by
  have hr : (Spec.rest 8 m).length = m.length % 8 := length_rest 8 m
  rw [stadtx_short_words_eq _ _ _ _ h]
  refine Exec.cov (Reads.bind (reads_stadtxShortWords hs hb (m.length / 8) hh hlo hhi (by omega) s) <|
    Reads.bind (C₂ := nowhere) (n₂ := 0)
    (reads_stadtx_short_tail hs hb (r := Spec.rest 8 m) (hh.drop _) (by omega) (by omega) hr _ _) (Reads.pure _))
    (fun a h => ?_) rfl
  simp only [range, hr] at *; omega

theorem reads_stadtx_long {data : Nat} {m : List Byte} (hs : Space cfg d P lo hi) (hb : Proxy cfg d lo hi)
    (s : Quad) (hh : Holds w ov data m) (hlo : lo ≤ data) (hhi : data + m.length ≤ hi) (h : 32 ≤ m.length)
    {f : Quad → Nat → Quad} {g : Quad → U64} :
    Reads w ov P (range data m.length) (m.length / 32)
      (do
        let (v, key, len) ← stadtx_loop cfg m.length s data m.length
        let (v, key) ← stadtx_words cfg v key len
        let v ← stadtx_tail cfg (f v len) key len
        pure (g v))
      (g (Spec.stadtxTail (f (Spec.stadtxWords (Spec.fullWords (Spec.rest 32 m))
        ((Spec.blocks 32 m).foldl Spec.stadtxAbsorb s)) (m.length % 32)) (Spec.rest 8 (Spec.rest 32 m)))) := by
  have hr : (Spec.rest 32 m).length = m.length % 32 := length_rest 32 m
  have hr8 : (Spec.rest 8 (Spec.rest 32 m)).length = (m.length % 32) % 8 := by rw [← hr]; exact length_rest 8 _
  have hn : m.length / 32 = (m.length / 32 - 1) + 1 := by omega
  have hloop := reads_stadtx_loop hs hb (m.length / 32 - 1) s data m hh hlo hhi hn (fuel := m.length) (by omega)
  rw [← hn] at hloop
  have hwords := reads_stadtxWordsLoop hs hb (m.length % 32 / 8) (r := Spec.rest 32 m)
    (v := data + 32 * (m.length / 32)) (hh.drop _) (by omega) (by omega) (by omega)
    ((Spec.blocks 32 m).foldl Spec.stadtxAbsorb s)
  rw [← stadtx_words_eq _ _ _ (by omega), ← hr] at hwords
  have htail := fun q => reads_stadtx_tail hs hb (r := Spec.rest 8 (Spec.rest 32 m)) (len := m.length % 32)
    ((hh.drop (32 * (m.length / 32))).drop (8 * ((Spec.rest 32 m).length / 8))) (by omega) (by omega) hr8 q
  rw [hr] at htail
  have hf : Spec.fullWords (Spec.rest 32 m) = (chunks 8 (m.length % 32 / 8) (Spec.rest 32 m)).map Spec.num := by
    unfold Spec.fullWords Spec.blocks
    rw [hr]
  rw [hf]
  refine Exec.cov (Reads.bind hloop <| Reads.bind (hr ▸ hwords) <| Reads.bind (C₂ := nowhere) (n₁ := 0) (n₂ := 0)
    (htail _) (Reads.pure _)) (fun a h => ?_) rfl
  simp only [range, hr, hr8] at *; omega

theorem reads_stadtx {data : Nat} {m : List Byte} (hs : Space cfg d P lo hi) (hb : Proxy cfg d lo hi)
    (state : Quad) (hh : Holds w ov data m) (hlo : lo ≤ data) (hhi : data + m.length ≤ hi)
    (hsz : m.length + 4 < 2 ^ cfg.bits) :
    Reads w ov P (range data m.length) (m.length / 32)
      (stadtx_hash_with_state cfg state data m.length) (Spec.stadtx state m) := by
  unfold stadtx_hash_with_state Spec.stadtx
  rw [ofNat_szAdd (by omega), ofNat_szAdd (by omega), ofNat_szAdd (by omega), ofNat_szAdd (by omega)]
  simp only [K0_eq, K1_eq, K2_eq, K3_eq, stadtx_final_eq]
  have h1 : Spec.len64 m = BitVec.ofNat 64 m.length := rfl
  rw [h1]
  generalize state.x0 ^^^ (BitVec.ofNat 64 m.length + 1) * Spec.stadtxK0 = a
  generalize state.x1 ^^^ (BitVec.ofNat 64 m.length + 2) * Spec.stadtxK1 = b
  generalize state.x2 ^^^ (BitVec.ofNat 64 m.length + 3) * Spec.stadtxK2 = c
  generalize state.x3 ^^^ (BitVec.ofNat 64 m.length + 4) * Spec.stadtxK3 = e
  by_cases h : m.length < 32
  · simp only [if_pos h]
    rw [show m.length / 32 = 0 by omega]
    have := reads_stadtx_short hs hb (a, b) hh hlo hhi h (f := Spec.stadtxShortFinal)
    simp only [← stadtx_short_final_eq] at this ⊢
    exact this
  · simp only [if_neg h]
    have hr : Spec.len64 (Spec.rest 32 m) = BitVec.ofNat 64 (m.length % 32) := by
      unfold Spec.len64; rw [length_rest 32 m]
    rw [hr]
    exact reads_stadtx_long hs hb ⟨a, b, c, e⟩ hh hlo hhi (by omega)
      (f := fun v len => { v with x0 := v.x0 ^^^ (BitVec.ofNat 64 len + 1) * Spec.stadtxK3 }) (g := Spec.stadtxFinal)

end T1ha.Model
