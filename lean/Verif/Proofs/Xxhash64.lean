import Verif.Proofs.Xxhash32

/-!
# XXH64 computes its specification
-/

namespace T1ha

namespace Spec

theorem xxh64Tail_word (h : U64) {q : List Byte} (hq : 8 ≤ q.length) :
    xxh64Tail h q = xxh64Tail (xxh64Word h (q.take 8)) (q.drop 8) := by
  unfold xxh64Tail
  rw [blocks_more (by decide) hq, rest_more (by decide) hq, List.foldl_cons]

theorem xxh64Tail_short (h : U64) {q : List Byte} (hq : q.length < 8) :
    xxh64Tail h q = (rest 4 q).foldl xxh64Byte ((blocks 4 q).foldl xxh64Half h) := by
  unfold xxh64Tail
  rw [blocks_less hq, rest_less hq, List.foldl_nil]

theorem xxh64Tail_half (h : U64) {q : List Byte} (h4 : 4 ≤ q.length) (h8 : q.length < 8) :
    xxh64Tail h q = xxh64Tail (xxh64Half h (q.take 4)) (q.drop 4) := by
  have hd : (q.drop 4).length < 4 := by rw [List.length_drop]; omega
  rw [xxh64Tail_short _ h8, xxh64Tail_short _ (by omega), blocks_more (by decide) h4, rest_more (by decide) h4,
    blocks_less hd, rest_less hd, List.foldl_cons]

theorem xxh64Tail_bytes (h : U64) {q : List Byte} (hq : q.length < 4) : xxh64Tail h q = q.foldl xxh64Byte h := by
  rw [xxh64Tail_short _ (by omega), blocks_less hq, rest_less hq, List.foldl_nil]

theorem xxh64Tail_byte (h : U64) (b : Byte) {q : List Byte} (hq : q.length < 3) :
    xxh64Tail h (b :: q) = xxh64Tail (xxh64Byte h b) q := by
  rw [xxh64Tail_bytes _ (by rw [List.length_cons]; omega), xxh64Tail_bytes _ (by omega), List.foldl_cons]

theorem setWidth_num32 {bs : List Byte} (h : bs.length = 4) : (num32 bs).setWidth 64 = num bs := by
  apply BitVec.eq_of_toNat_eq
  have : leVal bs < 2 ^ 32 := by have := leVal_lt bs; rw [h] at this; exact this
  unfold num32 num
  rw [BitVec.toNat_setWidth, BitVec.toNat_ofNat, BitVec.toNat_ofNat, Nat.mod_eq_of_lt this]

end Spec

namespace Model

variable {w : World} {ov : Overlay} {cfg : Cfg} {x : Xxh} {P : Ev → Prop} {lo hi d : Nat} {b : Bytes} {r : List Byte}
  {aligned : Bool}

theorem round64_eq (acc input : U64) : XXH64_round acc input = Spec.xxh64Round acc input := by
  unfold XXH64_round
  simp only [xxh_rotl64_eq]
  rfl

theorem converge64_eq (v : Quad) : XXH64_converge v = Spec.xxh64Converge v := by
  unfold XXH64_converge XXH64_mergeRound
  simp only [xxh_rotl64_eq, round64_eq]
  rfl

/-! ## The end -/

theorem reads_process1_64 (g : ByteSource w ov cfg P b r) (s : Finalizing U64) (h : s.i < r.length) :
    Reads w ov P (b.here s.i 1) 0 (XXH_PROCESS1_64 cfg b s) ⟨Spec.xxh64Byte s.h r[s.i], s.i + 1⟩ := by
  unfold XXH_PROCESS1_64
  simp only [xxh_rotl64_eq]
  exact Exec.cov (Reads.bind (g.byte s.i h) <| Reads.bind (g.pointer (s.i + 1) (by omega)) <|
    Reads.pure _) (fun a h => Or.inl h) rfl

theorem reads_process4_64 (g : ByteSource w ov cfg P b r) (f : Fine32 x aligned b) (s : Finalizing U64)
    (h : s.i + 4 ≤ r.length) (h4 : s.i % 4 = 0) :
    Reads w ov P (b.here s.i 4) 0 (XXH_PROCESS4_64 cfg x aligned b s)
      ⟨Spec.xxh64Half s.h ((r.drop s.i).take 4), s.i + 4⟩ := by
  unfold XXH_PROCESS4_64 Spec.xxh64Half
  rw [← Spec.setWidth_num32 (length_slice s.i 4 h)]
  simp only [xxh_rotl64_eq]
  exact Exec.cov (Reads.bind (g.readLE32_align f s.i h h4) <| Reads.bind (g.pointer (s.i + 4) (by omega)) <|
    Reads.pure _) (fun a h => Or.inl h) rfl

theorem reads_process8_64 (g : ByteSource w ov cfg P b r) (f : Fine64 x aligned b) (s : Finalizing U64)
    (h : s.i + 8 ≤ r.length) (h8 : s.i % 8 = 0) :
    Reads w ov P (b.here s.i 8) 0 (XXH_PROCESS8_64 cfg x aligned b s)
      ⟨Spec.xxh64Word s.h ((r.drop s.i).take 8), s.i + 8⟩ := by
  unfold XXH_PROCESS8_64
  simp only [xxh_rotl64_eq, round64_eq]
  exact Exec.cov (Reads.bind (g.readLE64_align f s.i h h8) <| Reads.bind (g.pointer (s.i + 8) (by omega)) <|
    Reads.pure _) (fun a h => Or.inl h) rfl

theorem here_nothing (b : Bytes) (i : Nat) {a : Nat} (h : b.here i 0 a) : False := by
  cases b with
  | memory p => simp only [Bytes.here, range] at h; omega
  | array l => exact h

theorem reads_finalize64_words (g : ByteSource w ov cfg P b r) (f : Fine64 x aligned b) (len : Nat) (h : U64) (i : Nat)
    (hl : i + len = r.length) (h8 : i % 8 = 0) :
    ∃ h' : U64, Reads w ov P (b.here i (8 * (len / 8))) (len / 8) (finalize64_words cfg x aligned b len ⟨h, i⟩)
        (len % 8, ⟨h', i + 8 * (len / 8)⟩) ∧
      Spec.xxh64Tail h' (r.drop (i + 8 * (len / 8))) = Spec.xxh64Tail h (r.drop i) := by
  induction len using Nat.strongRecOn generalizing h i with
  | _ len ih =>
    rw [finalize64_words]
    by_cases h1 : 8 ≤ len
    · rw [if_pos h1, Spec.xxh64Tail_word h (q := r.drop i) (by rw [List.length_drop]; omega), List.drop_drop]
      obtain ⟨h', hr, ht⟩ := ih (len - 8) (by omega) (Spec.xxh64Word h ((r.drop i).take 8)) (i + 8) (by omega)
        (by omega)
      have e : (len - 8) / 8 = len / 8 - 1 := by omega
      rw [e, show i + 8 + 8 * (len / 8 - 1) = i + 8 * (len / 8) by omega] at hr ht
      rw [show (len - 8) % 8 = len % 8 by omega] at hr
      refine ⟨h', Exec.cov (Reads.bind (Reads.iterate g.iter) <|
        Reads.bind (reads_process8_64 g f ⟨h, i⟩ (by simp only; omega) h8) hr) (fun a h => ?_) (by omega), ht⟩
      have := b.here_split 8 (by omega) h
      rw [show 8 * (len / 8) - 8 = 8 * (len / 8 - 1) by omega] at this
      exact Or.inr this
    · rw [if_neg h1, show len / 8 = 0 by omega, Nat.mod_eq_of_lt (by omega)]
      exact ⟨h, Exec.cov (Reads.pure _) (fun a h => (here_nothing b i h).elim) rfl, rfl⟩

theorem reads_finalize64_bytes (g : ByteSource w ov cfg P b r) (len : Nat) (h : U64) (i : Nat)
    (hl : i + len = r.length) (h4 : len < 4) :
    Reads w ov P (b.here i len) len (finalize64_bytes cfg b len ⟨h, i⟩) ⟨Spec.xxh64Tail h (r.drop i), r.length⟩ := by
  induction len generalizing h i with
  | zero =>
    rw [finalize64_bytes, List.drop_of_length_le (by omega), show r.length = i by omega]
    exact Exec.cov (Reads.pure _) (fun a h => (here_nothing b i h).elim) rfl
  | succ len ih =>
    rw [finalize64_bytes]
    have hr : r.drop i = r[i] :: r.drop (i + 1) := List.drop_eq_getElem_cons (by omega)
    rw [hr, Spec.xxh64Tail_byte _ _ (by rw [List.length_drop]; omega)]
    refine Exec.cov (Reads.bind (Reads.iterate g.iter) <|
      Reads.bind (reads_process1_64 g ⟨h, i⟩ (by simp only; omega)) <|
      ih _ (i + 1) (by omega) (by omega)) (fun a h => ?_) (by omega)
    exact Or.inr (b.here_split 1 (by omega) h)

/-- The steps which are needed for `len` bytes. -/
def sizes64 (len : Nat) : List Nat :=
  if 8 ≤ len then 8 :: sizes64 (len - 8)
  else if 4 ≤ len then 4 :: sizes64 (len - 4) else if 0 < len then 1 :: sizes64 (len - 1) else []
termination_by len

theorem finalize64_case_eq (len : Nat) (h : len < 32) : finalize64_case len = some (sizes64 len) := by
  interval_cases len <;> simp [sizes64, finalize64_case]

theorem reads_finalize64_steps (g : ByteSource w ov cfg P b r) (f : Fine64 x aligned b) (f4 : Fine32 x aligned b)
    (len : Nat) (h : U64) (i : Nat) (hl : i + len = r.length) (h8 : 8 ≤ len → i % 8 = 0) (h4 : 4 ≤ len → i % 4 = 0) :
    Reads w ov P (b.here i len) 0 (finalize64_steps cfg x aligned b (sizes64 len) ⟨h, i⟩)
      ⟨Spec.xxh64Tail h (r.drop i), r.length⟩ := by
  induction len using Nat.strongRecOn generalizing h i with
  | _ len ih =>
    rw [sizes64]
    have hd : (r.drop i).length = len := by rw [List.length_drop]; omega
    by_cases h0 : 8 ≤ len
    · rw [if_pos h0, Spec.xxh64Tail_word _ (by omega), List.drop_drop, finalize64_steps, if_pos rfl]
      refine Exec.cov (Reads.bind (reads_process8_64 g f ⟨h, i⟩ (by simp only; omega) (h8 h0)) <|
        ih (len - 8) (by omega) _ (i + 8) (by omega) (by omega) (by omega)) (fun a h => ?_) rfl
      exact b.here_split 8 h0 h
    rw [if_neg h0]
    by_cases h1 : 4 ≤ len
    · rw [if_pos h1, Spec.xxh64Tail_half _ (by omega) (by omega), List.drop_drop, finalize64_steps,
        if_neg (by decide), if_pos rfl]
      refine Exec.cov (Reads.bind (reads_process4_64 g f4 ⟨h, i⟩ (by simp only; omega) (h4 h1)) <|
        ih (len - 4) (by omega) _ (i + 4) (by omega) (by omega) (by omega)) (fun a h => ?_) rfl
      exact b.here_split 4 h1 h
    · rw [if_neg h1]
      by_cases h2 : 0 < len
      · rw [if_pos h2, finalize64_steps, if_neg (by decide), if_neg (by decide)]
        have hr : r.drop i = r[i] :: r.drop (i + 1) := List.drop_eq_getElem_cons (by omega)
        rw [hr, Spec.xxh64Tail_byte _ _ (by rw [List.length_drop]; omega)]
        refine Exec.cov (Reads.bind (reads_process1_64 g ⟨h, i⟩ (by simp only; omega)) <|
          ih (len - 1) (by omega) _ (i + 1) (by omega) (by omega) (by omega)) (fun a h => ?_) rfl
        exact b.here_split 1 (by omega) h
      · rw [if_neg h2, finalize64_steps]
        have h0 : len = 0 := by omega
        subst h0
        rw [List.length_eq_zero_iff.1 hd, show r.length = i by omega]
        exact Exec.cov (Reads.pure _) (fun a h => (here_nothing b i h).elim) rfl

/-- How often `XXH64_finalize` iterates. -/
def loops64 (x : Xxh) (len : Nat) : Nat := if x.reroll || x.reroll64 then len / 8 + len % 4 else 0

theorem reads_finalize64 (g : ByteSource w ov cfg P b r) (f : Fine64 x aligned b) (f4 : Fine32 x aligned b)
    (len : Nat) (h : U64) (i : Nat) (hl : i + len % 32 = r.length) (h8 : i % 8 = 0) :
    Reads w ov P (b.here i (len % 32)) (loops64 x (len % 32)) (XXH64_finalize cfg x aligned h b i len)
      (Spec.xxh64Avalanche (Spec.xxh64Tail h (r.drop i))) := by
  have h31 : len &&& 31 = len % 32 := Nat.and_two_pow_sub_one_eq_mod len 5
  unfold XXH64_finalize loops64
  rw [h31]
  cases x.reroll || x.reroll64 with
  | true =>
    rw [if_pos rfl, if_pos rfl]
    obtain ⟨h', hw, ht⟩ := reads_finalize64_words g f (len % 32) h i hl h8
    rw [← ht]
    by_cases h4 : 4 ≤ len % 32 % 8
    · refine Exec.cov (Reads.bind (C₂ := b.here (i + 8 * (len % 32 / 8)) (len % 32 % 8)) (n₂ := len % 32 % 4) hw ?_)
        (fun a h => ?_) rfl
      · simp only [if_pos h4]
        have hd : (r.drop (i + 8 * (len % 32 / 8))).length = len % 32 % 8 := by rw [List.length_drop]; omega
        rw [Spec.xxh64Tail_half _ (by omega) (by omega), List.drop_drop]
        refine Exec.cov (Reads.bind (C₂ := b.here (i + 8 * (len % 32 / 8) + 4) (len % 32 % 8 - 4))
          (n₂ := len % 32 % 8 - 4)
          (Reads.bind (reads_process4_64 g f4 ⟨h', i + 8 * (len % 32 / 8)⟩ (by simp only; omega)
            (show (i + 8 * (len % 32 / 8)) % 4 = 0 by omega)) (Reads.pure _)) ?_)
          (fun a h => ?_) (by omega)
        · exact Exec.cov (Reads.bind (reads_finalize64_bytes g _ _ _
            (show i + 8 * (len % 32 / 8) + 4 + (len % 32 % 8 - 4) = r.length by omega) (by omega)) (Reads.pure _))
            (fun a h => Or.inl h) rfl
        · rcases b.here_split 4 h4 h with h | h
          · exact Or.inl (Or.inl h)
          · exact Or.inr h
      · have := b.here_split (8 * (len % 32 / 8)) (by omega) h
        rw [show len % 32 - 8 * (len % 32 / 8) = len % 32 % 8 by omega] at this
        exact this
    · refine Exec.cov (Reads.bind (C₂ := b.here (i + 8 * (len % 32 / 8)) (len % 32 % 8)) (n₂ := len % 32 % 8) hw ?_)
        (fun a h => ?_) (by omega)
      · simp only [if_neg h4]
        refine Exec.cov (Reads.bind (C₂ := b.here (i + 8 * (len % 32 / 8)) (len % 32 % 8)) (n₂ := len % 32 % 8)
          (Reads.pure _) ?_) (fun a h => Or.inr h) (by omega)
        exact Exec.cov (Reads.bind (reads_finalize64_bytes g _ _ _ (by omega) (by omega)) (Reads.pure _))
            (fun a h => Or.inl h) rfl
      · have := b.here_split (8 * (len % 32 / 8)) (by omega) h
        rw [show len % 32 - 8 * (len % 32 / 8) = len % 32 % 8 by omega] at this
        exact this
  | false =>
    rw [if_neg (by simp), if_neg (by simp), finalize64_case_eq _ (Nat.mod_lt _ (by decide))]
    exact Exec.cov (Reads.bind (reads_finalize64_steps g f f4 _ h i hl (fun _ => h8) (fun _ => by omega))
      (Reads.pure _)) (fun a h => Or.inl h) rfl

/-! ## The loop -/

theorem reads_stripe64 (g : ByteSource w ov cfg P b r) {read : Bytes → Nat → M U64} (v : Quad) (i : Nat)
    (hr : ∀ j, j + 8 ≤ r.length → j % 8 = i % 8 →
      Reads w ov P (b.here j 8) 0 (read b j) (Spec.num ((r.drop j).take 8)))
    (h : i + 32 ≤ r.length) :
    Reads w ov P (b.here i 32) 0 (XXH64_stripe cfg read b i v) (Spec.xxh64Stripe v ((r.drop i).take 32)) := by
  have hw : ∀ j, j < 4 → Spec.word64 .little ((r.drop i).take 32) j = Spec.num ((r.drop (i + 8 * j)).take 8) := by
    intro j hj
    unfold Spec.word64 Spec.num
    rw [List.drop_take, List.drop_drop, List.take_take, Nat.min_eq_left (by omega)]
    rfl
  unfold XXH64_stripe Spec.xxh64Stripe
  simp only [round64_eq]
  rw [hw 0 (by omega), hw 1 (by omega), hw 2 (by omega), hw 3 (by omega)]
  refine Exec.cov (Reads.bind (hr i (by omega) (by omega)) <| Reads.bind (g.pointer (i + 8) (by omega)) <|
    Reads.bind (hr (i + 8) (by omega) (by omega)) <| Reads.bind (g.pointer (i + 16) (by omega)) <|
    Reads.bind (hr (i + 16) (by omega) (by omega)) <| Reads.bind (g.pointer (i + 24) (by omega)) <|
    Reads.bind (hr (i + 24) (by omega) (by omega)) <| Reads.bind (g.pointer (i + 32) (by omega)) <|
    Reads.pure _) (fun a h => ?_) rfl
  rcases b.here_split 8 (by omega) h with h | h
  · exact Or.inl h
  rcases b.here_split 8 (by omega) h with h | h
  · exact Or.inr (Or.inr (Or.inl h))
  rcases b.here_split 8 (by omega) h with h | h
  · exact Or.inr (Or.inr (Or.inr (Or.inr (Or.inl h))))
  · exact Or.inr (Or.inr (Or.inr (Or.inr (Or.inr (Or.inr (Or.inl h))))))

theorem reads_loop64 (g : ByteSource w ov cfg P b r) (f : Fine64 x aligned b) (n : Nat) (v : Quad) (i : Nat)
    (hn : (r.length - i) / 32 = n + 1) (h8 : i % 8 = 0) {fuel : Nat} (hf : n < fuel) :
    Reads w ov P (b.here i (32 * (n + 1))) (n + 1) (XXH64_loop cfg x aligned b (r.length - 32) fuel i v)
      (i + 32 * (n + 1), (chunks 32 (n + 1) (r.drop i)).foldl Spec.xxh64Stripe v) := by
  induction n generalizing v i fuel with
  | zero =>
    obtain ⟨fuel, rfl⟩ : ∃ k, fuel = k + 1 := ⟨fuel - 1, by omega⟩
    unfold XXH64_loop
    refine Exec.cov (Reads.bind (Reads.iterate g.iter) <| Reads.bind (C₂ := nowhere) (n₂ := 0)
      (reads_stripe64 g v i (fun j h1 h3 => g.readLE64_align f j h1 (by omega)) (by omega)) ?_)
      (fun a h => Or.inr (Or.inl h)) rfl
    rw [if_neg (by omega)]
    exact Reads.pure _
  | succ n ih =>
    obtain ⟨fuel, rfl⟩ : ∃ k, fuel = k + 1 := ⟨fuel - 1, by omega⟩
    unfold XXH64_loop
    refine Exec.cov (Reads.bind (Reads.iterate g.iter) <|
      Reads.bind (C₂ := b.here (i + 32) (32 * (n + 1))) (n₂ := n + 1)
      (reads_stripe64 g v i (fun j h1 h3 => g.readLE64_align f j h1 (by omega)) (by omega)) ?_)
      (fun a h => Or.inr ?_) (by omega)
    · rw [if_pos (by omega)]
      have := ih (Spec.xxh64Stripe v ((r.drop i).take 32)) (i + 32) (by omega) (by omega) (fuel := fuel) (by omega)
      rw [show i + 32 * (n + 1 + 1) = i + 32 + 32 * (n + 1) by omega,
        show chunks 32 (n + 1 + 1) (r.drop i) = (r.drop i).take 32 :: chunks 32 (n + 1) ((r.drop i).drop 32) from rfl,
        List.foldl_cons, List.drop_drop]
      exact this
    · have := b.here_split 32 (by omega) h
      rw [show 32 * (n + 1 + 1) - 32 = 32 * (n + 1) by omega] at this
      exact this

/-! ## The function -/

theorem fine64_memory {v : Nat} (h1 : aligned = true → v % 8 = 0)
    (h2 : aligned = false → x.access = .direct → x.lenient64 = true) : Fine64 x aligned (.memory v) :=
  ⟨fun h i hi => by simp only [Bytes.isAligned, beq_iff_eq]; have := h1 h; omega, h2⟩

theorem reads_endian_align64 {v : Nat} (hs : Space cfg d P lo hi) (hh : Holds w ov v r) (hlo : lo ≤ v)
    (hhi : v + r.length ≤ hi) (f : Fine64 x aligned (.memory v)) (f4 : Fine32 x aligned (.memory v)) (seed : U64) :
    Reads w ov P (range v r.length) (r.length / 32 + loops64 x (r.length % 32))
      (XXH64_endian_align cfg x aligned v r.length seed) (Spec.xxh64 r seed) := by
  have hlt := hs.hi_lt
  have g := hs.source hh hlo hhi
  unfold XXH64_endian_align Spec.xxh64 Spec.len64
  simp only []
  refine Exec.bindR (Reads.ptrAdd (by omega) (hs.ptr _ (by omega) (by omega))) ?_
  by_cases h32 : 32 ≤ r.length
  · rw [if_pos h32, if_pos h32]
    refine Exec.bindR (Reads.ptrSub (by omega) (hs.ptr _ (by omega) (by omega))) ?_
    rw [show v + r.length - 32 - v = r.length - 32 by omega]
    obtain ⟨n, hn⟩ : ∃ n, r.length / 32 = n + 1 := ⟨r.length / 32 - 1, by omega⟩
    have hl := reads_loop64 g f n (Spec.xxh64Start seed) 0 (by rw [Nat.sub_zero]; exact hn) rfl (fuel := r.length + 1)
      (by omega)
    rw [Nat.zero_add, List.drop_zero] at hl
    have hf := reads_finalize64 g f f4 r.length
      (Spec.xxh64Converge ((Spec.blocks 32 r).foldl Spec.xxh64Stripe (Spec.xxh64Start seed)) +
        BitVec.ofNat 64 r.length) (32 * (n + 1)) (by omega) (by omega)
    have hrest : Spec.rest 32 r = r.drop (32 * (n + 1)) := by unfold Spec.rest; rw [hn]
    rw [hrest]
    have h0 : seed + 0 = seed := BitVec.add_zero seed
    have hb : Spec.blocks 32 r = chunks 32 (n + 1) r := by unfold Spec.blocks; rw [hn]
    rw [hb] at hf ⊢
    simp only [converge64_eq, h0]
    refine Exec.cov (Reads.bind (C₂ := (Bytes.memory v).here (32 * (n + 1)) (r.length % 32))
      (n₂ := loops64 x (r.length % 32)) hl ?_) (fun a h => ?_) (by rw [hn])
    · dsimp only
      exact hf
    simp only [Bytes.here, range] at *
    omega
  · rw [if_neg h32, if_neg h32, Spec.rest_less (by omega)]
    have hf := reads_finalize64 g f f4 r.length (seed + Spec.xxhQ5 + BitVec.ofNat 64 r.length) 0
      (by omega) (by omega)
    rw [List.drop_zero] at hf
    exact Exec.cov hf (fun a h => by simp only [Bytes.here, range] at *; omega) (by omega)

theorem reads_xxh64 {v : Nat} (hs : Space cfg d P lo hi) (hh : Holds w ov v r) (hlo : lo ≤ v)
    (hhi : v + r.length ≤ hi) (seed : U64)
    (hx : x.access = .direct → x.lenient32 = true ∧ x.lenient64 = true ∨ x.alignCheck = true ∧ v % 8 = 0) :
    Reads w ov P (range v r.length) (r.length / 32 + loops64 x (r.length % 32)) (XXH64 cfg x v r.length seed)
      (Spec.xxh64 r seed) := by
  unfold XXH64
  by_cases h : (x.alignCheck && v % 8 == 0) = true
  · rw [if_pos h]
    rw [Bool.and_eq_true, beq_iff_eq] at h
    exact reads_endian_align64 hs hh hlo hhi (fine64_memory (fun _ => h.2) (fun h => absurd h (by simp)))
      (fine32_memory (fun _ => by omega) (fun h => absurd h (by simp))) seed
  · rw [if_neg h]
    rw [Bool.and_eq_true, beq_iff_eq] at h
    refine reads_endian_align64 hs hh hlo hhi (fine64_memory (fun h => absurd h (by simp)) (fun _ hd => ?_))
      (fine32_memory (fun h => absurd h (by simp)) (fun _ hd => ?_)) seed
    · rcases hx hd with h1 | h1
      · exact h1.2
      · exact absurd h1 h
    · rcases hx hd with h1 | h1
      · exact h1.1
      · exact absurd h1 h

end Model

end T1ha
