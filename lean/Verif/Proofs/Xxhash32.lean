import Verif.Proofs.XxhashRead

/-!
# XXH32 computes its specification
-/

namespace T1ha

/-! ## Blocks -/

namespace Spec

theorem blocks_less {k : Nat} {m : List Byte} (h : m.length < k) : blocks k m = [] := by
  unfold blocks
  rw [Nat.div_eq_of_lt h]
  rfl

theorem rest_less {k : Nat} {m : List Byte} (h : m.length < k) : rest k m = m := by
  unfold rest
  rw [Nat.div_eq_of_lt h]
  rfl

theorem blocks_more {k : Nat} {m : List Byte} (hk : 0 < k) (h : k ≤ m.length) :
    blocks k m = m.take k :: blocks k (m.drop k) := by
  unfold blocks
  rw [List.length_drop, Nat.div_eq_sub_div hk h]
  rfl

theorem rest_more {k : Nat} {m : List Byte} (hk : 0 < k) (h : k ≤ m.length) : rest k m = rest k (m.drop k) := by
  unfold rest
  rw [List.length_drop, Nat.div_eq_sub_div hk h, List.drop_drop, Nat.mul_add, Nat.add_comm, Nat.mul_one]

theorem xxh32Tail_word (h : U32) {q : List Byte} (hq : 4 ≤ q.length) :
    xxh32Tail h q = xxh32Tail (xxh32Word h (q.take 4)) (q.drop 4) := by
  unfold xxh32Tail
  rw [blocks_more (by decide) hq, rest_more (by decide) hq, List.foldl_cons]

theorem xxh32Tail_bytes (h : U32) {q : List Byte} (hq : q.length < 4) : xxh32Tail h q = q.foldl xxh32Byte h := by
  unfold xxh32Tail
  rw [blocks_less hq, rest_less hq, List.foldl_nil]

theorem xxh32Tail_byte (h : U32) (b : Byte) {q : List Byte} (hq : q.length < 3) :
    xxh32Tail h (b :: q) = xxh32Tail (xxh32Byte h b) q := by
  rw [xxh32Tail_bytes _ (by rw [List.length_cons]; omega), xxh32Tail_bytes _ (by omega), List.foldl_cons]

end Spec

namespace Model

variable {w : World} {ov : Overlay} {cfg : Cfg} {x : Xxh} {P : Ev → Prop} {lo hi d : Nat} {b : Bytes} {r : List Byte}
  {aligned : Bool}

theorem round32_eq (acc input : U32) : XXH32_round acc input = Spec.xxh32Round acc input := by
  unfold XXH32_round
  simp only [xxh_rotl32_eq]
  rfl

/-! ## The end -/

theorem reads_process1 (g : ByteSource w ov cfg P b r) (s : Finalizing U32) (h : s.i < r.length) :
    Reads w ov P (b.here s.i 1) 0 (XXH_PROCESS1 cfg b s) ⟨Spec.xxh32Byte s.h r[s.i], s.i + 1⟩ := by
  unfold XXH_PROCESS1
  simp only [xxh_rotl32_eq]
  exact Exec.cov (Reads.bind (g.byte s.i h) <| Reads.bind (g.pointer (s.i + 1) (by omega)) <|
    Reads.pure _) (fun a h => Or.inl h) rfl

theorem reads_process4 (g : ByteSource w ov cfg P b r) (f : Fine32 x aligned b) (s : Finalizing U32)
    (h : s.i + 4 ≤ r.length) (h4 : s.i % 4 = 0) :
    Reads w ov P (b.here s.i 4) 0 (XXH_PROCESS4 cfg x aligned b s)
      ⟨Spec.xxh32Word s.h ((r.drop s.i).take 4), s.i + 4⟩ := by
  unfold XXH_PROCESS4
  simp only [xxh_rotl32_eq]
  exact Exec.cov (Reads.bind (g.readLE32_align f s.i h h4) <| Reads.bind (g.pointer (s.i + 4) (by omega)) <|
    Reads.pure _) (fun a h => Or.inl h) rfl

theorem reads_finalize32_loop (g : ByteSource w ov cfg P b r) (f : Fine32 x aligned b) (len : Nat) (h : U32) (i : Nat)
    (hl : i + len = r.length) (h4 : 4 ≤ len → i % 4 = 0) :
    Reads w ov P (b.here i len) (len / 4 + len % 4) (finalize32_loop cfg x aligned b len ⟨h, i⟩)
      ⟨Spec.xxh32Tail h (r.drop i), r.length⟩ := by
  induction len using Nat.strongRecOn generalizing h i with
  | _ len ih =>
    rw [finalize32_loop]
    have hd : (r.drop i).length = len := by rw [List.length_drop]; omega
    by_cases h1 : 4 ≤ len
    · rw [if_pos h1, Spec.xxh32Tail_word _ (by omega), List.drop_drop]
      refine Exec.cov (Reads.bind (Reads.iterate g.iter) <|
        Reads.bind (reads_process4 g f ⟨h, i⟩ (by simp only; omega) (h4 h1)) <|
        ih (len - 4) (by omega) _ (i + 4) (by omega) (by omega)) (fun a h => ?_) (by omega)
      exact Or.inr (b.here_split 4 h1 h)
    · rw [if_neg h1]
      by_cases h2 : 0 < len
      · rw [if_pos h2]
        have hr : r.drop i = r[i] :: r.drop (i + 1) := List.drop_eq_getElem_cons (by omega)
        rw [hr, Spec.xxh32Tail_byte _ _ (by rw [List.length_drop]; omega)]
        refine Exec.cov (Reads.bind (Reads.iterate g.iter) <|
          Reads.bind (reads_process1 g ⟨h, i⟩ (by simp only; omega)) <|
          ih (len - 1) (by omega) _ (i + 1) (by omega) (by omega)) (fun a h => ?_) (by omega)
        exact Or.inr (b.here_split 1 (by omega) h)
      · rw [if_neg h2]
        have h0 : len = 0 := by omega
        subst h0
        rw [List.length_eq_zero_iff.1 hd, show r.length = i by omega]
        refine Exec.cov (Reads.pure _) (fun a h => ?_) rfl
        cases b with
        | memory p => simp only [Bytes.here, range] at h; omega
        | array l => exact h

/-- The steps which are needed for `len` bytes. -/
def sizes32 (len : Nat) : List Nat :=
  if 4 ≤ len then 4 :: sizes32 (len - 4) else if 0 < len then 1 :: sizes32 (len - 1) else []
termination_by len

theorem finalize32_case_eq (len : Nat) (h : len < 16) : finalize32_case len = some (sizes32 len) := by
  interval_cases len <;> simp [sizes32, finalize32_case]

theorem reads_finalize32_steps (g : ByteSource w ov cfg P b r) (f : Fine32 x aligned b) (len : Nat) (h : U32) (i : Nat)
    (hl : i + len = r.length) (h4 : 4 ≤ len → i % 4 = 0) :
    Reads w ov P (b.here i len) 0 (finalize32_steps cfg x aligned b (sizes32 len) ⟨h, i⟩)
      ⟨Spec.xxh32Tail h (r.drop i), r.length⟩ := by
  induction len using Nat.strongRecOn generalizing h i with
  | _ len ih =>
    rw [sizes32]
    have hd : (r.drop i).length = len := by rw [List.length_drop]; omega
    by_cases h1 : 4 ≤ len
    · rw [if_pos h1, Spec.xxh32Tail_word _ (by omega), List.drop_drop, finalize32_steps, if_pos rfl]
      refine Exec.cov (Reads.bind (reads_process4 g f ⟨h, i⟩ (by simp only; omega) (h4 h1)) <|
        ih (len - 4) (by omega) _ (i + 4) (by omega) (by omega)) (fun a h => ?_) rfl
      exact b.here_split 4 h1 h
    · rw [if_neg h1]
      by_cases h2 : 0 < len
      · rw [if_pos h2, finalize32_steps, if_neg (by decide)]
        have hr : r.drop i = r[i] :: r.drop (i + 1) := List.drop_eq_getElem_cons (by omega)
        rw [hr, Spec.xxh32Tail_byte _ _ (by rw [List.length_drop]; omega)]
        refine Exec.cov (Reads.bind (reads_process1 g ⟨h, i⟩ (by simp only; omega)) <|
          ih (len - 1) (by omega) _ (i + 1) (by omega) (by omega)) (fun a h => ?_) rfl
        exact b.here_split 1 (by omega) h
      · rw [if_neg h2, finalize32_steps]
        have h0 : len = 0 := by omega
        subst h0
        rw [List.length_eq_zero_iff.1 hd, show r.length = i by omega]
        refine Exec.cov (Reads.pure _) (fun a h => ?_) rfl
        cases b with
        | memory p => simp only [Bytes.here, range] at h; omega
        | array l => exact h

/-- How often `XXH32_finalize` iterates. -/
def loops32 (x : Xxh) (len : Nat) : Nat := if x.reroll then len / 4 + len % 4 else 0

theorem reads_finalize32 (g : ByteSource w ov cfg P b r) (f : Fine32 x aligned b) (len : Nat) (h : U32) (i : Nat)
    (hl : i + len % 16 = r.length) (h4 : i % 4 = 0) :
    Reads w ov P (b.here i (len % 16)) (loops32 x (len % 16)) (XXH32_finalize cfg x aligned h b i len)
      (Spec.xxh32Avalanche (Spec.xxh32Tail h (r.drop i))) := by
  have h15 : len &&& 15 = len % 16 := Nat.and_two_pow_sub_one_eq_mod len 4
  unfold XXH32_finalize loops32
  rw [h15]
  cases x.reroll with
  | true =>
    rw [if_pos rfl, if_pos rfl]
    exact Exec.cov (Reads.bind (reads_finalize32_loop g f _ h i hl (fun _ => h4)) (Reads.pure _))
      (fun a h => Or.inl h) rfl
  | false =>
    rw [if_neg (by simp), if_neg (by simp), finalize32_case_eq _ (Nat.mod_lt _ (by decide))]
    exact Exec.cov (Reads.bind (reads_finalize32_steps g f _ h i hl (fun _ => h4)) (Reads.pure _))
      (fun a h => Or.inl h) rfl

/-! ## The loop -/

theorem reads_stripe32 (g : ByteSource w ov cfg P b r) {read : Bytes → Nat → M U32} (v : Quad32) (i : Nat)
    (hr : ∀ j, j + 4 ≤ r.length → (i - j) % 4 = 0 → j % 4 = i % 4 →
      Reads w ov P (b.here j 4) 0 (read b j) (Spec.num32 ((r.drop j).take 4)))
    (h : i + 16 ≤ r.length) :
    Reads w ov P (b.here i 16) 0 (XXH32_stripe cfg read b i v) (Spec.xxh32Stripe v ((r.drop i).take 16)) := by
  have hw : ∀ j, j < 4 → Spec.word32 .little ((r.drop i).take 16) j = Spec.num32 ((r.drop (i + 4 * j)).take 4) := by
    intro j hj
    unfold Spec.word32 Spec.num32
    rw [List.drop_take, List.drop_drop, List.take_take, Nat.min_eq_left (by omega)]
    rfl
  unfold XXH32_stripe Spec.xxh32Stripe
  simp only [round32_eq]
  rw [hw 0 (by omega), hw 1 (by omega), hw 2 (by omega), hw 3 (by omega)]
  refine Exec.cov (Reads.bind (hr i (by omega) (by omega) (by omega)) <| Reads.bind (g.pointer (i + 4) (by omega)) <|
    Reads.bind (hr (i + 4) (by omega) (by omega) (by omega)) <| Reads.bind (g.pointer (i + 8) (by omega)) <|
    Reads.bind (hr (i + 8) (by omega) (by omega) (by omega)) <| Reads.bind (g.pointer (i + 12) (by omega)) <|
    Reads.bind (hr (i + 12) (by omega) (by omega) (by omega)) <| Reads.bind (g.pointer (i + 16) (by omega)) <|
    Reads.pure _) (fun a h => ?_) rfl
  rcases b.here_split 4 (by omega) h with h | h
  · exact Or.inl h
  rcases b.here_split 4 (by omega) h with h | h
  · exact Or.inr (Or.inr (Or.inl h))
  rcases b.here_split 4 (by omega) h with h | h
  · exact Or.inr (Or.inr (Or.inr (Or.inr (Or.inl h))))
  · exact Or.inr (Or.inr (Or.inr (Or.inr (Or.inr (Or.inr (Or.inl h))))))

theorem reads_loop32 (g : ByteSource w ov cfg P b r) (f : Fine32 x aligned b) (n : Nat) (v : Quad32) (i : Nat)
    (hn : (r.length - i) / 16 = n + 1) (h4 : i % 4 = 0) {fuel : Nat} (hf : n < fuel) :
    Reads w ov P (b.here i (16 * (n + 1))) (n + 1) (XXH32_loop cfg x aligned b (r.length - 15) fuel i v)
      (i + 16 * (n + 1), (chunks 16 (n + 1) (r.drop i)).foldl Spec.xxh32Stripe v) := by
  have hs := fun v => reads_stripe32 g (read := XXH_readLE32_align cfg x aligned) v i
    (fun j h1 _ h3 => g.readLE32_align f j h1 (by omega)) (by omega)
  induction n generalizing v i fuel with
  | zero =>
    obtain ⟨fuel, rfl⟩ : ∃ k, fuel = k + 1 := ⟨fuel - 1, by omega⟩
    unfold XXH32_loop
    refine Exec.cov (Reads.bind (Reads.iterate g.iter) <| Reads.bind (C₂ := nowhere) (n₂ := 0) (hs v) ?_)
      (fun a h => Or.inr (Or.inl h)) rfl
    rw [if_neg (by omega)]
    exact Reads.pure _
  | succ n ih =>
    obtain ⟨fuel, rfl⟩ : ∃ k, fuel = k + 1 := ⟨fuel - 1, by omega⟩
    unfold XXH32_loop
    refine Exec.cov (Reads.bind (Reads.iterate g.iter) <|
      Reads.bind (C₂ := b.here (i + 16) (16 * (n + 1))) (n₂ := n + 1) (hs v) ?_)
      (fun a h => Or.inr ?_) (by omega)
    · rw [if_pos (by omega)]
      have := ih (Spec.xxh32Stripe v ((r.drop i).take 16)) (i + 16) (by omega) (by omega) (fuel := fuel) (by omega)
        (fun v => reads_stripe32 g (read := XXH_readLE32_align cfg x aligned) v (i + 16)
          (fun j h1 _ h3 => g.readLE32_align f j h1 (by omega)) (by omega))
      rw [show i + 16 * (n + 1 + 1) = i + 16 + 16 * (n + 1) by omega,
        show chunks 16 (n + 1 + 1) (r.drop i) = (r.drop i).take 16 :: chunks 16 (n + 1) ((r.drop i).drop 16) from rfl,
        List.foldl_cons, List.drop_drop]
      exact this
    · have := b.here_split 16 (by omega) h
      rw [show 16 * (n + 1 + 1) - 16 = 16 * (n + 1) by omega] at this
      exact this

/-! ## The function -/

theorem fine32_memory {v : Nat} (h1 : aligned = true → v % 4 = 0)
    (h2 : aligned = false → x.access = .direct → x.lenient32 = true) : Fine32 x aligned (.memory v) :=
  ⟨fun h i hi => by simp only [Bytes.isAligned, beq_iff_eq]; have := h1 h; omega, h2⟩

theorem reads_endian_align32 {v : Nat} (hs : Space cfg d P lo hi) (hh : Holds w ov v r) (hlo : lo ≤ v)
    (hhi : v + r.length ≤ hi) (f : Fine32 x aligned (.memory v)) (seed : U32) :
    Reads w ov P (range v r.length) (r.length / 16 + loops32 x (r.length % 16))
      (XXH32_endian_align cfg x aligned v r.length seed) (Spec.xxh32 r seed) := by
  have hlt := hs.hi_lt
  have g := hs.source hh hlo hhi
  have h15 : r.length &&& 15 = r.length % 16 := Nat.and_two_pow_sub_one_eq_mod _ 4
  unfold XXH32_endian_align Spec.xxh32
  simp only []
  refine Exec.bindR (Reads.ptrAdd (by omega) (hs.ptr _ (by omega) (by omega))) ?_
  rw [h15]
  by_cases h16 : 16 ≤ r.length
  · rw [if_pos h16, if_pos h16]
    refine Exec.bindR (Reads.ptrSub (by omega) (hs.ptr _ (by omega) (by omega))) ?_
    rw [show v + r.length - 15 - v = r.length - 15 by omega]
    obtain ⟨n, hn⟩ : ∃ n, r.length / 16 = n + 1 := ⟨r.length / 16 - 1, by omega⟩
    have hl := reads_loop32 g f n (Spec.xxh32Start seed) 0 (by rw [Nat.sub_zero]; exact hn) rfl (fuel := r.length + 1)
      (by omega)
    rw [Nat.zero_add, List.drop_zero] at hl
    have hf := reads_finalize32 g f (r.length % 16)
      (Spec.xxh32Converge ((Spec.blocks 16 r).foldl Spec.xxh32Stripe (Spec.xxh32Start seed)) +
        BitVec.ofNat 32 r.length) (16 * (n + 1)) (by omega) (by omega)
    rw [Nat.mod_mod] at hf
    have hrest : Spec.rest 16 r = r.drop (16 * (n + 1)) := by unfold Spec.rest; rw [hn]
    rw [hrest]
    have h0 : seed + 0 = seed := BitVec.add_zero seed
    have hb : Spec.blocks 16 r = chunks 16 (n + 1) r := by unfold Spec.blocks; rw [hn]
    rw [hb] at hf ⊢
    simp only [xxh_rotl32_eq, h0]
    refine Exec.cov (Reads.bind (C₂ := (Bytes.memory v).here (16 * (n + 1)) (r.length % 16))
      (n₂ := loops32 x (r.length % 16)) hl hf) (fun a h => ?_) (by rw [hn])
    simp only [Bytes.here, range] at *
    omega
  · rw [if_neg h16, if_neg h16, Spec.rest_less (by omega)]
    have hf := reads_finalize32 g f (r.length % 16) (seed + Spec.xxhP5 + BitVec.ofNat 32 r.length) 0
      (by omega) (by omega)
    rw [Nat.mod_mod, List.drop_zero] at hf
    exact Exec.cov hf (fun a h => by simp only [Bytes.here, range] at *; omega) (by omega)

theorem reads_xxh32 {v : Nat} (hs : Space cfg d P lo hi) (hh : Holds w ov v r) (hlo : lo ≤ v)
    (hhi : v + r.length ≤ hi) (seed : U32)
    (hx : x.access = .direct → x.lenient32 = true ∨ x.alignCheck = true ∧ v % 4 = 0) :
    Reads w ov P (range v r.length) (r.length / 16 + loops32 x (r.length % 16)) (XXH32 cfg x v r.length seed)
      (Spec.xxh32 r seed) := by
  unfold XXH32
  by_cases h : (x.alignCheck && v % 4 == 0) = true
  · rw [if_pos h]
    rw [Bool.and_eq_true, beq_iff_eq] at h
    exact reads_endian_align32 hs hh hlo hhi (fine32_memory (fun _ => h.2) (fun h => absurd h (by simp))) seed
  · rw [if_neg h]
    refine reads_endian_align32 hs hh hlo hhi (fine32_memory (fun h => absurd h (by simp)) (fun _ hd => ?_)) seed
    rw [Bool.and_eq_true, beq_iff_eq] at h
    rcases hx hd with h1 | h1
    · exact h1
    · exact absurd h1 h

end Model

end T1ha
