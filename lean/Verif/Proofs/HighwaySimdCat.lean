import Verif.Proofs.HighwaySimdBuffer
import Verif.Proofs.HighwayCat

/-!
# HighwayHash with SSE4.1 and AVX2 computes its specification: the templates
-/

namespace T1ha.Model

open X86
open Spec (Highway)

variable {w : World} {ov : Overlay} {cfg : Cfg} {d : Nat} {P : Ev → Prop} {lo hi : Nat} {strict : Bool} {σ : Type}

/-- A class of the state does what the specification says: the state `rep s` stands for `s`, and copying `n` bytes takes
`cost n` iterations. -/
structure Refines (T : HHState σ) (rep : Highway → σ) (cost : Nat → Nat) : Prop where
  reset : ∀ key, T.Reset key = rep (Spec.highwayStart key)
  update : ∀ {w ov cfg P strict b r C}, Yields w ov cfg P strict b r C → r.length = 32 → ∀ s,
    Reads w ov P (span C 0 32) 0 (T.Update cfg strict b (rep s)) (rep (Spec.highwayPacket s r))
  remainder : ∀ {w ov cfg P strict b r C}, Yields w ov cfg P strict b r C → 0 < r.length → r.length < 32 → ∀ s,
    Reads w ov P (span C 0 r.length) 0 (T.UpdateRemainder cfg strict b r.length (rep s))
      (rep (Spec.highwayRemainder Spec.highwayPadded s r))
  copy : ∀ {w ov cfg P strict v r C}, Yields w ov cfg P strict (.memory v) r C → r.length < 32 →
    ∀ buffer : List Byte, buffer.length = 32 →
    Exec w ov P (span C 0 r.length) (cost r.length) (T.CopyPartial cfg strict v r.length buffer)
      (fun b' o => o = ov ∧ b'.length = 32 ∧ b'.take r.length = r)
  append : ∀ {w ov cfg P strict v r C}, Yields w ov cfg P strict (.memory v) r C → ∀ u, u + r.length < 32 →
    ∀ buffer : List Byte, buffer.length = 32 →
    Exec w ov P (span C 0 r.length) (cost r.length) (T.AppendPartial cfg strict v r.length buffer u)
      (fun b' o => o = ov ∧ b'.length = 32 ∧ b'.take (u + r.length) = buffer.take u ++ r)
  fill : ∀ {w ov cfg P strict v r C}, Yields w ov cfg P strict (.memory v) r C → ∀ u, 0 < u → u < 32 →
    u + r.length = 32 → ∀ buffer : List Byte, buffer.length = 32 → ∀ s,
    Reads w ov P (span C 0 r.length) (cost 32) (T.AppendAndUpdate cfg strict v r.length buffer u (rep s))
      (rep (Spec.highwayPacket s (buffer.take u ++ r)))
  finalize64 : ∀ s, T.Finalize64 (rep s) = Spec.highwayResult64 s
  finalize128 : ∀ s, T.Finalize128 (rep s) = Spec.highwayResult128 s
  finalize256 : ∀ s, T.Finalize256 (rep s) = Spec.highwayResult256 s

theorem refines_sse41 : Refines sse41 repSse (fun n => n) where
  reset := ResetSse
  update := reads_UpdateSse
  remainder := reads_RemainderSse
  copy := copySse
  append := appendSse
  fill g u _ _ := appendUpdateSse g u
  finalize64 := finalize64Sse
  finalize128 := finalize128Sse
  finalize256 := finalize256Sse

theorem refines_avx2 : Refines avx2 repAvx (fun _ => 0) where
  reset := ResetAvx
  update := reads_UpdateAvx
  remainder := reads_RemainderAvx
  copy := copyAvx
  append := appendAvx
  fill := appendUpdateAvx
  finalize64 := finalize64Avx
  finalize128 := finalize128Avx
  finalize256 := finalize256Avx

section

variable {T : HHState σ} {rep : Highway → σ} {cost : Nat → Nat}

theorem simd_hashLoop (t : Refines T rep cost) (hs : Space cfg d P lo hi) {data size : Nat} (hsz : size + 32 < 2 ^ cfg.bits)
    (n : Nat) (i : Nat) (r : List Byte) (s : Highway) (hh : Holds w ov (data + i) r) (hlo : lo ≤ data)
    (hhi : data + i + r.length ≤ hi) (hi' : i + 32 * n ≤ size) (hn : 32 * n ≤ r.length) {fuel : Nat} (hf : n < fuel) :
    Reads w ov P (range (data + i) (32 * n)) n
      (HighwaySimd.hashLoop T cfg strict data (i + 32 * n) fuel i (rep s))
      (rep ((chunks 32 n r).foldl Spec.highwayPacket s)) := by
  have hlt := hs.hi_lt
  induction n generalizing i r s fuel with
  | zero =>
    obtain ⟨fuel, rfl⟩ : ∃ k, fuel = k + 1 := ⟨fuel - 1, by omega⟩
    unfold HighwaySimd.hashLoop
    rw [if_neg (by omega)]
    exact Exec.cov (Reads.pure _) (fun a h => by simp only [range] at h; omega) rfl
  | succ n ih =>
    obtain ⟨fuel, rfl⟩ : ∃ k, fuel = k + 1 := ⟨fuel - 1, by omega⟩
    unfold HighwaySimd.hashLoop
    have hsa : szAdd cfg i 32 = i + 32 := by rw [szAdd, Nat.mod_eq_of_lt (by omega)]
    rw [hsa, if_pos (by omega)]
    have hd : (r.drop 32).length = r.length - 32 := List.length_drop
    have ht : (r.take 32).length = 32 := by rw [List.length_take]; omega
    have hg : Yields w ov cfg P strict (.memory (data + i)) (r.take 32) (fun j => range (data + i + j) 1) :=
      gives_memory hs (hh.take 32) (by omega) (by omega)
    have := ih (i + 32) (r.drop 32) (Spec.highwayPacket s (r.take 32)) (by rw [← Nat.add_assoc]; exact hh.drop 32)
      (by omega) (by omega) (by omega) (fuel := fuel) (by omega)
    rw [show i + 32 * (n + 1) = i + 32 + 32 * n by omega,
      show chunks 32 (n + 1) r = r.take 32 :: chunks 32 n (r.drop 32) from rfl, List.foldl_cons]
    refine Exec.cov (Reads.bind (Reads.iterate hs.iter) <| Reads.bind
      (Reads.ptrAdd (by omega) (hs.ptr _ (by omega) (by omega))) <|
      Reads.bind (t.update hg ht s) this) (fun a h => ?_) (by omega)
    by_cases ha : a < data + i + 32
    · exact Or.inr (Or.inr (Or.inl (span_range _ _ _ (by simp only [range] at *; omega))))
    · exact Or.inr (Or.inr (Or.inr (by simp only [range] at *; omega)))

theorem simd_HighwayHashT (t : Refines T rep cost) (hs : Space cfg d P lo hi) {data : Nat} {m : List Byte}
    (hh : Holds w ov data m) (hlo : lo ≤ data) (hhi : data + m.length ≤ hi) (hsz : m.length + 32 < 2 ^ cfg.bits) (key : Quad) :
    Reads w ov P (range data m.length) (m.length / 32)
      (HighwaySimd.HighwayHashT T cfg strict (T.Reset key) data m.length)
      (rep (Spec.highwayAll key m)) := by
  have hlt := hs.hi_lt
  unfold HighwaySimd.HighwayHashT Spec.highwayAll Spec.highwayAbsorb
  rw [t.reset]
  have hloop := simd_hashLoop (strict := strict) t hs hsz (m.length / 32) 0 m (Spec.highwayStart key) hh hlo hhi (by omega)
    (by omega) (fuel := m.length + 1) (by omega)
  rw [Nat.zero_add] at hloop
  simp only [truncated_eq cfg m.length (by omega), show 32 - 1 = 31 from rfl, and_31]
  by_cases h0 : m.length % 32 = 0
  · simp only [if_neg (by simp [h0] : ¬ m.length % 32 ≠ 0), if_pos ((rest_eq_nil m).2 h0)]
    refine Exec.cov (Reads.bind hloop (Reads.pure _)) (fun a h => Or.inl ?_) (by omega)
    simp only [range] at *; omega
  · simp only [if_pos (by simp [h0] : m.length % 32 ≠ 0), if_neg (mt (rest_eq_nil m).1 h0)]
    have hr := length_rest 32 m
    have hg : Yields w ov cfg P strict (.memory (data + 32 * (m.length / 32))) (Spec.rest 32 m)
        (fun j => range (data + 32 * (m.length / 32) + j) 1) :=
      gives_memory hs (hh.drop _) (by omega) (by omega)
    rw [← hr]
    rw [← hr] at h0
    refine Exec.cov (Reads.bind hloop <| Reads.bind (Reads.ptrAdd (by omega) (hs.ptr _ (by omega) (by omega))) <|
      t.remainder hg (by omega) (by rw [hr]; omega) _) (fun a h => ?_) (by omega)
    by_cases ha : a < data + 32 * (m.length / 32)
    · exact Or.inl (by simp only [range] at *; omega)
    · exact Or.inr (Or.inr (span_range _ _ _ (by simp only [range] at *; omega)))

/-! ## Appending -/

/-- Only the kept bytes of the packet matter. -/
theorem Kept.keep' {key : Quad} {m : List Byte} {state : Highway} {packet : List Byte} {num : Nat}
    (f : Kept key m state packet num) (x packet' : List Byte) (h : num + x.length < 32) (hp : packet'.length = 32)
    (ht : packet'.take (num + x.length) = packet.take num ++ x) :
    Kept key (m ++ x) state packet' (num + x.length) := by
  have hk := f.keep x h
  refine ⟨hp, hk.count, hk.state, ?_⟩
  rw [ht, ← take_splice packet num x (by rw [f.length]; omega), hk.packet]

theorem Kept.long' {key : Quad} {m : List Byte} {state : Highway} {packet : List Byte}
    (f : Kept key m state packet 0) (x packet' : List Byte) (hp : packet'.length = 32)
    (ht : packet'.take (x.length % 32) = x.drop (32 * (x.length / 32))) :
    Kept key (m ++ x) ((chunks 32 (x.length / 32) x).foldl Spec.highwayPacket state) packet' (x.length % 32) := by
  have hk := f.long x packet' hp
  have hd : (x.drop (32 * (x.length / 32))).length = x.length % 32 := by rw [List.length_drop]; omega
  refine ⟨hp, hk.count, hk.state, ?_⟩
  have h2 := take_splice packet' 0 (x.drop (32 * (x.length / 32))) (by omega)
  rw [Nat.zero_add, List.take_zero, List.nil_append, hd] at h2
  rw [ht, ← h2, hk.packet]

/-- What `HighwayHashCatT` keeps. -/
def KeptBy (rep : Highway → σ) (key : Quad) (m : List Byte) (st : HighwaySimd.HighwayHashCatT σ) : Prop :=
  ∃ s, st.state = rep s ∧ Kept key m s st.buffer st.usage

theorem simd_catLoop (t : Refines T rep cost) (hs : Space cfg d P lo hi) (n : Nat) {v : Nat}
    {r : List Byte} (s : Highway) (hh : Holds w ov v r) (hlo : lo ≤ v)
    (hhi : v + r.length ≤ hi) (hn : r.length / 32 = n) {fuel : Nat} (hf : n < fuel) :
    Reads w ov P (range v (32 * n)) n (HighwaySimd.catLoop T cfg strict fuel v r.length (rep s))
      (rep ((chunks 32 n r).foldl Spec.highwayPacket s), v + 32 * n, r.length % 32) := by
  have hlt := hs.hi_lt
  induction n generalizing v r s fuel with
  | zero =>
    obtain ⟨fuel, rfl⟩ : ∃ k, fuel = k + 1 := ⟨fuel - 1, by omega⟩
    unfold HighwaySimd.catLoop
    rw [if_neg (by omega), show r.length % 32 = r.length by omega]
    exact Exec.cov (Reads.pure _) (fun a h => by simp only [range] at h; omega) rfl
  | succ n ih =>
    obtain ⟨fuel, rfl⟩ : ∃ k, fuel = k + 1 := ⟨fuel - 1, by omega⟩
    unfold HighwaySimd.catLoop
    rw [if_pos (by omega)]
    have hd : (r.drop 32).length = r.length - 32 := List.length_drop
    have ht : (r.take 32).length = 32 := by rw [List.length_take]; omega
    have hg : Yields w ov cfg P strict (.memory v) (r.take 32) (fun j => range (v + j) 1) :=
      gives_memory hs (hh.take 32) (by omega) (by omega)
    have := ih (v := v + 32) (r := r.drop 32) (Spec.highwayPacket s (r.take 32)) (hh.drop 32)
      (by omega) (by omega) (by omega) (fuel := fuel) (by omega)
    rw [show v + 32 * (n + 1) = v + 32 + 32 * n by omega,
      show chunks 32 (n + 1) r = r.take 32 :: chunks 32 n (r.drop 32) from rfl, List.foldl_cons]
    rw [hd, show (r.length - 32) % 32 = r.length % 32 by omega] at this
    refine Exec.cov (Reads.bind (Reads.iterate hs.iter) <| Reads.bind (t.update hg ht s) <| Reads.bind
      (Reads.ptrAdd (by omega) (hs.ptr _ (by omega) (by omega))) this) (fun a h => ?_) (by omega)
    by_cases ha : a < v + 32
    · exact Or.inr (Or.inl (span_range _ _ _ (by simp only [range] at *; omega)))
    · exact Or.inr (Or.inr (Or.inr (by simp only [range] at *; omega)))

/-- The iterations of `Append` when copying `n` bytes takes `cost n`. -/
def catLoopsSimd (cost : Nat → Nat) (n l : Nat) : Nat :=
  let tail := fun k => k / 32 + if k % 32 = 0 then 0 else cost (k % 32)
  if l < 32 - n then cost l
  else if n = 0 then tail l
  else cost 32 + tail (l - (32 - n))

theorem simd_catAppend (t : Refines T rep cost) (hs : Space cfg d P lo hi) {data : Nat} {m x : List Byte} {key : Quad}
    {st : HighwaySimd.HighwayHashCatT σ} (hh : Holds w ov data x) (hlo : lo ≤ data) (hhi : data + x.length ≤ hi)
    (f : KeptBy rep key m st) :
    Exec w ov P (range data x.length) (catLoopsSimd cost (m.length % 32) x.length)
      (HighwaySimd.catAppend T cfg strict data x.length st)
      (fun r o => o = ov ∧ KeptBy rep key (m ++ x) r) := by
  obtain ⟨s, hst, f⟩ := f
  have hlt := hs.hi_lt
  have hbits := bits_ge_32 cfg
  have hn := f.count
  have hpl := f.length
  unfold HighwaySimd.catAppend catLoopsSimd
  rw [← f.count]
  have hroom : szSub cfg 32 st.usage = 32 - st.usage := by
    unfold szSub
    rw [show 2 ^ cfg.bits + 32 - st.usage = 2 ^ cfg.bits + (32 - st.usage) by omega, Nat.add_mod_left,
      Nat.mod_eq_of_lt (by omega)]
  simp only [hroom, hst]
  have hg : ∀ j, j ≤ x.length → Yields w ov cfg P strict (.memory (data + j)) (x.drop j) (fun i => range (data + j + i) 1) :=
    fun j hj => gives_memory hs (hh.drop _) (by omega) (by rw [List.length_drop]; omega)
  by_cases hsmall : x.length < 32 - st.usage
  · rw [if_pos hsmall, if_pos hsmall]
    have hc := t.append (hg 0 (by omega)) st.usage (by rw [List.drop_zero]; omega) st.buffer hpl
    rw [List.drop_zero, Nat.add_zero] at hc
    refine Exec.cov (Exec.bind (C₂ := nowhere) (n₂ := 0) hc ?_) (fun a h => Or.inl (span_range _ _ _ h)) rfl
    rintro b' o ⟨rfl, h1, h2⟩
    refine Exec.post (Reads.pure _) ?_
    rintro r o ⟨rfl, rfl⟩
    have hsa : szAdd cfg st.usage x.length = st.usage + x.length := by rw [szAdd, Nat.mod_eq_of_lt (by omega)]
    refine ⟨rfl, s, rfl, ?_⟩
    simp only [hsa]
    exact f.keep' x b' (by omega) h1 h2
  · rw [if_neg hsmall, if_neg hsmall]
    -- what follows when the packet has been filled up with `k` bytes
    have hrest : ∀ (k : Nat) (s : Highway), k ≤ x.length → Kept key (m ++ x.take k) s st.buffer 0 →
        Exec w ov P (range (data + k) (x.length - k))
          ((x.length - k) / 32 + if (x.length - k) % 32 = 0 then 0 else cost ((x.length - k) % 32))
          (do
            let (s, bytes, num_bytes) ← HighwaySimd.catLoop T cfg strict (x.length - k + 1) (data + k) (x.length - k) (rep s)
            let buffer ← (if num_bytes ≠ 0 then T.CopyPartial cfg strict bytes num_bytes st.buffer else pure st.buffer)
            pure ({ buffer := buffer, state := s, usage := num_bytes } : HighwaySimd.HighwayHashCatT σ))
          (fun r o => o = ov ∧ KeptBy rep key (m ++ x) r) := by
      intro k s hk f'
      have hd : (x.drop k).length = x.length - k := List.length_drop
      have hloop := simd_catLoop (strict := strict) t hs ((x.length - k) / 32) (v := data + k) (r := x.drop k) s (hh.drop _)
        (by omega) (by omega) (by omega) (fuel := x.length - k + 1) (by omega)
      rw [hd] at hloop
      have hfin := f'.long' (x.drop k)
      rw [hd, List.append_assoc, List.take_append_drop] at hfin
      refine Exec.cov (Reads.bind (C₂ := range (data + k + 32 * ((x.length - k) / 32)) ((x.length - k) % 32))
        (n₂ := if (x.length - k) % 32 = 0 then 0 else cost ((x.length - k) % 32)) hloop ?_)
        (fun a h => by simp only [range] at *; omega) rfl
      simp only []
      by_cases h0 : (x.length - k) % 32 = 0
      · simp only [if_neg (by simp [h0] : ¬ (x.length - k) % 32 ≠ 0), pure_bind, if_pos h0]
        refine Exec.cov (Exec.post (Reads.pure _) ?_) (fun a h => by simp only [range] at h; omega) (by omega)
        rintro r o ⟨rfl, rfl⟩
        refine ⟨rfl, _, rfl, hfin st.buffer hpl ?_⟩
        rw [h0, List.take_zero, List.drop_of_length_le (by omega)]
      · simp only [if_pos (by simp [h0] : (x.length - k) % 32 ≠ 0), if_neg h0]
        have hlr : (x.drop (k + 32 * ((x.length - k) / 32))).length = (x.length - k) % 32 := by
          rw [List.length_drop]; omega
        have hc := t.copy (hg (k + 32 * ((x.length - k) / 32)) (by omega)) (by omega) st.buffer hpl
        rw [hlr, ← List.drop_drop, ← Nat.add_assoc data] at hc
        refine Exec.cov (Exec.bind (C₂ := nowhere) (n₂ := 0) hc ?_) (fun a h => Or.inl (span_range _ _ _ h)) rfl
        rintro b' o ⟨rfl, h1, h2⟩
        refine Exec.post (Reads.pure _) ?_
        rintro r o ⟨rfl, rfl⟩
        exact ⟨rfl, _, rfl, hfin b' h1 h2⟩
    by_cases h0 : st.usage = 0
    · simp only [if_neg (by simp [h0] : ¬ st.usage ≠ 0), pure_bind, if_pos h0]
      have f' := f
      rw [h0] at f'
      have := hrest 0 s (by omega) (by rw [List.take_zero, List.append_nil]; exact f')
      simpa only [Nat.sub_zero, Nat.add_zero] using this
    · simp only [if_pos (by simp [h0] : st.usage ≠ 0), bind_assoc, pure_bind, if_neg h0]
      have hk : (x.take (32 - st.usage)).length = 32 - st.usage := by rw [List.length_take]; omega
      have hau := t.fill (strict := strict) (gives_memory hs (hh.take (32 - st.usage)) hlo (by omega)) st.usage (by omega)
        (by omega) (by omega) st.buffer hpl s
      rw [hk, f.packet] at hau
      have hfull := f.full (x.take (32 - st.usage)) (by omega) st.buffer hpl
      refine Exec.cov (Reads.bind hau <| Exec.bindR (Reads.ptrAdd (by omega) (hs.ptr _ (by omega) (by omega))) <|
        hrest (32 - st.usage) _ (by omega) hfull) (fun a h => ?_) rfl
      by_cases ha : a < data + (32 - st.usage)
      · exact Or.inl (span_range _ _ _ (by simp only [range] at *; omega))
      · exact Or.inr (by simp only [range] at *; omega)

theorem simd_new (t : Refines T rep cost) (key : Quad) : KeptBy rep key [] (HighwaySimd.catNew T key) :=
  ⟨_, t.reset key, rfl, rfl, rfl, rfl⟩

theorem simd_reset (t : Refines T rep cost) (key : Quad) (st : HighwaySimd.HighwayHashCatT σ) (h : st.buffer.length = 32) :
    KeptBy rep key [] (HighwaySimd.catReset T key st) :=
  ⟨_, t.reset key, h, rfl, rfl, rfl⟩

theorem simd_catCopy (t : Refines T rep cost) (hP : P .iter) {m : List Byte} {key : Quad} {st : HighwaySimd.HighwayHashCatT σ}
    (f : KeptBy rep key m st) :
    Reads w ov P nowhere 0 (HighwaySimd.catCopy T cfg strict st) (rep (Spec.highwayAll key m)) := by
  obtain ⟨s, hst, f⟩ := f
  have hbits := bits_ge_32 cfg
  have hr := length_rest 32 m
  have hn := f.count
  unfold HighwaySimd.catCopy Spec.highwayAll Spec.highwayAbsorb
  rw [← f.state, hst]
  by_cases h0 : m.length % 32 = 0
  · rw [if_neg (by rw [f.count, h0]; simp), if_pos ((rest_eq_nil m).2 h0)]
    exact Reads.pure _
  · rw [if_pos (by rw [f.count]; exact h0), if_neg (mt (rest_eq_nil m).1 h0)]
    have hg : Yields w ov cfg P strict (.array st.buffer) (Spec.rest 32 m) (fun _ => nowhere) :=
      gives_array hP (f.packet ▸ List.take_prefix _ _) (by rw [f.length]; omega)
    rw [hn, ← hr]
    rw [← hr] at h0
    refine Exec.cov (t.remainder hg (by omega) (by omega) s) (fun a h => nomatch h) rfl

end

end T1ha.Model
