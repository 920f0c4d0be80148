import Verif.Proofs.Xxhash64
import Verif.Proofs.HighwayCat

/-!
# XXH32 and XXH64 compute their specifications: a message in pieces
-/

namespace T1ha

namespace Spec

theorem length_div_append (k : Nat) (hk : 0 < k) (a b : List Byte) :
    (a ++ b).length / k = a.length / k + (rest k a ++ b).length / k := by
  rw [List.length_append, List.length_append, Model.length_rest]
  conv => lhs; rw [← Nat.div_add_mod a.length k, Nat.add_assoc, Nat.mul_add_div hk]

theorem blocks_app (k : Nat) (hk : 0 < k) (a b : List Byte) :
    blocks k (a ++ b) = blocks k a ++ blocks k (rest k a ++ b) := by
  have hle : a.length / k * k ≤ a.length := Nat.div_mul_le_self _ _
  unfold blocks
  rw [length_div_append k hk, chunks_append, Model.chunks_take _ _ _ _ hle,
    List.drop_append_of_le_length (by rw [Nat.mul_comm]; exact hle)]
  rfl

theorem rest_app (k : Nat) (hk : 0 < k) (a b : List Byte) : rest k (a ++ b) = rest k (rest k a ++ b) := by
  have hle : a.length / k * k ≤ a.length := Nat.div_mul_le_self _ _
  rw [rest, length_div_append k hk, Nat.mul_add, ← List.drop_drop,
    List.drop_append_of_le_length (by rw [Nat.mul_comm]; exact hle)]
  rfl

end Spec

namespace Model

variable {w : World} {ov : Overlay} {cfg : Cfg} {x : Xxh} {P : Ev → Prop} {lo hi d : Nat} {σ : Type}

/-- What has been kept of the message `m`: its blocks of `k` bytes have been absorbed with `f`. -/
structure Held (k : Nat) (f : σ → List Byte → σ) (start : σ) (m : List Byte) (v : σ) (mem : List Byte) (size : Nat) :
    Prop where
  length : mem.length = k
  count : size = m.length % k
  value : v = (Spec.blocks k m).foldl f start
  mem : mem.take size = Spec.rest k m

variable {k size : Nat} {f : σ → List Byte → σ} {start v : σ} {m mem : List Byte}

theorem Held.keep (hk : 0 < k) (h : Held k f start m v mem size) (y : List Byte) (hy : size + y.length < k) :
    Held k f start (m ++ y) v (splice mem size y) (size + y.length) := by
  have hn := h.count
  have hr : Spec.rest k m ++ y = (splice mem size y).take (size + y.length) := by
    rw [take_splice _ _ _ (by rw [h.length]; omega), h.mem]
  have hlr : (Spec.rest k m ++ y).length < k := by rw [List.length_append, length_rest]; omega
  refine ⟨?_, ?_, ?_, ?_⟩
  · rw [length_splice _ _ _ (by rw [h.length]; omega), h.length]
  · rw [List.length_append, Nat.add_mod, ← hn, Nat.mod_eq_of_lt (a := y.length) (by omega), Nat.mod_eq_of_lt hy]
  · rw [Spec.blocks_app k hk, Spec.blocks_less hlr, List.append_nil, h.value]
  · rw [Spec.rest_app k hk, ← hr, Spec.rest_less hlr]

theorem Held.full (hk : 0 < k) (h : Held k f start m v mem size) (y : List Byte) (hy : size + y.length = k)
    {mem' : List Byte} (hm : mem'.length = k) : Held k f start (m ++ y) (f v (Spec.rest k m ++ y)) mem' 0 := by
  have hn := h.count
  have hlr : (Spec.rest k m ++ y).length = k := by rw [List.length_append, length_rest]; omega
  refine ⟨hm, ?_, ?_, ?_⟩
  · rw [List.length_append, ← Nat.mod_add_mod, ← hn, hy, Nat.mod_self]
  · rw [Spec.blocks_app k hk, List.foldl_append, ← h.value, Spec.blocks_more hk (by omega),
      Spec.blocks_less (by rw [List.length_drop]; omega), List.take_of_length_le (by omega)]
    rfl
  · rw [Spec.rest_app k hk, Spec.rest_more hk (by omega), List.drop_of_length_le (by omega),
      Spec.rest_less (by simpa using hk), List.take_zero]

theorem Held.long (hk : 0 < k) (h : Held k f start m v mem 0) (y : List Byte) {mem' : List Byte} (hm : mem'.length = k) :
    Held k f start (m ++ y) ((Spec.blocks k y).foldl f v) (splice mem' 0 (Spec.rest k y)) (y.length % k) := by
  have hn := h.count
  have hr : Spec.rest k m = [] := List.length_eq_zero_iff.1 (by rw [length_rest]; exact hn.symm)
  have hl : (Spec.rest k y).length = y.length % k := length_rest k y
  have hlt : y.length % k < k := Nat.mod_lt _ hk
  refine ⟨?_, ?_, ?_, ?_⟩
  · rw [length_splice _ _ _ (by omega), hm]
  · rw [List.length_append, ← Nat.mod_add_mod, ← hn, Nat.zero_add]
  · rw [Spec.blocks_app k hk, hr, List.nil_append, List.foldl_append, ← h.value]
  · have := take_splice mem' 0 (Spec.rest k y) (by omega)
    rw [Nat.zero_add, hl, List.take_zero, List.nil_append] at this
    rw [this, Spec.rest_app k hk, hr, List.nil_append]

theorem Held.unused (hk : 0 < k) (h : Held k f start m v mem 0) (y : List Byte) (hy : y.length % k = 0) :
    Held k f start (m ++ y) ((Spec.blocks k y).foldl f v) mem 0 := by
  have := h.long hk y h.length
  rw [hy, List.length_eq_zero_iff.1 ((length_rest k y).trans hy), splice_nil] at this
  exact this

theorem Held.size_lt (hk : 0 < k) (h : Held k f start m v mem size) : size < k := by
  rw [h.count]; exact Nat.mod_lt _ hk

theorem reads_memcpyInto {src : Nat} {y array : List Byte} {k : Nat} (hn : src ≠ 0) (hh : Holds w ov src y)
    (hP : P (.rd src y.length)) (hk : k + y.length ≤ array.length) :
    Reads w ov P (range src y.length) 0 (memcpyInto array k src y.length) (splice array k y) := by
  unfold memcpyInto
  rw [if_neg hn, if_pos hk]
  exact Exec.cov (Reads.bind (Reads.load hh rfl hP) (Reads.pure _)) (fun a h => Or.inl h) rfl

/-! ## XXH32 -/

/-- The state after a message. -/
structure Fed32 (seed : U32) (m : List Byte) (st : XXH32_state) : Prop where
  held : Held 16 Spec.xxh32Stripe (Spec.xxh32Start seed) m ⟨st.v1, st.v2, st.v3, st.v4⟩ st.mem32 st.memsize.toNat
  total : st.total_len_32 = BitVec.ofNat 32 m.length
  large : st.large_len ≠ 0 ↔ 16 ≤ m.length

theorem fed32_reset (seed : U32) : Fed32 seed [] (XXH32_reset seed) where
  held := ⟨rfl, rfl, by
    have h0 : seed + 0 = seed := BitVec.add_zero seed
    show (⟨seed + XXH_PRIME32_1 + XXH_PRIME32_2, seed + XXH_PRIME32_2, seed + 0, seed - XXH_PRIME32_1⟩ : Quad32) =
      Spec.xxh32Start seed
    rw [h0]
    rfl, rfl⟩
  total := rfl
  large := ⟨fun h => absurd rfl h, fun h => absurd h (by simp)⟩

theorem reads_update_loop32 {data : Nat} {y : List Byte} (g : ByteSource w ov cfg P (.memory data) y)
    (hx : x.access = .direct → x.lenient32 = true) (n : Nat) (v : Quad32) (i : Nat)
    (hn : (y.length - i) / 16 = n + 1) {fuel : Nat} (hf : n < fuel) :
    Reads w ov P (range (data + i) (16 * (n + 1))) (n + 1)
      (XXH32_update_loop cfg x data (data + y.length - 16) fuel i v)
      (i + 16 * (n + 1), (chunks 16 (n + 1) (y.drop i)).foldl Spec.xxh32Stripe v) := by
  induction n generalizing v i fuel with
  | zero =>
    obtain ⟨fuel, rfl⟩ : ∃ k, fuel = k + 1 := ⟨fuel - 1, by omega⟩
    unfold XXH32_update_loop
    refine Exec.cov (Reads.bind (Reads.iterate g.iter) <| Reads.bind (C₂ := nowhere) (n₂ := 0)
      (reads_stripe32 g v i (fun j h1 _ _ => g.readLE32 j h1 (fun h => Or.inl (hx h))) (by omega)) ?_)
      (fun a h => Or.inr (Or.inl h)) rfl
    rw [if_neg (by omega)]
    exact Reads.pure _
  | succ n ih =>
    obtain ⟨fuel, rfl⟩ : ∃ k, fuel = k + 1 := ⟨fuel - 1, by omega⟩
    unfold XXH32_update_loop
    refine Exec.cov (Reads.bind (Reads.iterate g.iter) <|
      Reads.bind (C₂ := range (data + (i + 16)) (16 * (n + 1))) (n₂ := n + 1)
      (reads_stripe32 g v i (fun j h1 _ _ => g.readLE32 j h1 (fun h => Or.inl (hx h))) (by omega)) ?_)
      (fun a h => Or.inr ?_) (by omega)
    · rw [if_pos (by omega)]
      have := ih (Spec.xxh32Stripe v ((y.drop i).take 16)) (i + 16) (by omega) (fuel := fuel) (by omega)
      rw [show i + 16 * (n + 1 + 1) = i + 16 + 16 * (n + 1) by omega,
        show chunks 16 (n + 1 + 1) (y.drop i) = (y.drop i).take 16 :: chunks 16 (n + 1) ((y.drop i).drop 16) from rfl,
        List.foldl_cons, List.drop_drop]
      exact this
    · simp only [Bytes.here, range] at *
      omega

/-- The number of bytes with which the buffer of `k` bytes is filled up. -/
def topUp (k size : Nat) : Nat := if size = 0 then 0 else k - size

theorem stripe32_eq (v : Quad32) (q : List Byte) :
    Spec.xxh32Stripe v q =
      ⟨XXH32_round v.x0 (Spec.word32 .little q 0), XXH32_round v.x1 (Spec.word32 .little q 1),
        XXH32_round v.x2 (Spec.word32 .little q 2), XXH32_round v.x3 (Spec.word32 .little q 3)⟩ := by
  simp only [round32_eq]
  rfl

/-- (The kernel would compare `st.v1` with `a1`, if `a1` were not a variable.) -/
theorem filled32 {C : Nat → Prop} {mo : M (XXH32_state × Nat)} {st : XXH32_state} {q m : List Byte} {a1 a2 a3 a4 : U32}
    {n k : Nat} {start : Quad32}
    (hr : Reads w ov P C n mo ({ st with mem32 := q, v1 := a1, v2 := a2, v3 := a3, v4 := a4, memsize := 0 }, k))
    (hf : Held 16 Spec.xxh32Stripe start m ⟨a1, a2, a3, a4⟩ q 0) :
    Exec w ov P C n mo (fun r o => o = ov ∧ r.2 = k ∧ r.1.memsize = 0 ∧
        r.1.total_len_32 = st.total_len_32 ∧ r.1.large_len = st.large_len ∧
        Held 16 Spec.xxh32Stripe start m ⟨r.1.v1, r.1.v2, r.1.v3, r.1.v4⟩ r.1.mem32 0) :=
  Exec.post hr (by rintro r o ⟨rfl, rfl⟩; exact ⟨rfl, rfl, rfl, rfl, rfl, hf⟩)

theorem exec_update_fill32 (hs : Space cfg d P lo hi) {data : Nat} {m y : List Byte} {seed : U32} {st : XXH32_state}
    (hh : Holds w ov data y) (hlo : lo ≤ data) (hhi : data + y.length ≤ hi) (h0 : data ≠ 0)
    (h : Held 16 Spec.xxh32Stripe (Spec.xxh32Start seed) m ⟨st.v1, st.v2, st.v3, st.v4⟩ st.mem32 st.memsize.toNat)
    (hl : topUp 16 st.memsize.toNat ≤ y.length) :
    Exec w ov P (range data (topUp 16 st.memsize.toNat)) 0 (XXH32_update_fill cfg x st data)
      (fun r o => o = ov ∧ r.2 = topUp 16 st.memsize.toNat ∧ r.1.memsize = 0 ∧
        r.1.total_len_32 = st.total_len_32 ∧ r.1.large_len = st.large_len ∧
        Held 16 Spec.xxh32Stripe (Spec.xxh32Start seed) (m ++ y.take (topUp 16 st.memsize.toNat))
          ⟨r.1.v1, r.1.v2, r.1.v3, r.1.v4⟩ r.1.mem32 0) := by
  have hlt := hs.hi_lt
  have hsz := h.size_lt (by decide)
  unfold XXH32_update_fill
  by_cases hz : st.memsize = 0
  · have hz' : st.memsize.toNat = 0 := by rw [hz]; rfl
    rw [if_neg (not_not.2 hz)]
    unfold topUp
    rw [if_pos hz']
    refine Exec.cov (Exec.pure _ ⟨rfl, rfl, hz, rfl, rfl, ?_⟩) (fun a h => by simp only [range] at h; omega) rfl
    rw [List.take_zero, List.append_nil]
    rw [hz'] at h
    exact h
  · have hz' : st.memsize.toNat ≠ 0 := fun e => hz (BitVec.eq_of_toNat_eq e)
    rw [if_pos hz]
    have ht : topUp 16 st.memsize.toNat = 16 - st.memsize.toNat := by unfold topUp; rw [if_neg hz']
    have hsub : (16 - st.memsize).toNat = 16 - st.memsize.toNat := by
      rw [BitVec.toNat_sub]
      have h16 : (16 : U32).toNat = 16 := rfl
      rw [h16]
      omega
    rw [hsub, ht]
    rw [ht] at hl
    have hy : (y.take (16 - st.memsize.toNat)).length = 16 - st.memsize.toNat := by rw [List.length_take]; omega
    have hcp := reads_memcpyInto (P := P) (array := st.mem32) (k := st.memsize.toNat) h0
      (hh.take (16 - st.memsize.toNat)) (hs.rd _ _ hlo (by omega)) (by rw [h.length]; omega)
    rw [hy] at hcp
    have hmem : splice st.mem32 st.memsize.toNat (y.take (16 - st.memsize.toNat)) =
        Spec.rest 16 m ++ y.take (16 - st.memsize.toNat) := by
      unfold splice
      rw [h.mem, hy, List.drop_of_length_le (by rw [h.length]; omega), List.append_nil]
    rw [hmem] at hcp
    have hml : (Spec.rest 16 m ++ y.take (16 - st.memsize.toNat)).length = 16 := by
      rw [List.length_append, length_rest, hy, ← h.count]; omega
    have hfull := h.full (by decide) (y.take (16 - st.memsize.toNat)) (by omega) hml
    generalize hq : Spec.rest 16 m ++ y.take (16 - st.memsize.toNat) = q at *
    have g := source_array (w := w) (ov := ov) (cfg := cfg) (P := P) hs.iter (List.prefix_refl q)
    have rd : ∀ i j, i = 4 * j → i + 4 ≤ 16 →
        Reads w ov P nowhere 0 (XXH_readLE32 cfg x (.array q) i) (Spec.word32 .little q j) := by
      intro i j h1 h2
      have := g.readLE32 (x := x) i (by omega) (fun _ => Or.inr (by simp [Bytes.isAligned, h1]))
      unfold Spec.word32
      rw [← h1]
      exact Exec.cov this (fun a h => h.elim) rfl
    rw [stripe32_eq] at hfull
    refine filled32 ?_ hfull
    refine Exec.cov (Reads.bind hcp <| Reads.bind (rd 0 0 rfl (by decide)) <| Reads.bind (rd 4 1 rfl (by decide)) <|
      Reads.bind (rd 8 2 rfl (by decide)) <| Reads.bind (rd 12 3 rfl (by decide)) <|
      Reads.bind (Reads.ptrAdd (by omega) (hs.ptr _ (by omega) (by omega))) <| Reads.pure _)
      (fun a h => Or.inl h) rfl

/-- How often `XXH32_update` iterates. -/
def stripes (k size len : Nat) : Nat := (size + len) / k - (size + (k - 1)) / k

theorem large_iff {large : U32} {total : U32} {m y : List Byte} (h1 : large ≠ 0 ↔ 16 ≤ m.length)
    (h2 : total = BitVec.ofNat 32 m.length) :
    (large ||| ((if 16 ≤ y.length then 1 else 0) |||
      (if 16 ≤ (total + BitVec.ofNat 32 y.length).toNat then 1 else 0)) ≠ 0) ↔ 16 ≤ (m ++ y).length := by
  rw [List.length_append]
  have hor : ∀ a b : U32, a ||| b ≠ 0 ↔ a ≠ 0 ∨ b ≠ 0 := by
    intro a b
    show ¬ (a ||| b) = 0#32 ↔ _
    rw [BitVec.or_eq_zero_iff]
    tauto
  have hif : ∀ (c : Prop) [Decidable c], (if c then (1 : U32) else 0) ≠ 0 ↔ c := by
    intro c _
    split <;> simp [*]
  rw [hor, hor, hif, hif, h1, h2]
  have hle : (BitVec.ofNat 32 m.length + BitVec.ofNat 32 y.length).toNat ≤ m.length + y.length := by
    rw [BitVec.toNat_add, BitVec.toNat_ofNat, BitVec.toNat_ofNat]
    have := Nat.mod_le (m.length % 2 ^ 32 + y.length % 2 ^ 32) (2 ^ 32)
    have := Nat.mod_le m.length (2 ^ 32)
    have := Nat.mod_le y.length (2 ^ 32)
    omega
  constructor
  · rintro (h | h | h) <;> omega
  · intro h
    by_cases a1 : 16 ≤ m.length
    · exact Or.inl a1
    · by_cases a2 : 16 ≤ y.length
      · exact Or.inr (Or.inl a2)
      · refine Or.inr (Or.inr ?_)
        rw [BitVec.toNat_add, BitVec.toNat_ofNat, BitVec.toNat_ofNat]
        omega

theorem exec_update32 (hs : Space cfg d P lo hi) (hd : 16 ≤ d) {data : Nat} {m y : List Byte} {seed : U32}
    {st : XXH32_state} (hh : Holds w ov data y) (hlo : lo ≤ data) (hhi : data + y.length ≤ hi) (h0 : data ≠ 0)
    (h16 : 16 ≤ data) (hx : x.access = .direct → x.lenient32 = true) (hroom : y.length + 32 < 2 ^ cfg.bits)
    (h : Fed32 seed m st) :
    Exec w ov P (range data y.length) (stripes 16 (m.length % 16) y.length) (XXH32_update cfg x st data y.length)
      (fun r o => o = ov ∧ r.2 = .ok ∧ Fed32 seed (m ++ y) r.1) := by
  have hlt := hs.hi_lt
  have hsz := h.held.size_lt (by decide)
  have g := hs.source hh hlo hhi
  have hlarge := large_iff (y := y) h.large h.total
  have htotal : st.total_len_32 + BitVec.ofNat 32 y.length = BitVec.ofNat 32 (m ++ y).length := by
    rw [h.total, List.length_append, BitVec.ofNat_add]
  unfold XXH32_update stripes
  rw [if_neg h0, ← h.held.count]
  refine Exec.bindR (Reads.ptrAdd (by omega) (hs.ptr _ (by omega) (by omega))) ?_
  simp only []
  have hsa : szAdd cfg st.memsize.toNat y.length = st.memsize.toNat + y.length := by
    rw [szAdd, Nat.mod_eq_of_lt (by omega)]
  rw [hsa]
  by_cases hc : st.memsize.toNat + y.length < 16
  · rw [if_pos hc]
    have hk := h.held.keep (by decide) y hc
    have hms : (st.memsize + BitVec.ofNat 32 y.length).toNat = st.memsize.toNat + y.length := by
      rw [BitVec.toNat_add, BitVec.toNat_ofNat]; omega
    refine Exec.cov (Reads.bind (reads_memcpyInto h0 hh (hs.rd _ _ hlo hhi) (by rw [h.held.length]; omega)) <|
      Exec.pure _ ⟨rfl, rfl, ?_, htotal, hlarge⟩) (fun a h => Or.inl h) (by omega)
    simp only []
    rw [hms]
    exact hk
  · rw [if_neg hc]
    have ht : topUp 16 st.memsize.toNat ≤ y.length := by unfold topUp; split <;> omega
    have hte : (st.memsize.toNat + y.length) / 16 - (st.memsize.toNat + (16 - 1)) / 16 =
        (y.length - topUp 16 st.memsize.toNat) / 16 := by unfold topUp; split <;> omega
    rw [hte]
    refine Exec.cov (Exec.bind (C₂ := range (data + topUp 16 st.memsize.toNat)
      (y.length - topUp 16 st.memsize.toNat)) (n₂ := (y.length - topUp 16 st.memsize.toNat) / 16)
      (exec_update_fill32 (x := x) (m := m) (seed := seed) hs hh hlo hhi h0 h.held ht) ?_)
      (fun a h => by simp only [range] at *; omega) (by omega)
    rintro ⟨st1, i⟩ o ⟨rfl, r1, r2, r3, r4, r5⟩
    simp only [] at r1 r2 r3 r4 r5 ⊢
    subst r1
    generalize topUp 16 st.memsize.toNat = i at *
    have hyi : (y.drop i).length = y.length - i := List.length_drop
    have hmy : m ++ y.take i ++ y.drop i = m ++ y := by rw [List.append_assoc, List.take_append_drop]
    have hpre : data + y.length - 16 + d ≥ lo := by omega
    refine Exec.bindR (Reads.ptrSub (by omega) (hs.ptr _ (by omega) (by omega))) ?_
    -- the rest of the function
    have fin : ∀ (st2 : XXH32_state) (j : Nat), j = i + 16 * ((y.length - i) / 16) → st2.mem32.length = 16 →
        st2.memsize = 0 → st2.total_len_32 = st1.total_len_32 → st2.large_len = st1.large_len →
        (⟨st2.v1, st2.v2, st2.v3, st2.v4⟩ : Quad32) =
          (Spec.blocks 16 (y.drop i)).foldl Spec.xxh32Stripe ⟨st1.v1, st1.v2, st1.v3, st1.v4⟩ →
        Exec w o P (range (data + j) (y.length - j)) 0
          (if data + j < data + y.length then do
              let mem ← memcpyInto st2.mem32 0 (data + j) (data + y.length - (data + j))
              pure ({ st2 with mem32 := mem, memsize := BitVec.ofNat 32 (data + y.length - (data + j)) },
                XXH_errorcode.ok)
            else pure (st2, XXH_errorcode.ok))
          (fun r o' => o' = o ∧ r.2 = .ok ∧ Fed32 seed (m ++ y) r.1) := by
      intro st2 j hj e1 e2 e3 e4 e5
      have hrest : Spec.rest 16 (y.drop i) = y.drop j := by
        unfold Spec.rest
        rw [hyi, List.drop_drop, hj]
      have hjl : (y.drop j).length = y.length - j := List.length_drop
      by_cases hlast : data + j < data + y.length
      · rw [if_pos hlast, show data + y.length - (data + j) = y.length - j by omega]
        have hcp := reads_memcpyInto (P := P) (array := st2.mem32) (k := 0) (src := data + j) (by omega)
          (hh.drop j) (hs.rd _ _ (by omega) (by omega)) (by omega)
        rw [hjl] at hcp
        refine Exec.cov (Reads.bind hcp <| Exec.pure _ ⟨rfl, rfl, ?_, ?_, ?_⟩) (fun a h => Or.inl h) rfl
        · have := r5.long (by decide) (y.drop i) e1
          rw [hmy, ← e5, hrest, hyi] at this
          have hb : (BitVec.ofNat 32 (y.length - j)).toNat = (y.length - i) % 16 := by
            rw [BitVec.toNat_ofNat]; omega
          simp only []
          rw [hb]
          exact this
        · exact (e3.trans r3).trans htotal
        · show st2.large_len ≠ 0 ↔ _
          rw [e4, r4]
          exact hlarge
      · rw [if_neg hlast]
        refine Exec.cov (Exec.pure _ ⟨rfl, rfl, ?_, ?_, ?_⟩) (fun a h => by simp only [range] at h; omega) rfl
        · have := r5.long (by decide) (y.drop i) e1
          rw [hmy, ← e5, hyi, hrest, List.drop_of_length_le (by omega), splice_nil] at this
          simp only []
          rw [e2]
          rw [show (y.length - i) % 16 = 0 by omega] at this
          exact this
        · exact (e3.trans r3).trans htotal
        · show st2.large_len ≠ 0 ↔ _
          rw [e4, r4]
          exact hlarge
    by_cases hloop : data + i ≤ data + y.length - 16
    · rw [if_pos hloop]
      obtain ⟨n, hn⟩ : ∃ n, (y.length - i) / 16 = n + 1 := ⟨(y.length - i) / 16 - 1, by omega⟩
      have hl := reads_update_loop32 (x := x) g hx n ⟨st1.v1, st1.v2, st1.v3, st1.v4⟩ i hn (fuel := y.length + 1)
        (by omega)
      have hb : Spec.blocks 16 (y.drop i) = chunks 16 (n + 1) (y.drop i) := by unfold Spec.blocks; rw [hyi, hn]
      rw [hn]
      refine Exec.cov (Reads.bind (C₂ := range (data + (i + 16 * (n + 1))) (y.length - (i + 16 * (n + 1)))) (n₂ := 0)
        (Exec.bindR (Reads.ptrSub (by omega) (hs.ptr _ (by omega) (by omega))) <|
          Exec.cov (Reads.bind hl <| Reads.pure _) (fun a h => Or.inl h) rfl) ?_)
        (fun a h => ?_) rfl
      · refine fin _ _ (by rw [hn]) r5.length r2 rfl rfl ?_
        rw [hb]
      · simp only [range] at *; omega
    · rw [if_neg hloop]
      refine Exec.cov (Reads.bind (Reads.pure _) <| fin st1 i (by omega) r5.length r2 rfl rfl ?_)
        (fun a h => Or.inr h) (by omega)
      rw [Spec.blocks_less (by omega)]
      rfl

theorem reads_digest32 {st : XXH32_state} {seed : U32} {m : List Byte} (hP : P .iter) (h : Fed32 seed m st) :
    Reads w ov P nowhere (loops32 x (m.length % 16)) (XXH32_digest cfg x st) (Spec.xxh32 m seed) := by
  have hsz := h.held.size_lt (by decide)
  have hc := h.held.count
  have g : ByteSource w ov cfg P (.array st.mem32) (Spec.rest 16 m) :=
    source_array hP (h.held.mem ▸ List.take_prefix _ _)
  unfold XXH32_digest Spec.xxh32
  simp only [xxh_rotl32_eq]
  have hf := fun a => reads_finalize32 (x := x) (aligned := true) g
    ⟨fun _ i hi => by simp [Bytes.isAligned, hi], fun h => absurd h (by simp)⟩ st.memsize.toNat a 0
    (by rw [length_rest, Nat.mod_eq_of_lt hsz]; omega) rfl
  rw [Nat.mod_eq_of_lt hsz, List.drop_zero] at hf
  rw [h.total, ← hc]
  have hv := h.held.value
  by_cases h16 : 16 ≤ m.length
  · rw [if_pos (h.large.2 h16), if_pos h16, ← hv]
    exact Exec.cov (hf _) (fun a h => h.elim) rfl
  · rw [if_neg (fun hh => h16 (h.large.1 hh)), if_neg h16]
    rw [Spec.blocks_less (by omega)] at hv
    have h3 : st.v3 = seed := congrArg Quad32.x2 hv
    rw [h3]
    exact Exec.cov (hf _) (fun a h => h.elim) rfl

end Model

end T1ha
