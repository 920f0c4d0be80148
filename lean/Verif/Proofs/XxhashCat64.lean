import Verif.Proofs.XxhashCat

/-!
# XXH64 computes its specification: a message in pieces
-/

namespace T1ha

namespace Model

variable {w : World} {ov : Overlay} {cfg : Cfg} {x : Xxh} {P : Ev → Prop} {lo hi d : Nat}

/-- The state after a message. -/
structure Fed64 (seed : U64) (m : List Byte) (st : XXH64_state) : Prop where
  held : Held 32 Spec.xxh64Stripe (Spec.xxh64Start seed) m ⟨st.v1, st.v2, st.v3, st.v4⟩ st.mem64 st.memsize.toNat
  total : st.total_len = BitVec.ofNat 64 m.length

theorem fed64_reset (seed : U64) : Fed64 seed [] (XXH64_reset seed) where
  held := ⟨rfl, rfl, by
    have h0 : seed + 0 = seed := BitVec.add_zero seed
    show (⟨seed + XXH_PRIME64_1 + XXH_PRIME64_2, seed + XXH_PRIME64_2, seed + 0, seed - XXH_PRIME64_1⟩ : Quad) =
      Spec.xxh64Start seed
    rw [h0]
    rfl, rfl⟩
  total := rfl

theorem reads_update_loop64 {data : Nat} {y : List Byte} (g : ByteSource w ov cfg P (.memory data) y)
    (hx : x.access = .direct → x.lenient64 = true) (n : Nat) (v : Quad) (i : Nat)
    (hn : (y.length - i) / 32 = n + 1) {fuel : Nat} (hf : n < fuel) :
    Reads w ov P (range (data + i) (32 * (n + 1))) (n + 1)
      (XXH64_update_loop cfg x data (data + y.length - 32) fuel i v)
      (i + 32 * (n + 1), (chunks 32 (n + 1) (y.drop i)).foldl Spec.xxh64Stripe v) := by
  induction n generalizing v i fuel with
  | zero =>
    obtain ⟨fuel, rfl⟩ : ∃ k, fuel = k + 1 := ⟨fuel - 1, by omega⟩
    unfold XXH64_update_loop
    refine Exec.cov (Reads.bind (Reads.iterate g.iter) <| Reads.bind (C₂ := nowhere) (n₂ := 0)
      (reads_stripe64 g v i (fun j h1 _ => g.readLE64 j h1 (fun h => Or.inl (hx h))) (by omega)) ?_)
      (fun a h => Or.inr (Or.inl h)) rfl
    rw [if_neg (by omega)]
    exact Reads.pure _
  | succ n ih =>
    obtain ⟨fuel, rfl⟩ : ∃ k, fuel = k + 1 := ⟨fuel - 1, by omega⟩
    unfold XXH64_update_loop
    refine Exec.cov (Reads.bind (Reads.iterate g.iter) <|
      Reads.bind (C₂ := range (data + (i + 32)) (32 * (n + 1))) (n₂ := n + 1)
      (reads_stripe64 g v i (fun j h1 _ => g.readLE64 j h1 (fun h => Or.inl (hx h))) (by omega)) ?_)
      (fun a h => Or.inr ?_) (by omega)
    · rw [if_pos (by omega)]
      have := ih (Spec.xxh64Stripe v ((y.drop i).take 32)) (i + 32) (by omega) (fuel := fuel) (by omega)
      rw [show i + 32 * (n + 1 + 1) = i + 32 + 32 * (n + 1) by omega,
        show chunks 32 (n + 1 + 1) (y.drop i) = (y.drop i).take 32 :: chunks 32 (n + 1) ((y.drop i).drop 32) from rfl,
        List.foldl_cons, List.drop_drop]
      exact this
    · simp only [Bytes.here, range] at *
      omega

theorem stripe64_eq (v : Quad) (q : List Byte) :
    Spec.xxh64Stripe v q =
      ⟨XXH64_round v.x0 (Spec.word64 .little q 0), XXH64_round v.x1 (Spec.word64 .little q 1),
        XXH64_round v.x2 (Spec.word64 .little q 2), XXH64_round v.x3 (Spec.word64 .little q 3)⟩ := by
  simp only [round64_eq]
  rfl

/-- (The kernel would compare `st.v1` with `a1`, if `a1` were not a variable.) -/
theorem filled64 {C : Nat → Prop} {mo : M (XXH64_state × Nat)} {st : XXH64_state} {q m : List Byte} {a1 a2 a3 a4 : U64}
    {n k : Nat} {start : Quad}
    (hr : Reads w ov P C n mo ({ st with mem64 := q, v1 := a1, v2 := a2, v3 := a3, v4 := a4, memsize := 0 }, k))
    (hf : Held 32 Spec.xxh64Stripe start m ⟨a1, a2, a3, a4⟩ q 0) :
    Exec w ov P C n mo (fun r o => o = ov ∧ r.2 = k ∧ r.1.memsize = 0 ∧
        r.1.total_len = st.total_len ∧
        Held 32 Spec.xxh64Stripe start m ⟨r.1.v1, r.1.v2, r.1.v3, r.1.v4⟩ r.1.mem64 0) :=
  Exec.post hr (by rintro r o ⟨rfl, rfl⟩; exact ⟨rfl, rfl, rfl, rfl, hf⟩)

theorem exec_update_fill64 (hs : Space cfg d P lo hi) {data : Nat} {m y : List Byte} {seed : U64} {st : XXH64_state}
    (hh : Holds w ov data y) (hlo : lo ≤ data) (hhi : data + y.length ≤ hi) (h0 : data ≠ 0)
    (h : Held 32 Spec.xxh64Stripe (Spec.xxh64Start seed) m ⟨st.v1, st.v2, st.v3, st.v4⟩ st.mem64 st.memsize.toNat)
    (hl : topUp 32 st.memsize.toNat ≤ y.length) :
    Exec w ov P (range data (topUp 32 st.memsize.toNat)) 0 (XXH64_update_fill cfg x st data)
      (fun r o => o = ov ∧ r.2 = topUp 32 st.memsize.toNat ∧ r.1.memsize = 0 ∧
        r.1.total_len = st.total_len ∧
        Held 32 Spec.xxh64Stripe (Spec.xxh64Start seed) (m ++ y.take (topUp 32 st.memsize.toNat))
          ⟨r.1.v1, r.1.v2, r.1.v3, r.1.v4⟩ r.1.mem64 0) := by
  have hlt := hs.hi_lt
  have hsz := h.size_lt (by decide)
  unfold XXH64_update_fill
  by_cases hz : st.memsize = 0
  · have hz' : st.memsize.toNat = 0 := by rw [hz]; rfl
    rw [if_neg (not_not.2 hz)]
    unfold topUp
    rw [if_pos hz']
    refine Exec.cov (Exec.pure _ ⟨rfl, rfl, hz, rfl, ?_⟩) (fun a h => by simp only [range] at h; omega) rfl
    rw [List.take_zero, List.append_nil]
    rw [hz'] at h
    exact h
  · have hz' : st.memsize.toNat ≠ 0 := fun e => hz (BitVec.eq_of_toNat_eq e)
    rw [if_pos hz]
    have ht : topUp 32 st.memsize.toNat = 32 - st.memsize.toNat := by unfold topUp; rw [if_neg hz']
    have hsub : (32 - st.memsize).toNat = 32 - st.memsize.toNat := by
      rw [BitVec.toNat_sub]
      have h32 : (32 : U32).toNat = 32 := rfl
      rw [h32]
      omega
    rw [hsub, ht]
    rw [ht] at hl
    have hy : (y.take (32 - st.memsize.toNat)).length = 32 - st.memsize.toNat := by rw [List.length_take]; omega
    have hcp := reads_memcpyInto (P := P) (array := st.mem64) (k := st.memsize.toNat) h0
      (hh.take (32 - st.memsize.toNat)) (hs.rd _ _ hlo (by omega)) (by rw [h.length]; omega)
    rw [hy] at hcp
    have hmem : splice st.mem64 st.memsize.toNat (y.take (32 - st.memsize.toNat)) =
        Spec.rest 32 m ++ y.take (32 - st.memsize.toNat) := by
      unfold splice
      rw [h.mem, hy, List.drop_of_length_le (by rw [h.length]; omega), List.append_nil]
    rw [hmem] at hcp
    have hml : (Spec.rest 32 m ++ y.take (32 - st.memsize.toNat)).length = 32 := by
      rw [List.length_append, length_rest, hy, ← h.count]; omega
    have hfull := h.full (by decide) (y.take (32 - st.memsize.toNat)) (by omega) hml
    generalize hq : Spec.rest 32 m ++ y.take (32 - st.memsize.toNat) = q at *
    have g := source_array (w := w) (ov := ov) (cfg := cfg) (P := P) hs.iter (List.prefix_refl q)
    have rd : ∀ i j, i = 8 * j → i + 8 ≤ 32 →
        Reads w ov P nowhere 0 (XXH_readLE64 cfg x (.array q) i) (Spec.word64 .little q j) := by
      intro i j h1 h2
      have := g.readLE64 (x := x) i (by omega) (fun _ => Or.inr (by simp [Bytes.isAligned, h1]))
      unfold Spec.word64
      rw [← h1]
      exact Exec.cov this (fun a h => h.elim) rfl
    rw [stripe64_eq] at hfull
    refine filled64 ?_ hfull
    refine Exec.cov (Reads.bind hcp <| Reads.bind (rd 0 0 rfl (by decide)) <| Reads.bind (rd 8 1 rfl (by decide)) <|
      Reads.bind (rd 16 2 rfl (by decide)) <| Reads.bind (rd 24 3 rfl (by decide)) <|
      Reads.bind (Reads.ptrAdd (by omega) (hs.ptr _ (by omega) (by omega))) <| Reads.pure _)
      (fun a h => Or.inl h) rfl

theorem exec_update64 (hs : Space cfg d P lo hi) (hup : ∀ a, lo ≤ a → a ≤ hi + 32 → P (.ptr a)) (h32 : hi + 32 < 2 ^ cfg.bits) {data : Nat} {m y : List Byte} {seed : U64}
    {st : XXH64_state} (hh : Holds w ov data y) (hlo : lo ≤ data) (hhi : data + y.length ≤ hi) (h0 : data ≠ 0)
    (hx : x.access = .direct → x.lenient64 = true) (hroom : y.length + 32 < 2 ^ cfg.bits)
    (h : Fed64 seed m st) :
    Exec w ov P (range data y.length) (stripes 32 (m.length % 32) y.length) (XXH64_update cfg x st data y.length)
      (fun r o => o = ov ∧ r.2 = .ok ∧ Fed64 seed (m ++ y) r.1) := by
  have hlt := hs.hi_lt
  have hsz := h.held.size_lt (by decide)
  have g := hs.source hh hlo hhi
  have htotal : st.total_len + BitVec.ofNat 64 y.length = BitVec.ofNat 64 (m ++ y).length := by
    rw [h.total, List.length_append, BitVec.ofNat_add]
  unfold XXH64_update stripes
  rw [if_neg h0, ← h.held.count]
  refine Exec.bindR (Reads.ptrAdd (by omega) (hs.ptr _ (by omega) (by omega))) ?_
  simp only []
  have hsa : szAdd cfg st.memsize.toNat y.length = st.memsize.toNat + y.length := by
    rw [szAdd, Nat.mod_eq_of_lt (by omega)]
  rw [hsa]
  by_cases hc : st.memsize.toNat + y.length < 32
  · rw [if_pos hc]
    have hk := h.held.keep (by decide) y hc
    have hms : (st.memsize + BitVec.ofNat 32 y.length).toNat = st.memsize.toNat + y.length := by
      rw [BitVec.toNat_add, BitVec.toNat_ofNat]; omega
    refine Exec.cov (Reads.bind (reads_memcpyInto h0 hh (hs.rd _ _ hlo hhi) (by rw [h.held.length]; omega)) <|
      Exec.pure _ ⟨rfl, rfl, ?_, htotal⟩) (fun a h => Or.inl h) (by omega)
    simp only []
    rw [hms]
    exact hk
  · rw [if_neg hc]
    have ht : topUp 32 st.memsize.toNat ≤ y.length := by unfold topUp; split <;> omega
    have hte : (st.memsize.toNat + y.length) / 32 - (st.memsize.toNat + (32 - 1)) / 32 =
        (y.length - topUp 32 st.memsize.toNat) / 32 := by unfold topUp; split <;> omega
    rw [hte]
    refine Exec.cov (Exec.bind (C₂ := range (data + topUp 32 st.memsize.toNat)
      (y.length - topUp 32 st.memsize.toNat)) (n₂ := (y.length - topUp 32 st.memsize.toNat) / 32)
      (exec_update_fill64 (x := x) (m := m) (seed := seed) hs hh hlo hhi h0 h.held ht) ?_)
      (fun a h => by simp only [range] at *; omega) (by omega)
    rintro ⟨st1, i⟩ o ⟨rfl, r1, r2, r3, r5⟩
    simp only [] at r1 r2 r3 r5 ⊢
    subst r1
    generalize topUp 32 st.memsize.toNat = i at *
    have hyi : (y.drop i).length = y.length - i := List.length_drop
    have hmy : m ++ y.take i ++ y.drop i = m ++ y := by rw [List.append_assoc, List.take_append_drop]
    refine Exec.bindR (Reads.ptrAdd (by omega) (hup _ (by omega) (by omega))) ?_
    -- the rest of the function
    have fin : ∀ (st2 : XXH64_state) (j : Nat), j = i + 32 * ((y.length - i) / 32) → st2.mem64.length = 32 →
        st2.memsize = 0 → st2.total_len = st1.total_len →
        (⟨st2.v1, st2.v2, st2.v3, st2.v4⟩ : Quad) =
          (Spec.blocks 32 (y.drop i)).foldl Spec.xxh64Stripe ⟨st1.v1, st1.v2, st1.v3, st1.v4⟩ →
        Exec w o P (range (data + j) (y.length - j)) 0
          (if data + j < data + y.length then do
              let mem ← memcpyInto st2.mem64 0 (data + j) (data + y.length - (data + j))
              pure ({ st2 with mem64 := mem, memsize := BitVec.ofNat 32 (data + y.length - (data + j)) },
                XXH_errorcode.ok)
            else pure (st2, XXH_errorcode.ok))
          (fun r o' => o' = o ∧ r.2 = .ok ∧ Fed64 seed (m ++ y) r.1) := by
      intro st2 j hj e1 e2 e3 e5
      have hrest : Spec.rest 32 (y.drop i) = y.drop j := by
        unfold Spec.rest
        rw [hyi, List.drop_drop, hj]
      have hjl : (y.drop j).length = y.length - j := List.length_drop
      by_cases hlast : data + j < data + y.length
      · rw [if_pos hlast, show data + y.length - (data + j) = y.length - j by omega]
        have hcp := reads_memcpyInto (P := P) (array := st2.mem64) (k := 0) (src := data + j) (by omega)
          (hh.drop j) (hs.rd _ _ (by omega) (by omega)) (by omega)
        rw [hjl] at hcp
        refine Exec.cov (Reads.bind hcp <| Exec.pure _ ⟨rfl, rfl, ?_, ?_⟩) (fun a h => Or.inl h) rfl
        · have := r5.long (by decide) (y.drop i) e1
          rw [hmy, ← e5, hrest, hyi] at this
          have hb : (BitVec.ofNat 32 (y.length - j)).toNat = (y.length - i) % 32 := by
            rw [BitVec.toNat_ofNat]; omega
          simp only []
          rw [hb]
          exact this
        · exact (e3.trans r3).trans htotal
      · rw [if_neg hlast]
        refine Exec.cov (Exec.pure _ ⟨rfl, rfl, ?_, ?_⟩) (fun a h => by simp only [range] at h; omega) rfl
        · have := r5.long (by decide) (y.drop i) e1
          rw [hmy, ← e5, hyi, hrest, List.drop_of_length_le (by omega), splice_nil] at this
          simp only []
          rw [e2]
          rw [show (y.length - i) % 32 = 0 by omega] at this
          exact this
        · exact (e3.trans r3).trans htotal
    by_cases hloop : data + i + 32 ≤ data + y.length
    · rw [if_pos hloop]
      obtain ⟨n, hn⟩ : ∃ n, (y.length - i) / 32 = n + 1 := ⟨(y.length - i) / 32 - 1, by omega⟩
      have hl := reads_update_loop64 (x := x) g hx n ⟨st1.v1, st1.v2, st1.v3, st1.v4⟩ i hn (fuel := y.length + 1)
        (by omega)
      have hb : Spec.blocks 32 (y.drop i) = chunks 32 (n + 1) (y.drop i) := by unfold Spec.blocks; rw [hyi, hn]
      rw [hn]
      refine Exec.cov (Reads.bind (C₂ := range (data + (i + 32 * (n + 1))) (y.length - (i + 32 * (n + 1)))) (n₂ := 0)
        (Exec.bindR (Reads.ptrSub (by omega) (hs.ptr _ (by omega) (by omega))) <|
          Exec.cov (Reads.bind hl <| Reads.pure _) (fun a h => Or.inl h) rfl) ?_)
        (fun a h => ?_) rfl
      · refine fin _ _ (by rw [hn]) r5.length r2 rfl ?_
        rw [hb]
      · simp only [range] at *; omega
    · rw [if_neg hloop]
      refine Exec.cov (Reads.bind (Reads.pure _) <| fin st1 i (by omega) r5.length r2 rfl ?_)
        (fun a h => Or.inr h) (by omega)
      rw [Spec.blocks_less (by omega)]
      rfl

theorem reads_digest64 {st : XXH64_state} {seed : U64} {m : List Byte} (hP : P .iter) (h : Fed64 seed m st)
    (hm : m.length < 2 ^ 64) :
    Reads w ov P nowhere (loops64 x (m.length % 32)) (XXH64_digest cfg x st) (Spec.xxh64 m seed) := by
  have hsz := h.held.size_lt (by decide)
  have hc := h.held.count
  have g : ByteSource w ov cfg P (.array st.mem64) (Spec.rest 32 m) :=
    source_array hP (h.held.mem ▸ List.take_prefix _ _)
  have ht : st.total_len.toNat = m.length := by rw [h.total, BitVec.toNat_ofNat, Nat.mod_eq_of_lt hm]
  have hb : m.length % 2 ^ cfg.bits % 32 = m.length % 32 := by
    have h5 : (32 : Nat) ∣ 2 ^ cfg.bits :=
      (by decide : (32 : Nat) ∣ 2 ^ 5).trans (pow_dvd_pow 2 (by unfold Cfg.bits; split <;> omega))
    exact Nat.mod_mod_of_dvd _ h5
  unfold XXH64_digest Spec.xxh64 Spec.len64
  simp only [converge64_eq]
  have hf := fun a => reads_finalize64 (x := x) (aligned := true) g
    ⟨fun _ i hi => by simp [Bytes.isAligned, hi], fun h => absurd h (by simp)⟩
    ⟨fun _ i hi => by simp [Bytes.isAligned, hi], fun h => absurd h (by simp)⟩ (m.length % 2 ^ cfg.bits) a 0
    (by rw [length_rest, hb]; omega) rfl
  rw [hb, List.drop_zero] at hf
  rw [ht, ← h.total]
  have hv := h.held.value
  by_cases h32 : 32 ≤ m.length
  · rw [if_pos h32, if_pos h32, ← hv]
    exact Exec.cov (hf _) (fun a h => h.elim) rfl
  · rw [if_neg h32, if_neg h32]
    rw [Spec.blocks_less (by omega)] at hv
    have h3 : st.v3 = seed := congrArg Quad.x2 hv
    rw [h3]
    exact Exec.cov (hf _) (fun a h => h.elim) rfl

end Model

end T1ha
