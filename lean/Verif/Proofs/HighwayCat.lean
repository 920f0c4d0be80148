import Verif.Proofs.HighwayRun
import Verif.Proofs.Session
import Verif.Proofs.Reuse

/-!
# HighwayHash computes its specification: a message in pieces
-/

namespace T1ha.Model

open Spec (Highway)

variable {w : World} {ov : Overlay} {cfg : Cfg} {P : Ev → Prop} {lo hi d : Nat} {strict : Bool}

/-- What has been kept of the message `m`. -/
structure Kept (key : Quad) (m : List Byte) (state : Highway) (packet : List Byte) (num : Nat) : Prop where
  length : packet.length = 32
  count : num = m.length % 32
  state : state = (Spec.blocks 32 m).foldl Spec.highwayPacket (Spec.highwayStart key)
  packet : packet.take num = Spec.rest 32 m

theorem length_splice (l : List Byte) (k : Nat) (xs : List Byte) (h : k + xs.length ≤ l.length) :
    (splice l k xs).length = l.length := by
  unfold splice
  simp only [List.length_append, List.length_take, List.length_drop]
  omega

theorem take_splice (l : List Byte) (k : Nat) (xs : List Byte) (h : k ≤ l.length) :
    (splice l k xs).take (k + xs.length) = l.take k ++ xs := by
  unfold splice
  rw [List.take_append_of_le_length (by rw [List.length_append, List.length_take]; omega),
    List.take_of_length_le (by rw [List.length_append, List.length_take]; omega)]

/-- Some bytes are kept. -/
theorem Kept.keep {key : Quad} {m : List Byte} {state : Highway} {packet : List Byte} {num : Nat}
    (f : Kept key m state packet num) (x : List Byte) (h : num + x.length < 32) :
    Kept key (m ++ x) state (splice packet num x) (num + x.length) := by
  have hn := f.count
  have hr : Spec.rest 32 m ++ x = (splice packet num x).take (num + x.length) := by
    rw [take_splice _ _ _ (by rw [f.length]; omega), f.packet]
  have hlr : (Spec.rest 32 m ++ x).length < 32 := by rw [List.length_append, length_rest]; omega
  refine ⟨?_, ?_, ?_, ?_⟩
  · rw [length_splice _ _ _ (by rw [f.length]; omega), f.length]
  · rw [List.length_append]; omega
  · rw [blocks_append, Spec.blocks_short hlr, List.append_nil, f.state]
  · rw [rest_append, ← hr, Spec.rest_short hlr]

/-- The packet becomes full. -/
theorem Kept.full {key : Quad} {m : List Byte} {state : Highway} {packet : List Byte} {num : Nat}
    (f : Kept key m state packet num) (x : List Byte) (h : num + x.length = 32) (packet' : List Byte)
    (hp : packet'.length = 32) :
    Kept key (m ++ x) (Spec.highwayPacket state (Spec.rest 32 m ++ x)) packet' 0 := by
  have hn := f.count
  have hlr : (Spec.rest 32 m ++ x).length = 32 := by rw [List.length_append, length_rest]; omega
  refine ⟨hp, ?_, ?_, ?_⟩
  · rw [List.length_append]; omega
  · rw [blocks_append, List.foldl_append, ← f.state]
    unfold Spec.blocks
    rw [hlr, show chunks 32 (32 / 32) (Spec.rest 32 m ++ x) = [(Spec.rest 32 m ++ x).take 32] from rfl,
      List.take_of_length_le (by omega)]
    rfl
  · rw [rest_append, Spec.rest, hlr, List.drop_of_length_le (by omega), List.take_zero]

/-- Whole packets. -/
theorem Kept.packets {key : Quad} {m : List Byte} {state : Highway} {packet : List Byte}
    (f : Kept key m state packet 0) (x : List Byte) (hx : x.length % 32 = 0) (packet' : List Byte)
    (hp : packet'.length = 32) :
    Kept key (m ++ x) ((chunks 32 (x.length / 32) x).foldl Spec.highwayPacket state) packet' 0 := by
  have hr : Spec.rest 32 m = [] := (rest_eq_nil m).2 f.count.symm
  refine ⟨hp, ?_, ?_, ?_⟩
  · rw [List.length_append]
    have := f.count
    omega
  · rw [blocks_append, hr, List.nil_append, List.foldl_append, ← f.state]
    rfl
  · rw [rest_append, hr, List.nil_append, (rest_eq_nil x).2 hx, List.take_zero]

theorem chunks_of_take (n : Nat) (x : List Byte) : chunks 32 n (x.take (32 * n)) = chunks 32 n x := by
  induction n generalizing x with
  | zero => rfl
  | succ n ih =>
    rw [show chunks 32 (n + 1) (x.take (32 * (n + 1))) =
      (x.take (32 * (n + 1))).take 32 :: chunks 32 n ((x.take (32 * (n + 1))).drop 32) from rfl,
      show chunks 32 (n + 1) x = x.take 32 :: chunks 32 n (x.drop 32) from rfl,
      List.take_take, List.drop_take, show min 32 (32 * (n + 1)) = 32 by omega,
      show 32 * (n + 1) - 32 = 32 * n by omega, ih]

/-- Whole packets, then some bytes are kept at the start of the packet. -/
theorem Kept.long {key : Quad} {m : List Byte} {state : Highway} {packet : List Byte}
    (f : Kept key m state packet 0) (x : List Byte) (packet' : List Byte)
    (hp : packet'.length = 32) :
    Kept key (m ++ x) ((chunks 32 (x.length / 32) x).foldl Spec.highwayPacket state)
      (splice packet' 0 (x.drop (32 * (x.length / 32)))) (x.length % 32) := by
  have hl : (x.take (32 * (x.length / 32))).length = 32 * (x.length / 32) := by rw [List.length_take]; omega
  have h1 := f.packets (x.take (32 * (x.length / 32))) (by omega) packet' hp
  rw [hl, show 32 * (x.length / 32) / 32 = x.length / 32 by omega, chunks_of_take] at h1
  have hd : (x.drop (32 * (x.length / 32))).length = x.length % 32 := by rw [List.length_drop]; omega
  have h2 := h1.keep (x.drop (32 * (x.length / 32))) (by omega)
  rw [List.append_assoc, List.take_append_drop, hd, Nat.zero_add] at h2
  exact h2

/-! ## The C implementation -/

/-- The number of bytes with which a packet with `n` bytes is filled up. -/
def fillCount (n l : Nat) : Nat := if n = 0 then 0 else min l (32 - n)

theorem reads_catFillC (hs : Space cfg d P lo hi) {data : Nat} {m x : List Byte} {key : Quad}
    {st : HighwayC.HighwayHashCat} (hh : Holds w ov data x) (hlo : lo ≤ data) (hhi : data + x.length ≤ hi)
    (f : Kept key m st.state st.packet st.num) :
    Exec w ov P (range data (fillCount st.num x.length)) (fillCount st.num x.length)
      (HighwayC.catFill cfg strict data x.length st)
      (fun r o => o = ov ∧ r.2.1 = data + fillCount st.num x.length ∧
        r.2.2 = x.length - fillCount st.num x.length ∧
        Kept key (m ++ x.take (fillCount st.num x.length)) r.1.state r.1.packet r.1.num ∧
        (r.1.num = 0 ∨ r.2.2 = 0)) := by
  have hlt := hs.hi_lt
  have hbits := bits_ge_32 cfg
  have hn := f.count
  have hpl := f.length
  unfold HighwayC.catFill fillCount
  by_cases h0 : st.num = 0
  · simp only [if_neg (by simp [h0] : ¬ st.num ≠ 0), if_pos h0]
    refine Exec.cov (Exec.post (Reads.pure _) ?_) (fun a h => by simp only [range] at h; omega) rfl
    rintro r o ⟨rfl, rfl⟩
    refine ⟨rfl, rfl, rfl, ?_, Or.inl h0⟩
    rw [List.take_zero, List.append_nil]
    exact f
  · simp only [if_pos (by simp [h0] : st.num ≠ 0), if_neg h0]
    have hroom : szSub cfg 32 st.num = 32 - st.num := by
      unfold szSub
      rw [show 2 ^ cfg.bits + 32 - st.num = 2 ^ cfg.bits + (32 - st.num) by omega, Nat.add_mod_left,
        Nat.mod_eq_of_lt (by omega)]
    rw [hroom]
    have hadd : (if x.length > 32 - st.num then 32 - st.num else x.length) = min x.length (32 - st.num) := by
      split <;> omega
    simp only [hadd]
    generalize hk : min x.length (32 - st.num) = k
    have hk1 : k ≤ x.length := by omega
    have hk2 : k + st.num ≤ 32 := by omega
    have hsa : szAdd cfg st.num k = st.num + k := by rw [szAdd, Nat.mod_eq_of_lt (by omega)]
    have htk : (x.take k).length = k := by rw [List.length_take]; omega
    simp only [hsa]
    have hg : Yields w ov cfg P strict (.memory data) x (fun j => range (data + j) 1) := gives_memory hs hh hlo hhi
    have hc := reads_copyBytes hg st.num k 0 st.packet (by omega) (by omega)
    rw [List.drop_zero, Nat.add_zero, Nat.zero_add] at hc
    refine Exec.cov (Reads.bind (C₂ := nowhere) (n₂ := 0) hc <|
      Exec.bindR (Reads.ptrAdd (by omega) (hs.ptr _ (by omega) (by omega))) ?_)
      (fun a h => Or.inl (span_range _ _ _ h)) rfl
    by_cases h32 : st.num + k = 32
    · rw [if_pos h32]
      have hfull : splice st.packet st.num (x.take k) = Spec.rest 32 m ++ x.take k := by
        have := take_splice st.packet st.num (x.take k) (by omega)
        rw [htk, h32, List.take_of_length_le (by rw [length_splice _ _ _ (by omega)]; omega), f.packet] at this
        exact this
      have hl : (splice st.packet st.num (x.take k)).length = 32 := by rw [length_splice _ _ _ (by omega), hpl]
      have hp := reads_packetC (w := w) (ov := ov) (strict := strict) (gives_array (cfg := cfg) hs.iter List.prefix_rfl (by omega)) hl st.state
      refine Exec.cov (Exec.post (Reads.bind hp (Reads.pure _)) ?_) (fun a h => nomatch h) rfl
      rintro r o ⟨rfl, rfl⟩
      refine ⟨rfl, rfl, rfl, ?_, Or.inl rfl⟩
      have := f.full (x.take k) (by omega) _ hl
      rw [← hfull] at this
      exact this
    · rw [if_neg h32]
      refine Exec.cov (Exec.post (Reads.pure _) ?_) (fun a h => nomatch h) rfl
      rintro r o ⟨rfl, rfl⟩
      refine ⟨rfl, rfl, rfl, ?_, Or.inr (by simp only []; omega)⟩
      have := f.keep (x.take k) (by omega)
      rw [htk] at this
      exact this

theorem reads_catLoopC (hs : Space cfg d P lo hi) (n : Nat) {v : Nat}
    {r : List Byte} (s : Highway) (hh : Holds w ov v r) (hlo : lo ≤ v)
    (hhi : v + r.length ≤ hi) (hn : r.length / 32 = n) {fuel : Nat} (hf : n < fuel) :
    Reads w ov P (range v (32 * n)) n (HighwayC.catLoop cfg strict fuel v r.length s)
      ((chunks 32 n r).foldl Spec.highwayPacket s, v + 32 * n, r.length % 32) := by
  have hlt := hs.hi_lt
  induction n generalizing v r s fuel with
  | zero =>
    obtain ⟨fuel, rfl⟩ : ∃ k, fuel = k + 1 := ⟨fuel - 1, by omega⟩
    unfold HighwayC.catLoop
    rw [if_neg (by omega), show r.length % 32 = r.length by omega]
    exact Exec.cov (Reads.pure _) (fun a h => by simp only [range] at h; omega) rfl
  | succ n ih =>
    obtain ⟨fuel, rfl⟩ : ∃ k, fuel = k + 1 := ⟨fuel - 1, by omega⟩
    unfold HighwayC.catLoop
    rw [if_pos (by omega)]
    have hd : (r.drop 32).length = r.length - 32 := List.length_drop
    have ht : (r.take 32).length = 32 := by rw [List.length_take]; omega
    have hg : Yields w ov cfg P strict (.memory v) (r.take 32) (fun j => range (v + j) 1) :=
      gives_memory hs (hh.take 32) (by omega) (by omega)
    have := ih (v := v + 32) (r := r.drop 32) (Spec.highwayPacket s (r.take 32)) (hh.drop 32)
      (by omega) (by omega) (by omega) (fuel := fuel) (by omega)
    rw [show v + 32 * (n + 1) = v + 32 + 32 * n by omega,
      show chunks 32 (n + 1) r = r.take 32 :: chunks 32 n (r.drop 32) from rfl, List.foldl_cons]
    rw [hd, show (r.length - 32) % 32 = r.length % 32 by omega] at this
    refine Exec.cov (Reads.bind (Reads.iterate hs.iter) <| Reads.bind (reads_packetC hg ht s) <| Reads.bind
      (Reads.ptrAdd (by omega) (hs.ptr _ (by omega) (by omega))) this) (fun a h => ?_) (by omega)
    by_cases ha : a < v + 32
    · exact Or.inr (Or.inl (span_range _ _ _ (by simp only [range] at *; omega)))
    · exact Or.inr (Or.inr (Or.inr (by simp only [range] at *; omega)))

theorem reads_catRestC {v : Nat} {r : List Byte} (g : Yields w ov cfg P strict (.memory v) r (fun j => range (v + j) 1))
    (todo i : Nat) (st : HighwayC.HighwayHashCat) (h : i + todo = r.length)
    (h2 : st.num + todo ≤ st.packet.length) (h3 : st.packet.length = 32) :
    Reads w ov P (range (v + i) todo) todo (HighwayC.catRest cfg strict v todo i st)
      { st with packet := splice st.packet st.num (r.drop i), num := st.num + todo } := by
  have hbits := bits_ge_32 cfg
  induction todo generalizing i st with
  | zero =>
    unfold HighwayC.catRest
    rw [List.drop_of_length_le (by omega), splice_nil]
    exact Exec.cov (Reads.pure _) (fun a h => by simp only [range] at h; omega) rfl
  | succ n ih =>
    unfold HighwayC.catRest
    have hx : r[i]? = some r[i] := List.getElem?_eq_getElem (by omega)
    rw [List.drop_eq_getElem_cons (by omega : i < r.length), ← splice_set _ _ _ _ (by omega)]
    have := ih (i + 1) { st with packet := st.packet.set st.num r[i], num := szAdd cfg st.num 1 } (by omega)
      (by simp only [List.length_set, szAdd]; rw [Nat.mod_eq_of_lt (by omega)]; omega)
      (by simp only [List.length_set]; exact h3)
    have hsa : szAdd cfg st.num 1 = st.num + 1 := by rw [szAdd, Nat.mod_eq_of_lt (by omega)]
    simp only [hsa] at this
    simp only [hsa]
    rw [show st.num + (n + 1) = st.num + 1 + n by omega]
    refine Exec.cov (Reads.bind (Reads.iterate g.iter) <| Reads.bind (g.get i _ hx) <|
      Reads.bind (reads_setElement _ _ _ (by omega)) this) (fun a h => ?_) (by omega)
    simp only [range, nowhere] at *; omega

/-- The iterations of `HighwayHashCatAppend_pure_c`. -/
def catLoopsC (n l : Nat) : Nat :=
  let k := fillCount n l
  k + ((l - k) / 32 + (l - k) % 32)

theorem reads_catAppendC (hs : Space cfg d P lo hi) {data : Nat} {m x : List Byte} {key : Quad}
    {st : HighwayC.HighwayHashCat} (hh : Holds w ov data x) (hlo : lo ≤ data) (hhi : data + x.length ≤ hi)
    (f : Kept key m st.state st.packet st.num) :
    Exec w ov P (range data x.length) (catLoopsC (m.length % 32) x.length)
      (HighwayC.HighwayHashCatAppend_pure_c cfg strict data x.length st)
      (fun r o => o = ov ∧ Kept key (m ++ x) r.state r.packet r.num) := by
  have hlt := hs.hi_lt
  unfold HighwayC.HighwayHashCatAppend_pure_c
  rw [← f.count]
  unfold catLoopsC
  simp only []
  have hfc : fillCount st.num x.length ≤ x.length := by unfold fillCount; split <;> omega
  have hfill := reads_catFillC (strict := strict) hs hh hlo hhi f
  generalize hk : fillCount st.num x.length = k at *
  have hd : (x.drop k).length = x.length - k := List.length_drop
  have hg : ∀ j, j ≤ x.length → Yields w ov cfg P strict (.memory (data + j)) (x.drop j) (fun i => range (data + j + i) 1) :=
    fun j hj => gives_memory hs (hh.drop _) (by omega) (by rw [List.length_drop]; omega)
  refine Exec.cov (Exec.bind (C₂ := range (data + k) (x.length - k)) (n₂ := (x.length - k) / 32 + (x.length - k) % 32) hfill ?_)
    (fun a h => by simp only [range] at *; omega) rfl
  rintro ⟨st', bytes, num⟩ o ⟨rfl, h1, h2, h3, h4⟩
  simp only [] at h1 h2 h3 h4
  subst h1
  have hloop := reads_catLoopC (strict := strict) hs ((x.length - k) / 32) (v := data + k) (r := x.drop k) st'.state (hh.drop _)
    (by omega) (by omega) (by omega) (fuel := num + 1) (by omega)
  rw [hd, ← h2] at hloop
  simp only []
  rw [← h2]
  have hrest := reads_catRestC (hg (k + 32 * (num / 32)) (by omega)) (num % 32) 0
    { st' with state := (chunks 32 (num / 32) (x.drop k)).foldl Spec.highwayPacket st'.state }
    (by rw [List.length_drop]; omega) (by
      simp only [h3.length]
      rcases h4 with h4 | h4
      · omega
      · have := h3.count; omega) h3.length
  rw [List.drop_zero, ← List.drop_drop, ← Nat.add_assoc data] at hrest
  refine Exec.cov (Exec.post (Reads.bind hloop hrest) ?_) (fun a h => ?_) rfl
  · rintro r o ⟨rfl, rfl⟩
    refine ⟨rfl, ?_⟩
    simp only []
    have hm : m ++ x = m ++ x.take k ++ x.drop k := by rw [List.append_assoc, List.take_append_drop]
    rw [hm]
    rcases h4 with h4 | h4
    · have h3' := h3
      rw [h4] at h3' ⊢
      have := h3'.long (x.drop k) st'.packet h3.length
      rw [hd, ← h2] at this
      rw [Nat.zero_add]
      exact this
    · have hxk : x.drop k = [] := List.eq_nil_of_length_eq_zero (by omega)
      rw [h4, hxk, List.append_nil, List.drop_nil, splice_nil]
      exact h3
  · by_cases ha : a < data + k + 32 * (num / 32)
    · exact Or.inl (by simp only [range] at *; omega)
    · exact Or.inr (by simp only [range] at *; omega)

theorem fed_startC (key : Quad) (st : HighwayC.HighwayHashCat) (h : st.packet.length = 32) :
    Kept key [] (HighwayC.HighwayHashCatStart_pure_c key st).state (HighwayC.HighwayHashCatStart_pure_c key st).packet
      (HighwayC.HighwayHashCatStart_pure_c key st).num :=
  ⟨h, rfl, ResetC key, rfl⟩

theorem reads_catCopyC (hP : P .iter) {m : List Byte} {key : Quad} {st : HighwayC.HighwayHashCat}
    (f : Kept key m st.state st.packet st.num) (hst : strict = false ∨ m.length % 32 < 16) :
    Reads w ov P nowhere (m.length % 32 / 4 * 4) (HighwayC.catCopy cfg strict st) (Spec.highwayAll key m) := by
  have hbits := bits_ge_32 cfg
  have hr := length_rest 32 m
  have hn := f.count
  unfold HighwayC.catCopy Spec.highwayAll Spec.highwayAbsorb
  rw [← f.state]
  by_cases h0 : m.length % 32 = 0
  · rw [if_neg (by rw [f.count, h0]; simp), if_pos ((rest_eq_nil m).2 h0), h0]
    exact Reads.pure _
  · rw [if_pos (by rw [f.count]; exact h0), if_neg (mt (rest_eq_nil m).1 h0)]
    have hg : Yields w ov cfg P strict (.array st.packet) (Spec.rest 32 m) (fun _ => nowhere) :=
      gives_array hP (f.packet ▸ List.take_prefix _ _) (by rw [f.length]; omega)
    rw [hn, ← hr]
    rw [← hr] at h0 hst
    refine Exec.cov (reads_updateRemainderC hg (by omega) (by omega) hst st.state) (fun a h => nomatch h) rfl

/-! ## The C++ implementation -/

theorem reads_catLoopPortable (hs : Space cfg d P lo hi) (n : Nat) {v : Nat}
    {r : List Byte} (s : Highway) (hh : Holds w ov v r) (hlo : lo ≤ v)
    (hhi : v + r.length ≤ hi) (hn : r.length / 32 = n) {fuel : Nat} (hf : n < fuel) :
    Reads w ov P (range v (32 * n)) (33 * n) (HighwayPortable.catLoop cfg strict fuel v r.length s)
      ((chunks 32 n r).foldl Spec.highwayPacket s, v + 32 * n, r.length % 32) := by
  have hlt := hs.hi_lt
  induction n generalizing v r s fuel with
  | zero =>
    obtain ⟨fuel, rfl⟩ : ∃ k, fuel = k + 1 := ⟨fuel - 1, by omega⟩
    unfold HighwayPortable.catLoop
    rw [if_neg (by omega), show r.length % 32 = r.length by omega]
    exact Exec.cov (Reads.pure _) (fun a h => by simp only [range] at h; omega) rfl
  | succ n ih =>
    obtain ⟨fuel, rfl⟩ : ∃ k, fuel = k + 1 := ⟨fuel - 1, by omega⟩
    unfold HighwayPortable.catLoop
    rw [if_pos (by omega)]
    have hd : (r.drop 32).length = r.length - 32 := List.length_drop
    have ht : (r.take 32).length = 32 := by rw [List.length_take]; omega
    have hg : Yields w ov cfg P strict (.memory v) (r.take 32) (fun j => range (v + j) 1) :=
      gives_memory hs (hh.take 32) (by omega) (by omega)
    have := ih (v := v + 32) (r := r.drop 32) (Spec.highwayPacket s (r.take 32)) (hh.drop 32)
      (by omega) (by omega) (by omega) (fuel := fuel) (by omega)
    rw [show v + 32 * (n + 1) = v + 32 + 32 * n by omega,
      show chunks 32 (n + 1) r = r.take 32 :: chunks 32 n (r.drop 32) from rfl, List.foldl_cons]
    rw [hd, show (r.length - 32) % 32 = r.length % 32 by omega] at this
    refine Exec.cov (Reads.bind (Reads.iterate hs.iter) <| Reads.bind (reads_packetPortable hg ht s) <| Reads.bind
      (Reads.ptrAdd (by omega) (hs.ptr _ (by omega) (by omega))) this) (fun a h => ?_) (by omega)
    by_cases ha : a < v + 32
    · exact Or.inr (Or.inl (span_range _ _ _ (by simp only [range] at *; omega)))
    · exact Or.inr (Or.inr (Or.inr (by simp only [range] at *; omega)))

/-- The iterations of `Append`. -/
def catLoopsPortable (n l : Nat) : Nat :=
  if l < 32 - n then l
  else if n = 0 then 33 * (l / 32) + l % 32
  else 64 + (33 * ((l - (32 - n)) / 32) + (l - (32 - n)) % 32)

theorem reads_appendAndUpdate (hs : Space cfg d P lo hi) {data k : Nat} {m x : List Byte} {key : Quad}
    {state : Highway} {packet : List Byte} {num : Nat} (hh : Holds w ov data x) (hlo : lo ≤ data)
    (hhi : data + x.length ≤ hi) (f : Kept key m state packet num) (hk : num + k = 32) (hkx : k ≤ x.length) :
    Reads w ov P (range data k) 64
      (HighwayPortable.AppendAndUpdate cfg strict data k packet num state)
      (Spec.highwayPacket state (Spec.rest 32 m ++ x.take k)) := by
  have hbits := bits_ge_32 cfg
  have hn := f.count
  have hpl := f.length
  have hr := length_rest 32 m
  have htk : (x.take k).length = k := by rw [List.length_take]; omega
  unfold HighwayPortable.AppendAndUpdate
  have hg1 : Yields w ov cfg P strict (.array packet) (Spec.rest 32 m) (fun _ => nowhere) :=
    gives_array hs.iter (f.packet ▸ List.take_prefix _ _) (by omega)
  have hg2 : Yields w ov cfg P strict (.memory data) x (fun j => range (data + j) 1) := gives_memory hs hh hlo hhi
  have hc1 := reads_copyBytes hg1 0 num 0 (List.replicate 32 0#8) (by omega)
    (by rw [List.length_replicate]; omega)
  rw [List.drop_zero, Nat.add_zero, List.take_of_length_le (by omega)] at hc1
  have hl1 : (splice (List.replicate 32 0#8) 0 (Spec.rest 32 m)).length = 32 := by
    rw [length_splice _ _ _ (by rw [List.length_replicate]; omega), List.length_replicate]
  have hc2 := reads_copyBytes hg2 num k 0 (splice (List.replicate 32 0#8) 0 (Spec.rest 32 m)) (by omega) (by omega)
  rw [List.drop_zero, Nat.add_zero, Nat.zero_add] at hc2
  have hl2 : (splice (splice (List.replicate 32 0#8) 0 (Spec.rest 32 m)) num (x.take k)).length = 32 := by
    rw [length_splice _ _ _ (by omega), hl1]
  have heq : splice (splice (List.replicate 32 0#8) 0 (Spec.rest 32 m)) num (x.take k) = Spec.rest 32 m ++ x.take k := by
    have h1 := take_splice (splice (List.replicate 32 0#8) 0 (Spec.rest 32 m)) num (x.take k) (by omega)
    rw [htk, hk, List.take_of_length_le (by omega)] at h1
    have h2 := take_splice (List.replicate 32 0#8) 0 (Spec.rest 32 m) (by omega)
    rw [Nat.zero_add, List.take_zero, List.nil_append, hr, ← hn] at h2
    rw [h1, h2]
  rw [heq] at hc2 hl2
  refine Exec.cov (Reads.bind hc1 <| Reads.bind hc2 <|
    reads_packetPortable (gives_array hs.iter List.prefix_rfl (by omega)) hl2 state) (fun a h => ?_) (by omega)
  exact Or.inr (Or.inl (span_range _ _ _ h))

theorem reads_catAppendPortable (hs : Space cfg d P lo hi) {data : Nat} {m x : List Byte} {key : Quad}
    {st : HighwayPortable.HighwayHashCatT} (hh : Holds w ov data x) (hlo : lo ≤ data) (hhi : data + x.length ≤ hi)
    (f : Kept key m st.state st.buffer st.usage) :
    Exec w ov P (range data x.length) (catLoopsPortable (m.length % 32) x.length)
      (HighwayPortable.catAppend cfg strict data x.length st)
      (fun r o => o = ov ∧ Kept key (m ++ x) r.state r.buffer r.usage) := by
  have hlt := hs.hi_lt
  have hbits := bits_ge_32 cfg
  have hn := f.count
  have hpl := f.length
  unfold HighwayPortable.catAppend catLoopsPortable
  rw [← f.count]
  have hroom : szSub cfg 32 st.usage = 32 - st.usage := by
    unfold szSub
    rw [show 2 ^ cfg.bits + 32 - st.usage = 2 ^ cfg.bits + (32 - st.usage) by omega, Nat.add_mod_left,
      Nat.mod_eq_of_lt (by omega)]
  simp only [hroom]
  have hg : ∀ j, j ≤ x.length → Yields w ov cfg P strict (.memory (data + j)) (x.drop j) (fun i => range (data + j + i) 1) :=
    fun j hj => gives_memory hs (hh.drop _) (by omega) (by rw [List.length_drop]; omega)
  by_cases hsmall : x.length < 32 - st.usage
  · rw [if_pos hsmall, if_pos hsmall]
    have hc := reads_copyBytes (hg 0 (by omega)) st.usage x.length 0 st.buffer
      (by rw [List.length_drop]; omega) (by omega)
    rw [Nat.add_zero, List.drop_zero, List.drop_zero, List.take_of_length_le (by omega), Nat.zero_add] at hc
    refine Exec.cov (Exec.post (Reads.bind hc (Reads.pure _)) ?_) (fun a h => Or.inl (span_range _ _ _ h)) rfl
    rintro r o ⟨rfl, rfl⟩
    refine ⟨rfl, ?_⟩
    have hsa : szAdd cfg st.usage x.length = st.usage + x.length := by rw [szAdd, Nat.mod_eq_of_lt (by omega)]
    simp only [hsa]
    exact f.keep x (by omega)
  · rw [if_neg hsmall, if_neg hsmall]
    -- what follows when the packet has been filled up with `k` bytes
    have hrest : ∀ (k : Nat) (s : Highway) (buffer : List Byte), k ≤ x.length → buffer.length = 32 →
        Kept key (m ++ x.take k) s buffer 0 →
        Exec w ov P (range (data + k) (x.length - k)) (33 * ((x.length - k) / 32) + (x.length - k) % 32)
          (do
            let (s, bytes, num_bytes) ← HighwayPortable.catLoop cfg strict (x.length - k + 1) (data + k) (x.length - k) s
            let buffer ← (if num_bytes ≠ 0 then copyBytes cfg strict (.memory bytes) 0 num_bytes 0 buffer
              else pure buffer)
            pure ({ buffer := buffer, state := s, usage := num_bytes } : HighwayPortable.HighwayHashCatT))
          (fun r o => o = ov ∧ Kept key (m ++ x) r.state r.buffer r.usage) := by
      intro k s buffer hk hbl f'
      have hd : (x.drop k).length = x.length - k := List.length_drop
      have hloop := reads_catLoopPortable (strict := strict) hs ((x.length - k) / 32) (v := data + k) (r := x.drop k) s (hh.drop _)
        (by omega) (by omega) (by omega) (fuel := x.length - k + 1) (by omega)
      rw [hd] at hloop
      have hfin := f'.long (x.drop k) buffer hbl
      rw [hd, List.append_assoc, List.take_append_drop] at hfin
      refine Exec.cov (Reads.bind (C₂ := range (data + k + 32 * ((x.length - k) / 32)) ((x.length - k) % 32))
        (n₂ := (x.length - k) % 32) hloop ?_) (fun a h => by simp only [range] at *; omega) rfl
      simp only []
      by_cases h0 : (x.length - k) % 32 = 0
      · simp only [if_neg (by simp [h0] : ¬ (x.length - k) % 32 ≠ 0), pure_bind]
        rw [List.drop_of_length_le (i := 32 * ((x.length - k) / 32)) (by omega), splice_nil] at hfin
        refine Exec.cov (Exec.post (Reads.pure _) ?_) (fun a h => by simp only [range] at h; omega) (by omega)
        rintro r o ⟨rfl, rfl⟩
        exact ⟨rfl, hfin⟩
      · simp only [if_pos (by simp [h0] : (x.length - k) % 32 ≠ 0)]
        have hlr : (x.drop (k + 32 * ((x.length - k) / 32))).length = (x.length - k) % 32 := by
          rw [List.length_drop]; omega
        have hc := reads_copyBytes (hg (k + 32 * ((x.length - k) / 32)) (by omega)) 0 ((x.length - k) % 32) 0 buffer
          (by omega) (by omega)
        rw [List.drop_zero, List.take_of_length_le (by omega), ← List.drop_drop, Nat.add_zero, ← Nat.add_assoc data,
          Nat.zero_add] at hc
        refine Exec.cov (Exec.post (Reads.bind hc (Reads.pure _)) ?_) (fun a h => Or.inl (span_range _ _ _ h)) rfl
        rintro r o ⟨rfl, rfl⟩
        exact ⟨rfl, hfin⟩
    by_cases h0 : st.usage = 0
    · simp only [if_neg (by simp [h0] : ¬ st.usage ≠ 0), pure_bind, if_pos h0]
      have f' := f
      rw [h0] at f'
      have := hrest 0 st.state st.buffer (by omega) hpl (by rw [List.take_zero, List.append_nil]; exact f')
      simpa only [Nat.sub_zero, Nat.add_zero] using this
    · simp only [if_pos (by simp [h0] : st.usage ≠ 0), bind_assoc, pure_bind, if_neg h0]
      have hau := reads_appendAndUpdate (strict := strict) hs (k := 32 - st.usage) hh hlo hhi f (by omega) (by omega)
      have hfull := f.full (x.take (32 - st.usage)) (by rw [List.length_take]; omega) st.buffer hpl
      refine Exec.cov (Reads.bind hau <| Exec.bindR (Reads.ptrAdd (by omega) (hs.ptr _ (by omega) (by omega))) <|
        hrest (32 - st.usage) _ st.buffer (by omega) hpl hfull) (fun a h => by simp only [range] at *; omega) rfl

theorem fed_newPortable (key : Quad) :
    Kept key [] (HighwayPortable.catNew key).state (HighwayPortable.catNew key).buffer (HighwayPortable.catNew key).usage :=
  ⟨rfl, rfl, ResetPortable key, rfl⟩

theorem fed_resetPortable (key : Quad) (st : HighwayPortable.HighwayHashCatT) (h : st.buffer.length = 32) :
    Kept key [] (HighwayPortable.catReset key st).state (HighwayPortable.catReset key st).buffer
      (HighwayPortable.catReset key st).usage :=
  ⟨h, rfl, ResetPortable key, rfl⟩

theorem reads_catCopyPortable (hP : P .iter) {m : List Byte} {key : Quad} {st : HighwayPortable.HighwayHashCatT}
    (f : Kept key m st.state st.buffer st.usage) :
    Reads w ov P nowhere (if m.length % 32 = 0 then 0 else storedLoops (m.length % 32) + 32)
      (HighwayPortable.catCopy cfg strict st) (Spec.highwayAbsorb (Spec.highwayStored cfg.endian) key m) := by
  have hbits := bits_ge_32 cfg
  have hr := length_rest 32 m
  have hn := f.count
  unfold HighwayPortable.catCopy Spec.highwayAbsorb
  rw [← f.state]
  by_cases h0 : m.length % 32 = 0
  · rw [if_pos h0, if_neg (by rw [f.count, h0]; simp), if_pos ((rest_eq_nil m).2 h0)]
    exact Reads.pure _
  · rw [if_neg h0, if_pos (by rw [f.count]; exact h0), if_neg (mt (rest_eq_nil m).1 h0)]
    have hg : Yields w ov cfg P strict (.array st.buffer) (Spec.rest 32 m) (fun _ => nowhere) :=
      gives_array hP (f.packet ▸ List.take_prefix _ _) (by rw [f.length]; omega)
    rw [hn, ← hr]
    rw [← hr] at h0
    refine Exec.cov (reads_updateRemainderPortable hg (by omega) (by omega) st.state) (fun a h => nomatch h) rfl

end T1ha.Model
