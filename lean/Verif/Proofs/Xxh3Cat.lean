import Verif.Proofs.Xxh3Long
import Verif.Proofs.XxhashCat
import Verif.Proofs.Session

/-!
# XXH3 computes its specification: a message in pieces
-/

namespace T1ha

namespace Model

variable {cfg : Cfg} {x : Xxh3} {w : World} {ov : Overlay} {P : Ev → Prop} {input secret : Bytes}
  {m k : List Byte} {seed : U64}

/-- The numbers after all stripes of `c`. -/
structure Consumed (k c : List Byte) (acc : Lanes) (soFar : Nat) : Prop where
  acc : acc = Spec.xxh3Absorb k 0 Spec.xxh3Start (chunks 64 (c.length / 64) c)
  soFar : soFar = c.length / 64 % Spec.xxh3PerBlock k
  whole : c.length % 256 = 0

theorem Consumed.more {c q : List Byte} {acc : Lanes} {soFar n : Nat} (h : Consumed k c acc soFar)
    (hq : q.length = 64 * n) :
    Spec.xxh3Absorb k soFar acc (chunks 64 n q) =
        Spec.xxh3Absorb k 0 Spec.xxh3Start (chunks 64 ((c ++ q).length / 64) (c ++ q)) ∧
      (soFar + n) % Spec.xxh3PerBlock k = (c ++ q).length / 64 % Spec.xxh3PerBlock k := by
  have hw := h.whole
  have hc : (c ++ q).length / 64 = c.length / 64 + n := by rw [List.length_append]; omega
  rw [hc, chunks_append, absorb_app, length_chunks, Nat.zero_add, chunks_take _ _ _ _ (by omega), ← h.acc,
    show 64 * (c.length / 64) = c.length by omega, List.drop_left]
  refine ⟨absorb_mod _ _ (by rw [h.soFar, Nat.mod_mod]) _ _, ?_⟩
  rw [h.soFar, Nat.mod_add_mod]

theorem Consumed.next {c q : List Byte} {acc : Lanes} {soFar : Nat} (h : Consumed k c acc soFar)
    (hq : q.length = 256) :
    Consumed k (c ++ q) (Spec.xxh3Absorb k soFar acc (chunks 64 4 q)) ((soFar + 4) % Spec.xxh3PerBlock k) where
  acc := (h.more (n := 4) hq).1
  soFar := (h.more (n := 4) hq).2
  whole := by have := h.whole; rw [List.length_append]; omega

theorem Hashing.consume (h : Hashing w ov cfg x P input m secret k) (ha : Ahead w ov cfg x P input m.length)
    (hk : 136 ≤ k.length) (hb : k.length < 2 ^ cfg.bits) (acc : Lanes) {soFar : Nat}
    (hsf : soFar < Spec.xxh3PerBlock k) (i n : Nat) (hi : i + 64 * n ≤ m.length) (hn : n ≤ Spec.xxh3PerBlock k)
    {limit : Nat} (hlimit : limit = k.length - 64) :
    Reads w ov P (input.here i (64 * n)) n
      (XXH3_consumeStripes cfg x acc soFar (Spec.xxh3PerBlock k) input i n secret limit)
      (Spec.xxh3Absorb k soFar acc (chunks 64 n (m.drop i)), (soFar + n) % Spec.xxh3PerBlock k) := by
  have hp8 : 8 * Spec.xxh3PerBlock k ≤ k.length - 64 := by unfold Spec.xxh3PerBlock; omega
  generalize hpb : Spec.xxh3PerBlock k = pb at *
  have hsub : szSub cfg pb soFar = pb - soFar := by
    unfold szSub
    rw [show 2 ^ cfg.bits + pb - soFar = pb - soFar + 2 ^ cfg.bits by omega, Nat.add_mod_right, Nat.mod_eq_of_lt (by omega)]
  subst hlimit
  unfold XXH3_consumeStripes
  refine assert_ok (fun _ => by simpa using hn) (assert_ok (fun _ => by simpa using hsf) ?_)
  rw [hsub]
  by_cases hc : pb - soFar ≤ n
  · rw [if_pos hc]
    dsimp only
    have hn2 : n = (pb - soFar) + (n - (pb - soFar)) := by omega
    have hv : Spec.xxh3Absorb k soFar acc (chunks 64 n (m.drop i)) =
        absorbed k 0 (Spec.xxh3Scramble k (absorbed k soFar acc (chunks 64 (pb - soFar) (m.drop i))))
          (chunks 64 (n - (pb - soFar)) (m.drop (i + (pb - soFar) * 64))) := by
      conv => lhs; rw [hn2]
      rw [chunks_append, absorb_app, length_chunks, absorb_end soFar acc (chunks 64 (pb - soFar) (m.drop i)) (by rw [length_chunks, hpb]; omega) (by
        intro he
        have := congrArg List.length he
        rw [length_chunks, List.length_nil] at this
        omega), show soFar + (pb - soFar) = pb by omega,
        absorb_mod pb 0 (by rw [hpb, Nat.mod_self, Nat.zero_mod]), absorb_inside _ _ _ (by rw [length_chunks, hpb]; omega),
        List.drop_drop, Nat.mul_comm 64]
    have hm : (soFar + n) % pb = n - (pb - soFar) := by
      rw [show soFar + n = n - (pb - soFar) + pb by omega, Nat.add_mod_right, Nat.mod_eq_of_lt (by omega)]
    rw [hv, hm, Nat.mul_comm soFar 8]
    have h2 := h.accumulate ha (n - (pb - soFar)) (i + (pb - soFar) * 64) 0
      (Spec.xxh3Scramble k (absorbed k soFar acc (chunks 64 (pb - soFar) (m.drop i)))) (by omega) (by omega)
    refine Exec.cov (Reads.bind (h.accumulate ha (pb - soFar) i soFar acc (by omega) (by omega)) <|
      Reads.bind (h.scramble _ (by omega)) <| Reads.bind h2 (Reads.pure _)) (fun a h => ?_) (by omega)
    rcases input.here_split (64 * (pb - soFar)) (by omega) h with h | h
    · exact Or.inl h
    · refine Or.inr (Or.inr (Or.inl ?_))
      rwa [show i + 64 * (pb - soFar) = i + (pb - soFar) * 64 by omega,
        show 64 * n - 64 * (pb - soFar) = 64 * (n - (pb - soFar)) by omega] at h
  · rw [if_neg hc, Nat.mul_comm soFar 8, absorb_inside _ _ _ (by rw [length_chunks, hpb]; omega), Nat.mod_eq_of_lt (by omega)]
    exact Exec.cov (Reads.bind (h.accumulate ha n i soFar acc hi (by omega)) (Reads.pure _)) (fun a h => Or.inl h) rfl

/-! ## States -/

/-- What `XXH3_update` does not change. -/
structure Kept3 (secret : Bytes) (k : List Byte) (seed : U64) (st : XXH3_state) : Prop where
  sec : st.secret = secret
  limit : st.secretLimit = k.length - 64
  perBlock : st.nbStripesPerBlock = Spec.xxh3PerBlock k
  seed : st.seed = seed
  size : st.buffer.length = 256

/-- The end of the buffer is the end of what has been consumed. -/
def Tail3 (c : List Byte) (st : XXH3_state) : Prop := c ≠ [] → st.buffer.drop 192 = c.drop (c.length - 64)

/-- The state after a message, of which `c` has been consumed and `r` is in the buffer. -/
structure Buffered3 (k c r : List Byte) (st : XXH3_state) : Prop where
  consumed : Consumed k c st.acc st.nbStripesSoFar
  short : r.length ≤ 256
  last : r = [] → c = []
  count : st.bufferedSize.toNat = r.length
  held : st.buffer.take r.length = r
  tail : r.length ≤ 192 → Tail3 c st

/-- The state after a message. -/
structure Fed3 (secret : Bytes) (k : List Byte) (seed : U64) (m : List Byte) (st : XXH3_state) : Prop where
  kept : Kept3 secret k seed st
  total : st.totalLen = BitVec.ofNat 64 m.length
  parts : ∃ c r, m = c ++ r ∧ Buffered3 k c r st

theorem drop_splice {l y : List Byte} {i n : Nat} (h : i + y.length ≤ n) (hl : n ≤ l.length) :
    (splice l i y).drop n = l.drop n := by
  have ha : (l.take i ++ y).length = i + y.length := by rw [List.length_append, List.length_take]; omega
  unfold splice
  rw [show n = i + y.length + (n - (i + y.length)) by omega, ← List.drop_drop, List.drop_left' ha, List.drop_drop]

theorem tail_append (c : List Byte) {q : List Byte} (h : 64 ≤ q.length) :
    (c ++ q).drop ((c ++ q).length - 64) = q.drop (q.length - 64) := by
  rw [List.length_append, show c.length + q.length - 64 = c.length + (q.length - 64) by omega, ← List.drop_drop,
    List.drop_left]

/-- (The kernel would compare the fields, if they were not variables.) -/
theorem filled3 {C : Nat → Prop} {mo : M (XXH3_state × Nat)} {st : XXH3_state} {q c : List Byte} {acc : Lanes}
    {n i soFar : Nat} (hk : Kept3 secret k seed st)
    (hr : Reads w ov P C n mo ({ st with buffer := q, acc := acc, nbStripesSoFar := soFar, bufferedSize := 0 }, i))
    (hc : Consumed k c acc soFar) (hq : q.length = 256) (ht : q.drop 192 = c.drop (c.length - 64)) :
    Exec w ov P C n mo (fun v o => o = ov ∧ v.2 = i ∧ Kept3 secret k seed v.1 ∧ v.1.totalLen = st.totalLen ∧
      Consumed k c v.1.acc v.1.nbStripesSoFar ∧ Tail3 c v.1) :=
  Exec.post hr (by
    rintro v o ⟨rfl, rfl⟩
    exact ⟨rfl, rfl, ⟨hk.sec, hk.limit, hk.perBlock, hk.seed, hq⟩, rfl, hc, fun _ => ht⟩)

/-- (The kernel would compare the fields, if they were not variables.) -/
theorem directed3 {C : Nat → Prop} {mo : M (XXH3_state × Nat)} {st : XXH3_state} {q c : List Byte} {acc : Lanes}
    {n i soFar : Nat} (hk : Kept3 secret k seed st)
    (hr : Reads w ov P C n mo ({ st with acc := acc, nbStripesSoFar := soFar, buffer := q }, i))
    (hc : Consumed k c acc soFar) (hq : q.length = 256) (ht : q.drop 192 = c.drop (c.length - 64)) :
    Exec w ov P C n mo (fun v o => o = ov ∧ v.2 = i ∧ Kept3 secret k seed v.1 ∧ v.1.totalLen = st.totalLen ∧
      Consumed k c v.1.acc v.1.nbStripesSoFar ∧ Tail3 c v.1) :=
  Exec.post hr (by
    rintro v o ⟨rfl, rfl⟩
    exact ⟨rfl, rfl, ⟨hk.sec, hk.limit, hk.perBlock, hk.seed, hq⟩, rfl, hc, fun _ => ht⟩)

/-- (The kernel would compare the fields, if they were not variables.) -/
theorem ended3 {st : XXH3_state} {q : List Byte} {z : U32} {c r : List Byte} (hk : Kept3 secret k seed st)
    (ht : st.totalLen = BitVec.ofNat 64 m.length) (hm : m = c ++ r) (hc : Consumed k c st.acc st.nbStripesSoFar)
    (hl : r.length ≤ 256) (hr : r = [] → c = []) (hz : z.toNat = r.length) (hq : q.length = 256)
    (hh : q.take r.length = r) (htl : r.length ≤ 192 → c ≠ [] → q.drop 192 = c.drop (c.length - 64)) :
    Fed3 secret k seed m { st with buffer := q, bufferedSize := z } :=
  ⟨⟨hk.sec, hk.limit, hk.perBlock, hk.seed, hq⟩, ht, c, r, hm, hc, hl, hr, hz, hh, htl⟩

/-- `XXH3_update` after `totalLen` has been changed -/
def update3Rest (cfg : Cfg) (x : Xxh3) (state : XXH3_state) (input len bEnd : Nat) : M (XXH3_state × XXH_errorcode) :=
  if szAdd cfg state.bufferedSize.toNat len ≤ 256 then do
    let buffer ← memcpyInto state.buffer state.bufferedSize.toNat input len
    pure ({ state with buffer := buffer, bufferedSize := state.bufferedSize + BitVec.ofNat 32 len }, .ok)
  else do
    let (state, i) ← XXH3_update_fill cfg x state input
    XXH_ASSERT x (input + i < bEnd)
    let (state, i) ← XXH3_update_direct cfg x state input len i bEnd
    XXH_ASSERT x (input + i < bEnd)
    let buffer ← memcpyInto state.buffer 0 (input + i) (bEnd - (input + i))
    pure ({ state with buffer := buffer, bufferedSize := BitVec.ofNat 32 (bEnd - (input + i)) }, .ok)

theorem update3_eq (st : XXH3_state) (input len : Nat) (h : input ≠ 0) :
    XXH3_update cfg x st input len = (do
      let bEnd ← ptrAdd cfg input len
      update3Rest cfg x { st with totalLen := st.totalLen + BitVec.ofNat 64 len } input len bEnd) := by
  unfold XXH3_update
  rw [if_neg h]
  rfl

section
variable {data : Nat} {y : List Byte} {above B : Nat} (hB : ∀ a, a < B → a < 2 ^ cfg.bits) (hh : Holds w ov data y) (h0 : data ≠ 0)
  (hs : Space cfg 0 P data (data + y.length)) (hup : ∀ a, data ≤ a → a ≤ data + y.length + above → P (.ptr a))
  (hab : data + y.length + above < B) (h256 : 256 ≤ above) (hpre : x.prefetch ≤ above)
  (g : ByteSource w ov cfg P secret k) (hk136 : 136 ≤ k.length) (hkb : k.length < B)
  (fine : x.access = .direct → x.lenient32 = true ∧ x.lenient64 = true)
include hB hh h0 hs hup hab h256 hpre g hk136 hkb fine

omit h0 h256 hk136 hkb in
theorem hashing_piece : Hashing w ov cfg x P (.memory data) y secret k ∧
    Ahead w ov cfg x P (.memory data) y.length :=
  ⟨⟨hs.source hh (Nat.le_refl _) (Nat.le_refl _), g, fine⟩, fun i hi =>
    Exec.bindR (Reads.ptrAdd (hB _ (by omega)) (hup _ (by omega) (by omega))) (Reads.pure ())⟩

omit hpre hup h256 in
theorem exec_fill3 (h257 : 256 < B) {c r : List Byte} {st : XXH3_state} (hk : Kept3 secret k seed st) (hb : Buffered3 k c r st)
    (hlong : 256 < r.length + y.length) :
    ∃ n, Exec w ov P nowhere n (XXH3_update_fill cfg x st data)
      (fun v o => o = ov ∧ v.2 = (if r = [] then 0 else 256 - r.length) ∧ Kept3 secret k seed v.1 ∧
        v.1.totalLen = st.totalLen ∧
        Consumed k (c ++ r ++ y.take (if r = [] then 0 else 256 - r.length)) v.1.acc v.1.nbStripesSoFar ∧
        Tail3 (c ++ r ++ y.take (if r = [] then 0 else 256 - r.length)) v.1) := by
  have hcount := hb.count
  have hshort := hb.short
  unfold XXH3_update_fill
  by_cases hz : r = []
  · have hc := hb.last hz
    subst hz
    have hz' : st.bufferedSize = 0 := BitVec.eq_of_toNat_eq hcount
    refine ⟨0, ?_⟩
    rw [if_neg (not_not.2 hz'), if_pos rfl, List.take_zero, List.append_nil, List.append_nil]
    exact Exec.pure _ ⟨rfl, rfl, hk, rfl, hb.consumed, hb.tail (by simp)⟩
  · have hz' : st.bufferedSize ≠ 0 := fun e => hz (List.eq_nil_of_length_eq_zero (by rw [← hcount, e]; rfl))
    have hr0 : 0 < r.length := List.length_pos_iff.2 hz
    rw [if_pos hz', if_neg hz]
    have hsub : szSub cfg 256 st.bufferedSize.toNat = 256 - r.length := by
      unfold szSub
      have := hB 256 h257
      rw [hcount, show 2 ^ cfg.bits + 256 - r.length = 256 - r.length + 2 ^ cfg.bits by omega, Nat.add_mod_right,
        Nat.mod_eq_of_lt (by omega)]
    rw [hsub]
    have hy : (y.take (256 - r.length)).length = 256 - r.length := by rw [List.length_take]; omega
    have hcp := reads_memcpyInto (P := P) (array := st.buffer) (k := st.bufferedSize.toNat) h0
      (hh.take (256 - r.length)) (hs.rd _ _ (Nat.le_refl _) (by omega)) (by rw [hk.size]; omega)
    rw [hy] at hcp
    have hmem : splice st.buffer st.bufferedSize.toNat (y.take (256 - r.length)) = r ++ y.take (256 - r.length) := by
      unfold splice
      rw [hcount, hb.held, hy, List.drop_of_length_le (by rw [hk.size]; omega), List.append_nil]
    rw [hmem] at hcp
    have hml : (r ++ y.take (256 - r.length)).length = 256 := by rw [List.length_append, hy]; omega
    have hpb : 9 ≤ Spec.xxh3PerBlock k := by unfold Spec.xxh3PerBlock; omega
    have hnext := hb.consumed.next hml
    have h := hashing_array (source_array (w := w) (ov := ov) (cfg := cfg) (P := P) hs.iter
      (List.prefix_refl (r ++ y.take (256 - r.length)))) fine k
    have hcons := Hashing.consume ⟨h.msg, g, fine⟩ (ahead_array _ _) hk136 (hB _ hkb) st.acc (soFar := st.nbStripesSoFar)
      (by rw [hb.consumed.soFar]; exact Nat.mod_lt _ (by omega)) 0 4 (by omega) (by omega) hk.limit
    rw [List.drop_zero, ← hk.sec, ← hk.perBlock] at hcons
    rw [← hk.perBlock] at hnext
    refine ⟨4, filled3 hk ?_ (c := c ++ r ++ y.take (256 - r.length)) (by rw [List.append_assoc]; exact hnext) hml ?_⟩
    · exact Exec.cov (Reads.bind hcp <|
        Reads.bind (Reads.ptrAdd (hB _ (by omega)) (hs.ptr _ (by omega) (by omega))) <| Reads.bind hcons <| Reads.pure _)
        (fun a h => h.elim) rfl
    · rw [List.append_assoc, tail_append c (by omega), hml]

omit h0 h256 in
theorem step3 {st : XXH3_state} (hk : Kept3 secret k seed st) {i soFar : Nat} {acc : Lanes} {c : List Byte}
    (hc : Consumed k c acc soFar) (h1 : i + 256 ≤ y.length) :
    ∃ acc' soFar', Reads w ov P nowhere 4 (XXH3_consumeStripes cfg x acc soFar st.nbStripesPerBlock (.memory data) i 4
      st.secret st.secretLimit) (acc', soFar') ∧ Consumed k (c ++ (y.drop i).take 256) acc' soFar' := by
  have hpb : 9 ≤ Spec.xxh3PerBlock k := by unfold Spec.xxh3PerBlock; omega
  obtain ⟨hg, ha⟩ := hashing_piece hB hh hs hup hab hpre g fine
  have hl : ((y.drop i).take 256).length = 256 := by rw [List.length_take, List.length_drop]; omega
  have hcons := hg.consume ha hk136 (hB _ hkb) acc (soFar := soFar) (by rw [hc.soFar]; exact Nat.mod_lt _ (by omega)) i 4
    (by omega) (by omega) hk.limit
  have hch : chunks 64 4 (y.drop i) = chunks 64 4 ((y.drop i).take 256) := by
    conv => lhs; rw [← List.take_append_drop 256 (y.drop i)]
    exact chunks_take _ _ _ _ (by omega)
  rw [hch] at hcons
  rw [hk.sec, hk.perBlock]
  exact ⟨_, _, Exec.cov hcons (fun a h => h.elim) rfl, hc.next hl⟩

set_option maxRecDepth 4000 in
omit h0 in
theorem exec_loop3 {st : XXH3_state} (hk : Kept3 secret k seed st) (n i : Nat) (acc : Lanes)
    (soFar : Nat) (c : List Byte) (hc : Consumed k c acc soFar) (h1 : i + 256 * (n + 1) < y.length)
    (h2 : y.length ≤ i + 256 * (n + 2)) {fuel : Nat} (hf : n < fuel) :
    Exec w ov P nowhere (5 * (n + 1)) (XXH3_update_loop cfg x st data (data + y.length - 256) fuel i acc soFar)
      (fun v o => o = ov ∧ v.2.2 = i + 256 * (n + 1) ∧ Consumed k (c ++ (y.drop i).take (256 * (n + 1))) v.1 v.2.1) := by
  induction n generalizing i acc soFar c fuel with
  | zero =>
    obtain ⟨fuel, rfl⟩ : ∃ f, fuel = f + 1 := ⟨fuel - 1, by omega⟩
    obtain ⟨acc', soFar', hr, hn⟩ := step3 hB hh hs hup hab hpre g hk136 hkb fine hk hc (i := i) (by omega)
    unfold XXH3_update_loop
    refine Exec.cov (Reads.bind (Reads.iterate hs.iter) <| Reads.bind (C₂ := nowhere) (n₂ := 0) hr <|
      Exec.bindR (Reads.ptrAdd (hB _ (by omega)) (hup _ (by omega) (by omega))) ?_) (fun a h => h.elim) (by omega)
    rw [if_neg (by omega)]
    exact Exec.pure _ ⟨rfl, rfl, hn⟩
  | succ n ih =>
    obtain ⟨fuel, rfl⟩ : ∃ f, fuel = f + 1 := ⟨fuel - 1, by omega⟩
    obtain ⟨acc', soFar', hr, hn⟩ := step3 hB hh hs hup hab hpre g hk136 hkb fine hk hc (i := i) (by omega)
    unfold XXH3_update_loop
    refine Exec.cov (Reads.bind (Reads.iterate hs.iter) <| Reads.bind (C₂ := nowhere) (n₂ := 5 * (n + 1)) hr <|
      Exec.bindR (Reads.ptrAdd (hB _ (by omega)) (hup _ (by omega) (by omega))) ?_) (fun a h => h.elim) (by omega)
    rw [if_pos (by omega)]
    refine Exec.post (ih (i + 256) acc' soFar' _ hn (by omega) (by omega) (by omega)) ?_
    rintro v o ⟨ho, h3, h4⟩
    refine ⟨ho, by rw [h3]; omega, ?_⟩
    rw [show 256 * (n + 1 + 1) = 256 + 256 * (n + 1) by omega, List.take_add, List.drop_drop]
    rwa [List.append_assoc] at h4

set_option maxRecDepth 4000 in
omit h0 in
theorem exec_direct3 {st : XXH3_state} (hk : Kept3 secret k seed st) (i : Nat) (c : List Byte)
    (hc : Consumed k c st.acc st.nbStripesSoFar) (ht : Tail3 c st) (hi : i < y.length) :
    Exec w ov P nowhere (5 * ((y.length - i - 1) / 256))
      (XXH3_update_direct cfg x st data y.length i (data + y.length))
      (fun v o => o = ov ∧ v.2 = i + 256 * ((y.length - i - 1) / 256) ∧ Kept3 secret k seed v.1 ∧
        v.1.totalLen = st.totalLen ∧
        Consumed k (c ++ (y.drop i).take (256 * ((y.length - i - 1) / 256))) v.1.acc v.1.nbStripesSoFar ∧
        Tail3 (c ++ (y.drop i).take (256 * ((y.length - i - 1) / 256))) v.1) := by
  by_cases hl : i + 256 < y.length
  · obtain ⟨n, hn⟩ : ∃ n, (y.length - i - 1) / 256 = n + 1 := ⟨(y.length - i - 1) / 256 - 1, by omega⟩
    rw [hn]
    unfold XXH3_update_direct
    refine Exec.bindR (Reads.ptrAdd (hB _ (by omega)) (hup _ (by omega) (by omega))) ?_
    rw [if_pos (by omega)]
    refine Exec.bindR (Reads.ptrSub (by omega) (hup _ (by omega) (by omega))) ?_
    refine Exec.bindL (exec_loop3 hB hh hs hup hab h256 hpre g hk136 hkb fine hk n i st.acc st.nbStripesSoFar c hc
      (by omega) (by omega) (by omega)) ?_
    rintro ⟨acc, soFar, e⟩ o ⟨rfl, h3, h4⟩
    dsimp only at h3 h4
    subst h3
    have hz : ((y.drop (i + 256 * (n + 1) - 64)).take 64).length = 64 := by
      rw [List.length_take, List.length_drop]; omega
    have hcp := reads_memcpyInto (P := P) (array := st.buffer) (k := 256 - 64) (src := data + (i + 256 * (n + 1)) - 64)
      (by omega) (y := (y.drop (i + 256 * (n + 1) - 64)).take 64)
      (by have := hh.slice (i + 256 * (n + 1) - 64) 64
          rwa [show data + (i + 256 * (n + 1) - 64) = data + (i + 256 * (n + 1)) - 64 by omega] at this)
      (by rw [hz]; exact hs.rd _ _ (by omega) (by omega)) (by rw [hz, hk.size])
    rw [hz] at hcp
    refine directed3 (n := 0) (C := nowhere) hk
      (Exec.cov (Reads.bind (Reads.ptrSub (by omega) (hup _ (by omega) (by omega))) <| Reads.bind hcp <| Reads.pure _)
      (fun a h => h.elim) rfl) h4 ?_ ?_
    · rw [length_splice _ _ _ (by rw [hz, hk.size]), hk.size]
    · have hq : ((y.drop i).take (256 * (n + 1))).length = 256 * (n + 1) := by
        rw [List.length_take, List.length_drop]; omega
      rw [tail_append c (by omega), hq]
      unfold splice
      rw [hz, List.drop_of_length_le (l := st.buffer) (by rw [hk.size]), List.append_nil, List.drop_left' (by
        rw [List.length_take, hk.size]
        rfl), List.drop_take, List.drop_drop, show i + (256 * (n + 1) - 64) = i + 256 * (n + 1) - 64 by omega,
        show 256 * (n + 1) - (256 * (n + 1) - 64) = 64 by omega]
  · have hn : (y.length - i - 1) / 256 = 0 := by omega
    rw [hn, Nat.mul_zero, List.take_zero, List.append_nil]
    unfold XXH3_update_direct
    refine Exec.bindR (Reads.ptrAdd (hB _ (by omega)) (hup _ (by omega) (by omega))) ?_
    rw [if_neg (by omega)]
    exact Exec.pure _ ⟨rfl, rfl, hk, rfl, hc, ht⟩

set_option maxRecDepth 4000 in
theorem exec_update3 {st : XXH3_state} (f : Fed3 secret k seed m st) :
    ∃ n, Exec w ov P nowhere n (XXH3_update cfg x st data y.length)
      (fun r o => o = ov ∧ r.2 = .ok ∧ Fed3 secret k seed (m ++ y) r.1) := by
  obtain ⟨c, r, hm, hb⟩ := f.parts
  have hk := f.kept
  have hcount := hb.count
  have hshort := hb.short
  have htotal : st.totalLen + BitVec.ofNat 64 y.length = BitVec.ofNat 64 (m ++ y).length := by
    rw [f.total, List.length_append, BitVec.ofNat_add]
  generalize hst : ({ st with totalLen := st.totalLen + BitVec.ofNat 64 y.length } : XXH3_state) = st1
  have hk1 : Kept3 secret k seed st1 := by subst hst; exact ⟨hk.sec, hk.limit, hk.perBlock, hk.seed, hk.size⟩
  have hb1 : Buffered3 k c r st1 := by
    subst hst; exact ⟨hb.consumed, hb.short, hb.last, hb.count, hb.held, hb.tail⟩
  have ht1 : st1.totalLen = BitVec.ofNat 64 (m ++ y).length := by subst hst; exact htotal
  have hcount1 := hb1.count
  rw [update3_eq st _ _ h0, hst]
  unfold update3Rest
  have hsa : szAdd cfg st1.bufferedSize.toNat y.length = r.length + y.length := by
    rw [szAdd, Nat.mod_eq_of_lt (hB _ (by omega)), hcount1]
  rw [hsa]
  by_cases hc : r.length + y.length ≤ 256
  · refine ⟨0, Exec.bindR (Reads.ptrAdd (hB _ (by omega)) (hup _ (by omega) (by omega))) ?_⟩
    rw [if_pos hc]
    refine Exec.cov (Reads.bind (reads_memcpyInto h0 hh (hs.rd _ _ (Nat.le_refl _) (Nat.le_refl _))
      (by rw [hk1.size]; omega)) <| Exec.pure _ ⟨rfl, rfl, ?_⟩) (fun a h => h.elim) (by omega)
    have hsp : splice st1.buffer st1.bufferedSize.toNat y = r ++ y ++ st1.buffer.drop (r.length + y.length) := by
      unfold splice
      rw [hcount1, hb1.held]
    refine ended3 hk1 ht1 (c := c) (r := r ++ y) (by rw [hm, List.append_assoc]) hb1.consumed
      (by rw [List.length_append]; exact hc) (fun h => hb1.last (List.append_eq_nil_iff.1 h).1) ?_ ?_ ?_ ?_
    · rw [BitVec.toNat_add, BitVec.toNat_ofNat, hcount1, List.length_append]
      omega
    · rw [length_splice _ _ _ (by rw [hk1.size]; omega), hk1.size]
    · rw [hsp, List.take_left]
    · intro h1 h2
      rw [List.length_append] at h1
      rw [drop_splice (by omega) (by rw [hk1.size]; omega)]
      exact hb1.tail (by omega) h2
  · obtain ⟨n1, hfill⟩ := exec_fill3 hB hh h0 hs hab g hk136 hkb fine (by omega) hk1 hb1 (by omega)
    have hi : (if r = [] then 0 else 256 - r.length) < y.length := by
      split
      · rename_i h; subst h; simp only [List.length_nil] at hc; omega
      · omega
    have hne : r = [] → 256 < y.length := by
      rintro rfl; simp only [List.length_nil] at hc; omega
    generalize hie : (if r = [] then 0 else 256 - r.length) = i at *
    refine ⟨n1 + 5 * ((y.length - i - 1) / 256),
      Exec.bindR (Reads.ptrAdd (hB _ (by omega)) (hup _ (by omega) (by omega))) ?_⟩
    rw [if_neg hc]
    refine Exec.bind' (C₂ := nowhere) hfill ?_ (fun a h => Or.inl h) rfl
    rintro ⟨st2, i2⟩ o ⟨rfl, h2, hk2, ht2, hc2, htl2⟩
    dsimp only at h2 hk2 ht2 hc2 htl2 ⊢
    subst h2
    refine assert_ok (fun _ => by simpa using hi) ?_
    refine Exec.bindL (exec_direct3 hB hh hs hup hab h256 hpre g hk136 hkb fine hk2 i2 _ hc2 htl2 hi) ?_
    rintro ⟨st3, i3⟩ o ⟨rfl, h3, hk3, ht3, hc3, htl3⟩
    dsimp only at h3 hk3 ht3 hc3 htl3 ⊢
    have hi3 : i3 < y.length := by omega
    refine assert_ok (fun _ => by simpa using hi3) ?_
    have hl3 : (y.drop i3).length = y.length - i3 := List.length_drop
    have hcp := reads_memcpyInto (P := P) (array := st3.buffer) (k := 0) (src := data + i3) (by omega)
      (hh.drop i3) (by rw [hl3]; exact hs.rd _ _ (by omega) (by omega)) (by rw [hl3, hk3.size]; omega)
    rw [hl3, show y.length - i3 = data + y.length - (data + i3) by omega] at hcp
    have hcat : y.take i2 ++ (y.drop i2).take (256 * ((y.length - i2 - 1) / 256)) = y.take i3 := by
      rw [h3, List.take_add]
    rw [List.append_assoc, hcat] at hc3 htl3
    refine Exec.cov (Reads.bind hcp <| Exec.pure _ ⟨rfl, rfl, ?_⟩) (fun a h => h.elim) rfl
    refine ended3 hk3 (by rw [ht3, ht2, ht1]) (c := c ++ r ++ y.take i3) (r := y.drop i3)
      (by rw [hm, List.append_assoc (c ++ r), List.take_append_drop]) hc3 (by rw [hl3]; omega) ?_ ?_ ?_ ?_ ?_
    · intro h
      have := congrArg List.length h
      rw [hl3, List.length_nil] at this
      omega
    · rw [BitVec.toNat_ofNat, hl3]
      omega
    · rw [length_splice _ _ _ (by rw [hl3, hk3.size]; omega), hk3.size]
    · unfold splice
      rw [List.take_zero, List.nil_append, List.take_left]
    · intro h1 h2
      rw [drop_splice (by omega) (by rw [hk3.size]; omega)]
      exact htl3 h2

end

end Model

end T1ha
