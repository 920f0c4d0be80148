import Verif.Proofs.Highway
import Verif.Proofs.Steps

/-!
# HighwayHash computes its specification: the whole message
-/

namespace T1ha.Model

open Spec (Highway)

variable {w : World} {ov : Overlay} {cfg : Cfg} {P : Ev → Prop} {lo hi d : Nat} {strict : Bool}
  {b : Bytes} {r : List Byte} {C : Nat → Nat → Prop}

/-! ## The last bytes -/

theorem length_stored (e : Endian) (l : List Byte) : (Spec.stored e l).length = l.length := by
  cases e
  · rfl
  · exact List.length_reverse

theorem highwayStored_little (m : List Byte) : Spec.highwayStored .little m = Spec.highwayPadded m := by
  unfold Spec.highwayStored Spec.highwayPadded Spec.stored
  simp only [List.append_assoc]
  split
  · rfl
  · rw [show List.replicate 13 0 = List.replicate 5 0 ++ List.replicate 8 (0 : Byte) from rfl]

theorem length_three (m : List Byte) : (if m = [] then [0, 0, 0] else
    [m.getD 0 0, m.getD (m.length / 2) 0, m.getD (m.length - 1) 0] : List Byte).length = 3 := by
  split <;> rfl

theorem length_highwayStored (e : Endian) (m : List Byte) (h : m.length < 32) :
    (Spec.highwayStored e m).length = 32 := by
  unfold Spec.highwayStored
  simp only []
  split
  · simp only [List.length_append, List.length_take, List.length_replicate, length_stored, List.length_drop]
    omega
  · simp only [List.length_append, List.length_take, List.length_replicate, length_stored, length_three]
    omega

theorem length_highwayPadded (m : List Byte) (h : m.length < 32) : (Spec.highwayPadded m).length = 32 := by
  rw [← highwayStored_little]
  exact length_highwayStored _ m h

theorem bytes_of_le (e : Endian) (l : List Byte) (n : Nat) (h : l.length = n) :
    e.bytes n (leVal l) = Spec.stored e l := by
  subst h
  cases e
  · exact leBytes_leVal l
  · unfold Endian.bytes Spec.stored
    simp only [leBytes_leVal]

theorem host_le32 (e : Endian) (l : List Byte) (h : l.length = 4) :
    (HighwayPortable.host_from_le32 e (BitVec.ofNat 32 (e.val l))).toNat = leVal l := by
  have hlt := leVal_lt l
  rw [h] at hlt
  unfold HighwayPortable.host_from_le32
  cases e with
  | little => exact toNat_ofNat_val .little _ h (by decide)
  | big =>
    simp only []
    rw [toNat_ofNat_val .big _ h (by decide), bswap_val _ _ h]
    exact toNat_ofNat_val .little _ h (by decide)

theorem reads_readBefore (g : Yields w ov cfg P strict b r C) (h16 : 16 ≤ r.length) :
    Exec w ov P (span C (r.length - 4) r.length) 0
      (HighwayPortable.load3ReadBefore cfg strict b (r.length / 4 * 4) (r.length % 4))
      (fun x o => x.toNat = leVal (r.drop (r.length - 4)) ∧ o = ov) := by
  have hget : ∀ j, (hj : j < 4) → Reads w ov P (C (r.length - 4 + j)) 0
      (b.get cfg strict (r.length - 4 + j)) (r[r.length - 4 + j]'(by omega)) := by
    intro j hj
    exact g.get _ _ (List.getElem?_eq_getElem (by omega))
  unfold HighwayPortable.load3ReadBefore
  rw [show r.length / 4 * 4 + r.length % 4 - 4 = r.length - 4 by omega]
  refine Exec.cov (Exec.bindR (C := fun a => C (r.length - 4) a ∨ C (r.length - 4 + 1) a ∨ C (r.length - 4 + 2) a ∨
    C (r.length - 4 + 3) a) (n := 0) (g.pointer _ (by omega)) ?_) (fun a ⟨k, h1, h2, h3⟩ => ?_) rfl
  · refine Exec.bindR (g.pointer (r.length - 4) (by omega)) ?_
    refine Exec.cov (Exec.post (Reads.bind (hget 0 (by omega)) <| Reads.bind (hget 1 (by omega)) <|
      Reads.bind (hget 2 (by omega)) <| Reads.bind (C₂ := nowhere) (n₂ := 0) (hget 3 (by omega)) (Reads.pure _))
      ?_) (fun a h => ?_) rfl
    · rintro x o ⟨rfl, rfl⟩
      refine ⟨?_, rfl⟩
      rw [host_le32 _ _ rfl, drop_last4 r (by omega)]
      rfl
    · rcases h with h | h | h | h <;> simp only [Nat.add_zero, h, true_or, or_true]
  · obtain ⟨j, rfl⟩ : ∃ j, k = r.length - 4 + j := ⟨k - (r.length - 4), by omega⟩
    have hj : j < 4 := by omega
    clear h1 h2
    interval_cases j
    · exact Or.inl h3
    · exact Or.inr (Or.inl h3)
    · exact Or.inr (Or.inr (Or.inl h3))
    · exact Or.inr (Or.inr (Or.inr h3))

theorem add_three (a b c : Byte) :
    (a.setWidth 64 + b.setWidth 64 <<< 8 + c.setWidth 64 <<< 16 : U64).toNat = leVal ([a, b, c] ++ List.replicate 5 0#8) := by
  have ha := a.isLt
  have hb := b.isLt
  have hc := c.isLt
  simp only [BitVec.toNat_add, BitVec.toNat_shiftLeft, BitVec.toNat_setWidth, Nat.shiftLeft_eq, leVal_append,
    List.length_cons, List.length_nil, leVal, show leVal (List.replicate 5 0#8) = 0 by decide]
  omega

theorem reads_unordered (g : Yields w ov cfg P strict b r C) :
    Exec w ov P (span C (r.length / 4 * 4) r.length) 0
      (HighwayPortable.load3Unordered cfg strict b (r.length / 4 * 4) (r.length % 4))
      (fun x o => x.toNat = leVal ((if r.drop (r.length / 4 * 4) = [] then [0, 0, 0] else
        [(r.drop (r.length / 4 * 4)).getD 0 0,
         (r.drop (r.length / 4 * 4)).getD ((r.drop (r.length / 4 * 4)).length / 2) 0,
         (r.drop (r.length / 4 * 4)).getD ((r.drop (r.length / 4 * 4)).length - 1) 0]) ++ List.replicate 5 0) ∧
        o = ov) := by
  have hd : (r.drop (r.length / 4 * 4)).length = r.length % 4 := by rw [List.length_drop]; omega
  unfold HighwayPortable.load3Unordered
  by_cases h4 : r.length % 4 = 0
  · rw [if_pos h4, if_pos (List.eq_nil_of_length_eq_zero (by omega))]
    refine Exec.cov (Exec.post (Reads.pure _) ?_) (fun a ⟨k, h1, h2, h3⟩ => by omega) rfl
    rintro x o ⟨rfl, rfl⟩
    exact ⟨by decide, rfl⟩
  · rw [if_neg h4, if_neg (by intro h'; rw [h', List.length_nil] at hd; omega), hd]
    have hget : ∀ j, (hj : j < r.length % 4) → Reads w ov P (C (r.length / 4 * 4 + j)) 0
        (b.get cfg strict (r.length / 4 * 4 + j)) ((r.drop (r.length / 4 * 4)).getD j 0) := by
      intro j hj
      apply g.get
      rw [List.getD_eq_getElem?_getD, List.getElem?_drop, List.getElem?_eq_getElem (by omega)]
      rfl
    simp only [Nat.shiftRight_one]
    refine Exec.cov (Exec.post (Reads.bind (hget 0 (by omega)) <| Reads.bind (hget (r.length % 4 / 2) (by omega)) <|
      Reads.bind (C₂ := nowhere) (n₂ := 0) (hget (r.length % 4 - 1) (by omega)) (Reads.pure _)) ?_)
      (fun a ⟨k, h1, h2, h3⟩ => ?_) rfl
    · rintro x o ⟨rfl, rfl⟩
      exact ⟨add_three _ _ _, rfl⟩
    · obtain ⟨j, rfl⟩ : ∃ j, k = r.length / 4 * 4 + j := ⟨k - r.length / 4 * 4, by omega⟩
      have hj : j = 0 ∨ j = r.length % 4 / 2 ∨ j = r.length % 4 - 1 := by omega
      rcases hj with rfl | rfl | rfl <;> simp only [h3, true_or, or_true]

/-- The iterations which copy the last bytes. -/
def storedLoops (n : Nat) : Nat := n / 4 * 4 + if 16 ≤ n then 4 else 8

theorem reads_remainderPortable (g : Yields w ov cfg P strict b r C) (h : r.length < 32) :
    Reads w ov P (span C 0 r.length) (storedLoops r.length)
      (HighwayPortable.remainderPacket cfg strict b r.length) (Spec.highwayStored cfg.endian r) := by
  have hbits := bits_ge_32 cfg
  unfold HighwayPortable.remainderPacket storedLoops
  simp only [and_minus_4 (cfg := cfg) _ h, and_3]
  unfold Spec.highwayStored
  simp only []
  by_cases h16 : 16 ≤ r.length
  · simp only [if_pos ((and_16_iff _ h).2 h16), if_pos h16]
    have hl4 : (r.drop (r.length - 4)).length = 4 := by rw [List.length_drop]; omega
    refine Exec.cov (Reads.bind (g.pointer _ (by omega)) <| Reads.bind (reads_groups g h) <|
      Exec.bind (C₂ := nowhere) (n₂ := 4) (reads_readBefore g h16) ?_) (fun a ⟨k, h1, h2, h3⟩ => ?_) (by omega)
    · rintro x o ⟨hx, ho⟩
      subst o
      rw [hx, bytes_of_le _ _ 4 hl4]
      have hg : Yields w ov cfg P strict (.array (Spec.stored cfg.endian (r.drop (r.length - 4))))
          (Spec.stored cfg.endian (r.drop (r.length - 4))) (fun _ => nowhere) :=
        gives_array g.iter List.prefix_rfl (by rw [length_stored, hl4]; omega)
      have hc := reads_copyBytes hg 28 4 0
        (r.take (r.length / 4 * 4) ++ List.replicate (32 - r.length / 4 * 4) 0#8)
        (by rw [length_stored, hl4])
        (by rw [List.length_append, List.length_take, List.length_replicate]; omega)
      refine Exec.cov (hc.post ?_) (fun a h => (nomatch h : False).elim) rfl
      rintro y o ⟨rfl, ho⟩
      refine ⟨?_, ho⟩
      rw [List.drop_zero, List.take_of_length_le (i := 4) (by rw [length_stored, hl4]),
        show 32 - r.length / 4 * 4 = (28 - r.length / 4 * 4) + 4 by omega, replicate_plus, ← List.append_assoc]
      generalize hpre : r.take (r.length / 4 * 4) ++ List.replicate (28 - r.length / 4 * 4) 0#8 = pre
      have hpl : pre.length = 28 := by
        rw [← hpre, List.length_append, List.length_take, List.length_replicate]; omega
      unfold splice
      rw [length_stored, hl4, Nat.add_zero, List.take_append_of_le_length (by omega), List.take_of_length_le (by omega),
        List.drop_of_length_le (i := 28 + 4) (by rw [List.length_append, hpl, List.length_replicate]), List.append_nil]
    · by_cases hk : k < r.length / 4 * 4
      · exact Or.inr (Or.inl ⟨k, by omega, hk, h3⟩)
      · exact Or.inr (Or.inr (Or.inl ⟨k, by omega, h2, h3⟩))
  · simp only [if_neg (mt (and_16_iff _ h).1 h16), if_neg h16]
    have hl8 := length_three (r.drop (r.length / 4 * 4))
    refine Exec.cov (Reads.bind (g.pointer _ (by omega)) <| Reads.bind (reads_groups g h) <|
      Exec.bind (C₂ := nowhere) (n₂ := 8) (reads_unordered g) ?_) (fun a ⟨k, h1, h2, h3⟩ => ?_) (by omega)
    · rintro x o ⟨hx, ho⟩
      subst o
      rw [hx]
      generalize (if r.drop (r.length / 4 * 4) = [] then [0, 0, 0] else
        [(r.drop (r.length / 4 * 4)).getD 0 0,
         (r.drop (r.length / 4 * 4)).getD ((r.drop (r.length / 4 * 4)).length / 2) 0,
         (r.drop (r.length / 4 * 4)).getD ((r.drop (r.length / 4 * 4)).length - 1) 0] : List Byte) = l3 at *
      have hlen : (l3 ++ List.replicate 5 0).length = 8 := by rw [List.length_append, hl8]; rfl
      rw [bytes_of_le _ _ 8 hlen]
      generalize l3 ++ List.replicate 5 0 = l at *
      have hg : Yields w ov cfg P strict (.array (Spec.stored cfg.endian l)) (Spec.stored cfg.endian l) (fun _ => nowhere) :=
        gives_array g.iter List.prefix_rfl (by rw [length_stored, hlen]; omega)
      have hc := reads_copyBytes hg 16 8 0
        (r.take (r.length / 4 * 4) ++ List.replicate (32 - r.length / 4 * 4) 0#8)
        (by rw [length_stored, hlen])
        (by rw [List.length_append, List.length_take, List.length_replicate]; omega)
      refine Exec.cov (hc.post ?_) (fun a h => (nomatch h : False).elim) rfl
      rintro y o ⟨rfl, ho⟩
      refine ⟨?_, ho⟩
      rw [List.drop_zero, List.take_of_length_le (i := 8) (by rw [length_stored, hlen]),
        show 32 - r.length / 4 * 4 = (16 - r.length / 4 * 4) + 16 by omega, replicate_plus, ← List.append_assoc]
      generalize hpre : r.take (r.length / 4 * 4) ++ List.replicate (16 - r.length / 4 * 4) 0#8 = pre
      have hpl : pre.length = 16 := by
        rw [← hpre, List.length_append, List.length_take, List.length_replicate]; omega
      unfold splice
      rw [length_stored, hlen, Nat.add_zero, List.take_append_of_le_length (by omega), List.take_of_length_le (by omega),
        List.drop_append, List.drop_of_length_le (by omega), List.nil_append, hpl, List.drop_replicate]
      rfl
    · by_cases hk : k < r.length / 4 * 4
      · exact Or.inr (Or.inl ⟨k, by omega, hk, h3⟩)
      · exact Or.inr (Or.inr (Or.inl ⟨k, by omega, h2, h3⟩))

theorem rotate32C (n : Nat) (h0 : 0 < n) (hn : n < 32) (v : Quad) :
    HighwayC.Rotate32By n v = pure (v.map (Spec.rotHalves n)) := by
  unfold HighwayC.Rotate32By
  simp only [rotateC n h0 hn, pure_bind]
  rfl

theorem rotate32Portable (n : Nat) (h0 : 0 < n) (hn : n < 32) (v : Quad) :
    HighwayPortable.Rotate32By v n = pure (v.map (Spec.rotHalves n)) := by
  unfold HighwayPortable.Rotate32By
  simp only [rotatePortable n h0 hn, pure_bind]
  rfl

theorem reads_updateRemainderC (g : Yields w ov cfg P strict b r C) (h0 : 0 < r.length) (h : r.length < 32)
    (hst : strict = false ∨ r.length < 16) (s : Highway) :
    Reads w ov P (span C 0 r.length) (r.length / 4 * 4)
      (HighwayC.HighwayHashUpdateRemainder_pure_c cfg strict b r.length s)
      (Spec.highwayRemainder Spec.highwayPadded s r) := by
  have hbits := bits_ge_32 cfg
  have hl := length_highwayPadded r h
  unfold HighwayC.HighwayHashUpdateRemainder_pure_c
  simp only [rotate32C _ h0 h, pure_bind]
  exact Exec.cov (Reads.bind (reads_remainderC g h0 h hst)
    (reads_packetC (gives_array g.iter List.prefix_rfl (by omega)) hl _)) (fun a h => Or.inl h) rfl

theorem reads_updateRemainderPortable (g : Yields w ov cfg P strict b r C) (h0 : 0 < r.length) (h : r.length < 32)
    (s : Highway) :
    Reads w ov P (span C 0 r.length) (storedLoops r.length + 32)
      (HighwayPortable.UpdateRemainder cfg strict b r.length s)
      (Spec.highwayRemainder (Spec.highwayStored cfg.endian) s r) := by
  have hbits := bits_ge_32 cfg
  have hl := length_highwayStored cfg.endian r h
  unfold HighwayPortable.UpdateRemainder
  simp only [rotate32Portable _ h0 h, pure_bind]
  exact Exec.cov (Reads.bind (reads_remainderPortable g h)
    (reads_packetPortable (gives_array g.iter List.prefix_rfl (by omega)) hl _)) (fun a h => Or.inl h) rfl

/-! ## One call -/

theorem span_range (v n : Nat) (a : Nat) (h : range v n a) : span (fun i => range (v + i) 1) 0 n a := by
  simp only [range] at h
  exact ⟨a - v, by omega, by omega, by simp only [range]; omega⟩

theorem reads_processLoop (hs : Space cfg d P lo hi) {data size : Nat} (hsz : size + 32 < 2 ^ cfg.bits) (n : Nat)
    (i : Nat) (r : List Byte) (s : Highway) (hh : Holds w ov (data + i) r) (hlo : lo ≤ data)
    (hhi : data + i + r.length ≤ hi) (hi' : i + r.length = size) (hn : r.length / 32 = n) {fuel : Nat} (hf : n < fuel) :
    Reads w ov P (range (data + i) (32 * n)) n (HighwayC.processLoop cfg strict data size fuel i s)
      (i + 32 * n, (chunks 32 n r).foldl Spec.highwayPacket s) := by
  have hlt := hs.hi_lt
  induction n generalizing i r s fuel with
  | zero =>
    obtain ⟨fuel, rfl⟩ : ∃ k, fuel = k + 1 := ⟨fuel - 1, by omega⟩
    unfold HighwayC.processLoop
    rw [if_neg (by rw [szAdd, Nat.mod_eq_of_lt (by omega)]; omega)]
    exact Exec.cov (Reads.pure _) (fun a h => by simp only [range] at h; omega) rfl
  | succ n ih =>
    obtain ⟨fuel, rfl⟩ : ∃ k, fuel = k + 1 := ⟨fuel - 1, by omega⟩
    unfold HighwayC.processLoop
    have hsa : szAdd cfg i 32 = i + 32 := by rw [szAdd, Nat.mod_eq_of_lt (by omega)]
    rw [hsa, if_pos (by omega)]
    have hd : (r.drop 32).length = r.length - 32 := List.length_drop
    have ht : (r.take 32).length = 32 := by rw [List.length_take]; omega
    have hg : Yields w ov cfg P strict (.memory (data + i)) (r.take 32) (fun j => range (data + i + j) 1) :=
      gives_memory hs (hh.take 32) (by omega) (by omega)
    have := ih (i + 32) (r.drop 32) (Spec.highwayPacket s (r.take 32)) (by rw [← Nat.add_assoc]; exact hh.drop 32)
      (by omega) (by omega) (by omega) (fuel := fuel) (by omega)
    rw [show i + 32 * (n + 1) = i + 32 + 32 * n by omega,
      show chunks 32 (n + 1) r = r.take 32 :: chunks 32 n (r.drop 32) from rfl, List.foldl_cons]
    refine Exec.cov (Reads.bind (Reads.iterate hs.iter) <| Reads.bind
      (Reads.ptrAdd (by omega) (hs.ptr _ (by omega) (by omega))) <|
      Reads.bind (reads_packetC hg ht s) this) (fun a h => ?_) (by omega)
    by_cases ha : a < data + i + 32
    · exact Or.inr (Or.inr (Or.inl (span_range _ _ _ (by simp only [range] at *; omega))))
    · exact Or.inr (Or.inr (Or.inr (by simp only [range] at *; omega)))

theorem rest_eq_nil (m : List Byte) : Spec.rest 32 m = [] ↔ m.length % 32 = 0 := by
  rw [← length_rest 32 m, List.length_eq_zero_iff]

theorem reads_ProcessAll (hs : Space cfg d P lo hi) {data : Nat} {m : List Byte} (hh : Holds w ov data m)
    (hlo : lo ≤ data) (hhi : data + m.length ≤ hi) (hsz : m.length + 32 < 2 ^ cfg.bits)
    (hst : strict = false ∨ m.length % 32 < 16) (key : Quad) :
    Reads w ov P (range data m.length) (m.length / 32 + m.length % 32 / 4 * 4)
      (HighwayC.ProcessAll cfg strict data m.length key) (Spec.highwayAll key m) := by
  have hlt := hs.hi_lt
  unfold HighwayC.ProcessAll Spec.highwayAll Spec.highwayAbsorb
  rw [ResetC]
  have hloop := reads_processLoop (strict := strict) hs hsz (m.length / 32) 0 m (Spec.highwayStart key) hh hlo hhi (by omega) rfl
    (fuel := m.length + 1) (by omega)
  rw [Nat.zero_add] at hloop
  simp only [and_31]
  by_cases h0 : m.length % 32 = 0
  · simp only [if_neg (by simp [h0] : ¬ m.length % 32 ≠ 0), if_pos ((rest_eq_nil m).2 h0)]
    refine Exec.cov (Reads.bind hloop (Reads.pure _)) (fun a h => Or.inl ?_) (by omega)
    simp only [range] at *; omega
  · simp only [if_pos (by simp [h0] : m.length % 32 ≠ 0), if_neg (mt (rest_eq_nil m).1 h0)]
    have hr := length_rest 32 m
    have hg : Yields w ov cfg P strict (.memory (data + 32 * (m.length / 32))) (Spec.rest 32 m)
        (fun j => range (data + 32 * (m.length / 32) + j) 1) :=
      gives_memory hs (hh.drop _) (by omega) (by omega)
    rw [← hr]
    rw [← hr] at h0 hst
    refine Exec.cov (Reads.bind hloop <| Reads.bind (Reads.ptrAdd (by omega) (hs.ptr _ (by omega) (by omega))) <|
      reads_updateRemainderC hg (by omega) (by rw [hr]; omega) hst _) (fun a h => ?_) (by omega)
    by_cases ha : a < data + 32 * (m.length / 32)
    · exact Or.inl (by simp only [range] at *; omega)
    · exact Or.inr (Or.inr (span_range _ _ _ (by simp only [range] at *; omega)))

theorem reads_hashLoop (hs : Space cfg d P lo hi) {data size : Nat} (hsz : size + 32 < 2 ^ cfg.bits) (n : Nat)
    (i : Nat) (r : List Byte) (s : Highway) (hh : Holds w ov (data + i) r) (hlo : lo ≤ data)
    (hhi : data + i + r.length ≤ hi) (hi' : i + 32 * n ≤ size) (hn : 32 * n ≤ r.length) {fuel : Nat} (hf : n < fuel) :
    Reads w ov P (range (data + i) (32 * n)) (33 * n)
      (HighwayPortable.hashLoop cfg strict data (i + 32 * n) fuel i s)
      ((chunks 32 n r).foldl Spec.highwayPacket s) := by
  have hlt := hs.hi_lt
  induction n generalizing i r s fuel with
  | zero =>
    obtain ⟨fuel, rfl⟩ : ∃ k, fuel = k + 1 := ⟨fuel - 1, by omega⟩
    unfold HighwayPortable.hashLoop
    rw [if_neg (by omega)]
    exact Exec.cov (Reads.pure _) (fun a h => by simp only [range] at h; omega) rfl
  | succ n ih =>
    obtain ⟨fuel, rfl⟩ : ∃ k, fuel = k + 1 := ⟨fuel - 1, by omega⟩
    unfold HighwayPortable.hashLoop
    have hsa : szAdd cfg i 32 = i + 32 := by rw [szAdd, Nat.mod_eq_of_lt (by omega)]
    rw [hsa, if_pos (by omega)]
    have hd : (r.drop 32).length = r.length - 32 := List.length_drop
    have ht : (r.take 32).length = 32 := by rw [List.length_take]; omega
    have hg : Yields w ov cfg P strict (.memory (data + i)) (r.take 32) (fun j => range (data + i + j) 1) :=
      gives_memory hs (hh.take 32) (by omega) (by omega)
    have := ih (i + 32) (r.drop 32) (Spec.highwayPacket s (r.take 32)) (by rw [← Nat.add_assoc]; exact hh.drop 32)
      (by omega) (by omega) (by omega) (fuel := fuel) (by omega)
    rw [show i + 32 * (n + 1) = i + 32 + 32 * n by omega,
      show chunks 32 (n + 1) r = r.take 32 :: chunks 32 n (r.drop 32) from rfl, List.foldl_cons]
    refine Exec.cov (Reads.bind (Reads.iterate hs.iter) <| Reads.bind
      (Reads.ptrAdd (by omega) (hs.ptr _ (by omega) (by omega))) <|
      Reads.bind (reads_packetPortable hg ht s) this) (fun a h => ?_) (by omega)
    by_cases ha : a < data + i + 32
    · exact Or.inr (Or.inr (Or.inl (span_range _ _ _ (by simp only [range] at *; omega))))
    · exact Or.inr (Or.inr (Or.inr (by simp only [range] at *; omega)))

/-- The iterations of the C++ implementation. -/
def portableLoops (n : Nat) : Nat := 33 * (n / 32) + if n % 32 = 0 then 0 else storedLoops (n % 32) + 32

theorem truncated_eq (cfg : Cfg) (n : Nat) (h : n < 2 ^ cfg.bits) : n &&& (2 ^ cfg.bits - 1 - (32 - 1)) = 32 * (n / 32) := by
  have hb5 : 5 ≤ cfg.bits := by unfold Cfg.bits; split <;> omega
  generalize cfg.bits = b at *
  have h2 : 2 ^ b = 2 ^ (b - 5) * 32 := by rw [show (32 : Nat) = 2 ^ 5 from rfl, ← Nat.pow_add]; congr 1; omega
  have h3 : 2 ^ b - 1 - (32 - 1) = (2 ^ (b - 5) - 1) <<< 5 := by
    rw [Nat.shiftLeft_eq, h2, Nat.sub_mul]; omega
  have h4 : n / 32 < 2 ^ (b - 5) := by omega
  rw [h3]
  apply Nat.eq_of_testBit_eq
  intro j
  rw [show 32 * (n / 32) = (n / 32) <<< 5 by rw [Nat.shiftLeft_eq]; omega]
  rw [Nat.testBit_and, Nat.testBit_shiftLeft, Nat.testBit_shiftLeft, Nat.testBit_two_pow_sub_one]
  by_cases hj : 5 ≤ j
  · rw [show (32 : Nat) = 2 ^ 5 from rfl, Nat.testBit_div_two_pow, show j - 5 + 5 = j by omega]
    by_cases hjb : j - 5 < b - 5
    · simp [hj, hjb]
    · rw [Nat.testBit_lt_two_pow (Nat.lt_of_lt_of_le h (Nat.pow_le_pow_right (by omega) (by omega)))]
      simp
  · simp [hj]

theorem reads_HighwayHashT (hs : Space cfg d P lo hi) {data : Nat} {m : List Byte} (hh : Holds w ov data m)
    (hlo : lo ≤ data) (hhi : data + m.length ≤ hi) (hsz : m.length + 32 < 2 ^ cfg.bits) (key : Quad) :
    Reads w ov P (range data m.length) (portableLoops m.length)
      (HighwayPortable.HighwayHashT cfg strict (HighwayPortable.Reset key) data m.length)
      (Spec.highwayAbsorb (Spec.highwayStored cfg.endian) key m) := by
  have hlt := hs.hi_lt
  unfold HighwayPortable.HighwayHashT Spec.highwayAbsorb portableLoops
  rw [ResetPortable]
  have hloop := reads_hashLoop (strict := strict) hs hsz (m.length / 32) 0 m (Spec.highwayStart key) hh hlo hhi (by omega)
    (by omega) (fuel := m.length + 1) (by omega)
  rw [Nat.zero_add] at hloop
  simp only [truncated_eq cfg m.length (by omega), show 32 - 1 = 31 from rfl, and_31]
  by_cases h0 : m.length % 32 = 0
  · simp only [if_neg (by simp [h0] : ¬ m.length % 32 ≠ 0), if_pos ((rest_eq_nil m).2 h0), if_pos h0]
    refine Exec.cov (Reads.bind hloop (Reads.pure _)) (fun a h => Or.inl ?_) (by omega)
    simp only [range] at *; omega
  · simp only [if_pos (by simp [h0] : m.length % 32 ≠ 0), if_neg (mt (rest_eq_nil m).1 h0), if_neg h0]
    have hr := length_rest 32 m
    have hg : Yields w ov cfg P strict (.memory (data + 32 * (m.length / 32))) (Spec.rest 32 m)
        (fun j => range (data + 32 * (m.length / 32) + j) 1) :=
      gives_memory hs (hh.drop _) (by omega) (by omega)
    rw [← hr]
    rw [← hr] at h0
    refine Exec.cov (Reads.bind hloop <| Reads.bind (Reads.ptrAdd (by omega) (hs.ptr _ (by omega) (by omega))) <|
      reads_updateRemainderPortable hg (by omega) (by rw [hr]; omega) _) (fun a h => ?_) (by omega)
    by_cases ha : a < data + 32 * (m.length / 32)
    · exact Or.inl (by simp only [range] at *; omega)
    · exact Or.inr (Or.inr (span_range _ _ _ (by simp only [range] at *; omega)))

/-! ## An implementation of C on which the address of an element must not leave the address space -/

/-- From overlay `ov`, whatever happened before, `m` fails with the error `e`. -/
def Fails (w : World) (ov : Overlay) {α : Type} (m : M α) (e : Err) : Prop := ∀ log, m w ⟨log, ov⟩ = .error e

theorem Fails.now {α β : Type} {m : M α} {e : Err} (h : Fails w ov m e) (f : α → M β) : Fails w ov (m >>= f) e := by
  intro log
  show M.bind m f w _ = _
  simp only [M.bind, h log]

theorem Fails.after {α β : Type} {m : M α} {C : Nat → Prop} {n : Nat} {v : α} {f : α → M β} {e : Err}
    (h : Reads w ov P C n m v) (h2 : Fails w ov (f v) e) : Fails w ov (m >>= f) e := by
  intro log
  obtain ⟨v', ov', t, h1, ⟨rfl, rfl⟩, -⟩ := h log
  show M.bind m f w _ = _
  simp only [M.bind, h1]
  exact h2 _

theorem fails_remainderC {v : Nat} {r : List Byte} {C : Nat → Nat → Prop}
    (g : Yields w ov cfg P true (.memory v) r C) (hv : 4 ≤ v + r.length) (h : r.length < 32) (h16 : 16 ≤ r.length) :
    Fails w ov (HighwayC.remainderPacket cfg true (.memory v) r.length) .ptrWrap := by
  have hbits := bits_ge_32 cfg
  unfold HighwayC.remainderPacket
  simp only [and_minus_4 (cfg := cfg) _ h, and_3]
  simp only [if_pos ((and_16_iff _ h).2 h16)]
  refine Fails.after (g.pointer _ (by omega)) <| Fails.after (reads_groups g h) <| Fails.now ?_ _
  intro log
  unfold szSub szAdd
  rw [Nat.mod_eq_of_lt (a := 0 + r.length % 4) (by omega),
    Nat.mod_eq_of_lt (a := 2 ^ cfg.bits + (0 + r.length % 4) - 4) (by omega)]
  unfold Bytes.get
  simp only []
  rw [if_neg (by omega)]
  rfl

theorem fails_ProcessAll (hs : Space cfg d P lo hi) {data : Nat} {m : List Byte} (hh : Holds w ov data m)
    (hlo : lo ≤ data) (hhi : data + m.length ≤ hi) (hsz : m.length + 32 < 2 ^ cfg.bits)
    (h16 : 16 ≤ m.length % 32) (key : Quad) :
    Fails w ov (HighwayC.ProcessAll cfg true data m.length key) .ptrWrap := by
  have hlt := hs.hi_lt
  have hr := length_rest 32 m
  unfold HighwayC.ProcessAll
  rw [ResetC]
  have hloop := reads_processLoop (strict := true) hs hsz (m.length / 32) 0 m (Spec.highwayStart key) hh hlo hhi (by omega) rfl
    (fuel := m.length + 1) (by omega)
  rw [Nat.zero_add] at hloop
  simp only [and_31]
  simp only [if_pos (by omega : m.length % 32 ≠ 0)]
  have hg : Yields w ov cfg P true (.memory (data + 32 * (m.length / 32))) (Spec.rest 32 m)
      (fun i => range (data + 32 * (m.length / 32) + i) 1) :=
    gives_memory hs (hh.drop _) (by omega) (by rw [hr]; omega)
  refine Fails.after hloop <| Fails.after (Reads.ptrAdd (by omega) (hs.ptr _ (by omega) (by omega))) ?_
  unfold HighwayC.HighwayHashUpdateRemainder_pure_c HighwayC.Rotate32By
  rw [← hr] at h16 ⊢
  simp only [rotateC _ (by omega : 0 < (Spec.rest 32 m).length) (by omega), pure_bind]
  exact Fails.now (fails_remainderC hg (by omega) (by omega) (by omega)) _

end T1ha.Model
