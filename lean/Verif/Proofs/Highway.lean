import Verif.Proofs.HighwayPure
import Verif.Proofs.Region

/-!
# HighwayHash computes its specification: reading the message
-/

namespace T1ha.Model

open Spec (Highway)

variable {w : World} {ov : Overlay} {cfg : Cfg} {P : Ev → Prop} {lo hi d : Nat} {strict : Bool}
  {b : Bytes} {r : List Byte} {C : Nat → Nat → Prop}

/-! ## Bytes -/

/-- From `b` the bytes `r` can be read; `C i` is where the byte `i` is. -/
structure Yields (w : World) (ov : Overlay) (cfg : Cfg) (P : Ev → Prop) (strict : Bool) (b : Bytes)
    (r : List Byte) (C : Nat → Nat → Prop) : Prop where
  iter : P .iter
  small : r.length < 2 ^ cfg.bits
  get : ∀ i x, r[i]? = some x → Reads w ov P (C i) 0 (b.get cfg strict i) x
  wrapped : strict = false → ∀ i x, r[i]? = some x →
    Reads w ov P (C i) 0 (b.get cfg strict (2 ^ cfg.bits + i)) x
  pointer : ∀ n, n ≤ r.length → Reads w ov P nowhere 0 (b.pointer cfg n) ()

/-- Where the bytes from `i` to `j` are. -/
def span (C : Nat → Nat → Prop) (i j : Nat) : Nat → Prop := fun a => ∃ k, i ≤ k ∧ k < j ∧ C k a

theorem gives_memory {v : Nat} (hs : Space cfg d P lo hi) (hh : Holds w ov v r) (h1 : lo ≤ v)
    (h2 : v + r.length ≤ hi) : Yields w ov cfg P strict (.memory v) r (fun i => range (v + i) 1) where
  iter := hs.iter
  small := by have := hs.hi_lt; omega
  get := fun i x hx => by
    have hi' : i < r.length := by
      rw [List.getElem?_eq_some_iff] at hx
      exact hx.1
    have hlt := hs.hi_lt
    unfold Bytes.get
    simp only []
    rw [if_pos (by omega)]
    exact hs.byte hh h1 (by omega) hx
  wrapped := fun hst i x hx => by
    have hi' : i < r.length := by
      rw [List.getElem?_eq_some_iff] at hx
      exact hx.1
    unfold Bytes.get
    simp only [hst]
    rw [if_neg (by omega), if_neg (by simp), show v + (2 ^ cfg.bits + i) - 2 ^ cfg.bits = v + i by omega]
    have := hs.byte (v := v + i) (i := 0) (b := x) (hh.drop i) (by omega) (by omega)
      (by rw [List.getElem?_drop]; exact hx)
    exact this
  pointer := fun n hn => by
    have hlt := hs.hi_lt
    unfold Bytes.pointer
    exact Exec.cov (Reads.bind (Reads.ptrAdd (by omega) (hs.ptr _ (by omega) (by omega))) (Reads.pure ()))
      (fun a h => Or.inl h) rfl

theorem gives_array {l : List Byte} (hP : P .iter) (hp : r <+: l) (hl : l.length < 2 ^ cfg.bits) :
    Yields w ov cfg P strict (.array l) r (fun _ => nowhere) where
  iter := hP
  small := by have := hp.length_le; omega
  get := fun i x hx => by
    have hi' : i < r.length := by
      rw [List.getElem?_eq_some_iff] at hx
      exact hx.1
    have := hp.length_le
    have hx' : l[i]? = some x := by
      obtain ⟨t, rfl⟩ := hp
      rw [List.getElem?_append_left hi', hx]
    unfold Bytes.get
    simp only []
    rw [if_pos (by omega)]
    unfold element
    rw [hx']
    exact Reads.pure x
  wrapped := fun hst i x hx => by
    have hi' : i < r.length := by
      rw [List.getElem?_eq_some_iff] at hx
      exact hx.1
    have hx' : l[i]? = some x := by
      obtain ⟨t, rfl⟩ := hp
      rw [List.getElem?_append_left hi', hx]
    unfold Bytes.get
    simp only [hst]
    rw [if_neg (by omega), if_neg (by simp), Nat.add_sub_cancel_left]
    unfold element
    rw [hx']
    exact Reads.pure x
  pointer := fun n hn => by
    have := hp.length_le
    unfold Bytes.pointer
    simp only []
    rw [if_pos (by omega)]
    exact Reads.pure ()

/-- Replace some bytes of a list. -/
def splice (l : List Byte) (k : Nat) (xs : List Byte) : List Byte := l.take k ++ xs ++ l.drop (k + xs.length)

theorem splice_nil (l : List Byte) (k : Nat) : splice l k [] = l := by
  simp [splice]

theorem splice_set (l : List Byte) (k : Nat) (x : Byte) (xs : List Byte) (h : k < l.length) :
    splice (l.set k x) (k + 1) xs = splice l k (x :: xs) := by
  have h1 : (l.set k x).take (k + 1) = l.take k ++ [x] := by
    rw [List.take_add_one, List.getElem?_set_self (by omega)]
    simp [List.take_set_of_le]
  have h2 : (l.set k x).drop (k + 1 + xs.length) = l.drop (k + 1 + xs.length) := List.drop_set_of_lt (by omega)
  unfold splice
  rw [h1, h2]
  simp [List.append_assoc, Nat.add_assoc, Nat.add_comm 1]

theorem reads_setElement (l : List Byte) (i : Nat) (x : Byte) (h : i < l.length) :
    Reads w ov P nowhere 0 (setElement l i x) (l.set i x) := by
  unfold setElement
  rw [if_pos h]
  exact Reads.pure _

theorem replicate_plus (a b : Nat) (x : Byte) :
    List.replicate (a + b) x = List.replicate a x ++ List.replicate b x :=
  List.replicate_append_replicate.symm

theorem reads_copyBytes (g : Yields w ov cfg P strict b r C) (at' todo i : Nat) (dst : List Byte)
    (h : i + todo ≤ r.length) (h2 : at' + i + todo ≤ dst.length) :
    Reads w ov P (span C i (i + todo)) todo (copyBytes cfg strict b at' todo i dst)
      (splice dst (at' + i) ((r.drop i).take todo)) := by
  induction todo generalizing i dst with
  | zero =>
    unfold copyBytes
    rw [List.take_zero, splice_nil]
    exact Exec.cov (Reads.pure _) (fun a ⟨k, h1, h2, _⟩ => by omega) rfl
  | succ n ih =>
    unfold copyBytes
    have hx : r[i]? = some r[i] := List.getElem?_eq_getElem (by omega)
    have hdrop : (r.drop i).take (n + 1) = r[i] :: (r.drop (i + 1)).take n := by
      rw [List.drop_eq_getElem_cons (by omega), List.take_succ_cons]
    rw [hdrop, ← splice_set _ _ _ _ (by omega)]
    refine Exec.cov (Reads.bind (Reads.iterate g.iter) <| Reads.bind (g.get i _ hx) <|
      Reads.bind (reads_setElement _ _ _ (by omega)) (ih (i + 1) (dst.set (at' + i) r[i]) (by omega) (by rw [List.length_set]; omega)))
      (fun a ⟨k, h1, h2, h3⟩ => ?_) (by omega)
    by_cases hk : k = i
    · subst hk
      exact Or.inr (Or.inl h3)
    · exact Or.inr (Or.inr (Or.inr ⟨k, by omega, by omega, h3⟩))

theorem take_eight (l : List Byte) (h : 8 ≤ l.length) :
    l.take 8 = [l[0], l[1], l[2], l[3], l[4], l[5], l[6], l[7]] := by
  match l, h with
  | _ :: _ :: _ :: _ :: _ :: _ :: _ :: _ :: _, _ => rfl

theorem reads_Read64 (g : Yields w ov cfg P strict b r C) (o : Nat) (h : o + 8 ≤ r.length) :
    Reads w ov P (span C o (o + 8)) 0 (HighwayC.Read64 cfg strict b o) (Spec.num ((r.drop o).take 8)) := by
  have hget := fun j (hj : j < 8) => g.get (o + j) (r[o + j]'(by omega)) (List.getElem?_eq_getElem (by omega))
  rw [take_eight _ (by rw [List.length_drop]; omega)]
  simp only [List.getElem_drop]
  unfold HighwayC.Read64
  refine Exec.cov (Reads.bind (hget 0 (by omega)) <| Reads.bind (hget 1 (by omega)) <|
    Reads.bind (hget 2 (by omega)) <| Reads.bind (hget 3 (by omega)) <| Reads.bind (hget 4 (by omega)) <|
    Reads.bind (hget 5 (by omega)) <| Reads.bind (hget 6 (by omega)) <|
    Reads.bind (C₂ := nowhere) (n₂ := 0) (hget 7 (by omega)) ?_) (fun a ⟨k, h1, h2, h3⟩ => ?_) rfl
  · rw [num_eight]
    exact Reads.pure _
  · obtain ⟨j, rfl⟩ : ∃ j, k = o + j := ⟨k - o, by omega⟩
    have hj : j < 8 := by omega
    clear h1 h2
    interval_cases j <;> simp only [h3, true_or, or_true]

theorem span_trans {C : Nat → Nat → Prop} {i k : Nat} {a : Nat} (j : Nat) (h : span C i k a) :
    span C i j a ∨ span C j k a := by
  obtain ⟨x, h1, h2, h3⟩ := h
  by_cases hx : x < j
  · exact Or.inl ⟨x, h1, hx, h3⟩
  · exact Or.inr ⟨x, by omega, h2, h3⟩

/-! ## Packets -/

theorem reads_packetC (g : Yields w ov cfg P strict b r C) (hl : r.length = 32) (s : Highway) :
    Reads w ov P (span C 0 32) 0 (HighwayC.HighwayHashUpdatePacket_pure_c cfg strict b s) (Spec.highwayPacket s r) := by
  unfold HighwayC.HighwayHashUpdatePacket_pure_c
  refine Exec.cov (Reads.bind (reads_Read64 g 0 (by omega)) <| Reads.bind (reads_Read64 g 8 (by omega)) <|
    Reads.bind (reads_Read64 g 16 (by omega)) <| Reads.bind (C₂ := nowhere) (n₂ := 0)
      (reads_Read64 g 24 (by omega)) ?_) (fun a h => ?_) rfl
  · rw [UpdateC]
    exact Reads.pure _
  · rcases span_trans 8 h with h | h
    · exact Or.inl h
    rcases span_trans 16 h with h | h
    · exact Or.inr (Or.inl h)
    rcases span_trans 24 h with h | h
    · exact Or.inr (Or.inr (Or.inl h))
    · exact Or.inr (Or.inr (Or.inr (Or.inl h)))

theorem lane_eq (e : Endian) (bs : List Byte) (i : Nat) (h : 8 * i + 8 ≤ bs.length) :
    HighwayPortable.host_from_le64 e (HighwayPortable.lane e bs i) = Spec.word64 .little bs i := by
  unfold HighwayPortable.host_from_le64 HighwayPortable.lane Spec.word64
  have hl : ((bs.drop (8 * i)).take 8).length = 8 := by rw [List.length_take, List.length_drop]; omega
  cases e with
  | little => rfl
  | big =>
    simp only []
    rw [toNat_ofNat_val .big _ hl (by decide), bswap_val _ _ hl]
    rfl

theorem splice_all (l xs : List Byte) (h : xs.length = l.length) : splice l 0 xs = xs := by
  simp [splice, h]

theorem reads_packetPortable (g : Yields w ov cfg P strict b r C) (hl : r.length = 32) (s : Highway) :
    Reads w ov P (span C 0 32) 32 (HighwayPortable.Update cfg strict b s) (Spec.highwayPacket s r) := by
  unfold HighwayPortable.Update
  have hc := reads_copyBytes g 0 32 0 (List.replicate 32 0#8) (by omega) (by simp)
  rw [List.drop_zero, List.take_of_length_le (by omega), splice_all _ _ (by simpa using hl)] at hc
  refine Exec.cov (Reads.bind (C₂ := nowhere) (n₂ := 0) hc ?_) (fun a h => Or.inl h) rfl
  simp only [lane_eq _ r 0 (by omega), lane_eq _ r 1 (by omega), lane_eq _ r 2 (by omega), lane_eq _ r 3 (by omega),
    UpdatePortable]
  exact Reads.pure _

/-! ## The last bytes -/

theorem and_minus_4 (n : Nat) (h : n < 32) : n &&& (2 ^ cfg.bits - 4) = n / 4 * 4 := by
  have h1 : ∀ n, n < 32 → n &&& (2 ^ 32 - 4) = n / 4 * 4 := by decide
  have h2 : ∀ n, n < 32 → n &&& (2 ^ 64 - 4) = n / 4 * 4 := by decide
  unfold Cfg.bits
  split
  · exact h2 n h
  · exact h1 n h

theorem and_3 (n : Nat) : n &&& 3 = n % 4 := Nat.and_two_pow_sub_one_eq_mod n 2

theorem and_16_iff (n : Nat) (h : n < 32) : n &&& 16 ≠ 0 ↔ 16 ≤ n := by
  have : ∀ n, n < 32 → (n &&& 16 ≠ 0 ↔ 16 ≤ n) := by decide
  exact this n h

theorem bits_ge_32 (cfg : Cfg) : 2 ^ 32 ≤ 2 ^ cfg.bits := Nat.pow_le_pow_right (by omega) (by unfold Cfg.bits; split <;> omega)

/-- The groups of four bytes, and zeros. -/
theorem reads_groups (g : Yields w ov cfg P strict b r C) (h : r.length < 32) :
    Reads w ov P (span C 0 (r.length / 4 * 4)) (r.length / 4 * 4)
      (copyBytes cfg strict b 0 (r.length / 4 * 4) 0 (List.replicate 32 0#8))
      (r.take (r.length / 4 * 4) ++ List.replicate (32 - r.length / 4 * 4) 0#8) := by
  have hc := reads_copyBytes g 0 (r.length / 4 * 4) 0 (List.replicate 32 0#8) (by omega)
    (by rw [List.length_replicate]; omega)
  rw [Nat.zero_add, List.drop_zero, Nat.add_zero] at hc
  have : splice (List.replicate 32 0#8) 0 (r.take (r.length / 4 * 4)) =
      r.take (r.length / 4 * 4) ++ List.replicate (32 - r.length / 4 * 4) 0#8 := by
    unfold splice
    rw [List.take_zero, List.nil_append, Nat.zero_add, List.drop_replicate, List.length_take,
      Nat.min_eq_left (by omega)]
  rw [this] at hc
  exact hc

theorem drop_last4 (l : List Byte) (h : 4 ≤ l.length) :
    l.drop (l.length - 4) = [l[l.length - 4], l[l.length - 4 + 1], l[l.length - 4 + 2], l[l.length - 4 + 3]] := by
  have hl : (l.drop (l.length - 4)).length = 4 := by rw [List.length_drop]; omega
  have : ∀ l' : List Byte, (h : l'.length = 4) → l' = [l'[0], l'[1], l'[2], l'[3]] := by
    intro l' h
    match l', h with
    | [_, _, _, _], _ => rfl
  rw [this _ hl]
  simp only [List.getElem_drop, Nat.add_zero]

theorem reads_remainderC (g : Yields w ov cfg P strict b r C) (h0 : 0 < r.length) (h : r.length < 32)
    (hst : strict = false ∨ r.length < 16) :
    Reads w ov P (span C 0 r.length) (r.length / 4 * 4) (HighwayC.remainderPacket cfg strict b r.length)
      (Spec.highwayPadded r) := by
  have hbits := bits_ge_32 cfg
  unfold HighwayC.remainderPacket
  simp only [and_minus_4 (cfg := cfg) _ h, and_3]
  unfold Spec.highwayPadded
  simp only []
  by_cases h16 : 16 ≤ r.length
  · simp only [if_pos ((and_16_iff _ h).2 h16), if_pos h16]
    have hst' : strict = false := by
      rcases hst with h | h
      · exact h
      · omega
    -- the last four bytes, by an index which may be negative
    have hlast : ∀ j, (hj : j < 4) → Reads w ov P (C (r.length - 4 + j)) 0
        (b.get cfg strict (r.length / 4 * 4 + szSub cfg (szAdd cfg j (r.length % 4)) 4))
        (r[r.length - 4 + j]'(by omega)) := by
      intro j hj
      have hx : r[r.length - 4 + j]? = some (r[r.length - 4 + j]'(by omega)) := List.getElem?_eq_getElem (by omega)
      unfold szSub szAdd
      rw [Nat.mod_eq_of_lt (a := j + r.length % 4) (by omega)]
      by_cases hneg : j + r.length % 4 < 4
      · rw [Nat.mod_eq_of_lt (a := 2 ^ cfg.bits + (j + r.length % 4) - 4) (by omega),
          show r.length / 4 * 4 + (2 ^ cfg.bits + (j + r.length % 4) - 4) = 2 ^ cfg.bits + (r.length - 4 + j) by omega]
        exact g.wrapped hst' _ _ hx
      · rw [show 2 ^ cfg.bits + (j + r.length % 4) - 4 = 2 ^ cfg.bits + (j + r.length % 4 - 4) by omega,
          Nat.add_mod_left, Nat.mod_eq_of_lt (a := j + r.length % 4 - 4) (by omega),
          show r.length / 4 * 4 + (j + r.length % 4 - 4) = r.length - 4 + j by omega]
        exact g.get _ _ hx
    have hl : (r.take (r.length / 4 * 4) ++ List.replicate (32 - r.length / 4 * 4) 0#8).length = 32 := by
      rw [List.length_append, List.length_take, List.length_replicate]; omega
    refine Exec.cov (Reads.bind (g.pointer _ (by omega)) <| Reads.bind (reads_groups g h) <|
      Reads.bind (hlast 0 (by omega)) <| Reads.bind (reads_setElement _ _ _ (by rw [hl]; omega)) <|
      Reads.bind (hlast 1 (by omega)) <| Reads.bind (reads_setElement _ _ _ (by rw [List.length_set, hl]; omega)) <|
      Reads.bind (hlast 2 (by omega)) <|
      Reads.bind (reads_setElement _ _ _ (by rw [List.length_set, List.length_set, hl]; omega)) <|
      Reads.bind (C₂ := nowhere) (n₂ := 0) (hlast 3 (by omega)) ?_) (fun a ⟨k, h1, h2, h3⟩ => ?_) (by omega)
    · have hset := reads_setElement (w := w) (ov := ov) (P := P)
        ((((r.take (r.length / 4 * 4) ++ List.replicate (32 - r.length / 4 * 4) 0#8).set 28 (r[r.length - 4 + 0]'(by omega))).set 29
          (r[r.length - 4 + 1]'(by omega))).set 30 (r[r.length - 4 + 2]'(by omega))) 31 (r[r.length - 4 + 3]'(by omega))
        (by rw [List.length_set, List.length_set, List.length_set, hl]; omega)
      refine hset.post ?_
      rintro x o ⟨rfl, rfl⟩
      refine ⟨?_, rfl⟩
      rw [drop_last4 r (by omega), show 32 - r.length / 4 * 4 = (28 - r.length / 4 * 4) + 4 by omega,
        replicate_plus, ← List.append_assoc]
      generalize hpre : r.take (r.length / 4 * 4) ++ List.replicate (28 - r.length / 4 * 4) 0#8 = pre
      have hpl : pre.length = 28 := by
        rw [← hpre, List.length_append, List.length_take, List.length_replicate]; omega
      simp [hpl, List.replicate]
    · by_cases hk : k < r.length / 4 * 4
      · exact Or.inr (Or.inl ⟨k, by omega, hk, h3⟩)
      · obtain ⟨j, rfl⟩ : ∃ j, k = r.length - 4 + j := ⟨k - (r.length - 4), by omega⟩
        have hj : j < 4 := by omega
        clear h1 h2 hk
        interval_cases j <;> simp only [h3, true_or, or_true]
  · simp only [if_neg (mt (and_16_iff _ h).1 h16), if_neg h16]
    have hl : (r.take (r.length / 4 * 4) ++ List.replicate (32 - r.length / 4 * 4) 0#8).length = 32 := by
      rw [List.length_append, List.length_take, List.length_replicate]; omega
    have hd : (r.drop (r.length / 4 * 4)).length = r.length % 4 := by rw [List.length_drop]; omega
    generalize hpre : r.take (r.length / 4 * 4) ++ List.replicate (16 - r.length / 4 * 4) 0#8 = pre
    have hpl : pre.length = 16 := by
      rw [← hpre, List.length_append, List.length_take, List.length_replicate]; omega
    have hsplit : r.take (r.length / 4 * 4) ++ List.replicate (32 - r.length / 4 * 4) 0#8 =
        pre ++ List.replicate 16 0#8 := by
      rw [← hpre, show 32 - r.length / 4 * 4 = (16 - r.length / 4 * 4) + 16 by omega, replicate_plus,
        ← List.append_assoc]
    by_cases h4 : r.length % 4 = 0
    · simp only [if_neg (by simp [h4] : ¬ r.length % 4 ≠ 0), if_pos (List.eq_nil_of_length_eq_zero (by omega) : r.drop (r.length / 4 * 4) = [])]
      refine Exec.cov (Reads.bind (g.pointer _ (by omega)) <|
        Reads.bind (C₂ := nowhere) (n₂ := 0) (reads_groups g h) ?_) (fun a ⟨k, h1, h2, h3⟩ => ?_) (by omega)
      · rw [hsplit, show pre ++ [0, 0, 0] ++ List.replicate 13 0 = pre ++ List.replicate 16 0#8 by
          rw [List.append_assoc]; rfl]
        exact Reads.pure _
      · exact Or.inr (Or.inl ⟨k, by omega, by omega, h3⟩)
    · simp only [if_pos (by simp [h4] : r.length % 4 ≠ 0),
        if_neg (by intro h'; rw [h', List.length_nil] at hd; omega : ¬ r.drop (r.length / 4 * 4) = [])]
      simp only [Nat.shiftRight_one, hd]
      have hget : ∀ j, (hj : j < r.length % 4) → Reads w ov P (C (r.length / 4 * 4 + j)) 0
          (b.get cfg strict (r.length / 4 * 4 + j)) ((r.drop (r.length / 4 * 4)).getD j 0) := by
        intro j hj
        apply g.get
        rw [List.getD_eq_getElem?_getD, List.getElem?_drop, List.getElem?_eq_getElem (by omega)]
        rfl
      rw [hsplit] at hl
      have hgroups := reads_groups g h
      rw [hsplit] at hgroups
      refine Exec.cov (Reads.bind (g.pointer _ (by omega)) <| Reads.bind hgroups <|
        Reads.bind (hget 0 (by omega)) <| Reads.bind (reads_setElement _ _ _ (by rw [hl]; omega)) <|
        Reads.bind (hget (r.length % 4 / 2) (by omega)) <|
        Reads.bind (reads_setElement _ _ _ (by rw [List.length_set, hl]; omega)) <|
        Reads.bind (C₂ := nowhere) (n₂ := 0) (hget (r.length % 4 - 1) (by omega)) ?_)
        (fun a ⟨k, h1, h2, h3⟩ => ?_) (by omega)
      · refine (reads_setElement _ _ _ (by rw [List.length_set, List.length_set, hl]; omega)).post ?_
        rintro x o ⟨rfl, rfl⟩
        refine ⟨?_, rfl⟩
        simp [hpl, List.replicate]
      · by_cases hk : k < r.length / 4 * 4
        · exact Or.inr (Or.inl ⟨k, by omega, hk, h3⟩)
        · obtain ⟨j, rfl⟩ : ∃ j, k = r.length / 4 * 4 + j := ⟨k - r.length / 4 * 4, by omega⟩
          have hj : j = 0 ∨ j = r.length % 4 / 2 ∨ j = r.length % 4 - 1 := by omega
          rcases hj with rfl | rfl | rfl <;> simp only [h3, true_or, or_true]

end T1ha.Model
