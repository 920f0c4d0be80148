import Verif.Proofs.Others
import Verif.Model.Wyhash

/-!
# wyhash computes its specification
-/

namespace T1ha.Model

variable {w : World} {ov : Overlay} {cfg : Cfg} {P : Ev → Prop} {lo hi d : Nat} {mum : WyMum}

/-! ## Multiplication -/

theorem toNat_mul_halves (a b : U64) (ha : a.toNat < 2 ^ 32) (hb : b.toNat < 2 ^ 32) :
    (a * b).toNat = a.toNat * b.toNat := by
  rw [BitVec.toNat_mul, Nat.mod_eq_of_lt]
  calc a.toNat * b.toNat ≤ (2 ^ 32 - 1) * (2 ^ 32 - 1) := Nat.mul_le_mul (by omega) (by omega)
    _ < 2 ^ 64 := by decide

theorem toNat_low_half (a : U64) : ((a.setWidth 32).setWidth 64 : U64).toNat = a.toNat % 2 ^ 32 := by
  rw [BitVec.toNat_setWidth, BitVec.toNat_setWidth]
  omega

theorem toNat_high_half (a : U64) : (a >>> 32).toNat = a.toNat / 2 ^ 32 := by
  rw [BitVec.toNat_ushiftRight, Nat.shiftRight_eq_div_pow]

theorem toNat_carry (x y : U64) : (if x + y < x then 1 else 0 : U64).toNat = (x.toNat + y.toNat) / 2 ^ 64 := by
  have hx := x.isLt
  have hy := y.isLt
  have hlt : x + y < x ↔ (x.toNat + y.toNat) % 2 ^ 64 < x.toNat := by rw [BitVec.lt_def, BitVec.toNat_add]
  by_cases h : x + y < x
  · rw [if_pos h]
    have := hlt.1 h
    rw [show (1 : U64).toNat = 1 from rfl]
    omega
  · rw [if_neg h]
    have := mt hlt.2 h
    rw [show (0 : U64).toNat = 0 from rfl]
    omega

theorem wymum_portable (a b : U64) : _wymum .portable a b = Spec.product a b := by
  have ha := a.isLt
  have hb := b.isLt
  have key := portable_product a.toNat b.toNat ha hb
  unfold _wymum
  simp only []
  generalize hll : (a.setWidth 32).setWidth 64 * (b.setWidth 32).setWidth 64 = ll
  generalize hlh : (a >>> 32) * (b.setWidth 32).setWidth 64 = lh
  generalize hhl : (b >>> 32) * (a.setWidth 32).setWidth 64 = hl
  generalize hhh : (a >>> 32) * (b >>> 32) = hh
  have ell : ll.toNat = a.toNat % 2 ^ 32 * (b.toNat % 2 ^ 32) := by
    rw [← hll, toNat_mul_halves _ _ (by rw [toNat_low_half]; omega) (by rw [toNat_low_half]; omega),
      toNat_low_half, toNat_low_half]
  have elh : lh.toNat = a.toNat / 2 ^ 32 * (b.toNat % 2 ^ 32) := by
    rw [← hlh, toNat_mul_halves _ _ (by rw [toNat_high_half]; omega) (by rw [toNat_low_half]; omega),
      toNat_low_half, toNat_high_half]
  have ehl : hl.toNat = a.toNat % 2 ^ 32 * (b.toNat / 2 ^ 32) := by
    rw [← hhl, toNat_mul_halves _ _ (by rw [toNat_high_half]; omega) (by rw [toNat_low_half]; omega),
      toNat_low_half, toNat_high_half, Nat.mul_comm]
  have ehh : hh.toNat = a.toNat / 2 ^ 32 * (b.toNat / 2 ^ 32) := by
    rw [← hhh, toNat_mul_halves _ _ (by rw [toNat_high_half]; omega) (by rw [toNat_high_half]; omega),
      toNat_high_half, toNat_high_half]
  simp only [← ell, ← elh, ← ehl, ← ehh] at key
  obtain ⟨k1, k2, k3, k4, k5⟩ := key
  clear hll hlh hhl hhh ell elh ehl ehh
  have s1 : (lh <<< 32).toNat = lh.toNat % 2 ^ 32 * 2 ^ 32 := by
    rw [BitVec.toNat_shiftLeft, Nat.shiftLeft_eq]; omega
  have s2 : (hl <<< 32).toNat = hl.toNat % 2 ^ 32 * 2 ^ 32 := by
    rw [BitVec.toNat_shiftLeft, Nat.shiftLeft_eq]; omega
  have s3 := toNat_high_half lh
  have s4 := toNat_high_half hl
  have c1 := toNat_carry ll (lh <<< 32)
  have l1 : (ll + lh <<< 32).toNat = (ll.toNat + (lh <<< 32).toNat) % 2 ^ 64 := BitVec.toNat_add _ _
  generalize ll + lh <<< 32 = t at *
  have c2 := toNat_carry t (hl <<< 32)
  have l2 : (t + hl <<< 32).toNat = (t.toNat + (hl <<< 32).toNat) % 2 ^ 64 := BitVec.toNat_add _ _
  generalize t + hl <<< 32 = x at *
  rw [l1] at c2 l2
  rw [s1] at c1 c2 l2
  rw [s2] at c2 l2
  unfold Spec.product
  rw [k5]
  clear k5 l1
  generalize ll.toNat = nll at *
  generalize hlh : lh.toNat = nlh at *
  generalize hhl : hl.toNat = nhl at *
  generalize hhh : hh.toNat = nhh at *
  refine Prod.ext (BitVec.eq_of_toNat_eq ?_) (BitVec.eq_of_toNat_eq ?_)
  · rw [BitVec.toNat_ofNat, l2]; omega
  · simp only [BitVec.toNat_add, BitVec.toNat_ofNat, s3, s4, hhh]
    rw [c1, c2]
    omega

theorem wymum_eq (a b : U64) : _wymum mum a b = Spec.product a b := by
  cases mum
  · have ha := a.isLt
    have hb := b.isLt
    have hab : a.toNat * b.toNat < 2 ^ 128 := by
      calc a.toNat * b.toNat ≤ (2 ^ 64 - 1) * (2 ^ 64 - 1) := Nat.mul_le_mul (by omega) (by omega)
        _ < 2 ^ 128 := by decide
    have h128 : (a.setWidth 128 * b.setWidth 128 : U128).toNat = a.toNat * b.toNat := by
      rw [BitVec.toNat_mul, BitVec.toNat_setWidth, BitVec.toNat_setWidth,
        Nat.mod_eq_of_lt (a := a.toNat) (by omega), Nat.mod_eq_of_lt (a := b.toNat) (by omega),
        Nat.mod_eq_of_lt hab]
    unfold _wymum Spec.product
    simp only [Prod.mk.injEq]
    constructor
    · apply BitVec.eq_of_toNat_eq
      rw [BitVec.toNat_setWidth, h128, BitVec.toNat_ofNat]
    · apply BitVec.eq_of_toNat_eq
      rw [BitVec.toNat_setWidth, BitVec.toNat_ushiftRight, h128, BitVec.toNat_ofNat,
        Nat.shiftRight_eq_div_pow]
  · rfl
  · exact wymum_portable a b

theorem wymix_eq (a b : U64) : _wymix mum a b = Spec.mux a b := by
  unfold _wymix Spec.mux
  simp only [wymum_eq]

/-! ## Reading -/

theorem reads_wyr8 {v : Nat} {r : List Byte} (hs : Space cfg d P lo hi) (hh : Holds w ov v r) (h1 : lo ≤ v)
    (h2 : v + 8 ≤ hi) (hl : r.length = 8) : Reads w ov P (range v 8) 0 (_wyr8 cfg v) (Spec.num r) := by
  unfold _wyr8
  refine Exec.bindL (exec_readInt (hl ▸ hh.mapped) (hs.rd _ _ h1 h2)) ?_
  rintro x _ ⟨rfl, bs, hbl, hsn, rfl⟩
  rw [hsn.eq_of_holds hh (by rw [hbl, hl])]
  split
  · rename_i he
    rw [he]
    exact Reads.pure _
  · rename_i he
    rw [bswap_val r _ hl, he]
    exact Reads.pure _

theorem reads_wyr4 {v : Nat} {r : List Byte} (hs : Space cfg d P lo hi) (hh : Holds w ov v r) (h1 : lo ≤ v)
    (h2 : v + 4 ≤ hi) (hl : r.length = 4) : Reads w ov P (range v 4) 0 (_wyr4 cfg v) (Spec.num r) := by
  unfold _wyr4
  refine Exec.bindL (exec_readInt (hl ▸ hh.mapped) (hs.rd _ _ h1 h2)) ?_
  rintro x _ ⟨rfl, bs, hbl, hsn, rfl⟩
  rw [hsn.eq_of_holds hh (by rw [hbl, hl])]
  split
  · rename_i he
    rw [he]
    exact Reads.pure _
  · rename_i he
    rw [bswap_val r _ hl, he]
    exact Reads.pure _

theorem num_three (a b c : Byte) :
    (a.setWidth 64 <<< 16 ||| b.setWidth 64 <<< 8 ||| c.setWidth 64 : U64) = Spec.num [c, b, a] := by
  have ha := a.isLt
  have hb := b.isLt
  have hc := c.isLt
  apply BitVec.eq_of_toNat_eq
  simp only [BitVec.toNat_or, BitVec.toNat_shiftLeft, BitVec.toNat_setWidth, Spec.num, BitVec.toNat_ofNat, leVal]
  rw [Nat.mod_eq_of_lt (a := a.toNat) (by omega), Nat.mod_eq_of_lt (a := b.toNat) (by omega),
    Nat.mod_eq_of_lt (a := c.toNat) (by omega),
    Nat.mod_eq_of_lt (a := a.toNat <<< 16) (by rw [Nat.shiftLeft_eq]; omega),
    Nat.mod_eq_of_lt (a := b.toNat <<< 8) (by rw [Nat.shiftLeft_eq]; omega),
    shift_or_eq_add (x := b.toNat <<< 8) (by rw [Nat.shiftLeft_eq]; omega)]
  rw [show b.toNat <<< 8 + a.toNat * 2 ^ 16 = (b.toNat + a.toNat * 2 ^ 8) <<< 8 by
    rw [Nat.shiftLeft_eq, Nat.shiftLeft_eq]; omega]
  rw [shift_or_eq_add (by omega)]
  omega

/-- The five numbers. -/
def wySecret (secret : Fin 5 → U64) : Spec.WySecret := ⟨secret 0, secret 1, secret 2, secret 3, secret 4⟩

/-! ## The end -/

theorem reads_wyfinish16 {v : Nat} {r : List Byte} (hs : Space cfg d P lo hi) (hh : Holds w ov v r)
    (hlo : lo ≤ v) (hhi : v + r.length ≤ hi) (hl : r.length ≤ 16) (len seed : U64) (secret : Fin 5 → U64) :
    Reads w ov P (range v r.length) 0 (_wyfinish16 cfg mum v len seed secret r.length)
      (Spec.mux (secret 1 ^^^ len) (Spec.mux ((Spec.wyLast r).1 ^^^ secret 1) ((Spec.wyLast r).2 ^^^ seed))) := by
  have hlt := hs.hi_lt
  unfold _wyfinish16
  simp only [wymix_eq]
  refine Exec.bind' (C₁ := range v r.length) (C₂ := nowhere) (n₁ := 0) (n₂ := 0)
    (Q := fun x o => x = Spec.wyLast r ∧ o = ov) ?_ ?_ (fun a h => Or.inl h) rfl
  swap
  · rintro x o ⟨rfl, rfl⟩
    exact Reads.pure _
  unfold Spec.wyLast
  by_cases h8 : r.length ≤ 8
  · rw [if_pos h8, if_neg (by omega : ¬ 8 < r.length)]
    by_cases h4 : 4 ≤ r.length
    · rw [if_pos h4, if_pos h4]
      refine Exec.cov (Reads.bind (reads_wyr4 hs (hh.take 4) hlo (by omega) (by rw [List.length_take]; omega)) <|
        Reads.bind (Reads.ptrAdd (by omega) (hs.ptr _ (by omega) (by omega))) <|
        Reads.bind (Reads.ptrSub (by omega) (hs.ptr _ (by omega) (by omega))) <|
        Reads.bind (C₁ := range (v + (r.length - 4)) 4) (n₁ := 0) (C₂ := nowhere) (n₂ := 0)
          (v := Spec.num (r.drop (r.length - 4))) ?_ (Reads.pure _)) (fun a h => ?_) rfl
      · rw [show v + r.length - 4 = v + (r.length - 4) by omega]
        exact reads_wyr4 hs (hh.drop _) (by omega) (by omega) (by rw [List.length_drop]; omega)
      · simp only [range] at *; omega
    · rw [if_neg h4, if_neg h4]
      have hbyte := fun i b (h : r[i]? = some b) (hi' : i < r.length) =>
        hs.byte (v := v) hh hlo (i := i) (b := b) (by omega) h
      have h3 : r.length < 4 := by omega
      unfold _wyr3
      match r, h3 with
      | [], _ =>
        exact Exec.cov (Reads.pure _) (fun a h => by simp only [range, List.length_nil] at h; omega) rfl
      | [a], _ =>
        rw [if_pos (by simp)]
        simp only [List.length_cons, List.length_nil, bind_assoc, pure_bind] at *
        refine Exec.cov (Reads.bind (hbyte 0 a rfl (by omega)) <| Reads.bind (hbyte 0 a rfl (by omega)) <|
          Reads.bind (C₂ := nowhere) (n₂ := 0) (hbyte 0 a rfl (by omega)) ?_)
          (fun a h => by simp only [range] at *; omega) rfl
        rw [num_three]
        exact Reads.pure _
      | [a, b], _ =>
        rw [if_pos (by simp)]
        simp only [List.length_cons, List.length_nil, bind_assoc, pure_bind] at *
        refine Exec.cov (Reads.bind (hbyte 0 a rfl (by omega)) <| Reads.bind (hbyte 1 b rfl (by omega)) <|
          Reads.bind (C₂ := nowhere) (n₂ := 0) (hbyte 1 b rfl (by omega)) ?_)
          (fun a h => by simp only [range] at *; omega) rfl
        rw [num_three]
        exact Reads.pure _
      | [a, b, c], _ =>
        rw [if_pos (by simp)]
        simp only [List.length_cons, List.length_nil, bind_assoc, pure_bind] at *
        refine Exec.cov (Reads.bind (hbyte 0 a rfl (by omega)) <| Reads.bind (hbyte 1 b rfl (by omega)) <|
          Reads.bind (C₂ := nowhere) (n₂ := 0) (hbyte 2 c rfl (by omega)) ?_)
          (fun a h => by simp only [range] at *; omega) rfl
        rw [num_three]
        exact Reads.pure _
  · rw [if_neg h8, if_pos (by omega : 8 < r.length)]
    refine Exec.cov (Reads.bind (reads_wyr8 hs (hh.take 8) hlo (by omega) (by rw [List.length_take]; omega)) <|
      Reads.bind (Reads.ptrAdd (by omega) (hs.ptr _ (by omega) (by omega))) <|
      Reads.bind (Reads.ptrSub (by omega) (hs.ptr _ (by omega) (by omega))) <|
      Reads.bind (C₁ := range (v + (r.length - 8)) 8) (n₁ := 0) (C₂ := nowhere) (n₂ := 0)
        (v := Spec.num (r.drop (r.length - 8))) ?_ (Reads.pure _)) (fun a h => ?_) rfl
    · rw [show v + r.length - 8 = v + (r.length - 8) by omega]
      exact reads_wyr8 hs (hh.drop _) (by omega) (by omega) (by rw [List.length_drop]; omega)
    · simp only [range] at *; omega

theorem reads_wyword {v i k : Nat} {r : List Byte} (hs : Space cfg d P lo hi) (hh : Holds w ov v r)
    (hlo : lo ≤ v) (hhi : v + k ≤ hi) (hk : k ≤ r.length) (hi' : 8 * i + 8 ≤ k) :
    Reads w ov P (range (v + 8 * i) 8) 0 (_wyr8 cfg (v + 8 * i)) (Spec.word64 .little (r.take k) i) :=
  reads_wyr8 hs ((hh.take k).slice (8 * i) 8) (by omega) (by omega)
    (by simp only [List.length_take, List.length_drop]; omega)

theorem reads_wyfinish (hs : Space cfg d P lo hi) (n : Nat) {v : Nat} {r : List Byte} (hh : Holds w ov v r)
    (hlo : lo ≤ v) (hhi : v + r.length ≤ hi) (hn : (r.length - 1) / 16 = n) (len seed : U64)
    (secret : Fin 5 → U64) {fuel : Nat} (hf : n < fuel) :
    Reads w ov P (range v r.length) n (_wyfinish cfg mum fuel v len seed secret r.length)
      (Spec.mux (secret 1 ^^^ len) (Spec.mux ((Spec.wyLast (r.drop (16 * n))).1 ^^^ secret 1)
        ((Spec.wyLast (r.drop (16 * n))).2 ^^^
          (chunks 16 n r).foldl (Spec.wyAbsorb16 (wySecret secret)) seed))) := by
  have hlt := hs.hi_lt
  induction n generalizing v r seed fuel with
  | zero =>
    obtain ⟨fuel, rfl⟩ : ∃ k, fuel = k + 1 := ⟨fuel - 1, by omega⟩
    unfold _wyfinish
    rw [if_pos (by omega)]
    exact reads_wyfinish16 hs hh hlo hhi (by omega) len seed secret
  | succ n ih =>
    obtain ⟨fuel, rfl⟩ : ∃ k, fuel = k + 1 := ⟨fuel - 1, by omega⟩
    unfold _wyfinish
    rw [if_neg (by omega)]
    have hw := fun i (hi2 : i < 2) => reads_wyword (k := 16) (i := i) hs hh hlo (by omega) (by omega) (by omega)
    have hd : (r.drop 16).length = r.length - 16 := List.length_drop
    refine Exec.cov (Reads.bind (Reads.iterate hs.iter) <|
      Reads.bind (Reads.ptrAdd (by omega) (hs.ptr _ (by omega) (by omega))) <|
      Reads.bind (hw 0 (by omega)) <| Reads.bind (C₂ := range (v + 16) (r.length - 16)) (n₂ := n)
        (hw 1 (by omega)) ?_) (fun a h => ?_) (by omega)
    · have := ih (hh.drop 16) (by omega) (by omega) (by omega)
        (Spec.wyAbsorb16 (wySecret secret) seed (r.take 16)) (fuel := fuel) (by omega)
      rw [hd, List.drop_drop, show 16 + 16 * n = 16 * (n + 1) by omega] at this
      simp only [wymix_eq]
      rw [show chunks 16 (n + 1) r = r.take 16 :: chunks 16 n (r.drop 16) from rfl, List.foldl_cons]
      exact this
    · simp only [range] at *; omega

/-! ## Blocks of 64 bytes -/

theorem reads_wyhash_step (hs : Space cfg d P lo hi) (secret : Fin 5 → U64) (s : U64 × U64) (v i : Nat)
    (r : List Byte) (hh : Holds w ov v r) (hlo : lo ≤ v) (hhi : v + r.length ≤ hi) (hl : 64 ≤ r.length)
    {fuel : Nat} {C : Nat → Prop} {n : Nat} {Q : U64 × U64 × Nat × Nat → Overlay → Prop}
    (hnext : Exec w ov P C n (if 64 < i - 64 then
        wyhash_loop cfg mum secret fuel (Spec.wyAbsorb64 (wySecret secret) s (r.take 64)).1
          (Spec.wyAbsorb64 (wySecret secret) s (r.take 64)).2 (v + 64) (i - 64)
      else pure ((Spec.wyAbsorb64 (wySecret secret) s (r.take 64)).1,
          (Spec.wyAbsorb64 (wySecret secret) s (r.take 64)).2, v + 64, i - 64)) Q) :
    Exec w ov P (fun a => range v 64 a ∨ C a) (n + 1) (wyhash_loop cfg mum secret (fuel + 1) s.1 s.2 v i) Q := by
  have hlt := hs.hi_lt
  have hw := fun i (hi8 : i < 8) => reads_wyword (k := 64) (i := i) hs hh hlo (by omega) hl (by omega)
  unfold wyhash_loop
  refine Exec.cov (Reads.bind (Reads.iterate hs.iter) <| Reads.bind (hw 0 (by omega)) <|
    Reads.bind (hw 1 (by omega)) <| Reads.bind (hw 2 (by omega)) <| Reads.bind (hw 3 (by omega)) <|
    Reads.bind (hw 4 (by omega)) <| Reads.bind (hw 5 (by omega)) <| Reads.bind (hw 6 (by omega)) <|
    Reads.bind (hw 7 (by omega)) <|
    Reads.bind (C₂ := C) (n₂ := n) (Reads.ptrAdd (by omega) (hs.ptr _ (by omega) (by omega))) ?_)
    (fun a h => ?_) (by omega)
  · simp only [wymix_eq]
    exact hnext
  · by_cases hc : C a
    · simp only [hc, or_true]
    · simp only [range, nowhere, hc, or_false] at *; omega

theorem reads_wyhash_loop (hs : Space cfg d P lo hi) (secret : Fin 5 → U64) (n : Nat) (s : U64 × U64) (v : Nat)
    (r : List Byte) (hh : Holds w ov v r) (hlo : lo ≤ v) (hhi : v + r.length ≤ hi)
    (hn : (r.length - 1) / 64 = n + 1) {fuel : Nat} (hf : n < fuel) :
    Reads w ov P (range v (64 * (n + 1))) (n + 1) (wyhash_loop cfg mum secret fuel s.1 s.2 v r.length)
      (((chunks 64 (n + 1) r).foldl (Spec.wyAbsorb64 (wySecret secret)) s).1,
        ((chunks 64 (n + 1) r).foldl (Spec.wyAbsorb64 (wySecret secret)) s).2, v + 64 * (n + 1),
        r.length - 64 * (n + 1)) := by
  induction n generalizing s v r fuel with
  | zero =>
    obtain ⟨fuel, rfl⟩ : ∃ k, fuel = k + 1 := ⟨fuel - 1, by omega⟩
    refine Exec.cov (reads_wyhash_step (C := nowhere) (n := 0) hs secret s v r.length r hh hlo hhi (by omega) ?_)
      (fun a h => Or.inl h) rfl
    rw [if_neg (by omega), show chunks 64 (0 + 1) r = [r.take 64] from rfl, List.foldl_cons, List.foldl_nil]
    exact Reads.pure _
  | succ n ih =>
    obtain ⟨fuel, rfl⟩ : ∃ k, fuel = k + 1 := ⟨fuel - 1, by omega⟩
    refine Exec.cov (reads_wyhash_step (C := range (v + 64) (64 * (n + 1))) (n := n + 1) hs secret s v r.length r
      hh hlo hhi (by omega) ?_) (fun a h => ?_) rfl
    · rw [if_pos (by omega)]
      have hd' : (r.drop 64).length = r.length - 64 := List.length_drop
      have := ih (Spec.wyAbsorb64 (wySecret secret) s (r.take 64)) (v + 64) (r.drop 64)
        (hh.drop 64) (by omega) (by omega) (by omega) (fuel := fuel) (by omega)
      rw [show v + 64 * (n + 1 + 1) = v + 64 + 64 * (n + 1) by omega]
      rw [hd', show r.length - 64 - 64 * (n + 1) = r.length - 64 * (n + 1 + 1) by omega] at this
      rw [show chunks 64 (n + 1 + 1) r = r.take 64 :: chunks 64 (n + 1) (r.drop 64) from rfl, List.foldl_cons]
      exact this
    · simp only [range] at *; omega

/-- How many times the loop and the recursion of `wyhash` go on, for a message of `len` bytes. -/
def wyLoops (len : Nat) : Nat := (len - 1) / 64 + (len - 64 * ((len - 1) / 64) - 1) / 16

theorem reads_wyhash {data : Nat} {m : List Byte} (hs : Space cfg d P lo hi) (hh : Holds w ov data m)
    (hlo : lo ≤ data) (hhi : data + m.length ≤ hi) (seed : U64) (secret : Fin 5 → U64) :
    Reads w ov P (range data m.length) (wyLoops m.length)
      (wyhash cfg mum data m.length seed secret) (Spec.wyhash (wySecret secret) m seed) := by
  have hd : (m.drop (64 * ((m.length - 1) / 64))).length = m.length - 64 * ((m.length - 1) / 64) :=
    List.length_drop
  unfold wyhash Spec.wyhash wyLoops
  simp only [hd]
  by_cases h : 64 < m.length
  · have hn : (m.length - 1) / 64 = ((m.length - 1) / 64 - 1) + 1 := by omega
    rw [if_pos h]
    rw [if_neg (by omega : ¬ (m.length - 1) / 64 = 0)]
    simp only [bind_assoc, pure_bind]
    have hloop := reads_wyhash_loop (mum := mum) hs secret ((m.length - 1) / 64 - 1)
      (seed ^^^ secret 0, seed ^^^ secret 0) data m hh hlo hhi hn (fuel := m.length) (by omega)
    rw [← hn] at hloop
    have hfin := fun seed => reads_wyfinish (mum := mum) hs _ (hh.drop (64 * ((m.length - 1) / 64))) (by omega)
      (by omega) rfl (Spec.len64 m) seed secret (fuel := m.length - 64 * ((m.length - 1) / 64) + 1) (by omega)
    rw [hd] at hfin
    refine Exec.cov (Reads.bind hloop (hfin _)) (fun a h => ?_) rfl
    simp only [range] at *; omega
  · have h0 : (m.length - 1) / 64 = 0 := by omega
    rw [if_neg h]
    simp only [h0, if_true, pure_bind]
    have hfin := reads_wyfinish (mum := mum) hs _ hh hlo hhi rfl (Spec.len64 m) (seed ^^^ secret 0) secret
      (fuel := m.length + 1) (by omega)
    simp only [Nat.mul_zero, Nat.sub_zero, Nat.zero_add, List.drop_zero]
    exact hfin

end T1ha.Model
