import Verif.SpecWySecret
import Verif.Model.WySecret

/-!
# `portable_popcount` counts the ones
-/

namespace T1ha.Model

/-- Ones of a number below 256. -/
def byteOnes (b : Nat) : Nat := b % 2 + b / 2 % 2 + b / 4 % 2 + b / 8 % 2 + b / 16 % 2 + b / 32 % 2 + b / 64 % 2 + b / 128 % 2

theorem and_bytes (q r M m : Nat) (hr : r < 256) (hm : m < 256) :
    (256 * q + r) &&& (256 * M + m) = 256 * (q &&& M) + (r &&& m) := by
  have h1 : ((256 * q + r) &&& (256 * M + m)) / 2 ^ 8 = q &&& M := by
    rw [Nat.and_div_two_pow]
    congr 1 <;> omega
  have h2 : ((256 * q + r) &&& (256 * M + m)) % 2 ^ 8 = r &&& m := by
    rw [Nat.and_mod_two_pow]
    congr 1 <;> omega
  omega

theorem step55 : ∀ b < 256, ∀ e < 2, (b / 2 + 128 * e) &&& 0x55 = (b / 2) &&& 0x55 := by decide +kernel

theorem step33 : ∀ b < 256, ∀ e < 4, (b / 4 + 64 * e) &&& 0x33 = (b / 4) &&& 0x33 := by decide +kernel

theorem stepOnes : ∀ b < 256, ((b / 2) &&& 0x55) ≤ b ∧
    let u := b - ((b / 2) &&& 0x55)
    let v := (u &&& 0x33) + ((u / 4) &&& 0x33)
    v < 256 ∧ v % 16 ≤ 4 ∧ v / 16 ≤ 4 ∧ v / 16 + v % 16 = byteOnes b := by decide +kernel

theorem stepTotal : ∀ v < 256, v % 16 ≤ 4 → v / 16 ≤ 4 → ∀ e < 5, (v + (v / 16 + 16 * e)) &&& 0x0f = v / 16 + v % 16 := by
  decide +kernel

theorem byteOnes_le : ∀ b < 256, byteOnes b ≤ 8 := by decide +kernel

/-- A number made from eight bytes. -/
def join8 (b0 b1 b2 b3 b4 b5 b6 b7 : Nat) : Nat :=
  256 * (256 * (256 * (256 * (256 * (256 * (256 * b7 + b6) + b5) + b4) + b3) + b2) + b1) + b0

theorem and8 {b0 b1 b2 b3 b4 b5 b6 b7 m : Nat} (h0 : b0 < 256) (h1 : b1 < 256) (h2 : b2 < 256) (h3 : b3 < 256)
    (h4 : b4 < 256) (h5 : b5 < 256) (h6 : b6 < 256) (hm : m < 256) :
    join8 b0 b1 b2 b3 b4 b5 b6 b7 &&& join8 m m m m m m m m =
      join8 (b0 &&& m) (b1 &&& m) (b2 &&& m) (b3 &&& m) (b4 &&& m) (b5 &&& m) (b6 &&& m) (b7 &&& m) := by
  unfold join8
  rw [and_bytes _ _ _ _ h0 hm, and_bytes _ _ _ _ h1 hm, and_bytes _ _ _ _ h2 hm, and_bytes _ _ _ _ h3 hm,
    and_bytes _ _ _ _ h4 hm, and_bytes _ _ _ _ h5 hm, and_bytes _ _ _ _ h6 hm]

/-- The first step on bytes. -/
theorem first8 {b0 b1 b2 b3 b4 b5 b6 b7 : Nat} (h0 : b0 < 256) (h1 : b1 < 256) (h2 : b2 < 256) (h3 : b3 < 256) (h4 : b4 < 256) (h5 : b5 < 256) (h6 : b6 < 256) (h7 : b7 < 256) :
    join8 b0 b1 b2 b3 b4 b5 b6 b7 / 2 &&& 0x5555555555555555 =
      join8 (b0 / 2 &&& 0x55) (b1 / 2 &&& 0x55) (b2 / 2 &&& 0x55) (b3 / 2 &&& 0x55) (b4 / 2 &&& 0x55) (b5 / 2 &&& 0x55) (b6 / 2 &&& 0x55) (b7 / 2 &&& 0x55) := by
  have e : join8 b0 b1 b2 b3 b4 b5 b6 b7 / 2 = join8 (b0 / 2 + 128 * (b1 % 2)) (b1 / 2 + 128 * (b2 % 2)) (b2 / 2 + 128 * (b3 % 2)) (b3 / 2 + 128 * (b4 % 2)) (b4 / 2 + 128 * (b5 % 2)) (b5 / 2 + 128 * (b6 % 2)) (b6 / 2 + 128 * (b7 % 2)) (b7 / 2 + 128 * 0) := by
    unfold join8
    omega
  rw [e, show 0x5555555555555555 = join8 0x55 0x55 0x55 0x55 0x55 0x55 0x55 0x55 from rfl,
    and8 (by omega) (by omega) (by omega) (by omega) (by omega) (by omega) (by omega) (by omega)]
  rw [step55 b0 h0 _ (by omega), step55 b1 h1 _ (by omega), step55 b2 h2 _ (by omega), step55 b3 h3 _ (by omega), step55 b4 h4 _ (by omega), step55 b5 h5 _ (by omega), step55 b6 h6 _ (by omega), step55 b7 h7 _ (by omega)]

/-- The second step on bytes. -/
theorem second8 {b0 b1 b2 b3 b4 b5 b6 b7 : Nat} (h0 : b0 < 256) (h1 : b1 < 256) (h2 : b2 < 256) (h3 : b3 < 256) (h4 : b4 < 256) (h5 : b5 < 256) (h6 : b6 < 256) (h7 : b7 < 256) :
    join8 b0 b1 b2 b3 b4 b5 b6 b7 / 4 &&& 0x3333333333333333 =
      join8 (b0 / 4 &&& 0x33) (b1 / 4 &&& 0x33) (b2 / 4 &&& 0x33) (b3 / 4 &&& 0x33) (b4 / 4 &&& 0x33) (b5 / 4 &&& 0x33) (b6 / 4 &&& 0x33) (b7 / 4 &&& 0x33) ∧
    join8 b0 b1 b2 b3 b4 b5 b6 b7 &&& 0x3333333333333333 =
      join8 (b0 &&& 0x33) (b1 &&& 0x33) (b2 &&& 0x33) (b3 &&& 0x33) (b4 &&& 0x33) (b5 &&& 0x33) (b6 &&& 0x33) (b7 &&& 0x33) := by
  have e : join8 b0 b1 b2 b3 b4 b5 b6 b7 / 4 = join8 (b0 / 4 + 64 * (b1 % 4)) (b1 / 4 + 64 * (b2 % 4)) (b2 / 4 + 64 * (b3 % 4)) (b3 / 4 + 64 * (b4 % 4)) (b4 / 4 + 64 * (b5 % 4)) (b5 / 4 + 64 * (b6 % 4)) (b6 / 4 + 64 * (b7 % 4)) (b7 / 4 + 64 * 0) := by
    unfold join8
    omega
  rw [e, show 0x3333333333333333 = join8 0x33 0x33 0x33 0x33 0x33 0x33 0x33 0x33 from rfl,
    and8 (by omega) (by omega) (by omega) (by omega) (by omega) (by omega) (by omega) (by omega),
    and8 h0 h1 h2 h3 h4 h5 h6 (by omega)]
  rw [step33 b0 h0 _ (by omega), step33 b1 h1 _ (by omega), step33 b2 h2 _ (by omega), step33 b3 h3 _ (by omega), step33 b4 h4 _ (by omega), step33 b5 h5 _ (by omega), step33 b6 h6 _ (by omega), step33 b7 h7 _ (by omega)]
  exact ⟨rfl, rfl⟩

/-- The third step on bytes. -/
theorem third8 {v0 v1 v2 v3 v4 v5 v6 v7 : Nat} (h0 : v0 < 256) (h1 : v1 < 256) (h2 : v2 < 256) (h3 : v3 < 256) (h4 : v4 < 256) (h5 : v5 < 256) (h6 : v6 < 256) (h7 : v7 < 256)
    (l0 : v0 % 16 ≤ 4) (l1 : v1 % 16 ≤ 4) (l2 : v2 % 16 ≤ 4) (l3 : v3 % 16 ≤ 4) (l4 : v4 % 16 ≤ 4) (l5 : v5 % 16 ≤ 4) (l6 : v6 % 16 ≤ 4) (l7 : v7 % 16 ≤ 4)
    (g0 : v0 / 16 ≤ 4) (g1 : v1 / 16 ≤ 4) (g2 : v2 / 16 ≤ 4) (g3 : v3 / 16 ≤ 4) (g4 : v4 / 16 ≤ 4) (g5 : v5 / 16 ≤ 4) (g6 : v6 / 16 ≤ 4) (g7 : v7 / 16 ≤ 4) :
    (join8 v0 v1 v2 v3 v4 v5 v6 v7 + join8 v0 v1 v2 v3 v4 v5 v6 v7 / 16) &&& 0x0f0f0f0f0f0f0f0f =
      join8 (v0 / 16 + v0 % 16) (v1 / 16 + v1 % 16) (v2 / 16 + v2 % 16) (v3 / 16 + v3 % 16) (v4 / 16 + v4 % 16) (v5 / 16 + v5 % 16) (v6 / 16 + v6 % 16) (v7 / 16 + v7 % 16) ∧
    join8 v0 v1 v2 v3 v4 v5 v6 v7 + join8 v0 v1 v2 v3 v4 v5 v6 v7 / 16 < 2 ^ 64 := by
  have e : join8 v0 v1 v2 v3 v4 v5 v6 v7 + join8 v0 v1 v2 v3 v4 v5 v6 v7 / 16 =
      join8 (v0 + (v0 / 16 + 16 * (v1 % 16))) (v1 + (v1 / 16 + 16 * (v2 % 16))) (v2 + (v2 / 16 + 16 * (v3 % 16))) (v3 + (v3 / 16 + 16 * (v4 % 16))) (v4 + (v4 / 16 + 16 * (v5 % 16))) (v5 + (v5 / 16 + 16 * (v6 % 16))) (v6 + (v6 / 16 + 16 * (v7 % 16))) (v7 + (v7 / 16 + 16 * 0)) := by
    unfold join8
    omega
  rw [e, show 0x0f0f0f0f0f0f0f0f = join8 0x0f 0x0f 0x0f 0x0f 0x0f 0x0f 0x0f 0x0f from rfl,
    and8 (by omega) (by omega) (by omega) (by omega) (by omega) (by omega) (by omega) (by omega)]
  rw [stepTotal v0 h0 l0 g0 _ (by omega), stepTotal v1 h1 l1 g1 _ (by omega), stepTotal v2 h2 l2 g2 _ (by omega), stepTotal v3 h3 l3 g3 _ (by omega), stepTotal v4 h4 l4 g4 _ (by omega), stepTotal v5 h5 l5 g5 _ (by omega), stepTotal v6 h6 l6 g6 _ (by omega), stepTotal v7 h7 l7 g7 _ (by omega)]
  refine ⟨rfl, ?_⟩
  unfold join8
  omega

/-- The sum of the bytes. -/
theorem sum8 {t0 t1 t2 t3 t4 t5 t6 t7 : Nat} (h0 : t0 ≤ 8) (h1 : t1 ≤ 8) (h2 : t2 ≤ 8) (h3 : t3 ≤ 8) (h4 : t4 ≤ 8) (h5 : t5 ≤ 8) (h6 : t6 ≤ 8) (h7 : t7 ≤ 8) :
    let x := join8 t0 t1 t2 t3 t4 t5 t6 t7
    let x1 := x + x / 256
    let x2 := x1 + x1 / 65536
    let x3 := x2 + x2 / 4294967296
    x1 < 2 ^ 64 ∧ x2 < 2 ^ 64 ∧ x3 < 2 ^ 64 ∧ x3 % 128 = t0 + t1 + t2 + t3 + t4 + t5 + t6 + t7 := by
  intro x x1 x2 x3
  have e1 : x1 = join8 (t0 + t1) (t1 + t2) (t2 + t3) (t3 + t4) (t4 + t5) (t5 + t6) (t6 + t7) t7 := by
    show join8 t0 t1 t2 t3 t4 t5 t6 t7 + join8 t0 t1 t2 t3 t4 t5 t6 t7 / 256 = _
    unfold join8
    omega
  have e2 : x2 = join8 (t0 + t1 + (t2 + t3)) (t1 + t2 + (t3 + t4)) (t2 + t3 + (t4 + t5)) (t3 + t4 + (t5 + t6))
      (t4 + t5 + (t6 + t7)) (t5 + t6 + t7) (t6 + t7) t7 := by
    show x1 + x1 / 65536 = _
    rw [e1]
    unfold join8
    omega
  have e3 : x3 = join8 (t0 + t1 + (t2 + t3) + (t4 + t5 + (t6 + t7))) (t1 + t2 + (t3 + t4) + (t5 + t6 + t7))
      (t2 + t3 + (t4 + t5) + (t6 + t7)) (t3 + t4 + (t5 + t6) + t7)
      (t4 + t5 + (t6 + t7)) (t5 + t6 + t7) (t6 + t7) t7 := by
    show x2 + x2 / 4294967296 = _
    rw [e2]
    unfold join8
    omega
  rw [e3, e2, e1]
  unfold join8
  refine ⟨?_, ?_, ?_, ?_⟩ <;> omega

theorem filter_length_eq_sum (l : List Nat) (p : Nat → Bool) :
    (l.filter p).length = (l.map fun i => (p i).toNat).sum := by
  induction l with
  | nil => rfl
  | cons a l ih =>
    rw [List.filter_cons, List.map_cons, List.sum_cons, ← ih]
    cases p a
    · simp
    · simp only [if_pos, List.length_cons, Bool.toNat_true]
      omega

theorem bit_toNat (x : U64) (i : Nat) : (x.getLsbD i).toNat = x.toNat / 2 ^ i % 2 := by
  rw [← BitVec.testBit_toNat, Nat.toNat_testBit]

theorem ones_byte (y : Nat) : byteOnes (y % 256) =
    y % 2 + y / 2 % 2 + y / 4 % 2 + y / 8 % 2 + y / 16 % 2 + y / 32 % 2 + y / 64 % 2 + y / 128 % 2 := by
  unfold byteOnes
  omega

theorem ones_eq (x : U64) : Spec.ones x = byteOnes (x.toNat / 1 % 256) + byteOnes (x.toNat / 256 % 256) + byteOnes (x.toNat / 65536 % 256) + byteOnes (x.toNat / 16777216 % 256) + byteOnes (x.toNat / 4294967296 % 256) + byteOnes (x.toNat / 1099511627776 % 256) + byteOnes (x.toNat / 281474976710656 % 256) + byteOnes (x.toNat / 72057594037927936 % 256) := by
  unfold Spec.ones
  rw [filter_length_eq_sum]
  simp only [bit_toNat]
  generalize x.toNat = X
  rw [show List.range 64 = [0, 1, 2, 3, 4, 5, 6, 7, 8, 9, 10, 11, 12, 13, 14, 15, 16, 17, 18, 19, 20, 21, 22, 23, 24, 25, 26, 27, 28, 29, 30, 31, 32, 33, 34, 35, 36, 37, 38, 39, 40, 41, 42, 43, 44, 45, 46, 47, 48, 49, 50, 51, 52, 53, 54, 55, 56, 57, 58, 59, 60, 61, 62, 63] from rfl]
  simp only [List.map_cons, List.map_nil, List.sum_cons, List.sum_nil, ones_byte, Nat.div_div_eq_div_mul, Nat.reducePow,
    Nat.reduceMul, Nat.div_one]
  simp only [Nat.add_assoc, Nat.add_zero]

theorem split8 (X : Nat) (h : X < 2 ^ 64) : X = join8 (X / 1 % 256) (X / 256 % 256) (X / 65536 % 256) (X / 16777216 % 256) (X / 4294967296 % 256) (X / 1099511627776 % 256) (X / 281474976710656 % 256) (X / 72057594037927936 % 256) := by
  unfold join8
  omega

/-- `portable_popcount` counts the ones. -/
theorem portable_popcount_toNat (x : U64) : (portable_popcount x).toNat = Spec.ones x := by
  rw [ones_eq]
  have hx := split8 x.toNat x.isLt
  have h0 : x.toNat / 1 % 256 < 256 := Nat.mod_lt _ (by decide)
  have h1 : x.toNat / 256 % 256 < 256 := Nat.mod_lt _ (by decide)
  have h2 : x.toNat / 65536 % 256 < 256 := Nat.mod_lt _ (by decide)
  have h3 : x.toNat / 16777216 % 256 < 256 := Nat.mod_lt _ (by decide)
  have h4 : x.toNat / 4294967296 % 256 < 256 := Nat.mod_lt _ (by decide)
  have h5 : x.toNat / 1099511627776 % 256 < 256 := Nat.mod_lt _ (by decide)
  have h6 : x.toNat / 281474976710656 % 256 < 256 := Nat.mod_lt _ (by decide)
  have h7 : x.toNat / 72057594037927936 % 256 < 256 := Nat.mod_lt _ (by decide)
  generalize x.toNat / 1 % 256 = b0 at *
  generalize x.toNat / 256 % 256 = b1 at *
  generalize x.toNat / 65536 % 256 = b2 at *
  generalize x.toNat / 16777216 % 256 = b3 at *
  generalize x.toNat / 4294967296 % 256 = b4 at *
  generalize x.toNat / 1099511627776 % 256 = b5 at *
  generalize x.toNat / 281474976710656 % 256 = b6 at *
  generalize x.toNat / 72057594037927936 % 256 = b7 at *
  obtain ⟨c0, q0, l0, g0, o0⟩ := stepOnes b0 h0
  obtain ⟨c1, q1, l1, g1, o1⟩ := stepOnes b1 h1
  obtain ⟨c2, q2, l2, g2, o2⟩ := stepOnes b2 h2
  obtain ⟨c3, q3, l3, g3, o3⟩ := stepOnes b3 h3
  obtain ⟨c4, q4, l4, g4, o4⟩ := stepOnes b4 h4
  obtain ⟨c5, q5, l5, g5, o5⟩ := stepOnes b5 h5
  obtain ⟨c6, q6, l6, g6, o6⟩ := stepOnes b6 h6
  obtain ⟨c7, q7, l7, g7, o7⟩ := stepOnes b7 h7
  have f1 := first8 h0 h1 h2 h3 h4 h5 h6 h7
  have e1 : (x >>> 1 &&& (0x5555555555555555 : U64)).toNat = x.toNat / 2 &&& 0x5555555555555555 := by
    rw [BitVec.toNat_and, BitVec.toNat_ushiftRight, Nat.shiftRight_eq_div_pow]
    rfl
  rw [hx, f1] at e1
  generalize hu0 : b0 - (b0 / 2 &&& 0x55) = u0 at *
  generalize hu1 : b1 - (b1 / 2 &&& 0x55) = u1 at *
  generalize hu2 : b2 - (b2 / 2 &&& 0x55) = u2 at *
  generalize hu3 : b3 - (b3 / 2 &&& 0x55) = u3 at *
  generalize hu4 : b4 - (b4 / 2 &&& 0x55) = u4 at *
  generalize hu5 : b5 - (b5 / 2 &&& 0x55) = u5 at *
  generalize hu6 : b6 - (b6 / 2 &&& 0x55) = u6 at *
  generalize hu7 : b7 - (b7 / 2 &&& 0x55) = u7 at *
  have e2 : (x - (x >>> 1 &&& (0x5555555555555555 : U64))).toNat = join8 u0 u1 u2 u3 u4 u5 u6 u7 := by
    rw [BitVec.toNat_sub_of_le, e1, hx]
    · unfold join8
      omega
    · rw [BitVec.le_def, e1, hx]
      unfold join8
      omega
  unfold portable_popcount
  dsimp only
  generalize x - (x >>> 1 &&& (0x5555555555555555 : U64)) = y at *
  have f2 := second8 (show u0 < 256 by omega) (show u1 < 256 by omega) (show u2 < 256 by omega) (show u3 < 256 by omega) (show u4 < 256 by omega) (show u5 < 256 by omega) (show u6 < 256 by omega) (show u7 < 256 by omega)
  have e3 : (y >>> 2 &&& (0x3333333333333333 : U64)).toNat = y.toNat / 4 &&& 0x3333333333333333 := by
    rw [BitVec.toNat_and, BitVec.toNat_ushiftRight, Nat.shiftRight_eq_div_pow]
    rfl
  have e4 : (y &&& (0x3333333333333333 : U64)).toNat = y.toNat &&& 0x3333333333333333 := by
    rw [BitVec.toNat_and]
    rfl
  rw [e2, f2.1] at e3
  rw [e2, f2.2] at e4
  have e5 : ((y &&& (0x3333333333333333 : U64)) + (y >>> 2 &&& (0x3333333333333333 : U64))).toNat =
      join8 ((u0 &&& 0x33) + (u0 / 4 &&& 0x33)) ((u1 &&& 0x33) + (u1 / 4 &&& 0x33)) ((u2 &&& 0x33) + (u2 / 4 &&& 0x33)) ((u3 &&& 0x33) + (u3 / 4 &&& 0x33)) ((u4 &&& 0x33) + (u4 / 4 &&& 0x33)) ((u5 &&& 0x33) + (u5 / 4 &&& 0x33)) ((u6 &&& 0x33) + (u6 / 4 &&& 0x33)) ((u7 &&& 0x33) + (u7 / 4 &&& 0x33)) := by
    rw [BitVec.toNat_add, e3, e4]
    unfold join8
    rw [Nat.mod_eq_of_lt (by omega)]
    omega
  generalize (y &&& (0x3333333333333333 : U64)) + (y >>> 2 &&& (0x3333333333333333 : U64)) = z at *
  generalize (u0 &&& 0x33) + (u0 / 4 &&& 0x33) = v0 at *
  generalize (u1 &&& 0x33) + (u1 / 4 &&& 0x33) = v1 at *
  generalize (u2 &&& 0x33) + (u2 / 4 &&& 0x33) = v2 at *
  generalize (u3 &&& 0x33) + (u3 / 4 &&& 0x33) = v3 at *
  generalize (u4 &&& 0x33) + (u4 / 4 &&& 0x33) = v4 at *
  generalize (u5 &&& 0x33) + (u5 / 4 &&& 0x33) = v5 at *
  generalize (u6 &&& 0x33) + (u6 / 4 &&& 0x33) = v6 at *
  generalize (u7 &&& 0x33) + (u7 / 4 &&& 0x33) = v7 at *
  have f3 := third8 q0 q1 q2 q3 q4 q5 q6 q7 l0 l1 l2 l3 l4 l5 l6 l7 g0 g1 g2 g3 g4 g5 g6 g7
  have e6 : ((z + z >>> 4) &&& (0x0f0f0f0f0f0f0f0f : U64)).toNat = (z.toNat + z.toNat / 16) % 2 ^ 64 &&& 0x0f0f0f0f0f0f0f0f := by
    rw [BitVec.toNat_and, BitVec.toNat_add, BitVec.toNat_ushiftRight, Nat.shiftRight_eq_div_pow]
    rfl
  rw [e5, Nat.mod_eq_of_lt f3.2, f3.1, o0, o1, o2, o3, o4, o5, o6, o7] at e6
  generalize (z + z >>> 4) &&& (0x0f0f0f0f0f0f0f0f : U64) = a at *
  obtain ⟨s1, s2, s3, s4⟩ := sum8 (byteOnes_le b0 h0) (byteOnes_le b1 h1) (byteOnes_le b2 h2) (byteOnes_le b3 h3) (byteOnes_le b4 h4) (byteOnes_le b5 h5) (byteOnes_le b6 h6) (byteOnes_le b7 h7)
  rw [← e6] at s1 s2 s3 s4
  have a1 : (a + a >>> 8).toNat = a.toNat + a.toNat / 256 := by
    rw [BitVec.toNat_add, BitVec.toNat_ushiftRight, Nat.shiftRight_eq_div_pow]
    exact Nat.mod_eq_of_lt s1
  rw [← a1] at s2 s3 s4
  generalize a + a >>> 8 = b at *
  have a2 : (b + b >>> 16).toNat = b.toNat + b.toNat / 65536 := by
    rw [BitVec.toNat_add, BitVec.toNat_ushiftRight, Nat.shiftRight_eq_div_pow]
    exact Nat.mod_eq_of_lt s2
  rw [← a2] at s3 s4
  generalize b + b >>> 16 = c at *
  have a3 : (c + c >>> 32).toNat = c.toNat + c.toNat / 4294967296 := by
    rw [BitVec.toNat_add, BitVec.toNat_ushiftRight, Nat.shiftRight_eq_div_pow]
    exact Nat.mod_eq_of_lt s3
  rw [← a3] at s4
  rw [BitVec.toNat_setWidth, BitVec.toNat_and, ← s4, show (0x7f : U64).toNat = 2 ^ 7 - 1 from rfl, Nat.and_two_pow_sub_one_eq_mod,
    Nat.mod_eq_of_lt (by omega)]

end T1ha.Model
