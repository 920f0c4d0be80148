import Verif.Proofs.Bits128
import Verif.Props.Examples

/-!
# Properties of the arithmetic helpers: C20, C21, C33

Stated with natural numbers, lists of bytes and the operations of `BitVec 128`. `cfg` ranges over all build
configurations, which include all compiler paths; `native` says whether the compiler has 128-bit integers.
-/

namespace T1ha.Props

open Model Examples

variable {native : Bool}

/-! ## C20 -/

/-- C20: the two halves which `mul_64x64_128` returns are the exact product, on every compiler path. -/
theorem product_exact (cfg : Cfg) (a b : U64) :
    (mul_64x64_128 cfg a b).1.toNat + 2 ^ 64 * (mul_64x64_128 cfg a b).2.toNat = a.toNat * b.toNat := by
  rw [mul_64x64_128_eq]
  simp only [Spec.product, BitVec.toNat_ofNat]
  have h : a.toNat * b.toNat < 2 ^ 64 * 2 ^ 64 :=
    Nat.mul_lt_mul'' a.isLt b.isLt
  omega

example : mul_64x64_128 mips32 0xFFFFFFFFFFFFFFFF 0xFFFFFFFFFFFFFFFF = (1, 0xFFFFFFFFFFFFFFFE) := by
  decide +kernel

/-- C20: `mul_64x64_high` returns the upper half of the product. -/
theorem high_exact (cfg : Cfg) (a b : U64) :
    (mul_64x64_high cfg a b).toNat = a.toNat * b.toNat / 2 ^ 64 := by
  have hlt : a.toNat * b.toNat / 2 ^ 64 < 2 ^ 64 := by
    have := Nat.mul_lt_mul'' a.isLt b.isLt
    omega
  have h := product_exact cfg a b
  have h1 := (mul_64x64_128 cfg a b).1.isLt
  unfold mul_64x64_high
  split
  · rw [BitVec.toNat_ofNat, Nat.mod_eq_of_lt hlt]
  · rw [BitVec.toNat_ofNat, Nat.mod_eq_of_lt hlt]
  · omega
  · omega

example : mul_64x64_high mips32 0xFFFFFFFFFFFFFFFF 0xFFFFFFFFFFFFFFFF = 0xFFFFFFFFFFFFFFFE := by
  decide +kernel

/-- C20: the 32-bit multiplication is exact. -/
theorem product32_exact (a b : U32) : (mul_32x32_64 a b).toNat = a.toNat * b.toNat :=
  mul_32x32_64_toNat a b

example : mul_32x32_64 0xFFFFFFFF 0xFFFFFFFF = 0xFFFFFFFE00000001 := by decide +kernel

theorem addCarry_exact (c : Bool) (x y : U64) :
    (addCarry 64 c x y).2.toNat + 2 ^ 64 * (addCarry 64 c x y).1.toNat = x.toNat + y.toNat + c.toNat := by
  simp only [addCarry, BitVec.toNat_add, BitVec.toNat_ofNat, toNat_bool_decide]
  have h1 := x.isLt
  have h2 := y.isLt
  cases c
  · simp only [Bool.toNat_false]; split <;> omega
  · simp only [Bool.toNat_true]; split <;> omega

/-- C20: addition with carry is exact on every compiler path: the first step, -/
theorem add_first_exact (cfg : Cfg) (x y : U64) :
    (add64carry_first cfg x y).2.toNat + 2 ^ 64 * (add64carry_first cfg x y).1.toNat
      = x.toNat + y.toNat := by
  rw [add64carry_first_eq]
  exact addCarry_exact false x y

/-- C20: a step in the middle, -/
theorem add_next_exact (cfg : Cfg) (c : Bool) (x y : U64) :
    (add64carry_next cfg c x y).2.toNat + 2 ^ 64 * (add64carry_next cfg c x y).1.toNat
      = x.toNat + y.toNat + c.toNat := by
  rw [add64carry_next_eq]
  exact addCarry_exact c x y

/-- C20: and the last step, which drops the carry. -/
theorem add_last_exact (cfg : Cfg) (c : Bool) (x y : U64) :
    (add64carry_last cfg c x y).toNat = (x.toNat + y.toNat + c.toNat) % 2 ^ 64 := by
  rw [add64carry_last_eq]
  have := addCarry_exact c x y
  have h := (addCarry 64 c x y).2.isLt
  show (addCarry 64 c x y).2.toNat = _
  omega

example : add64carry_next { mips32 with carry := .msvc32 } true 0xFFFFFFFFFFFFFFFF 0xFFFFFFFFFFFFFFFF
    = (true, 0xFFFFFFFFFFFFFFFF) := by decide +kernel

/-! ## C21

`x.v` is the number in a `t1ha_uint128_t`. -/

/-- C21: the halves of the union are the two digits of the number. -/
theorem value128 (x : Uint128) : x.v.toNat = x.h.toNat * 2 ^ 64 + x.l.toNat := toNat_v x

/-- C21: different unions contain different numbers. -/
theorem value128_inj {x y : Uint128} (h : x.v = y.v) : x = y := v_inj h

example : (⟨7, 9⟩ : Uint128).v = 9 * 2 ^ 64 + 7 := by decide +kernel

/-- C21: `not128` computes the complement, with and without native 128-bit integers. -/
theorem not128_correct (x : Uint128) : (not128 native x).v = ~~~x.v := not128_v x

/-- C21: `or128` -/
theorem or128_correct (x y : Uint128) : (or128 native x y).v = x.v ||| y.v := or128_v x y

/-- C21: `xor128` -/
theorem xor128_correct (x y : Uint128) : (xor128 native x y).v = x.v ^^^ y.v := xor128_v x y

/-- C21: `add128` adds modulo 2^128, on every compiler path. -/
theorem add128_correct (cfg : Cfg) (x y : Uint128) : (add128 cfg native x y).v = x.v + y.v := add128_v x y

/-- C21: `mul128` multiplies modulo 2^128, on every compiler path. -/
theorem mul128_correct (cfg : Cfg) (x y : Uint128) : (mul128 cfg native x y).v = x.v * y.v := mul128_v x y

example : mul128 mips32 false ⟨0xFFFFFFFFFFFFFFFF, 3⟩ ⟨0xFFFFFFFFFFFFFFFE, 5⟩ =
    mul128 amd64 true ⟨0xFFFFFFFFFFFFFFFF, 3⟩ ⟨0xFFFFFFFFFFFFFFFE, 5⟩ :=
  v_inj (by rw [mul128_correct, mul128_correct])

/-- C21: `left128` shifts left for every shift count which C allows. -/
theorem left128_correct (cfg : Cfg) (x : Uint128) {n : Nat} (hn : n < 128) (w : World) (s : Sys) :
    ∃ r, left128 cfg native x n w s = .ok (r, s) ∧ r.v = x.v <<< n := by
  rw [left128_eq x hn]
  exact ⟨_, rfl, ofV_v _⟩

/-- C21: `right128` shifts right for every shift count which C allows. -/
theorem right128_correct (cfg : Cfg) (x : Uint128) {n : Nat} (hn : n < 128) (w : World) (s : Sys) :
    ∃ r, right128 cfg native x n w s = .ok (r, s) ∧ r.v = x.v >>> n := by
  rw [right128_eq x hn]
  exact ⟨_, rfl, ofV_v _⟩

example : ∃ r, left128 mips32 false ⟨5, 7⟩ 127 (atEnd 0) start = .ok (r, start) ∧
    r.v = (⟨5, 7⟩ : Uint128).v <<< 127 := left128_correct mips32 _ (by decide) _ _

/-- C21: larger shift counts are an error of the caller: the assertion fails, -/
theorem shift128_assert (cfg : Cfg) (x : Uint128) {n : Nat} (hn : 128 ≤ n) (hd : cfg.ndebug = false)
    (w : World) (s : Sys) :
    left128 cfg native x n w s = .error .assertFail ∧ right128 cfg native x n w s = .error .assertFail := by
  have : cassert cfg (decide (n < 128)) = fail .assertFail := by
    rw [cassert, hd, decide_eq_false (by omega)]
    rfl
  unfold left128 right128
  rw [this]
  exact ⟨rfl, rfl⟩

/-- C21: or, without assertions, the behaviour is undefined. -/
theorem shift128_undefined (cfg : Cfg) (x : Uint128) {n : Nat} (hn : 128 ≤ n) (hd : cfg.ndebug = true)
    (w : World) (s : Sys) :
    left128 cfg native x n w s = .error .badShift ∧ right128 cfg native x n w s = .error .badShift := by
  have hc : cassert cfg (decide (n < 128)) = pure () := by rw [cassert, hd]; rfl
  have hs : ∀ (k : Nat) (y : BitVec k) (j : Nat), k ≤ j → shl y j = fail .badShift ∧ shr y j = fail .badShift := by
    intro k y j hj
    exact ⟨if_neg (by omega), if_neg (by omega)⟩
  unfold left128 right128
  rw [hc]
  cases native
  · simp only [pure_bind, Bool.false_eq_true, if_false, if_neg (show ¬ n < 64 by omega),
      (hs 64 x.l (n - 64) (by omega)).1, (hs 64 x.h (n - 64) (by omega)).2]
    exact ⟨rfl, rfl⟩
  · simp only [pure_bind, if_true, (hs 128 x.v n hn).1, (hs 128 x.v n hn).2]
    exact ⟨rfl, rfl⟩

example : left128 amd64 true ⟨5, 7⟩ 128 (atEnd 0) start = .error .assertFail ∧
    right128 amd64 true ⟨5, 7⟩ 128 (atEnd 0) start = .error .assertFail :=
  shift128_assert amd64 _ (by decide) rfl _ _

example : left128 { amd64 with ndebug := true } true ⟨5, 7⟩ 200 (atEnd 0) start = .error .badShift ∧
    right128 { amd64 with ndebug := true } true ⟨5, 7⟩ 200 (atEnd 0) start = .error .badShift :=
  shift128_undefined _ _ (by decide) rfl _ _

/-- C21: `rot128` rotates right by `n` modulo 128; with native integers only if `n` is not a multiple of
128 (see `rot128_undefined`). -/
theorem rot128_correct (cfg : Cfg) (x : Uint128) {n : Nat} (hn : native = true → n % 128 ≠ 0) (w : World)
    (s : Sys) : ∃ r, rot128 cfg native x n w s = .ok (r, s) ∧ r.v = x.v.rotateRight n := by
  rw [rot128_eq x hn]
  exact ⟨_, rfl, ofV_v _⟩

example : ∃ r, rot128 amd64 true ⟨5, 7⟩ 200 (atEnd 0) start = .ok (r, start) ∧
    r.v = (⟨5, 7⟩ : Uint128).v.rotateRight 200 := rot128_correct amd64 _ (by decide) _ _

example : ∃ r, rot128 mips32 false ⟨5, 7⟩ 128 (atEnd 0) start = .ok (r, start) ∧
    r.v = (⟨5, 7⟩ : Uint128).v.rotateRight 128 := rot128_correct (native := false) mips32 _ (by decide) _ _

/-- C21, the gap between the two paths: with native integers `rot128` shifts by 128, which C does not
define, whenever the count is a multiple of 128; the other path returns the number unchanged. -/
theorem rot128_undefined (cfg : Cfg) (x : Uint128) {n : Nat} (hn : n % 128 = 0) (w : World) (s : Sys) :
    rot128 cfg true x n w s = .error .badShift ∧ rot128 cfg false x n w s = .ok (x, s) := by
  unfold rot128
  rw [and_127, hn]
  exact ⟨rfl, rfl⟩

example : rot128 amd64 true ⟨5, 7⟩ 256 (atEnd 0) start = .error .badShift ∧
    rot128 amd64 false ⟨5, 7⟩ 256 (atEnd 0) start = .ok (⟨5, 7⟩, start) :=
  rot128_undefined amd64 _ (by decide) _ _

/-! ## C33 -/

/-- The bytes of a number, least significant first, determine it. -/
theorem leBytes_inj {n : Nat} {x y : BitVec (8 * n)} (h : leBytes n x.toNat = leBytes n y.toNat) : x = y := by
  have h' := congrArg leVal h
  have e : 256 ^ n = 2 ^ (8 * n) := by rw [Nat.pow_mul]
  rw [leVal_leBytes, leVal_leBytes, e, Nat.mod_eq_of_lt x.isLt, Nat.mod_eq_of_lt y.isLt] at h'
  exact BitVec.eq_of_toNat_eq h'

theorem leBytes_beVal {k bits : Nat} (v : Nat) (hk : 256 ^ k = 2 ^ bits) :
    leBytes k (BitVec.ofNat bits (beVal (leBytes k v))).toNat = (leBytes k v).reverse := by
  have hl : (leBytes k v).reverse.length = k := by rw [List.length_reverse, leBytes_length]
  have hlt := leVal_lt (leBytes k v).reverse
  rw [hl, hk] at hlt
  rw [BitVec.toNat_ofNat, beVal_eq, Nat.mod_eq_of_lt hlt]
  have h := leBytes_leVal (leBytes k v).reverse
  rwa [hl] at h

/-- C33: `bswap64` reverses the bytes, on every compiler path. -/
theorem bswap64_correct (cfg : Cfg) (v : U64) :
    leBytes 8 (bswap64 cfg v).toNat = (leBytes 8 v.toNat).reverse := by
  rw [bswap64_eq]; exact leBytes_beVal _ (by decide)

/-- C33: `bswap32` reverses the bytes, on every compiler path. -/
theorem bswap32_correct (cfg : Cfg) (v : U32) :
    leBytes 4 (bswap32 cfg v).toNat = (leBytes 4 v.toNat).reverse := by
  rw [bswap32_eq]; exact leBytes_beVal _ (by decide)

/-- C33: `bswap16` reverses the bytes, on every compiler path. -/
theorem bswap16_correct (cfg : Cfg) (v : U16) :
    leBytes 2 (bswap16 cfg v).toNat = (leBytes 2 v.toNat).reverse := by
  rw [bswap16_eq]; exact leBytes_beVal _ (by decide)

/-- C33: swapping twice, even with different implementations, gives the number back. -/
theorem bswap_involutive (cfg cfg' : Cfg) (x : U64) (y : U32) (z : U16) :
    bswap64 cfg (bswap64 cfg' x) = x ∧ bswap32 cfg (bswap32 cfg' y) = y ∧
      bswap16 cfg (bswap16 cfg' z) = z := by
  refine ⟨leBytes_inj (n := 8) ?_, leBytes_inj (n := 4) ?_, leBytes_inj (n := 2) ?_⟩
  · rw [bswap64_correct, bswap64_correct, List.reverse_reverse]
  · rw [bswap32_correct, bswap32_correct, List.reverse_reverse]
  · rw [bswap16_correct, bswap16_correct, List.reverse_reverse]

example : bswap64 mips32 0x0102030405060708 = 0x0807060504030201 ∧ bswap32 mips32 0x01020304 = 0x04030201 ∧
    bswap16 mips32 0x0102 = 0x0201 := by decide +kernel

end T1ha.Props
