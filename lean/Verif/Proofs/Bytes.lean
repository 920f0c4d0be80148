import Verif.Basic
import Verif.Model.Bits
import Mathlib.Tactic.IntervalCases

/-!
# Byte strings as numbers
-/

namespace T1ha

theorem leVal_append (xs ys : List Byte) :
    leVal (xs ++ ys) = leVal xs + 256 ^ xs.length * leVal ys := by
  induction xs with
  | nil => simp [leVal]
  | cons b bs ih =>
    simp only [List.cons_append, leVal, ih, List.length_cons, Nat.pow_succ]
    rw [Nat.mul_add, Nat.add_assoc, ← Nat.mul_assoc, Nat.mul_comm 256 (256 ^ _)]

theorem leVal_lt (xs : List Byte) : leVal xs < 256 ^ xs.length := by
  induction xs with
  | nil => simp [leVal]
  | cons b bs ih =>
    simp only [leVal, List.length_cons, Nat.pow_succ]
    have := b.isLt
    omega

theorem leVal_take (xs : List Byte) (k : Nat) : leVal (xs.take k) = leVal xs % 256 ^ k := by
  by_cases hk : k ≤ xs.length
  · have h := leVal_append (xs.take k) (xs.drop k)
    rw [List.take_append_drop] at h
    have hl : (xs.take k).length = k := by simp [hk]
    rw [h, hl, Nat.add_mul_mod_self_left]
    have := leVal_lt (xs.take k)
    rw [hl] at this
    rw [Nat.mod_eq_of_lt this]
  · rw [List.take_of_length_le (by omega), Nat.mod_eq_of_lt]
    exact Nat.lt_of_lt_of_le (leVal_lt xs) (Nat.pow_le_pow_right (by decide) (by omega))

theorem leVal_drop (xs : List Byte) (k : Nat) : leVal (xs.drop k) = leVal xs / 256 ^ k := by
  by_cases hk : k ≤ xs.length
  · have h := leVal_append (xs.take k) (xs.drop k)
    rw [List.take_append_drop] at h
    have hl : (xs.take k).length = k := by simp [hk]
    have := leVal_lt (xs.take k)
    rw [hl] at this
    rw [h, hl, Nat.add_mul_div_left _ _ (Nat.pow_pos (by decide)), Nat.div_eq_of_lt this,
      Nat.zero_add]
  · rw [List.drop_eq_nil_of_le (by omega), Nat.div_eq_of_lt]
    · rfl
    · exact Nat.lt_of_lt_of_le (leVal_lt xs) (Nat.pow_le_pow_right (by decide) (by omega))

theorem beVal_foldl (xs : List Byte) (acc : Nat) :
    xs.foldl (fun acc b => acc * 256 + b.toNat) acc = acc * 256 ^ xs.length + leVal xs.reverse := by
  induction xs generalizing acc with
  | nil => simp [leVal]
  | cons b bs ih =>
    rw [List.foldl_cons, ih, List.reverse_cons, leVal_append]
    simp only [leVal, List.length_reverse, List.length_cons, Nat.pow_succ, Nat.mul_zero, Nat.add_zero]
    rw [Nat.add_mul, Nat.mul_assoc, Nat.mul_comm 256 (256 ^ _), Nat.mul_comm (b.toNat)]
    omega

theorem beVal_eq (xs : List Byte) : beVal xs = leVal xs.reverse := by
  simp [beVal, beVal_foldl]

theorem beVal_lt (xs : List Byte) : beVal xs < 256 ^ xs.length := by
  rw [beVal_eq]
  simpa using leVal_lt xs.reverse

theorem Endian.val_lt (e : Endian) (xs : List Byte) : e.val xs < 256 ^ xs.length := by
  cases e
  · exact leVal_lt xs
  · exact beVal_lt xs

theorem beVal_append (xs ys : List Byte) :
    beVal (xs ++ ys) = beVal xs * 256 ^ ys.length + beVal ys := by
  simp only [beVal_eq, List.reverse_append, leVal_append, List.length_reverse]
  rw [Nat.mul_comm, Nat.add_comm]

theorem beVal_drop (xs : List Byte) (k : Nat) :
    beVal (xs.drop k) = beVal xs % 256 ^ (xs.length - k) := by
  rw [beVal_eq, beVal_eq, List.reverse_drop, leVal_take]

theorem beVal_take (xs : List Byte) (k : Nat) :
    beVal (xs.take k) = beVal xs / 256 ^ (xs.length - k) := by
  rw [beVal_eq, beVal_eq, List.reverse_take, leVal_drop]

theorem leBytes_length (n v : Nat) : (leBytes n v).length = n := by
  induction n generalizing v with
  | zero => rfl
  | succ n ih => simp [leBytes, ih]

theorem leBytes_leVal (xs : List Byte) : leBytes xs.length (leVal xs) = xs := by
  induction xs with
  | nil => rfl
  | cons b bs ih =>
    simp only [List.length_cons, leBytes, leVal]
    have h1 : (b.toNat + 256 * leVal bs) / 256 = leVal bs := by
      have := b.isLt
      omega
    rw [h1, ih]
    congr 1
    apply BitVec.eq_of_toNat_eq
    rw [BitVec.toNat_ofNat]
    have := b.isLt
    omega

theorem leVal_leBytes (n v : Nat) : leVal (leBytes n v) = v % 256 ^ n := by
  induction n generalizing v with
  | zero => simp [leBytes, leVal, Nat.mod_one]
  | succ n ih =>
    simp only [leBytes, leVal, ih, BitVec.toNat_ofNat]
    rw [Nat.pow_succ 256 n, Nat.mul_comm (256 ^ n) 256, Nat.mod_mul]

theorem Endian.bytes_length (e : Endian) (n v : Nat) : (e.bytes n v).length = n := by
  cases e <;> simp [Endian.bytes, leBytes_length]

theorem Endian.val_bytes (e : Endian) (n v : Nat) : e.val (e.bytes n v) = v % 256 ^ n := by
  cases e
  · exact leVal_leBytes n v
  · simp [Endian.bytes, Endian.val, beVal_eq, leVal_leBytes]

theorem Endian.bytes_val (e : Endian) (xs : List Byte) : e.bytes xs.length (e.val xs) = xs := by
  cases e
  · exact leBytes_leVal xs
  · simp only [Endian.bytes, Endian.val, beVal_eq]
    have := leBytes_leVal xs.reverse
    rw [List.length_reverse] at this
    rw [this, List.reverse_reverse]

/-- `x ||| y * 2^k` is a sum when `x` fits below. -/
theorem or_shift_eq_add {x y k : Nat} (h : x < 2 ^ k) : x ||| y <<< k = x + y * 2 ^ k := by
  rw [Nat.or_comm, ← Nat.shiftLeft_add_eq_or_of_lt h, Nat.shiftLeft_eq, Nat.add_comm]

theorem shift_or_eq_add {x y k : Nat} (h : x < 2 ^ k) : y <<< k ||| x = x + y * 2 ^ k := by
  rw [← Nat.shiftLeft_add_eq_or_of_lt h, Nat.shiftLeft_eq, Nat.add_comm]

namespace Model

/-! ## Byte swapping -/

theorem bswap64_portable (v : U64) :
    v <<< 56 ||| v >>> 56 ||| ((v <<< 40) &&& 0x00ff000000000000#64) |||
      ((v <<< 24) &&& 0x0000ff0000000000#64) |||
      ((v <<< 8) &&& 0x000000ff00000000#64) |||
      ((v >>> 8) &&& 0x00000000ff000000#64) |||
      ((v >>> 24) &&& 0x0000000000ff0000#64) |||
      ((v >>> 40) &&& 0x000000000000ff00#64) =
    v.extractLsb' 0 8 ++ v.extractLsb' 8 8 ++ v.extractLsb' 16 8 ++ v.extractLsb' 24 8 ++
      v.extractLsb' 32 8 ++ v.extractLsb' 40 8 ++ v.extractLsb' 48 8 ++ v.extractLsb' 56 8 := by
  apply BitVec.eq_of_getLsbD_eq
  intro i hi
  simp only [BitVec.getLsbD_append, BitVec.getLsbD_extractLsb']
  interval_cases i <;> simp

theorem bswap32_portable (v : U32) :
    v <<< 24 ||| v >>> 24 ||| ((v <<< 8) &&& 0x00ff0000#32) ||| ((v >>> 8) &&& 0x0000ff00#32) =
    v.extractLsb' 0 8 ++ v.extractLsb' 8 8 ++ v.extractLsb' 16 8 ++ v.extractLsb' 24 8 := by
  apply BitVec.eq_of_getLsbD_eq
  intro i hi
  simp only [BitVec.getLsbD_append, BitVec.getLsbD_extractLsb']
  interval_cases i <;> simp

theorem bswap16_portable (v : U16) :
    ((v.setWidth 32 <<< 8) ||| (v.setWidth 32 >>> 8) : U32).setWidth 16 =
    v.extractLsb' 0 8 ++ v.extractLsb' 8 8 := by
  apply BitVec.eq_of_getLsbD_eq
  intro i hi
  simp only [BitVec.getLsbD_append, BitVec.getLsbD_extractLsb']
  interval_cases i <;> simp

theorem toNat_append_add {n m : Nat} (x : BitVec n) (y : BitVec m) :
    (x ++ y).toNat = x.toNat * 2 ^ m + y.toNat := by
  rw [BitVec.toNat_append, ← Nat.shiftLeft_add_eq_or_of_lt y.isLt, Nat.shiftLeft_eq]

theorem bswap64_eq (cfg : Cfg) (v : U64) :
    bswap64 cfg v = BitVec.ofNat 64 (beVal (leBytes 8 v.toNat)) := by
  unfold bswap64
  split
  · rfl
  · rw [bswap64_portable]
    apply BitVec.eq_of_toNat_eq
    have := v.isLt
    simp only [toNat_append_add, BitVec.extractLsb'_toNat, BitVec.toNat_ofNat, beVal, leBytes,
      List.foldl, Nat.shiftRight_eq_div_pow, Nat.div_div_eq_div_mul, Nat.reducePow, Nat.reduceMul,
      Nat.div_one]
    omega

theorem bswap32_eq (cfg : Cfg) (v : U32) :
    bswap32 cfg v = BitVec.ofNat 32 (beVal (leBytes 4 v.toNat)) := by
  unfold bswap32
  split
  · rfl
  · rw [bswap32_portable]
    apply BitVec.eq_of_toNat_eq
    have := v.isLt
    simp only [toNat_append_add, BitVec.extractLsb'_toNat, BitVec.toNat_ofNat, beVal, leBytes,
      List.foldl, Nat.shiftRight_eq_div_pow, Nat.div_div_eq_div_mul, Nat.reducePow, Nat.reduceMul,
      Nat.div_one]
    omega

theorem bswap16_eq (cfg : Cfg) (v : U16) :
    bswap16 cfg v = BitVec.ofNat 16 (beVal (leBytes 2 v.toNat)) := by
  unfold bswap16
  split
  · rfl
  · rw [bswap16_portable]
    apply BitVec.eq_of_toNat_eq
    have := v.isLt
    simp only [toNat_append_add, BitVec.extractLsb'_toNat, BitVec.toNat_ofNat, beVal, leBytes,
      List.foldl, Nat.shiftRight_eq_div_pow, Nat.reducePow, Nat.reduceMul,
      Nat.div_one]
    omega

/-- Byte swapping of a number read in one byte order is the number read in the other one. -/
theorem bswap_val {k : Nat} (bs : List Byte) (e : Endian) (hl : bs.length = k) :
    beVal (leBytes k (e.val bs)) = (match e with | .little => beVal bs | .big => leVal bs) := by
  subst hl
  cases e
  · simp only [Endian.val, leBytes_leVal]
  · simp only [Endian.val]
    have := leBytes_leVal bs.reverse
    rw [List.length_reverse] at this
    rw [beVal_eq bs, this, beVal_eq, List.reverse_reverse]

theorem toNat_ofNat_val {bits k : Nat} (e : Endian) (bs : List Byte) (hl : bs.length = k)
    (hk : 256 ^ k = 2 ^ bits) : (BitVec.ofNat bits (e.val bs)).toNat = e.val bs := by
  rw [BitVec.toNat_ofNat, Nat.mod_eq_of_lt]
  have := e.val_lt bs
  rwa [hl, hk] at this

end Model
end T1ha
