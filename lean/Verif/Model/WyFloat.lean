import Mathlib.Algebra.Order.Field.Rat
import Mathlib.Algebra.Order.Field.Power
import Verif.Model.Machine

/-!
# wyhash: the floating-point numbers

tests/wyhash/wyhash.h:195-204. No function of the test program calls these two.
-/

namespace T1ha.Model

/-- The finite numbers of a `double` which is an IEEE 754 binary64 (t1ha itself has no `double`; the type of
tests/wyhash/wyhash.h:195-204). Simplified: zeros of both signs are one number. -/
def IsDouble (q : ℚ) : Prop :=
  ∃ m e : ℤ, |m| < 2 ^ 53 ∧ -1074 ≤ e ∧ e ≤ 971 ∧ q = m * (2 : ℚ) ^ e

/-- How a machine computes the expressions of type `double` of tests/wyhash/wyhash.h:196-203: an operation gives
`fl q`, where `q` is the exact result. Nothing is said about `fl` but that it does not change the numbers of the type, so
that every rounding mode is meant, and wider formats for intermediate results (x87). `fma`: whether the compiler
contracts a product and a sum into one operation. -/
structure Fpu where
  fl : ℚ → ℚ
  exact : ∀ q, IsDouble q → fl q = q
  fma : Bool

/-- `wy2u01` (tests/wyhash/wyhash.h:195-198) -/
def wy2u01 (f : Fpu) (r : U64) : ℚ :=
  let _wynorm := f.fl ((1 : ℚ) / f.fl ((1#64 <<< 52).toNat : ℚ))
  f.fl (f.fl ((r >>> 12).toNat : ℚ) * _wynorm)

/-- `wy2gau` (tests/wyhash/wyhash.h:199-204). The sum is one of `uint64_t`. -/
def wy2gau (f : Fpu) (r : U64) : ℚ :=
  let _wynorm := f.fl ((1 : ℚ) / f.fl ((1#64 <<< 20).toNat : ℚ))
  let sum : U64 := (r &&& 0x1fffff#64) + ((r >>> 21) &&& 0x1fffff#64) + ((r >>> 42) &&& 0x1fffff#64)
  if f.fma then f.fl (f.fl (sum.toNat : ℚ) * _wynorm - 3)
  else f.fl (f.fl (f.fl (sum.toNat : ℚ) * _wynorm) - 3)

end T1ha.Model
