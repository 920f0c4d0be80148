import Verif.X86Simd

/-!
# The NEON instructions used by XXH3

Semantics of the intrinsics (and of the one instruction written in assembly) in `tests/xxhash/xxh3.h:247-347` and
`1291-1381`, after the Arm Architecture Reference Manual, on a little-endian machine. The hardware is outside the
repository: these definitions belong to the trusted base.

A `Q` register is a 128-bit number whose byte `i` (in memory order) is bits `8*i .. 8*i+7`, so that `vreinterpretq` of
arm_neon.h changes nothing; a `uint32x2_t` (a `D` register) is its two elements.
-/

namespace T1ha.Arm

open X86

/-- A `uint32x2_t`: the elements 0 and 1. -/
structure U32x2 where
  e0 : U32
  e1 : U32
  deriving DecidableEq

/-- `vextq_u64(x, y, 1)`: the element 1 of `x` below the element 0 of `y` -/
def vextq_u64_1 (x y : U128) : U128 := set64x (lane0 y) (lane1 x)

/-- `vaddq_u64` -/
def vaddq_u64 (x y : U128) : U128 := set64x (lane1 x + lane1 y) (lane0 x + lane0 y)

/-- `veorq_u8`, `veorq_u64` -/
def veorq (x y : U128) : U128 := x ^^^ y

/-- `vshrq_n_u64(x, n)` -/
def vshrq_n_u64 (x : U128) (n : Nat) : U128 := set64x (lane1 x >>> n) (lane0 x >>> n)

/-- `vshlq_n_u64(x, n)` -/
def vshlq_n_u64 (x : U128) (n : Nat) : U128 := set64x (lane1 x <<< n) (lane0 x <<< n)

/-- `vmovn_u64`: the low halves of the elements -/
def vmovn_u64 (x : U128) : U32x2 := ⟨(lane0 x).setWidth 32, (lane1 x).setWidth 32⟩

/-- `vshrn_n_u64(x, n)`: the elements shifted, and then their low halves -/
def vshrn_n_u64 (x : U128) (n : Nat) : U32x2 := ⟨(lane0 x >>> n).setWidth 32, (lane1 x >>> n).setWidth 32⟩

/-- `vget_low_u32` of a `uint32x4_t` -/
def vget_low_u32 (x : U128) : U32x2 := ⟨lane32 x 0, lane32 x 1⟩

/-- `vget_high_u32` of a `uint32x4_t` -/
def vget_high_u32 (x : U128) : U32x2 := ⟨lane32 x 2, lane32 x 3⟩

/-- `vzip.32 %e0, %f0`, where the operands are the low and the high half of one `Q` register: the first elements of both
halves become the low half, the second elements the high half -/
def vzip32 (x : U128) : U128 := set32 (lane32 x 3) (lane32 x 1) (lane32 x 2) (lane32 x 0)

/-- `vdup_n_u32` -/
def vdup_n_u32 (x : U32) : U32x2 := ⟨x, x⟩

/-- `vmull_u32`: the products, of 64 bits -/
def vmull_u32 (x y : U32x2) : U128 :=
  set64x (BitVec.ofNat 64 (x.e1.toNat * y.e1.toNat)) (BitVec.ofNat 64 (x.e0.toNat * y.e0.toNat))

/-- `vmlal_u32(acc, x, y)` -/
def vmlal_u32 (acc : U128) (x y : U32x2) : U128 := vaddq_u64 acc (vmull_u32 x y)

end T1ha.Arm
