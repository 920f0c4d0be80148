import Verif.X86Simd

/-!
# The PowerPC vector instructions used by the VSX variant of HighwayHash

Semantics of the intrinsics (and of the one instruction written in assembly) in `tests/highwayhash/hh_vsx.h`, after the
Power ISA and the rules of altivec.h: elements of a vector are numbered as in memory, on both byte orders. The hardware
and the compiler are outside the repository: these definitions belong to the trusted base.

A vector is held as the number whose low half is the element 0 of `__vector unsigned long long` and whose high half is
the element 1 (`set64x`, `lane0`, `lane1` of `Verif/X86.lean`). Which parts of these two numbers are the elements of 32
or 8 bits depends on the byte order.
-/

namespace T1ha.Ppc

open X86

/-- A `__vector unsigned long long` of two elements. -/
def vec64 (x0 x1 : U64) : U128 := set64x x1 x0

/-- The 32-bit element `j` is lane `place32 e j` of the number: on a big-endian machine the element with the lower number
is the more significant half of its 64 bits. -/
def place32 (e : Endian) (j : Nat) : Nat :=
  match e with
  | .little => j
  | .big => j ^^^ 1

/-- The byte `j` is byte `place8 e j` of the number. -/
def place8 (e : Endian) (j : Nat) : Nat :=
  match e with
  | .little => j
  | .big => j ^^^ 7

/-- The element `j` of a `__vector unsigned int`. -/
def elem32 (e : Endian) (x : U128) (j : Nat) : U32 := lane32 x (place32 e j)

/-- A `__vector unsigned int` of elements `f 0` to `f 3` (the place of a place is the number of the element). -/
def vec32 (e : Endian) (f : Nat → U32) : U128 :=
  set32 (f (place32 e 3)) (f (place32 e 2)) (f (place32 e 1)) (f (place32 e 0))

/-- `x[j] = v` for a `__vector unsigned int`. -/
def insert32 (e : Endian) (x : U128) (j : Nat) (v : U32) : U128 := vec32 e fun i => if i = j then v else elem32 e x i

/-- `x + y` for `__vector unsigned long long` -/
def add (x y : U128) : U128 := vec64 (lane0 x + lane0 y) (lane1 x + lane1 y)

/-- `x >> n` for `__vector unsigned long long` -/
def shiftRight (x : U128) (n : Nat) : U128 := vec64 (lane0 x >>> n) (lane1 x >>> n)

/-- `vec_rl(x, {n, n})` for `__vector unsigned long long` (VRLD) -/
def rl64 (x : U128) (n : Nat) : U128 := vec64 ((lane0 x).rotateLeft n) ((lane1 x).rotateLeft n)

/-- `vec_rl(x, counts)` for `__vector unsigned int` (VRLW): the low five bits of every count -/
def rl32 (e : Endian) (x counts : U128) : U128 :=
  vec32 e fun i => (elem32 e x i).rotateLeft ((elem32 e counts i).toNat % 32)

/-- VMULOUW: the products of the words 1 and 3, where the word 0 is the most significant one of the register: the less
significant halves of both 64 bits, on both byte orders -/
def vmulouw (x y : U128) : U128 :=
  vec64 (BitVec.ofNat 64 ((lane0 x).toNat % 2 ^ 32 * ((lane0 y).toNat % 2 ^ 32)))
    (BitVec.ofNat 64 ((lane1 x).toNat % 2 ^ 32 * ((lane1 y).toNat % 2 ^ 32)))

/-- VMULEUW: the products of the words 0 and 2, the more significant halves -/
def vmuleuw (x y : U128) : U128 :=
  vec64 (BitVec.ofNat 64 ((lane0 x).toNat / 2 ^ 32 * ((lane0 y).toNat / 2 ^ 32)))
    (BitVec.ofNat 64 ((lane1 x).toNat / 2 ^ 32 * ((lane1 y).toNat / 2 ^ 32)))

/-- `vec_vperm(x, x, mask)`: every byte of the mask selects (by its low five bits) a byte of `x` followed by `x` -/
def vperm (e : Endian) (x mask : U128) : U128 :=
  ofBytes fun i => byteAt x (place8 e ((byteAt mask i).toNat % 32 % 16))

/-- The register as a number: the element 0 is the less significant half on a little-endian machine, the more significant
one on a big-endian machine. (The same function takes the number back to the elements.) -/
def register (e : Endian) (x : U128) : U128 :=
  match e with
  | .little => x
  | .big => vec64 (lane1 x) (lane0 x)

/-- `vec_sll(x, vec_splat_u8(n))`, `n` at most 7 (VSL): a shift of the register -/
def sll (e : Endian) (x : U128) (n : Nat) : U128 := register e (register e x <<< n)

end T1ha.Ppc
