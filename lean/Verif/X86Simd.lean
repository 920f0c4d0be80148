import Verif.X86

/-!
# The x86 instructions used by the SSE4.1 and AVX2 variants of HighwayHash

Semantics of the intrinsics called in `tests/highwayhash/hh_sse41.h`, `hh_avx2.h`, `hh_buffer.h`, `vector128.h` and
`vector256.h`, after the Intel Software Developer's Manual (PAND, POR, PANDN, PADDQ, PSUBD, PMULUDQ, PSHUFB, PSHUFD,
PBLENDVB, PCMPGTD, PCMPEQQ, PSLLD, PSRLD, PSLLQ, PSRLQ, PSLLDQ, VPSLLVD, VPSRLVD, PINSRD, PUNPCKLQDQ, VPERMD,
VINSERTI128, VEXTRACTI128, VPBROADCASTD). The hardware is outside the repository: these definitions belong to the
trusted base. Instructions which access memory are in `Verif/Model/HighwaySimd.lean`.

An `__m128i` value is a 128-bit number whose byte `i` (in memory order) is bits `8*i .. 8*i+7`; an `__m256i` value is
its two 128-bit halves, as all instructions used here but `_mm256_permutevar8x32_epi32` treat the halves alike.
-/

namespace T1ha.X86

/-! ## 128 bits -/

/-- The value with the given bytes in memory (`_mm_loadu_si128`, `_mm_load_si128`). -/
def ofList (l : List Byte) : U128 := BitVec.ofNat 128 (leVal l)

/-- The bytes in memory (`_mm_storeu_si128`, `_mm_store_si128`). -/
def toList (v : U128) : List Byte := leBytes 16 v.toNat

/-- `_mm_set_epi32(x3, x2, x1, x0)` -/
def set32 (x3 x2 x1 x0 : U32) : U128 := x3 ++ x2 ++ x1 ++ x0

/-- `_mm_set1_epi32(x)` -/
def set1_32 (x : U32) : U128 := set32 x x x x

/-- A function of every 32-bit lane. -/
def map32 (f : U32 → U32) (x : U128) : U128 :=
  set32 (f (lane32 x 3)) (f (lane32 x 2)) (f (lane32 x 1)) (f (lane32 x 0))

/-- A function of every 32-bit lane of two values. -/
def zip32 (f : U32 → U32 → U32) (x y : U128) : U128 :=
  set32 (f (lane32 x 3) (lane32 y 3)) (f (lane32 x 2) (lane32 y 2)) (f (lane32 x 1) (lane32 y 1))
    (f (lane32 x 0) (lane32 y 0))

/-- `_mm_and_si128` -/
def and (x y : U128) : U128 := x &&& y
/-- `_mm_or_si128` -/
def or (x y : U128) : U128 := x ||| y
/-- `_mm_andnot_si128(x, y)` -/
def andnot (x y : U128) : U128 := ~~~x &&& y

/-- `_mm_sub_epi32` -/
def sub32 (x y : U128) : U128 := zip32 (· - ·) x y

/-- `_mm_srli_epi64(x, n)`, `n` at most 63 -/
def srli64 (x : U128) (n : Nat) : U128 := set64x (lane1 x >>> n) (lane0 x >>> n)
/-- `_mm_slli_epi64(x, n)`, `n` at most 63 -/
def slli64 (x : U128) (n : Nat) : U128 := set64x (lane1 x <<< n) (lane0 x <<< n)

/-- `_mm_slli_si128(x, n)`, a shift by `n` bytes -/
def slliSi128 (x : U128) (n : Nat) : U128 := x <<< (8 * n)

/-- `_mm_mul_epu32`: the products of the low halves of the 64-bit lanes -/
def mulEpu32 (x y : U128) : U128 :=
  set64x (BitVec.ofNat 64 ((lane1 x).toNat % 2 ^ 32 * ((lane1 y).toNat % 2 ^ 32)))
    (BitVec.ofNat 64 ((lane0 x).toNat % 2 ^ 32 * ((lane0 y).toNat % 2 ^ 32)))

/-- `_mm_shuffle_epi8(x, control)` -/
def shuffle8 (x control : U128) : U128 :=
  ofBytes fun i => if (byteAt control i).msb then 0 else byteAt x ((byteAt control i).toNat % 16)

/-- `_mm_blendv_epi8(x, y, mask)` -/
def blendv8 (x y mask : U128) : U128 := ofBytes fun i => if (byteAt mask i).msb then byteAt y i else byteAt x i

/-- `_mm_cmpgt_epi32`: all bits of a lane are set if that of `x` is greater, as a signed number -/
def cmpgt32 (x y : U128) : U128 := zip32 (fun a b => if a.toInt > b.toInt then BitVec.allOnes 32 else 0) x y

/-- `_mm_cmpeq_epi64` -/
def cmpeq64 (x y : U128) : U128 :=
  set64x (if lane1 x = lane1 y then BitVec.allOnes 64 else 0) (if lane0 x = lane0 y then BitVec.allOnes 64 else 0)

/-- `_mm_sll_epi32(x, count)`: the count is the low half of `count`; a count above 31 gives 0 -/
def sll32 (x count : U128) : U128 :=
  if (lane0 count).toNat > 31 then 0 else map32 (· <<< (lane0 count).toNat) x

/-- `_mm_srl_epi32(x, count)` -/
def srl32 (x count : U128) : U128 :=
  if (lane0 count).toNat > 31 then 0 else map32 (· >>> (lane0 count).toNat) x

/-- `_mm_sllv_epi32(x, count)`: a lane shifted by 32 bits or more is 0 -/
def sllv32 (x count : U128) : U128 := zip32 (fun a n => a <<< n.toNat) x count
/-- `_mm_srlv_epi32(x, count)` -/
def srlv32 (x count : U128) : U128 := zip32 (fun a n => a >>> n.toNat) x count

/-- `_mm_insert_epi32(x, v, 3)` -/
def insert32_3 (x : U128) (v : U32) : U128 := set32 v (lane32 x 2) (lane32 x 1) (lane32 x 0)

/-- `_mm_cvtsi64_si128(x)` -/
def cvtsi64 (x : U64) : U128 := set64x 0 x
/-- `_mm_cvtsi32_si128(x)` -/
def cvtsi32 (x : U32) : U128 := set32 0 0 0 x

/-- `_mm_unpacklo_epi64(x, y)`: the low lane of `x` below the low lane of `y` -/
def unpacklo64 (x y : U128) : U128 := set64x (lane0 y) (lane0 x)

/-! ## 256 bits -/

/-- An `__m256i` value: the low half and the high half. -/
structure U256 where
  lo : U128
  hi : U128
  deriving DecidableEq

/-- A function of both halves. -/
def U256.map (f : U128 → U128) (x : U256) : U256 := ⟨f x.lo, f x.hi⟩

/-- A function of both halves of two values. -/
def U256.zip (f : U128 → U128 → U128) (x y : U256) : U256 := ⟨f x.lo y.lo, f x.hi y.hi⟩

/-- `_mm256_set_epi64x(x3, x2, x1, x0)` -/
def set256 (x3 x2 x1 x0 : U64) : U256 := ⟨set64x x1 x0, set64x x3 x2⟩

/-- The 32-bit lane `i` of eight. -/
def U256.lane32 (x : U256) (i : Nat) : U32 := if i < 4 then X86.lane32 x.lo i else X86.lane32 x.hi (i - 4)

/-- `_mm256_permutevar8x32_epi32(x, indices)`: of every index the low three bits count -/
def permutevar8x32 (x indices : U256) : U256 :=
  let f := fun i => x.lane32 ((indices.lane32 i).toNat % 8)
  ⟨set32 (f 3) (f 2) (f 1) (f 0), set32 (f 7) (f 6) (f 5) (f 4)⟩

/-- `_mm256_broadcastd_epi32(x)` -/
def broadcastd (x : U128) : U256 := ⟨set1_32 (lane32 x 0), set1_32 (lane32 x 0)⟩

end T1ha.X86
