import Verif.Basic

/-!
# The x86 instructions used by the AES-NI variants

Semantics of the intrinsics called in `src/t1ha0_ia32aes_a.h` and `src/t1ha0_ia32aes_b.h`, after the
Intel Software Developer's Manual (AESENC, AESDEC, PADDQ, PSUBQ, PXOR, MOVDQU,
MOVQ, MOVD, PEXTRQ, PEXTRD, PUNPCKHQDQ, PSHUFD) and FIPS-197.
The hardware is outside the repository: these definitions belong to the trusted base.  The tables are
checked against the algebraic definition of the AES S-box in `Verif/Proofs/X86.lean`.

An `__m128i` value is a 128-bit number whose byte `i` (in memory order) is bits `8*i .. 8*i+7`.
-/

namespace T1ha.X86

/-- AES S-box, entry `i` in bits `8*i .. 8*i+7`. -/
def sboxTable : Nat := 0x16BB54B00F2D99416842E6BF0D89A18CDF2855CEE9871E9B948ED9691198F8E19E1DC186B95735610EF6034866B53E708A8BBD4B1F74DDE8C6B4A61C2E2578BA08AE7A65EAF4566CA94ED58D6D37C8E779E4959162ACD3C25C2406490A3A32E0DB0B5EDE14B8EE4688902A22DC4F816073195D643D7EA7C41744975FEC130CCDD2F3FF1021DAB6BCF5389D928F40A351A89F3C507F02F94585334D43FBAAEFD0CF584C4A39BECB6A5BB1FC20ED00D153842FE329B3D63B52A05A6E1B1A2C830975B227EBE28012079A059618C323C7041531D871F1E5A534CCF73F362693FDB7C072A49CAFA2D4ADF04759FA7DC982CA76ABD7FE2B670130C56F6BF27B777C63

/-- Inverse AES S-box, entry `i` in bits `8*i .. 8*i+7`. -/
def invSboxTable : Nat := 0x7D0C2155631469E126D677BA7E042B17619953833CBBEBC8B0F52AAE4D3BE0A0EF9CC9939F7AE52D0D4AB519A97F51605FEC8027591012B131C7078833A8DD1FF45ACD78FEC0DB9A2079D2C64B3E56FC1BBE18AA0E62B76F89C5291D711AF1476EDF751CE837F9E28535ADE72274AC9673E6B4F0CECFF297EADC674F4111913A6B8A130103BDAFC1020F3FCA8F1E2CD00645B3B80558E4F70AD3BC8C00ABD890849D8DA75746155EDAB9EDFD5048706C92B6655DCC5CA4D41698688664F6F87225D18B6D49A25B76B224D92866A12E084EC3FA420B954CEE3D23C2A632947B54CBE9DEC444438E3487FF2F9B8239E37CFBD7F3819EA340BF38A53630D56A0952

def sbox (b : Byte) : Byte := BitVec.ofNat 8 (sboxTable >>> (8 * b.toNat))
def invSbox (b : Byte) : Byte := BitVec.ofNat 8 (invSboxTable >>> (8 * b.toNat))

/-- Multiplication by `x` in GF(2^8) with the AES polynomial. -/
def xtime (b : Byte) : Byte := (b <<< 1) ^^^ (if b.msb then 0x1B else 0)

/-- Byte `i` of a 128-bit value. -/
def byteAt (v : U128) (i : Nat) : Byte := (v >>> (8 * i)).setWidth 8

/-- The 128-bit value with the given 16 bytes. -/
def ofBytes (f : Nat → Byte) : U128 :=
  BitVec.ofNat 128 (leVal ((List.range 16).map f))

/-- FIPS-197 ShiftRows: byte `r + 4*c` comes from column `c + r`. -/
def shiftRows (v : U128) : U128 := ofBytes fun i => byteAt v (i % 4 + 4 * ((i / 4 + i % 4) % 4))
/-- FIPS-197 InvShiftRows. -/
def invShiftRows (v : U128) : U128 := ofBytes fun i => byteAt v (i % 4 + 4 * ((i / 4 + 4 - i % 4) % 4))

def subBytes (v : U128) : U128 := ofBytes fun i => sbox (byteAt v i)
def invSubBytes (v : U128) : U128 := ofBytes fun i => invSbox (byteAt v i)

/-- FIPS-197 MixColumns: row `r` of a column is `2*s[r] + 3*s[r+1] + s[r+2] + s[r+3]`. -/
def mixColumns (v : U128) : U128 :=
  ofBytes fun i =>
    let s := fun k => byteAt v (4 * (i / 4) + (i + k) % 4)
    xtime (s 0) ^^^ (xtime (s 1) ^^^ s 1) ^^^ s 2 ^^^ s 3

/-- FIPS-197 InvMixColumns: `14*s[r] + 11*s[r+1] + 13*s[r+2] + 9*s[r+3]`. -/
def invMixColumns (v : U128) : U128 :=
  ofBytes fun i =>
    let s := fun k => byteAt v (4 * (i / 4) + (i + k) % 4)
    let x2 := xtime
    let x4 := fun b => xtime (xtime b)
    let x8 := fun b => xtime (xtime (xtime b))
    (x8 (s 0) ^^^ x4 (s 0) ^^^ x2 (s 0)) ^^^ (x8 (s 1) ^^^ x2 (s 1) ^^^ s 1) ^^^
      (x8 (s 2) ^^^ x4 (s 2) ^^^ s 2) ^^^ (x8 (s 3) ^^^ s 3)

/-- `_mm_aesenc_si128(state, key)` -/
def aesenc (state key : U128) : U128 := mixColumns (subBytes (shiftRows state)) ^^^ key

/-- `_mm_aesdec_si128(state, key)` -/
def aesdec (state key : U128) : U128 := invMixColumns (invSubBytes (invShiftRows state)) ^^^ key

/-- low and high 64-bit lanes -/
def lane0 (v : U128) : U64 := v.setWidth 64
def lane1 (v : U128) : U64 := (v >>> 64).setWidth 64

/-- `_mm_set_epi64x(hi, lo)` -/
def set64x (hi lo : U64) : U128 := hi ++ lo

/-- `_mm_add_epi64` -/
def add64 (x y : U128) : U128 := set64x (lane1 x + lane1 y) (lane0 x + lane0 y)
/-- `_mm_sub_epi64` -/
def sub64 (x y : U128) : U128 := set64x (lane1 x - lane1 y) (lane0 x - lane0 y)
/-- `_mm_xor_si128` -/
def xor (x y : U128) : U128 := x ^^^ y


/-- 32-bit lane `i` (`_mm_extract_epi32`, and `_mm_cvtsi128_si32` for `i = 0`) -/
def lane32 (v : U128) (i : Nat) : U32 := (v >>> (32 * i)).setWidth 32

/-- `_mm_unpackhi_epi64(x, y)`: the high lane of `x` below the high lane of `y` -/
def unpackhi64 (x y : U128) : U128 := set64x (lane1 y) (lane1 x)

/-- `_mm_shuffle_epi32(x, imm)`: lane `i` of the result is the lane of `x` given by bits `2*i`, `2*i+1`
of `imm` -/
def shuffle32 (x : U128) (imm : Nat) : U128 :=
  lane32 x (imm / 64 % 4) ++ lane32 x (imm / 16 % 4) ++ lane32 x (imm / 4 % 4) ++ lane32 x (imm % 4)

end T1ha.X86
