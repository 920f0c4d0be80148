import Verif.Model.Highway
import Verif.X86Simd

/-!
# HighwayHash: the SSE4.1 and the AVX2 implementation

tests/highwayhash/hh_sse41.h, hh_avx2.h, hh_buffer.h, load3.h, highwayhash.h, highwayhash_target.cc, for x86 (32 or 64
bits), compiled with the instructions enabled (otherwise `HH_DISABLE_TARGET_SPECIFIC` leaves the functions out).
vector128.h and vector256.h only give names to the intrinsics (`Verif/X86Simd.lean`).

As in `Verif/Model/Highway.lean`, local arrays and objects are values. A vector is read from memory as its bytes: the
hardware does not require alignment for the instructions used on messages; those which do require it are only used on
the member `buffer_` and on a local table, which the compiler aligns.
-/

namespace T1ha.Model

open X86

/-! ## Memory -/

/-- `n` bytes at `from + at` -/
def getBytes (cfg : Cfg) (strict : Bool) (from' : Bytes) : Nat → Nat → M (List Byte)
  | _, 0 => pure []
  | at', n + 1 => do
    let b ← from'.get cfg strict at'
    let l ← getBytes cfg strict from' (at' + 1) n
    pure (b :: l)

/-- `_mm_loadu_si128(from + at)` (and `_mm_load_si128`) -/
def loadVec (cfg : Cfg) (strict : Bool) (from' : Bytes) (at' : Nat) : M U128 := do
  let l ← getBytes cfg strict from' at' 16
  pure (ofList l)

/-- `_mm_loadl_epi64(from + at)` -/
def loadl (cfg : Cfg) (strict : Bool) (from' : Bytes) (at' : Nat) : M U128 := do
  let l ← getBytes cfg strict from' at' 8
  pure (cvtsi64 (BitVec.ofNat 64 (leVal l)))

/-- A `uint32_t` at `from + at`, not necessarily aligned -/
def load32 (cfg : Cfg) (strict : Bool) (from' : Bytes) (at' : Nat) : M U32 := do
  let l ← getBytes cfg strict from' at' 4
  pure (BitVec.ofNat 32 (leVal l))

/-- A lane of `_mm_maskload_epi32` (VPMASKMOVD): memory is only accessed if the highest bit of the lane of the mask is
set; otherwise the lane is 0. -/
def maskLane (cfg : Cfg) (strict : Bool) (from' : Bytes) (at' : Nat) (mask : U32) : M U32 :=
  if mask.msb then load32 cfg strict from' at' else pure 0

/-- `_mm_maskload_epi32(from + at, mask)` -/
def maskload (cfg : Cfg) (strict : Bool) (from' : Bytes) (at' : Nat) (mask : U128) : M U128 := do
  let x0 ← maskLane cfg strict from' at' (lane32 mask 0)
  let x1 ← maskLane cfg strict from' (at' + 4) (lane32 mask 1)
  let x2 ← maskLane cfg strict from' (at' + 8) (lane32 mask 2)
  let x3 ← maskLane cfg strict from' (at' + 12) (lane32 mask 3)
  pure (set32 x3 x2 x1 x0)

/-- `_mm_store_si128(buffer + at, v)` for a local array -/
def storeVec (buffer : List Byte) (at' : Nat) (v : U128) : M (List Byte) :=
  if at' + 16 ≤ buffer.length then pure (buffer.take at' ++ toList v ++ buffer.drop (at' + 16)) else fail .fault

namespace HighwaySse41

/-- `HHStateSSE41` (tests/highwayhash/hh_sse41.h:313-320) -/
structure State where
  v0L : U128
  v0H : U128
  v1L : U128
  v1H : U128
  mul0L : U128
  mul0H : U128
  mul1L : U128
  mul1H : U128

/-- `Rotate64By32` (tests/highwayhash/hh_sse41.h:188-190) -/
def Rotate64By32 (v : U128) : U128 := shuffle32 v 0xB1

/-- `Reset` (tests/highwayhash/hh_sse41.h:45-61) -/
def Reset (key : Quad) : State :=
  let init0L := set64x 0xa4093822299f31d0 0xdbe6d5d5fe4cce2f
  let init0H := set64x 0x243f6a8885a308d3 0x13198a2e03707344
  let init1L := set64x 0xc0acf169b5f18a8c 0x3bd39e10cb0ef593
  let init1H := set64x 0x452821e638d01377 0xbe5466cf34e90c6c
  let keyL := set64x key.x1 key.x0
  let keyH := set64x key.x3 key.x2
  { v0L := xor keyL init0L
    v0H := xor keyH init0H
    v1L := xor (Rotate64By32 keyL) init1L
    v1H := xor (Rotate64By32 keyH) init1H
    mul0L := init0L
    mul0H := init0H
    mul1L := init1L
    mul1H := init1H }

/-- `Rotate32By` (tests/highwayhash/hh_sse41.h:193-206), for one of the two vectors. The counts are of type
`uint64_t`. -/
def Rotate32By (v : U128) (count : U64) : U128 :=
  let count_left := cvtsi64 count
  let count_right := cvtsi64 (32 - count)
  or (sll32 v count_left) (srl32 v count_right)

/-- `ZipperMerge` (tests/highwayhash/hh_sse41.h:208-221) -/
def ZipperMerge (v : U128) : U128 := shuffle8 v (set64x 0x070806090D0A040B 0x000F010E05020C03)

/-- `Update(const V2x64U &, const V2x64U &)` (tests/highwayhash/hh_sse41.h:223-238) -/
def UpdateLanes (packetH packetL : U128) (s : State) : State :=
  let v1L := add64 s.v1L packetL
  let v1H := add64 s.v1H packetH
  let v1L := add64 v1L s.mul0L
  let v1H := add64 v1H s.mul0H
  let mul0L := xor s.mul0L (mulEpu32 v1L (Rotate64By32 s.v0L))
  let mul0H := xor s.mul0H (mulEpu32 v1H (srli64 s.v0H 32))
  let v0L := add64 s.v0L s.mul1L
  let v0H := add64 s.v0H s.mul1H
  let mul1L := xor s.mul1L (mulEpu32 v0L (Rotate64By32 v1L))
  let mul1H := xor s.mul1H (mulEpu32 v0H (srli64 v1H 32))
  let v0L := add64 v0L (ZipperMerge v1L)
  let v0H := add64 v0H (ZipperMerge v1H)
  let v1L := add64 v1L (ZipperMerge v0L)
  let v1H := add64 v1H (ZipperMerge v0H)
  ⟨v0L, v0H, v1L, v1H, mul0L, mul0H, mul1L, mul1H⟩

/-- `Update(const HHPacket &)` (tests/highwayhash/hh_sse41.h:63-69) -/
def Update (cfg : Cfg) (strict : Bool) (packet : Bytes) (s : State) : M State := do
  let packetL ← loadVec cfg strict packet 0
  let packetH ← loadVec cfg strict packet 16
  pure (UpdateLanes packetH packetL s)

/-- `LoadMultipleOfFour(bytes + at, size)` (tests/highwayhash/hh_sse41.h:248-270). The code reads a `uint32_t` which
need not be aligned; x86 allows that. -/
def LoadMultipleOfFour (cfg : Cfg) (strict : Bool) (bytes : Bytes) (at' size : Nat) : M U128 := do
  let mask4 := cvtsi64 0xFFFFFFFF
  let (ret, mask4, words) ← (if size &&& 8 ≠ 0 then do
      let ret ← loadl cfg strict bytes at'
      pure (ret, slliSi128 mask4 8, at' + 8)
    else pure (0, mask4, at') : M (U128 × U128 × Nat))
  if size &&& 4 ≠ 0 then do
    let word ← load32 cfg strict bytes words
    let word2 := cvtsi32 word
    let broadcast := shuffle32 word2 0
    pure (or ret (and broadcast mask4))
  else pure ret

/-- `UpdateRemainder` (tests/highwayhash/hh_sse41.h:71-108) -/
def UpdateRemainder (cfg : Cfg) (strict : Bool) (bytes : Bytes) (size_mod32 : Nat) (s : State) : M State := do
  let vsize_mod32 := set1_32 (BitVec.ofNat 32 size_mod32)
  let s := { s with
    v0L := add64 s.v0L vsize_mod32
    v0H := add64 s.v0H vsize_mod32
    v1L := Rotate32By s.v1L (BitVec.ofNat 64 size_mod32)
    v1H := Rotate32By s.v1H (BitVec.ofNat 64 size_mod32) }
  let size_mod4 := size_mod32 &&& 3
  let remainder := size_mod32 &&& (2 ^ cfg.bits - 4)
  bytes.pointer cfg remainder
  if size_mod32 &&& 16 ≠ 0 then do
    let packetL ← loadVec cfg strict bytes 0
    bytes.pointer cfg 16
    let packetH ← LoadMultipleOfFour cfg strict bytes 16 size_mod32
    let last4 ← HighwayPortable.load3ReadBefore cfg strict bytes remainder size_mod4
    pure (UpdateLanes (insert32_3 packetH last4) packetL s)
  else do
    let packetL ← LoadMultipleOfFour cfg strict bytes 0 size_mod32
    let last4 ← HighwayPortable.load3Unordered cfg strict bytes remainder size_mod4
    pure (UpdateLanes (cvtsi64 last4) packetL s)

/-- `PermuteAndUpdate` (tests/highwayhash/hh_sse41.h:240-244) -/
def PermuteAndUpdate (s : State) : State := UpdateLanes (Rotate64By32 s.v0L) (Rotate64By32 s.v0H) s

/-- `for (int n = 0; n < count; n++) PermuteAndUpdate();` -/
def rounds : Nat → State → State
  | 0, s => s
  | n + 1, s => rounds n (PermuteAndUpdate s)

/-- `XorByShift128Left12` (tests/highwayhash/hh_sse41.h:276-301): the new `*out` -/
def XorByShift128Left12 (x out : U128) : U128 :=
  let sign_bit128 := insert32_3 0 0x80000000
  let top_bits2 := srli64 x (64 - 2)
  let shifted1_unmasked := add64 x x
  let top_bits1 := srli64 x (64 - 1)
  let shifted2 := add64 shifted1_unmasked shifted1_unmasked
  let new_low_bits2 := slliSi128 top_bits2 8
  let out := xor out shifted2
  let shifted1 := andnot sign_bit128 shifted1_unmasked
  let new_low_bits1 := slliSi128 top_bits1 8
  let out := xor out new_low_bits2
  let out := xor out shifted1
  xor out new_low_bits1

/-- `ModularReduction` (tests/highwayhash/hh_sse41.h:305-311) -/
def ModularReduction (a32_unmasked a10 : U128) : U128 := XorByShift128Left12 a32_unmasked a10

/-- `Finalize(HHResult64 *)` (tests/highwayhash/hh_sse41.h:110-120) -/
def Finalize64 (s : State) : U64 :=
  let s := rounds 4 s
  lane0 (add64 (add64 s.v0L s.mul0L) (add64 s.v1L s.mul1L))

/-- `Finalize(HHResult128 *)` (tests/highwayhash/hh_sse41.h:122-131) -/
def Finalize128 (s : State) : U64 × U64 :=
  let s := rounds 6 s
  let hash := add64 (add64 s.v0L s.mul0L) (add64 s.v1H s.mul1H)
  (lane0 hash, lane1 hash)

/-- `Finalize(HHResult256 *)` (tests/highwayhash/hh_sse41.h:133-146) -/
def Finalize256 (s : State) : Quad :=
  let s := rounds 10 s
  let hashL := ModularReduction (add64 s.v1L s.mul1L) (add64 s.v0L s.mul0L)
  let hashH := ModularReduction (add64 s.v1H s.mul1H) (add64 s.v0H s.mul0H)
  ⟨lane0 hashL, lane1 hashL, lane0 hashH, lane1 hashH⟩

/-- `CopyPartial` (tests/highwayhash/hh_sse41.h:155-161) -/
def CopyPartial (cfg : Cfg) (strict : Bool) (from' size_mod32 : Nat) (buffer : List Byte) : M (List Byte) :=
  copyBytes cfg strict (.memory from') 0 size_mod32 0 buffer

/-- `AppendPartial` (tests/highwayhash/hh_sse41.h:163-170) -/
def AppendPartial (cfg : Cfg) (strict : Bool) (from' size_mod32 : Nat) (buffer : List Byte) (buffer_valid : Nat) :
    M (List Byte) :=
  copyBytes cfg strict (.memory from') buffer_valid size_mod32 0 buffer

/-- `AppendAndUpdate` (tests/highwayhash/hh_sse41.h:172-184). The bytes of `tmp` before the copies do not matter. -/
def AppendAndUpdate (cfg : Cfg) (strict : Bool) (from' size_mod32 : Nat) (buffer : List Byte) (buffer_valid : Nat)
    (s : State) : M State := do
  let tmp ← copyBytes cfg strict (.array buffer) 0 buffer_valid 0 (List.replicate 32 0#8)
  let tmp ← copyBytes cfg strict (.memory from') buffer_valid size_mod32 0 tmp
  Update cfg strict (.array tmp) s

end HighwaySse41

namespace HighwayAvx2

/-- `HHStateAVX2` (tests/highwayhash/hh_avx2.h:372-375) -/
structure State where
  v0 : U256
  v1 : U256
  mul0 : U256
  mul1 : U256

/-- `Rotate64By32` (tests/highwayhash/hh_avx2.h:265-267) -/
def Rotate64By32 (v : U256) : U256 := v.map (shuffle32 · 0xB1)

/-- `Reset` (tests/highwayhash/hh_avx2.h:44-68) -/
def Reset (key_lanes : Quad) : State :=
  let init0 := set256 0x243f6a8885a308d3 0x13198a2e03707344 0xa4093822299f31d0 0xdbe6d5d5fe4cce2f
  let init1 := set256 0x452821e638d01377 0xbe5466cf34e90c6c 0xc0acf169b5f18a8c 0x3bd39e10cb0ef593
  let key := set256 key_lanes.x3 key_lanes.x2 key_lanes.x1 key_lanes.x0
  { v0 := key.zip xor init0, v1 := (Rotate64By32 key).zip xor init1, mul0 := init0, mul1 := init1 }

/-- `Rotate32By` (tests/highwayhash/hh_avx2.h:270-276) -/
def Rotate32By (v count : U256) : U256 :=
  let shifted_left := v.zip sllv32 count
  let thirty_two : U256 := ⟨set1_32 32, set1_32 32⟩
  let shifted_right := v.zip srlv32 (thirty_two.zip sub32 count)
  shifted_left.zip or shifted_right

/-- `Permute` (tests/highwayhash/hh_avx2.h:278-285) -/
def Permute (v : U256) : U256 :=
  permutevar8x32 v (set256 0x0000000200000003 0x0000000000000001 0x0000000600000007 0x0000000400000005)

/-- `ZipperMerge` (tests/highwayhash/hh_avx2.h:291-305) -/
def ZipperMerge (v : U256) : U256 :=
  v.zip shuffle8 (set256 0x070806090D0A040B 0x000F010E05020C03 0x070806090D0A040B 0x000F010E05020C03)

/-- `Update(const V4x64U &)` (tests/highwayhash/hh_avx2.h:308-318), with `MulLow32` (287-289) -/
def UpdateLanes (packet : U256) (s : State) : State :=
  let v1 := s.v1.zip add64 packet
  let v1 := v1.zip add64 s.mul0
  let mul0 := s.mul0.zip xor (v1.zip mulEpu32 (s.v0.map (srli64 · 32)))
  let v0 := s.v0.zip add64 s.mul1
  let mul1 := s.mul1.zip xor (v0.zip mulEpu32 (v1.map (srli64 · 32)))
  let v0 := v0.zip add64 (ZipperMerge v1)
  let v1 := v1.zip add64 (ZipperMerge v0)
  ⟨v0, v1, mul0, mul1⟩

/-- `Update(const V4x32U &, const V4x32U &)` (tests/highwayhash/hh_avx2.h:320-323) -/
def UpdateHalves (packetH packetL : U128) (s : State) : State := UpdateLanes ⟨packetL, packetH⟩ s

/-- `Update(const HHPacket &)` (tests/highwayhash/hh_avx2.h:70-74); the 32 bytes are read as two times 16. -/
def Update (cfg : Cfg) (strict : Bool) (packet : Bytes) (s : State) : M State := do
  let lo ← loadVec cfg strict packet 0
  let hi ← loadVec cfg strict packet 16
  pure (UpdateLanes ⟨lo, hi⟩ s)

/-- `IntMask<0>` (tests/highwayhash/hh_buffer.h:40-48) and `IntMask<16>` (50-56) -/
def IntMask (kSizeOffset : Nat) (size : U128) : U128 :=
  if kSizeOffset = 0 then cmpgt32 size (set32 15 11 7 3) else cmpgt32 size (set32 31 27 23 19)

/-- `Insert4AboveMask` (tests/highwayhash/hh_buffer.h:60-68) -/
def Insert4AboveMask (bytes4 : U32) (mask prev : U128) : U128 := or prev (andnot mask (set1_32 bytes4))

/-- The rows of `table` in `Concatenate` (tests/highwayhash/hh_buffer.h:74-90): the low number, the high one -/
def concatenateTable : List (U64 × U64) :=
  [(0x0706050403020100, 0x0F0E0D0C0B0A0908), (0x06050403020100FF, 0x0E0D0C0B0A090807),
   (0x050403020100FFFF, 0x0D0C0B0A09080706), (0x0403020100FFFFFF, 0x0C0B0A0908070605),
   (0x03020100FFFFFFFF, 0x0B0A090807060504), (0x020100FFFFFFFFFF, 0x0A09080706050403),
   (0x0100FFFFFFFFFFFF, 0x0908070605040302), (0x00FFFFFFFFFFFFFF, 0x0807060504030201),
   (0xFFFFFFFFFFFFFFFF, 0x0706050403020100), (0xFFFFFFFFFFFFFFFF, 0x06050403020100FF),
   (0xFFFFFFFFFFFFFFFF, 0x050403020100FFFF), (0xFFFFFFFFFFFFFFFF, 0x0403020100FFFFFF),
   (0xFFFFFFFFFFFFFFFF, 0x03020100FFFFFFFF), (0xFFFFFFFFFFFFFFFF, 0x020100FFFFFFFFFF),
   (0xFFFFFFFFFFFFFFFF, 0x0100FFFFFFFFFFFF), (0xFFFFFFFFFFFFFFFF, 0x00FFFFFFFFFFFFFF)]

/-- `Concatenate` (tests/highwayhash/hh_buffer.h:72-94). Reading a row which does not exist is `Err.fault`. -/
def Concatenate (pre : U128) (prefix_len : Nat) (suffix : U128) : M U128 :=
  match concatenateTable[prefix_len]? with
  | none => fail .fault
  | some row =>
    let control := set64x row.2 row.1
    let shifted_suffix := shuffle8 suffix control
    pure (blendv8 shifted_suffix pre control)

/-- `Load3()(Load3::AllowReadBefore(), from + at, size_mod4)` (tests/highwayhash/load3.h:67-74) -/
def load3Before (cfg : Cfg) (strict : Bool) (from' : Bytes) (at' size_mod4 : Nat) : M U64 := do
  let last3 ← HighwayPortable.load3ReadBefore cfg strict from' at' size_mod4
  pure (last3.setWidth 64 >>> (32 - size_mod4 * 8))

/-- `Load3()(Load3::AllowNone(), from + at, size_mod4)` (tests/highwayhash/load3.h:103-119) -/
def load3None (cfg : Cfg) (strict : Bool) (from' : Bytes) (at' size_mod4 : Nat) : M U64 := do
  let last3 : U64 := 0
  let last3 ← (if 1 ≤ size_mod4 then do
      let b ← from'.get cfg strict (at' + 0)
      pure (last3 + b.setWidth 64)
    else pure last3)
  let last3 ← (if 2 ≤ size_mod4 then do
      let b ← from'.get cfg strict (at' + 1)
      pure (last3 + b.setWidth 64 <<< 8)
    else pure last3)
  if size_mod4 = 3 then do
    let b ← from'.get cfg strict (at' + 2)
    pure (last3 + b.setWidth 64 <<< 16)
  else pure last3

/-- `Load0To16<>(from + at, size_mod32, size)` (tests/highwayhash/hh_avx2.h:255-263); `size` is `V4x32U(size_mod32)`
wherever this is called. -/
def Load0To16 (cfg : Cfg) (strict : Bool) (from' : Bytes) (at' size_mod32 : Nat) : M U128 := do
  let size := set1_32 (BitVec.ofNat 32 size_mod32)
  let remainder := at' + (size_mod32 &&& (2 ^ cfg.bits - 4))
  from'.pointer cfg remainder
  let last3 ← load3None cfg strict from' remainder (size_mod32 &&& 3)
  let int_mask := IntMask 0 size
  let int_lanes ← maskload cfg strict from' at' int_mask
  pure (Insert4AboveMask (last3.setWidth 32) int_mask int_lanes)

/-- `Load0To16<16, Load3::AllowReadBefore>(from + 16, size_mod32 - 16, size)` with `size` = `V4x32U(size_mod32)`
(tests/highwayhash/hh_avx2.h:255-263, called in 172-173) -/
def Load0To16After16 (cfg : Cfg) (strict : Bool) (from' : Bytes) (size_mod32 : Nat) : M U128 := do
  let size := set1_32 (BitVec.ofNat 32 size_mod32)
  let remainder := 16 + ((size_mod32 - 16) &&& (2 ^ cfg.bits - 4))
  from'.pointer cfg 16
  from'.pointer cfg remainder
  let last3 ← load3Before cfg strict from' remainder ((size_mod32 - 16) &&& 3)
  let int_mask := IntMask 16 size
  let int_lanes ← maskload cfg strict from' 16 int_mask
  pure (Insert4AboveMask (last3.setWidth 32) int_mask int_lanes)

/-- `UpdateRemainder` (tests/highwayhash/hh_avx2.h:76-116) -/
def UpdateRemainder (cfg : Cfg) (strict : Bool) (bytes : Bytes) (size_mod32 : Nat) (s : State) : M State := do
  let size256 := broadcastd (cvtsi64 (BitVec.ofNat 64 size_mod32))
  let s := { s with v0 := s.v0.zip add64 size256, v1 := Rotate32By s.v1 size256 }
  let remainder := size_mod32 &&& (2 ^ cfg.bits - 4)
  bytes.pointer cfg remainder
  let size_mod4 := size_mod32 &&& 3
  let size := size256.lo
  if size_mod32 &&& 16 ≠ 0 then do
    let packetL ← loadVec cfg strict bytes 0
    let int_mask := IntMask 16 size
    bytes.pointer cfg 16
    let int_lanes ← maskload cfg strict bytes 16 int_mask
    let last4 ← HighwayPortable.load3ReadBefore cfg strict bytes remainder size_mod4
    pure (UpdateHalves (insert32_3 int_lanes last4) packetL s)
  else do
    let int_mask := IntMask 0 size
    let packetL ← maskload cfg strict bytes 0 int_mask
    let last3 ← HighwayPortable.load3Unordered cfg strict bytes remainder size_mod4
    pure (UpdateHalves (cvtsi64 last3) packetL s)

/-- `for (int n = 0; n < count; n++) Update(Permute(v0));` -/
def rounds : Nat → State → State
  | 0, s => s
  | n + 1, s => rounds n (UpdateLanes (Permute s.v0) s)

/-- `XorByShift128Left12` (tests/highwayhash/hh_avx2.h:329-359): the new `*out` -/
def XorByShift128Left12 (ba out : U256) : U256 :=
  let zero := ba.zip xor ba
  let top_bits2 := ba.map (srli64 · (64 - 2))
  let ones := ba.zip cmpeq64 ba
  let shifted1_unmasked := ba.zip add64 ba
  let top_bits1 := ba.map (srli64 · (64 - 1))
  let upper_8bytes := ones.map (slliSi128 · 8)
  let shifted2 := shifted1_unmasked.zip add64 shifted1_unmasked
  let upper_bit_of_128 := upper_8bytes.map (slli64 · 63)
  let new_low_bits2 := zero.zip unpacklo64 top_bits2
  let out := out.zip xor shifted2
  let shifted1 := upper_bit_of_128.zip andnot shifted1_unmasked
  let out := out.zip xor new_low_bits2
  let new_low_bits1 := zero.zip unpacklo64 top_bits1
  let out := out.zip xor shifted1
  out.zip xor new_low_bits1

/-- `ModularReduction` (tests/highwayhash/hh_avx2.h:364-370) -/
def ModularReduction (b32a32 b10a10 : U256) : U256 := XorByShift128Left12 b32a32 b10a10

/-- `Finalize(HHResult64 *)` (tests/highwayhash/hh_avx2.h:118-131), with the four calls as a loop -/
def Finalize64 (s : State) : U64 :=
  let s := rounds 4 s
  let sum0 := (s.v0.zip add64 s.mul0).lo
  let sum1 := (s.v1.zip add64 s.mul1).lo
  lane0 (add64 sum0 sum1)

/-- `Finalize(HHResult128 *)` (tests/highwayhash/hh_avx2.h:133-142) -/
def Finalize128 (s : State) : U64 × U64 :=
  let s := rounds 6 s
  let sum0 := (s.v0.zip add64 s.mul0).lo
  let sum1 := (s.v1.zip add64 s.mul1).hi
  let hash := add64 sum0 sum1
  (lane0 hash, lane1 hash)

/-- `Finalize(HHResult256 *)` (tests/highwayhash/hh_avx2.h:144-153) -/
def Finalize256 (s : State) : Quad :=
  let s := rounds 10 s
  let hash := ModularReduction (s.v1.zip add64 s.mul1) (s.v0.zip add64 s.mul0)
  ⟨lane0 hash.lo, lane1 hash.lo, lane0 hash.hi, lane1 hash.hi⟩

/-- `CopyPartial` (tests/highwayhash/hh_avx2.h:162-181) -/
def CopyPartial (cfg : Cfg) (strict : Bool) (from' size_mod32 : Nat) (buffer : List Byte) : M (List Byte) :=
  if size_mod32 &&& 16 ≠ 0 then do
    let inL ← loadVec cfg strict (.memory from') 0
    let buffer ← storeVec buffer 0 inL
    let inH ← Load0To16After16 cfg strict (.memory from') size_mod32
    storeVec buffer 16 inH
  else do
    let inL ← Load0To16 cfg strict (.memory from') 0 size_mod32
    storeVec buffer 0 inL

/-- `AppendPartial` (tests/highwayhash/hh_avx2.h:184-211) -/
def AppendPartial (cfg : Cfg) (strict : Bool) (from' size_mod32 : Nat) (buffer : List Byte) (buffer_valid : Nat) :
    M (List Byte) :=
  if buffer_valid &&& 16 ≠ 0 then do
    let suffix ← Load0To16 cfg strict (.memory from') 0 size_mod32
    let bufferH ← loadVec cfg strict (.array buffer) 16
    let outH ← Concatenate bufferH (buffer_valid - 16) suffix
    storeVec buffer 16 outH
  else do
    let bufferL ← loadVec cfg strict (.array buffer) 0
    let suffixL ← Load0To16 cfg strict (.memory from') 0 size_mod32
    let outL ← Concatenate bufferL buffer_valid suffixL
    let buffer ← storeVec buffer 0 outL
    let offsetH := szSub cfg 16 buffer_valid
    if size_mod32 > offsetH then do
      let sizeH := size_mod32 - offsetH
      Bytes.pointer cfg (.memory from') offsetH
      let outH ← Load0To16 cfg strict (.memory from') offsetH sizeH
      storeVec buffer 16 outH
    else pure buffer

/-- `AppendAndUpdate` (tests/highwayhash/hh_avx2.h:214-241) -/
def AppendAndUpdate (cfg : Cfg) (strict : Bool) (from' size_mod32 : Nat) (buffer : List Byte) (buffer_valid : Nat)
    (s : State) : M State :=
  if buffer_valid &&& 16 ≠ 0 then do
    let suffix ← Load0To16 cfg strict (.memory from') 0 size_mod32
    let packetL ← loadVec cfg strict (.array buffer) 0
    let bufferH ← loadVec cfg strict (.array buffer) 16
    let packetH ← Concatenate bufferH (buffer_valid - 16) suffix
    pure (UpdateHalves packetH packetL s)
  else do
    let bufferL ← loadVec cfg strict (.array buffer) 0
    let suffixL ← Load0To16 cfg strict (.memory from') 0 size_mod32
    let packetL ← Concatenate bufferL buffer_valid suffixL
    let offsetH := szSub cfg 16 buffer_valid
    let packetH := sub32 packetL packetL
    let packetH ← (if size_mod32 > offsetH then do
        let sizeH := size_mod32 - offsetH
        Bytes.pointer cfg (.memory from') offsetH
        Load0To16 cfg strict (.memory from') offsetH sizeH
      else pure packetH : M U128)
    pure (UpdateHalves packetH packetL s)

end HighwayAvx2

/-! ## The templates -/

/-- What the templates use of a class for the state (`HHStateSSE41`, `HHStateAVX2`). -/
structure HHState (σ : Type) where
  Reset : Quad → σ
  Update : Cfg → Bool → Bytes → σ → M σ
  UpdateRemainder : Cfg → Bool → Bytes → Nat → σ → M σ
  CopyPartial : Cfg → Bool → Nat → Nat → List Byte → M (List Byte)
  AppendPartial : Cfg → Bool → Nat → Nat → List Byte → Nat → M (List Byte)
  AppendAndUpdate : Cfg → Bool → Nat → Nat → List Byte → Nat → σ → M σ
  Finalize64 : σ → U64
  Finalize128 : σ → U64 × U64
  Finalize256 : σ → Quad

/-- `HHStateSSE41` (tests/highwayhash/hh_sse41.h:41-321) -/
def sse41 : HHState HighwaySse41.State where
  Reset := HighwaySse41.Reset
  Update := HighwaySse41.Update
  UpdateRemainder := HighwaySse41.UpdateRemainder
  CopyPartial := HighwaySse41.CopyPartial
  AppendPartial := HighwaySse41.AppendPartial
  AppendAndUpdate := HighwaySse41.AppendAndUpdate
  Finalize64 := HighwaySse41.Finalize64
  Finalize128 := HighwaySse41.Finalize128
  Finalize256 := HighwaySse41.Finalize256

/-- `HHStateAVX2` (tests/highwayhash/hh_avx2.h:40-376) -/
def avx2 : HHState HighwayAvx2.State where
  Reset := HighwayAvx2.Reset
  Update := HighwayAvx2.Update
  UpdateRemainder := HighwayAvx2.UpdateRemainder
  CopyPartial := HighwayAvx2.CopyPartial
  AppendPartial := HighwayAvx2.AppendPartial
  AppendAndUpdate := HighwayAvx2.AppendAndUpdate
  Finalize64 := HighwayAvx2.Finalize64
  Finalize128 := HighwayAvx2.Finalize128
  Finalize256 := HighwayAvx2.Finalize256

namespace HighwaySimd

variable {σ : Type}

/-- The loop of `HighwayHashT` (tests/highwayhash/highwayhash.h:101-103) -/
def hashLoop (T : HHState σ) (cfg : Cfg) (strict : Bool) (bytes truncated : Nat) : Nat → Nat → σ → M σ
  | 0, _, _ => fail .diverge
  | fuel + 1, offset, s =>
    if offset < truncated then do
      iterate
      let p ← ptrAdd cfg bytes offset
      let s ← T.Update cfg strict (.memory p) s
      hashLoop T cfg strict bytes truncated fuel (szAdd cfg offset 32) s
    else pure s

/-- `HighwayHashT` before `Finalize` (tests/highwayhash/highwayhash.h:94-107) -/
def HighwayHashT (T : HHState σ) (cfg : Cfg) (strict : Bool) (s : σ) (bytes size : Nat) : M σ := do
  let remainder := size &&& (32 - 1)
  let truncated := size &&& (2 ^ cfg.bits - 1 - (32 - 1))
  let s ← hashLoop T cfg strict bytes truncated (size + 1) 0 s
  if remainder ≠ 0 then do
    let p ← ptrAdd cfg bytes truncated
    T.UpdateRemainder cfg strict (.memory p) remainder s
  else pure s

/-- `HighwayHash64_SSE41` and `HighwayHash64_AVX2` (tests/highwayhash/highwayhash_target.cc:26-33), and `operator()` for
64 bits (47-54) -/
def HighwayHash64 (T : HHState σ) (cfg : Cfg) (strict : Bool) (key : Quad) (bytes size : Nat) : M U64 := do
  let s ← HighwayHashT T cfg strict (T.Reset key) bytes size
  pure (T.Finalize64 s)

/-- `operator()` for 128 bits (tests/highwayhash/highwayhash_target.cc:56-63); `hash` is returned. -/
def HighwayHash128 (T : HHState σ) (cfg : Cfg) (strict : Bool) (key : Quad) (bytes size : Nat) : M (U64 × U64) := do
  let s ← HighwayHashT T cfg strict (T.Reset key) bytes size
  pure (T.Finalize128 s)

/-- `operator()` for 256 bits (tests/highwayhash/highwayhash_target.cc:65-72); `hash` is returned. -/
def HighwayHash256 (T : HHState σ) (cfg : Cfg) (strict : Bool) (key : Quad) (bytes size : Nat) : M Quad := do
  let s ← HighwayHashT T cfg strict (T.Reset key) bytes size
  pure (T.Finalize256 s)

/-- `thunk_HighwayHash64_SSE41` and `thunk_HighwayHash64_AVX2` (tests/highwayhash/highwayhash_target.cc:35-43) -/
def thunk_HighwayHash64 (T : HHState σ) (cfg : Cfg) (strict : Bool) (input length : Nat) (seed : U64) : M U64 :=
  HighwayHash64 T cfg strict ⟨seed, seed, seed, seed⟩ input length

/-- `HighwayHashCatT` (tests/highwayhash/highwayhash.h:196-199): `buffer_`, `state_`, `buffer_usage_` -/
structure HighwayHashCatT (σ : Type) where
  buffer : List Byte
  state : σ
  usage : Nat

/-- The constructor of `HighwayHashCatT` (tests/highwayhash/highwayhash.h:119-122) with `ZeroInitialize`
(tests/highwayhash/hh_sse41.h:148-153, hh_avx2.h:156-159) -/
def catNew (T : HHState σ) (key : Quad) : HighwayHashCatT σ :=
  { buffer := List.replicate 32 0#8, state := T.Reset key, usage := 0 }

/-- `HighwayHashCatT::Reset` (tests/highwayhash/highwayhash.h:125-128) -/
def catReset (T : HHState σ) (key : Quad) (st : HighwayHashCatT σ) : HighwayHashCatT σ :=
  { st with state := T.Reset key, usage := 0 }

/-- The `while` loop of `Append` (tests/highwayhash/highwayhash.h:162-166): the state, `bytes` and `num_bytes` -/
def catLoop (T : HHState σ) (cfg : Cfg) (strict : Bool) : Nat → Nat → Nat → σ → M (σ × Nat × Nat)
  | 0, _, _, _ => fail .diverge
  | fuel + 1, bytes, num_bytes, s =>
    if 32 ≤ num_bytes then do
      iterate
      let s ← T.Update cfg strict (.memory bytes) s
      let bytes ← ptrAdd cfg bytes 32
      catLoop T cfg strict fuel bytes (num_bytes - 32) s
    else pure (s, bytes, num_bytes)

/-- `HighwayHashCatT::Append` (tests/highwayhash/highwayhash.h:134-179) -/
def catAppend (T : HHState σ) (cfg : Cfg) (strict : Bool) (bytes num_bytes : Nat) (st : HighwayHashCatT σ) :
    M (HighwayHashCatT σ) := do
  let capacity := szSub cfg 32 st.usage
  if num_bytes < capacity then do
    let buffer ← T.AppendPartial cfg strict bytes num_bytes st.buffer st.usage
    pure { st with buffer := buffer, usage := szAdd cfg st.usage num_bytes }
  else do
    let (s, bytes, num_bytes) ← (if st.usage ≠ 0 then do
        let s ← T.AppendAndUpdate cfg strict bytes capacity st.buffer st.usage st.state
        let bytes ← ptrAdd cfg bytes capacity
        pure (s, bytes, num_bytes - capacity)
      else pure (st.state, bytes, num_bytes) : M (σ × Nat × Nat))
    let (s, bytes, num_bytes) ← catLoop T cfg strict (num_bytes + 1) bytes num_bytes s
    let buffer ← (if num_bytes ≠ 0 then T.CopyPartial cfg strict bytes num_bytes st.buffer
      else pure st.buffer)
    pure { buffer := buffer, state := s, usage := num_bytes }

/-- `HighwayHashCatT::Finalize` before `Finalize` of the state (tests/highwayhash/highwayhash.h:184-190) -/
def catCopy (T : HHState σ) (cfg : Cfg) (strict : Bool) (st : HighwayHashCatT σ) : M σ :=
  if st.usage ≠ 0 then T.UpdateRemainder cfg strict (.array st.buffer) st.usage st.state
  else pure st.state

/-- `HighwayHashCatT::Finalize` for 64 bits (tests/highwayhash/highwayhash.h:184-193) -/
def catFinalize64 (T : HHState σ) (cfg : Cfg) (strict : Bool) (st : HighwayHashCatT σ) : M U64 := do
  let copy ← catCopy T cfg strict st
  pure (T.Finalize64 copy)

/-- `HighwayHashCatT::Finalize` for 128 bits (tests/highwayhash/highwayhash.h:184-193) -/
def catFinalize128 (T : HHState σ) (cfg : Cfg) (strict : Bool) (st : HighwayHashCatT σ) : M (U64 × U64) := do
  let copy ← catCopy T cfg strict st
  pure (T.Finalize128 copy)

/-- `HighwayHashCatT::Finalize` for 256 bits (tests/highwayhash/highwayhash.h:184-193) -/
def catFinalize256 (T : HHState σ) (cfg : Cfg) (strict : Bool) (st : HighwayHashCatT σ) : M Quad := do
  let copy ← catCopy T cfg strict st
  pure (T.Finalize256 copy)

end HighwaySimd

end T1ha.Model
