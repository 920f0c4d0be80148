import Verif.Model.HighwaySimd
import Verif.PowerSimd

/-!
# HighwayHash: the VSX implementation

tests/highwayhash/hh_vsx.h, load3.h, with the templates of highwayhash.h (`Verif/Model/HighwaySimd.lean`), for PowerPC
with VSX and the vector instructions of POWER8, compiled by GCC, on both byte orders (`e`). Makefile:176-183 compiles it
on PowerPC.

As in `Verif/Model/HighwaySimd.lean`, local arrays and objects are values, and memory is read as bytes: the instructions
used do not require alignment.
-/

namespace T1ha.Model

open X86 Ppc

namespace HighwayVsx

/-- `HHStateVSX` (tests/highwayhash/hh_vsx.h:321-328) -/
structure State where
  v0L : U128
  v0H : U128
  v1L : U128
  v1H : U128
  mul0L : U128
  mul0H : U128
  mul1L : U128
  mul1H : U128

/-- `LoadUnaligned(from + at)` (tests/highwayhash/hh_vsx.h:65-70): two numbers in the byte order of the machine -/
def LoadUnaligned (e : Endian) (cfg : Cfg) (strict : Bool) (from' : Bytes) (at' : Nat) : M U128 := do
  let l ← getBytes cfg strict from' at' 16
  pure (vec64 (BitVec.ofNat 64 (e.val (l.take 8))) (BitVec.ofNat 64 (e.val (l.drop 8))))

/-- A `uint32_t` at `from + at`, not necessarily aligned -/
def word (e : Endian) (cfg : Cfg) (strict : Bool) (from' : Bytes) (at' : Nat) : M U32 := do
  let l ← getBytes cfg strict from' at' 4
  pure (BitVec.ofNat 32 (e.val l))

/-- `MultiplyVectors` with `vec_mule` (tests/highwayhash/hh_vsx.h:51-61, 78-82) -/
def MultiplyVectors (e : Endian) (vec1 vec2 : U128) : U128 :=
  match e with
  | .little => vmulouw vec1 vec2
  | .big => vmuleuw vec1 vec2

/-- `Rotate64By32` (tests/highwayhash/hh_vsx.h:229-232) -/
def Rotate64By32 (v : U128) : U128 := rl64 v 32

/-- `Reset` (tests/highwayhash/hh_vsx.h:89-105). The key is an array of numbers: its elements are those of the vectors. -/
def Reset (key : Quad) : State :=
  let init0L := vec64 0xdbe6d5d5fe4cce2f 0xa4093822299f31d0
  let init0H := vec64 0x13198a2e03707344 0x243f6a8885a308d3
  let init1L := vec64 0x3bd39e10cb0ef593 0xc0acf169b5f18a8c
  let init1H := vec64 0xbe5466cf34e90c6c 0x452821e638d01377
  let keyL := vec64 key.x0 key.x1
  let keyH := vec64 key.x2 key.x3
  { v0L := keyL ^^^ init0L
    v0H := keyH ^^^ init0H
    v1L := Rotate64By32 keyL ^^^ init1L
    v1H := Rotate64By32 keyH ^^^ init1H
    mul0L := init0L
    mul0H := init0H
    mul1L := init1L
    mul1H := init1H }

/-- `Rotate32By` (tests/highwayhash/hh_vsx.h:235-244), for one of the two vectors -/
def Rotate32By (e : Endian) (v : U128) (count : U64) : U128 :=
  let count_rl : U32 := count.setWidth 32
  rl32 e v (vec32 e fun _ => count_rl)

/-- `ZipperMerge` (tests/highwayhash/hh_vsx.h:246-259). The bytes of the mask are in the order of the machine: the byte
`i` of the result is selected by the byte `i` of the mask, which is at the same place of its number. -/
def ZipperMerge (e : Endian) (v : U128) : U128 :=
  vperm e v (vec64 0x000F010E05020C03 0x070806090D0A040B)

/-- `Update(const PPC_VEC_U64 &, const PPC_VEC_U64 &)` (tests/highwayhash/hh_vsx.h:261-276) -/
def UpdateLanes (e : Endian) (packetH packetL : U128) (s : State) : State :=
  let v1L := add s.v1L (add packetL s.mul0L)
  let v1H := add s.v1H (add packetH s.mul0H)
  let mul0L := s.mul0L ^^^ MultiplyVectors e v1L (Rotate64By32 s.v0L)
  let mul0H := s.mul0H ^^^ MultiplyVectors e v1H (shiftRight s.v0H 32)
  let v0L := add s.v0L s.mul1L
  let v0H := add s.v0H s.mul1H
  let mul1L := s.mul1L ^^^ MultiplyVectors e v0L (Rotate64By32 v1L)
  let mul1H := s.mul1H ^^^ MultiplyVectors e v0H (shiftRight v1H 32)
  let v0L := add v0L (ZipperMerge e v1L)
  let v1L := add v1L (ZipperMerge e v0L)
  let v0H := add v0H (ZipperMerge e v1H)
  let v1H := add v1H (ZipperMerge e v0H)
  ⟨v0L, v0H, v1L, v1H, mul0L, mul0H, mul1L, mul1H⟩

/-- `Update(const HHPacket &)` (tests/highwayhash/hh_vsx.h:107-113) -/
def Update (e : Endian) (cfg : Cfg) (strict : Bool) (packet : Bytes) (s : State) : M State := do
  let packetL ← LoadUnaligned e cfg strict packet 0
  let packetH ← LoadUnaligned e cfg strict packet 16
  pure (UpdateLanes e packetH packetL s)

/-- `LoadMultipleOfFour(bytes + at, size)` (tests/highwayhash/hh_vsx.h:285-301) -/
def LoadMultipleOfFour (e : Endian) (cfg : Cfg) (strict : Bool) (bytes : Bytes) (at' size : Nat) : M U128 := do
  let ret := vec32 e fun _ => 0
  if size &&& 8 ≠ 0 then do
    let w0 ← word e cfg strict bytes at'
    let ret := insert32 e ret 0 w0
    let w1 ← word e cfg strict bytes (at' + 4)
    let ret := insert32 e ret 1 w1
    if size &&& 4 ≠ 0 then do
      let w2 ← word e cfg strict bytes (at' + 8)
      pure (insert32 e ret 2 w2)
    else pure ret
  else if size &&& 4 ≠ 0 then do
    let w0 ← word e cfg strict bytes at'
    pure (insert32 e ret 0 w0)
  else pure ret

/-- `UpdateRemainder` (tests/highwayhash/hh_vsx.h:115-157) -/
def UpdateRemainder (e : Endian) (cfg : Cfg) (strict : Bool) (bytes : Bytes) (size_mod32 : Nat) (s : State) :
    M State := do
  let size_rounded : U32 := BitVec.ofNat 32 size_mod32
  let vsize_mod32 := vec32 e fun _ => size_rounded
  let s := { s with
    v0L := add s.v0L vsize_mod32
    v0H := add s.v0H vsize_mod32
    v1L := Rotate32By e s.v1L (BitVec.ofNat 64 size_mod32)
    v1H := Rotate32By e s.v1H (BitVec.ofNat 64 size_mod32) }
  let size_mod4 := size_mod32 &&& 3
  let remainder := size_mod32 &&& (2 ^ cfg.bits - 4)
  bytes.pointer cfg remainder
  if size_mod32 &&& 16 ≠ 0 then do
    let packetL ← LoadUnaligned e cfg strict bytes 0
    bytes.pointer cfg 16
    let packetH ← LoadMultipleOfFour e cfg strict bytes 16 size_mod32
    let last4 ← HighwayPortable.load3ReadBefore cfg strict bytes remainder size_mod4
    pure (UpdateLanes e (insert32 e packetH 3 last4) packetL s)
  else do
    let packetL ← LoadMultipleOfFour e cfg strict bytes 0 size_mod32
    let last4 ← HighwayPortable.load3Unordered cfg strict bytes remainder size_mod4
    pure (UpdateLanes e (vec64 last4 0) packetL s)

/-- `PermuteAndUpdate` (tests/highwayhash/hh_vsx.h:278-281) -/
def PermuteAndUpdate (e : Endian) (s : State) : State := UpdateLanes e (Rotate64By32 s.v0L) (Rotate64By32 s.v0H) s

/-- `for (int n = 0; n < count; n++) PermuteAndUpdate();` -/
def rounds (e : Endian) : Nat → State → State
  | 0, s => s
  | n + 1, s => rounds e n (PermuteAndUpdate e s)

/-- `ModularReduction` (tests/highwayhash/hh_vsx.h:305-319) -/
def ModularReduction (e : Endian) (a32_unmasked a10 : U128) : U128 :=
  let shifted1 := sll e a32_unmasked 1
  let shifted2 := sll e a32_unmasked 2
  let mask := vec64 0xFFFFFFFFFFFFFFFF 0x7FFFFFFFFFFFFFFF
  let shifted1_masked := shifted1 &&& mask
  a10 ^^^ (shifted1_masked ^^^ shifted2)

/-- `Finalize(HHResult64 *)` (tests/highwayhash/hh_vsx.h:159-166) -/
def Finalize64 (e : Endian) (s : State) : U64 :=
  let s := rounds e 4 s
  lane0 (add (add (add s.v0L s.v1L) s.mul0L) s.mul1L)

/-- `Finalize(HHResult128 *)` (tests/highwayhash/hh_vsx.h:168-174) -/
def Finalize128 (e : Endian) (s : State) : U64 × U64 :=
  let s := rounds e 6 s
  let hash := add (add (add s.v0L s.mul0L) s.v1H) s.mul1H
  (lane0 hash, lane1 hash)

/-- `Finalize(HHResult256 *)` (tests/highwayhash/hh_vsx.h:176-188) -/
def Finalize256 (e : Endian) (s : State) : Quad :=
  let s := rounds e 10 s
  let hashL := ModularReduction e (add s.v1L s.mul1L) (add s.v0L s.mul0L)
  let hashH := ModularReduction e (add s.v1H s.mul1H) (add s.v0H s.mul0H)
  ⟨lane0 hashL, lane1 hashL, lane0 hashH, lane1 hashH⟩

/-- `CopyPartial` (tests/highwayhash/hh_vsx.h:196-202) -/
def CopyPartial (cfg : Cfg) (strict : Bool) (from' size_mod32 : Nat) (buffer : List Byte) : M (List Byte) :=
  copyBytes cfg strict (.memory from') 0 size_mod32 0 buffer

/-- `AppendPartial` (tests/highwayhash/hh_vsx.h:204-211) -/
def AppendPartial (cfg : Cfg) (strict : Bool) (from' size_mod32 : Nat) (buffer : List Byte) (buffer_valid : Nat) :
    M (List Byte) :=
  copyBytes cfg strict (.memory from') buffer_valid size_mod32 0 buffer

/-- `AppendAndUpdate` (tests/highwayhash/hh_vsx.h:213-225). The bytes of `tmp` before the copies do not matter. -/
def AppendAndUpdate (e : Endian) (cfg : Cfg) (strict : Bool) (from' size_mod32 : Nat) (buffer : List Byte)
    (buffer_valid : Nat) (s : State) : M State := do
  let tmp ← copyBytes cfg strict (.array buffer) 0 buffer_valid 0 (List.replicate 32 0#8)
  let tmp ← copyBytes cfg strict (.memory from') buffer_valid size_mod32 0 tmp
  Update e cfg strict (.array tmp) s

end HighwayVsx

/-- `HHStateVSX` (tests/highwayhash/hh_vsx.h:85-329), on a machine of the byte order `e` -/
def vsx (e : Endian) : HHState HighwayVsx.State where
  Reset := HighwayVsx.Reset
  Update := HighwayVsx.Update e
  UpdateRemainder := HighwayVsx.UpdateRemainder e
  CopyPartial := HighwayVsx.CopyPartial
  AppendPartial := HighwayVsx.AppendPartial
  AppendAndUpdate := HighwayVsx.AppendAndUpdate e
  Finalize64 := HighwayVsx.Finalize64 e
  Finalize128 := HighwayVsx.Finalize128 e
  Finalize256 := HighwayVsx.Finalize256 e

end T1ha.Model
