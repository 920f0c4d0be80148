import Verif.Model.Bits
import Verif.SpecOthers

/-!
# HighwayHash: the C implementation and the portable C++ implementation

tests/highwayhash/pure_c.c, hh_portable.h, load3.h, highwayhash.h, highwayhash_target.cc, verifier.c.
The type of the state (`Spec.Highway`: four arrays of four numbers) is that of the specification.

Messages are read from memory. Local arrays and the members of the structures for incremental hashing are
values: reading or writing outside of them is `Err.fault`. The structures are passed by value instead of by
pointer, hence a message which overlaps the structure it is appended to is not modelled.
-/

namespace T1ha.Model

/-! ## Bytes -/

/-- What a `const uint8_t *` or `const char *` points to: bytes in memory, or a local array. -/
inductive Bytes
  | memory (p : Nat)
  | array (l : List Byte)

/-- `l[i]` for a local array -/
def element (l : List Byte) (i : Nat) : M Byte :=
  match l[i]? with
  | some b => pure b
  | none => fail .fault

/-- `l[i] = b` for a local array -/
def setElement (l : List Byte) (i : Nat) (b : Byte) : M (List Byte) :=
  if i < l.length then pure (l.set i b) else fail .fault

/-- `p + n`, whose result is only used to reach bytes at or after it by `Bytes.get` with the offset `n`. -/
def Bytes.pointer (cfg : Cfg) : Bytes → Nat → M Unit
  | .memory p, n => do
    let _ ← ptrAdd cfg p n
    pure ()
  | .array l, n => if n ≤ l.length then pure () else fail .ptrWrap

/-- `p[i]`. An index near the end of the type `size_t` stands for a negative one. C does not define the result
if the addition leaves the address space: `strict` is an implementation which misbehaves (for example code
compiled with `-fsanitize=pointer-overflow`), other implementations wrap around. -/
def Bytes.get (cfg : Cfg) (strict : Bool) : Bytes → Nat → M Byte
  | .memory p, i =>
    if p + i < 2 ^ cfg.bits then byteAt p i
    else if strict then fail .ptrWrap
    else byteAt (p + i - 2 ^ cfg.bits) 0
  | .array l, i =>
    if i < 2 ^ cfg.bits then element l i
    else if strict then fail .ptrWrap
    else element l (i - 2 ^ cfg.bits)

/-- `for (i = 0; i < n; i++) to[at + i] = from[i];` with `todo` iterations left. -/
def copyBytes (cfg : Cfg) (strict : Bool) (from' : Bytes) (at' : Nat) : Nat → Nat → List Byte → M (List Byte)
  | 0, _, to => pure to
  | todo + 1, i, to => do
    iterate
    let b ← from'.get cfg strict i
    let to ← setElement to (at' + i) b
    copyBytes cfg strict from' at' todo (i + 1) to

namespace HighwayC

open Spec (Highway)

/-! ## The C implementation -/

/-- `HighwayHashReset_pure_c` (tests/highwayhash/pure_c.c:14-31) -/
def HighwayHashReset_pure_c (key : Quad) : Highway :=
  let mul0 : Quad := ⟨0xdbe6d5d5fe4cce2f, 0xa4093822299f31d0, 0x13198a2e03707344, 0x243f6a8885a308d3⟩
  let mul1 : Quad := ⟨0x3bd39e10cb0ef593, 0xc0acf169b5f18a8c, 0xbe5466cf34e90c6c, 0x452821e638d01377⟩
  { mul0 := mul0
    mul1 := mul1
    v0 := ⟨mul0.x0 ^^^ key.x0, mul0.x1 ^^^ key.x1, mul0.x2 ^^^ key.x2, mul0.x3 ^^^ key.x3⟩
    v1 := ⟨mul1.x0 ^^^ (key.x0 >>> 32 ||| key.x0 <<< 32), mul1.x1 ^^^ (key.x1 >>> 32 ||| key.x1 <<< 32),
      mul1.x2 ^^^ (key.x2 >>> 32 ||| key.x2 <<< 32), mul1.x3 ^^^ (key.x3 >>> 32 ||| key.x3 <<< 32)⟩ }

/-- `ZipperMergeAndAdd` (tests/highwayhash/pure_c.c:33-43): the new `(*add1, *add0)` -/
def ZipperMergeAndAdd (v1 v0 add1 add0 : U64) : U64 × U64 :=
  (add1 + ((((v1 &&& 0xff000000#64) ||| (v0 &&& 0xff00000000#64)) >>> 24) |||
           (v1 &&& 0xff0000#64) ||| ((v1 &&& 0xff0000000000#64) >>> 16) |||
           ((v1 &&& 0xff00#64) <<< 24) ||| ((v0 &&& 0xff000000000000#64) >>> 8) |||
           ((v1 &&& 0xff#64) <<< 48) ||| (v0 &&& 0xff00000000000000#64)),
   add0 + ((((v0 &&& 0xff000000#64) ||| (v1 &&& 0xff00000000#64)) >>> 24) |||
           (((v0 &&& 0xff0000000000#64) ||| (v1 &&& 0xff000000000000#64)) >>> 16) |||
           (v0 &&& 0xff0000#64) ||| ((v0 &&& 0xff00#64) <<< 32) |||
           ((v1 &&& 0xff00000000000000#64) >>> 8) ||| (v0 <<< 56)))

/-- An iteration of the loop of `Update` (tests/highwayhash/pure_c.c:47-52): `v0[i]`, `v1[i]`, `mul0[i]`,
`mul1[i]` -/
def updateLane (v0 v1 mul0 mul1 lane : U64) : U64 × U64 × U64 × U64 :=
  let v1 := v1 + (mul0 + lane)
  let mul0 := mul0 ^^^ ((v1 &&& 0xffffffff#64) * (v0 >>> 32))
  let v0 := v0 + mul1
  let mul1 := mul1 ^^^ ((v0 &&& 0xffffffff#64) * (v1 >>> 32))
  (v0, v1, mul0, mul1)

/-- The four calls of `ZipperMergeAndAdd` by `Update` (tests/highwayhash/pure_c.c:53-56) -/
def updateZip (s : Highway) : Highway :=
  let a := ZipperMergeAndAdd s.v1.x1 s.v1.x0 s.v0.x1 s.v0.x0
  let b := ZipperMergeAndAdd s.v1.x3 s.v1.x2 s.v0.x3 s.v0.x2
  let c := ZipperMergeAndAdd a.1 a.2 s.v1.x1 s.v1.x0
  let d := ZipperMergeAndAdd b.1 b.2 s.v1.x3 s.v1.x2
  { s with v0 := ⟨a.2, a.1, b.2, b.1⟩, v1 := ⟨c.2, c.1, d.2, d.1⟩ }

/-- `Update` (tests/highwayhash/pure_c.c:45-57), with the loop unrolled -/
def Update (lanes : Quad) (s : Highway) : Highway :=
  let a := updateLane s.v0.x0 s.v1.x0 s.mul0.x0 s.mul1.x0 lanes.x0
  let b := updateLane s.v0.x1 s.v1.x1 s.mul0.x1 s.mul1.x1 lanes.x1
  let c := updateLane s.v0.x2 s.v1.x2 s.mul0.x2 s.mul1.x2 lanes.x2
  let d := updateLane s.v0.x3 s.v1.x3 s.mul0.x3 s.mul1.x3 lanes.x3
  updateZip
    { v0 := ⟨a.1, b.1, c.1, d.1⟩
      v1 := ⟨a.2.1, b.2.1, c.2.1, d.2.1⟩
      mul0 := ⟨a.2.2.1, b.2.2.1, c.2.2.1, d.2.2.1⟩
      mul1 := ⟨a.2.2.2, b.2.2.2, c.2.2.2, d.2.2.2⟩ }

/-- `Read64(src + at)` (tests/highwayhash/pure_c.c:59-64) -/
def Read64 (cfg : Cfg) (strict : Bool) (src : Bytes) (at' : Nat) : M U64 := do
  let b0 ← src.get cfg strict at'
  let b1 ← src.get cfg strict (at' + 1)
  let b2 ← src.get cfg strict (at' + 2)
  let b3 ← src.get cfg strict (at' + 3)
  let b4 ← src.get cfg strict (at' + 4)
  let b5 ← src.get cfg strict (at' + 5)
  let b6 ← src.get cfg strict (at' + 6)
  let b7 ← src.get cfg strict (at' + 7)
  pure (b0.setWidth 64 ||| b1.setWidth 64 <<< 8 ||| b2.setWidth 64 <<< 16 ||| b3.setWidth 64 <<< 24 |||
    b4.setWidth 64 <<< 32 ||| b5.setWidth 64 <<< 40 ||| b6.setWidth 64 <<< 48 ||| b7.setWidth 64 <<< 56)

/-- `HighwayHashUpdatePacket_pure_c` (tests/highwayhash/pure_c.c:66-74) -/
def HighwayHashUpdatePacket_pure_c (cfg : Cfg) (strict : Bool) (packet : Bytes) (s : Highway) : M Highway := do
  let l0 ← Read64 cfg strict packet 0
  let l1 ← Read64 cfg strict packet 8
  let l2 ← Read64 cfg strict packet 16
  let l3 ← Read64 cfg strict packet 24
  pure (Update ⟨l0, l1, l2, l3⟩ s)

/-- An iteration of the loop of `Rotate32By` (tests/highwayhash/pure_c.c:79-82). A shift of a 32-bit number by
32 or more bits is not defined. -/
def rotateLane (count : Nat) (lane : U64) : M U64 :=
  if 32 ≤ count ∨ 32 ≤ 32 - count then fail .badShift
  else
    let half0 : U32 := (lane &&& 0xffffffff#64).setWidth 32
    let half1 : U32 := (lane >>> 32).setWidth 32
    let lane : U64 := (half0 <<< count ||| half0 >>> (32 - count)).setWidth 64
    pure (lane ||| (half1 <<< count ||| half1 >>> (32 - count)).setWidth 64 <<< 32)

/-- `Rotate32By` (tests/highwayhash/pure_c.c:76-84), with the loop unrolled -/
def Rotate32By (count : Nat) (lanes : Quad) : M Quad := do
  let x0 ← rotateLane count lanes.x0
  let x1 ← rotateLane count lanes.x1
  let x2 ← rotateLane count lanes.x2
  let x3 ← rotateLane count lanes.x3
  pure ⟨x0, x1, x2, x3⟩

/-- The `packet` which `HighwayHashUpdateRemainder_pure_c` makes (tests/highwayhash/pure_c.c:90-92, 97-110);
`~3` is the number of type `int` -4, converted to `size_t`. -/
def remainderPacket (cfg : Cfg) (strict : Bool) (bytes : Bytes) (size_mod32 : Nat) : M (List Byte) := do
  let size_mod4 := size_mod32 &&& 3
  let remainder := size_mod32 &&& (2 ^ cfg.bits - 4)
  bytes.pointer cfg remainder
  let packet := List.replicate 32 0#8
  let packet ← copyBytes cfg strict bytes 0 remainder 0 packet
  if size_mod32 &&& 16 ≠ 0 then do
    let b0 ← bytes.get cfg strict (remainder + szSub cfg (szAdd cfg 0 size_mod4) 4)
    let packet ← setElement packet 28 b0
    let b1 ← bytes.get cfg strict (remainder + szSub cfg (szAdd cfg 1 size_mod4) 4)
    let packet ← setElement packet 29 b1
    let b2 ← bytes.get cfg strict (remainder + szSub cfg (szAdd cfg 2 size_mod4) 4)
    let packet ← setElement packet 30 b2
    let b3 ← bytes.get cfg strict (remainder + szSub cfg (szAdd cfg 3 size_mod4) 4)
    setElement packet 31 b3
  else if size_mod4 ≠ 0 then do
    let b0 ← bytes.get cfg strict (remainder + 0)
    let packet ← setElement packet 16 b0
    let b1 ← bytes.get cfg strict (remainder + size_mod4 >>> 1)
    let packet ← setElement packet 17 b1
    let b2 ← bytes.get cfg strict (remainder + (size_mod4 - 1))
    setElement packet 18 b2
  else pure packet

/-- `HighwayHashUpdateRemainder_pure_c` (tests/highwayhash/pure_c.c:86-112) -/
def HighwayHashUpdateRemainder_pure_c (cfg : Cfg) (strict : Bool) (bytes : Bytes) (size_mod32 : Nat)
    (s : Highway) : M Highway := do
  let n : U64 := BitVec.ofNat 64 size_mod32
  let s := { s with v0 := s.v0.map (· + (n <<< 32 + n)) }
  let v1 ← Rotate32By size_mod32 s.v1
  let s := { s with v1 := v1 }
  let packet ← remainderPacket cfg strict bytes size_mod32
  HighwayHashUpdatePacket_pure_c cfg strict (.array packet) s

/-- `Permute` (tests/highwayhash/pure_c.c:114-119) -/
def Permute (v : Quad) : Quad :=
  ⟨v.x2 >>> 32 ||| v.x2 <<< 32, v.x3 >>> 32 ||| v.x3 <<< 32,
   v.x0 >>> 32 ||| v.x0 <<< 32, v.x1 >>> 32 ||| v.x1 <<< 32⟩

/-- `PermuteAndUpdate` (tests/highwayhash/pure_c.c:121-125) -/
def PermuteAndUpdate (s : Highway) : Highway := Update (Permute s.v0) s

/-- `for (i = 0; i < n; i++) PermuteAndUpdate(state);` -/
def rounds : Nat → Highway → Highway
  | 0, s => s
  | n + 1, s => rounds n (PermuteAndUpdate s)

/-- `ModularReduction` (tests/highwayhash/pure_c.c:127-132): `(*m1, *m0)` -/
def ModularReduction (a3_unmasked a2 a1 a0 : U64) : U64 × U64 :=
  let a3 := a3_unmasked &&& 0x3FFFFFFFFFFFFFFF#64
  (a1 ^^^ (a3 <<< 1 ||| a2 >>> 63) ^^^ (a3 <<< 2 ||| a2 >>> 62), a0 ^^^ a2 <<< 1 ^^^ a2 <<< 2)

/-- `HighwayHashFinalize64_pure_c` (tests/highwayhash/pure_c.c:134-140) -/
def HighwayHashFinalize64_pure_c (s : Highway) : U64 :=
  let s := rounds 4 s
  s.v0.x0 + s.v1.x0 + s.mul0.x0 + s.mul1.x0

/-- `HighwayHashFinalize128_pure_c` (tests/highwayhash/pure_c.c:142-150): `hash[0]`, `hash[1]` -/
def HighwayHashFinalize128_pure_c (s : Highway) : U64 × U64 :=
  let s := rounds 6 s
  (s.v0.x0 + s.mul0.x0 + s.v1.x2 + s.mul1.x2, s.v0.x1 + s.mul0.x1 + s.v1.x3 + s.mul1.x3)

/-- `HighwayHashFinalize256_pure_c` (tests/highwayhash/pure_c.c:152-168): `hash[0]` to `hash[3]` -/
def HighwayHashFinalize256_pure_c (s : Highway) : Quad :=
  let s := rounds 10 s
  let a := ModularReduction (s.v1.x1 + s.mul1.x1) (s.v1.x0 + s.mul1.x0) (s.v0.x1 + s.mul0.x1) (s.v0.x0 + s.mul0.x0)
  let b := ModularReduction (s.v1.x3 + s.mul1.x3) (s.v1.x2 + s.mul1.x2) (s.v0.x3 + s.mul0.x3) (s.v0.x2 + s.mul0.x2)
  ⟨a.2, a.1, b.2, b.1⟩

/-- The loop of `ProcessAll` (tests/highwayhash/pure_c.c:176-178): the final `i` and the state -/
def processLoop (cfg : Cfg) (strict : Bool) (data size : Nat) : Nat → Nat → Highway → M (Nat × Highway)
  | 0, _, _ => fail .diverge
  | fuel + 1, i, s =>
    if szAdd cfg i 32 ≤ size then do
      iterate
      let p ← ptrAdd cfg data i
      let s ← HighwayHashUpdatePacket_pure_c cfg strict (.memory p) s
      processLoop cfg strict data size fuel (szAdd cfg i 32) s
    else pure (i, s)

/-- `ProcessAll` (tests/highwayhash/pure_c.c:172-181) -/
def ProcessAll (cfg : Cfg) (strict : Bool) (data size : Nat) (key : Quad) : M Highway := do
  let s := HighwayHashReset_pure_c key
  let (i, s) ← processLoop cfg strict data size (size + 1) 0 s
  if size &&& 31 ≠ 0 then do
    let p ← ptrAdd cfg data i
    HighwayHashUpdateRemainder_pure_c cfg strict (.memory p) (size &&& 31) s
  else pure s

/-- `HighwayHash64_pure_c` (tests/highwayhash/pure_c.c:183-188) -/
def HighwayHash64_pure_c (cfg : Cfg) (strict : Bool) (key : Quad) (data size : Nat) : M U64 := do
  let s ← ProcessAll cfg strict data size key
  pure (HighwayHashFinalize64_pure_c s)

/-- `HighwayHash128_pure_c` (tests/highwayhash/pure_c.c:190-195); `hash` is returned. -/
def HighwayHash128_pure_c (cfg : Cfg) (strict : Bool) (key : Quad) (data size : Nat) : M (U64 × U64) := do
  let s ← ProcessAll cfg strict data size key
  pure (HighwayHashFinalize128_pure_c s)

/-- `HighwayHash256_pure_c` (tests/highwayhash/pure_c.c:197-202); `hash` is returned. -/
def HighwayHash256_pure_c (cfg : Cfg) (strict : Bool) (key : Quad) (data size : Nat) : M Quad := do
  let s ← ProcessAll cfg strict data size key
  pure (HighwayHashFinalize256_pure_c s)

/-- `thunk_HighwayHash64_pure_c` (tests/bench.c:69-73) -/
def thunk_HighwayHash64_pure_c (cfg : Cfg) (strict : Bool) (input length : Nat) (seed : U64) : M U64 :=
  HighwayHash64_pure_c cfg strict ⟨seed, seed, seed, seed⟩ input length

/-- `HighwayHashCat` (tests/highwayhash/pure_c.h) -/
structure HighwayHashCat where
  state : Highway
  packet : List Byte
  num : Nat

/-- `HighwayHashCatStart_pure_c` (tests/highwayhash/pure_c.c:206-209); `st` is what the structure holds
before. -/
def HighwayHashCatStart_pure_c (key : Quad) (st : HighwayHashCat) : HighwayHashCat :=
  { st with state := HighwayHashReset_pure_c key, num := 0 }

/-- The first part of `HighwayHashCatAppend_pure_c` (tests/highwayhash/pure_c.c:214-226): the structure, `bytes`
and `num` -/
def catFill (cfg : Cfg) (strict : Bool) (bytes num : Nat) (st : HighwayHashCat) : M (HighwayHashCat × Nat × Nat) :=
  if st.num ≠ 0 then do
    let room := szSub cfg 32 st.num
    let num_add := if num > room then room else num
    let packet ← copyBytes cfg strict (.memory bytes) st.num num_add 0 st.packet
    let st := { st with packet := packet, num := szAdd cfg st.num num_add }
    let num := num - num_add
    let bytes ← ptrAdd cfg bytes num_add
    if st.num = 32 then do
      let s ← HighwayHashUpdatePacket_pure_c cfg strict (.array st.packet) st.state
      pure ({ st with state := s, num := 0 }, bytes, num)
    else pure (st, bytes, num)
  else pure (st, bytes, num)

/-- The `while` loop of `HighwayHashCatAppend_pure_c` (tests/highwayhash/pure_c.c:227-231): the state, `bytes`
and `num` -/
def catLoop (cfg : Cfg) (strict : Bool) : Nat → Nat → Nat → Highway → M (Highway × Nat × Nat)
  | 0, _, _, _ => fail .diverge
  | fuel + 1, bytes, num, s =>
    if 32 ≤ num then do
      iterate
      let s ← HighwayHashUpdatePacket_pure_c cfg strict (.memory bytes) s
      let num := num - 32
      let bytes ← ptrAdd cfg bytes 32
      catLoop cfg strict fuel bytes num s
    else pure (s, bytes, num)

/-- The last loop of `HighwayHashCatAppend_pure_c` (tests/highwayhash/pure_c.c:232-235), with `todo` iterations
left -/
def catRest (cfg : Cfg) (strict : Bool) (bytes : Nat) : Nat → Nat → HighwayHashCat → M HighwayHashCat
  | 0, _, st => pure st
  | todo + 1, i, st => do
    iterate
    let b ← (Bytes.memory bytes).get cfg strict i
    let packet ← setElement st.packet st.num b
    catRest cfg strict bytes todo (i + 1) { st with packet := packet, num := szAdd cfg st.num 1 }

/-- `HighwayHashCatAppend_pure_c` (tests/highwayhash/pure_c.c:211-236) -/
def HighwayHashCatAppend_pure_c (cfg : Cfg) (strict : Bool) (bytes num : Nat) (st : HighwayHashCat) :
    M HighwayHashCat := do
  let (st, bytes, num) ← catFill cfg strict bytes num st
  let (s, bytes, num) ← catLoop cfg strict (num + 1) bytes num st.state
  catRest cfg strict bytes num 0 { st with state := s }

/-- The common part of the `HighwayHashCatFinish*_pure_c` (tests/highwayhash/pure_c.c:239-242, 248-251,
257-260): `copy` -/
def catCopy (cfg : Cfg) (strict : Bool) (st : HighwayHashCat) : M Highway :=
  if st.num ≠ 0 then HighwayHashUpdateRemainder_pure_c cfg strict (.array st.packet) st.num st.state
  else pure st.state

/-- `HighwayHashCatFinish64_pure_c` (tests/highwayhash/pure_c.c:238-244) -/
def HighwayHashCatFinish64_pure_c (cfg : Cfg) (strict : Bool) (st : HighwayHashCat) : M U64 := do
  let copy ← catCopy cfg strict st
  pure (HighwayHashFinalize64_pure_c copy)

/-- `HighwayHashCatFinish128_pure_c` (tests/highwayhash/pure_c.c:246-253) -/
def HighwayHashCatFinish128_pure_c (cfg : Cfg) (strict : Bool) (st : HighwayHashCat) : M (U64 × U64) := do
  let copy ← catCopy cfg strict st
  pure (HighwayHashFinalize128_pure_c copy)

/-- `HighwayHashCatFinish256_pure_c` (tests/highwayhash/pure_c.c:255-262) -/
def HighwayHashCatFinish256_pure_c (cfg : Cfg) (strict : Bool) (st : HighwayHashCat) : M Quad := do
  let copy ← catCopy cfg strict st
  pure (HighwayHashFinalize256_pure_c copy)

end HighwayC

namespace HighwayPortable

open Spec (Highway)

/-! ## The portable C++ implementation -/

/-- `Copy`, `Add`, `Xor` (tests/highwayhash/hh_portable.h:164-182) and the two `Rotate64By32` (224-234), with the
loops unrolled -/
def Add (source dest : Quad) : Quad := dest.zip (· + ·) source

/-- `Xor` (tests/highwayhash/hh_portable.h:176-182) -/
def Xor (op1 op2 : Quad) : Quad := op1.zip (· ^^^ ·) op2

/-- `Rotate64By32` (tests/highwayhash/hh_portable.h:224-226) -/
def Rotate64By32 (x : U64) : U64 := x >>> 32 ||| x <<< 32

/-- `HHStatePortable::Reset` (tests/highwayhash/hh_portable.h:41-52) -/
def Reset (keys : Quad) : Highway :=
  let init0 : Quad := ⟨0xdbe6d5d5fe4cce2f, 0xa4093822299f31d0, 0x13198a2e03707344, 0x243f6a8885a308d3⟩
  let init1 : Quad := ⟨0x3bd39e10cb0ef593, 0xc0acf169b5f18a8c, 0xbe5466cf34e90c6c, 0x452821e638d01377⟩
  let rotated_keys := keys.map Rotate64By32
  { mul0 := init0, mul1 := init1, v0 := Xor init0 keys, v1 := Xor init1 rotated_keys }

/-- `MASK` (tests/highwayhash/hh_portable.h:185) -/
def MASK (v : U64) (bytes : Nat) : U64 := v &&& (0xFF#64 <<< (bytes * 8))

/-- `ZipperMergeAndAdd` (tests/highwayhash/hh_portable.h:189-199): the new `(*add1, *add0)` -/
def ZipperMergeAndAdd (v1 v0 add1 add0 : U64) : U64 × U64 :=
  (add1 + (((MASK v1 3 + MASK v0 4) >>> 24) + MASK v1 2 + (MASK v1 5 >>> 16) + (MASK v1 1 <<< 24) +
     (MASK v0 6 >>> 8) + (MASK v1 0 <<< 48) + MASK v0 7),
   add0 + (((MASK v0 3 + MASK v1 4) >>> 24) + ((MASK v0 5 + MASK v1 6) >>> 16) + MASK v0 2 + (MASK v0 1 <<< 32) +
     (MASK v1 7 >>> 8) + (v0 <<< 56)))

/-- An iteration of the loop of `Update` (tests/highwayhash/hh_portable.h:209-215): `v0[lane]`, `mul0[lane]`,
`mul1[lane]` -/
def updateLane (v0 v1 mul0 mul1 : U64) : U64 × U64 × U64 :=
  let v1_32 : U32 := v1.setWidth 32
  let mul0 := mul0 ^^^ (v1_32.setWidth 64 * (v0 >>> 32))
  let v0 := v0 + mul1
  let v0_32 : U32 := v0.setWidth 32
  let mul1 := mul1 ^^^ (v0_32.setWidth 64 * (v1 >>> 32))
  (v0, mul0, mul1)

/-- `Update(const Lanes &)` (tests/highwayhash/hh_portable.h:204-222), with the loop unrolled -/
def UpdateLanes (lanes : Quad) (s : Highway) : Highway :=
  let v1 := Add s.mul0 (Add lanes s.v1)
  let a := updateLane s.v0.x0 v1.x0 s.mul0.x0 s.mul1.x0
  let b := updateLane s.v0.x1 v1.x1 s.mul0.x1 s.mul1.x1
  let c := updateLane s.v0.x2 v1.x2 s.mul0.x2 s.mul1.x2
  let d := updateLane s.v0.x3 v1.x3 s.mul0.x3 s.mul1.x3
  let e := ZipperMergeAndAdd v1.x1 v1.x0 b.1 a.1
  let f := ZipperMergeAndAdd v1.x3 v1.x2 d.1 c.1
  let g := ZipperMergeAndAdd e.1 e.2 v1.x1 v1.x0
  let h := ZipperMergeAndAdd f.1 f.2 v1.x3 v1.x2
  { v0 := ⟨e.2, e.1, f.2, f.1⟩
    v1 := ⟨g.2, g.1, h.2, h.1⟩
    mul0 := ⟨a.2.1, b.2.1, c.2.1, d.2.1⟩
    mul1 := ⟨a.2.2, b.2.2, c.2.2, d.2.2⟩ }

/-- `host_from_le64` (tests/highwayhash/endianess.h:81, 92-94, 107-109) -/
def host_from_le64 (e : Endian) (x : U64) : U64 :=
  match e with
  | .little => x
  | .big => BitVec.ofNat 64 (beVal (leBytes 8 x.toNat))

/-- `host_from_le32` (tests/highwayhash/endianess.h:79, 90, 101-103) -/
def host_from_le32 (e : Endian) (x : U32) : U32 :=
  match e with
  | .little => x
  | .big => BitVec.ofNat 32 (beVal (leBytes 4 x.toNat))

/-- `packet_lanes[lane]`, of an array whose bytes are `bytes` -/
def lane (e : Endian) (bytes : List Byte) (lane : Nat) : U64 :=
  BitVec.ofNat 64 (e.val ((bytes.drop (8 * lane)).take 8))

/-- `Update(const HHPacket &)` (tests/highwayhash/hh_portable.h:54-62). The bytes of `packet_lanes` before the copy
do not matter. -/
def Update (cfg : Cfg) (strict : Bool) (packet : Bytes) (s : Highway) : M Highway := do
  let bytes ← copyBytes cfg strict packet 0 32 0 (List.replicate 32 0#8)
  let l := fun i => host_from_le64 cfg.endian (lane cfg.endian bytes i)
  pure (UpdateLanes ⟨l 0, l 1, l 2, l 3⟩ s)

/-- `(x << count) | (x >> (32 - count))` for both halves of a number (tests/highwayhash/hh_portable.h:236-241).
The code accesses an array of `uint64_t` as an array of `uint32_t`, which C++ does not define; here that works as
compilers without type-based alias analysis make it work. As both halves are rotated alike, the byte order does
not matter. -/
def rotateHalves (count : Nat) (x : U64) : M U64 :=
  if 32 ≤ count ∨ 32 ≤ 32 - count then fail .badShift
  else
    let low : U32 := x.setWidth 32
    let high : U32 := (x >>> 32).setWidth 32
    pure ((high <<< count ||| high >>> (32 - count)) ++ (low <<< count ||| low >>> (32 - count)) : BitVec 64)

/-- `Rotate32By` (tests/highwayhash/hh_portable.h:236-241), with the loop unrolled -/
def Rotate32By (v : Quad) (count : Nat) : M Quad := do
  let x0 ← rotateHalves count v.x0
  let x1 ← rotateHalves count v.x1
  let x2 ← rotateHalves count v.x2
  let x3 ← rotateHalves count v.x3
  pure ⟨x0, x1, x2, x3⟩

/-- `Load3()(Load3::AllowReadBeforeAndReturn(), from + at, size_mod4)` (tests/highwayhash/load3.h:52-64) -/
def load3ReadBefore (cfg : Cfg) (strict : Bool) (from' : Bytes) (at' size_mod4 : Nat) : M U32 := do
  from'.pointer cfg (at' + size_mod4)
  from'.pointer cfg (at' + size_mod4 - 4)
  let b0 ← from'.get cfg strict (at' + size_mod4 - 4)
  let b1 ← from'.get cfg strict (at' + size_mod4 - 4 + 1)
  let b2 ← from'.get cfg strict (at' + size_mod4 - 4 + 2)
  let b3 ← from'.get cfg strict (at' + size_mod4 - 4 + 3)
  pure (host_from_le32 cfg.endian (BitVec.ofNat 32 (cfg.endian.val [b0, b1, b2, b3])))

/-- `Load3()(Load3::AllowUnordered(), from + at, size_mod4)` (tests/highwayhash/load3.h:80-100) -/
def load3Unordered (cfg : Cfg) (strict : Bool) (from' : Bytes) (at' size_mod4 : Nat) : M U64 :=
  if size_mod4 = 0 then pure 0
  else do
    let b0 ← from'.get cfg strict (at' + 0)
    let last3 : U64 := b0.setWidth 64
    let b1 ← from'.get cfg strict (at' + size_mod4 >>> 1)
    let last3 := last3 + b1.setWidth 64 <<< 8
    let b2 ← from'.get cfg strict (at' + (size_mod4 - 1))
    pure (last3 + b2.setWidth 64 <<< 16)

/-- The `packet` which `UpdateRemainder` makes (tests/highwayhash/hh_portable.h:75-94). `last4` is copied as it lies in
the memory of the machine. -/
def remainderPacket (cfg : Cfg) (strict : Bool) (bytes : Bytes) (size_mod32 : Nat) : M (List Byte) := do
  let size_mod4 := size_mod32 &&& 3
  let remainder := size_mod32 &&& (2 ^ cfg.bits - 4)
  bytes.pointer cfg remainder
  let packet := List.replicate 32 0#8
  let packet ← copyBytes cfg strict bytes 0 remainder 0 packet
  if size_mod32 &&& 16 ≠ 0 then do
    let last4 ← load3ReadBefore cfg strict bytes remainder size_mod4
    copyBytes cfg strict (.array (cfg.endian.bytes 4 last4.toNat)) 28 4 0 packet
  else do
    let last4 ← load3Unordered cfg strict bytes remainder size_mod4
    copyBytes cfg strict (.array (cfg.endian.bytes 8 last4.toNat)) 16 8 0 packet

/-- `UpdateRemainder` (tests/highwayhash/hh_portable.h:64-96) -/
def UpdateRemainder (cfg : Cfg) (strict : Bool) (bytes : Bytes) (size_mod32 : Nat) (s : Highway) : M Highway := do
  let n : U64 := BitVec.ofNat 64 size_mod32
  let s := { s with v0 := s.v0.map (· + (n <<< 32 + n)) }
  let v1 ← Rotate32By s.v1 size_mod32
  let s := { s with v1 := v1 }
  let packet ← remainderPacket cfg strict bytes size_mod32
  Update cfg strict (.array packet) s

/-- `Permute` (tests/highwayhash/hh_portable.h:243-248) -/
def Permute (v : Quad) : Quad :=
  ⟨Rotate64By32 v.x2, Rotate64By32 v.x3, Rotate64By32 v.x0, Rotate64By32 v.x1⟩

/-- `PermuteAndUpdate` (tests/highwayhash/hh_portable.h:250-254) -/
def PermuteAndUpdate (s : Highway) : Highway := UpdateLanes (Permute s.v0) s

/-- `for (int n = 0; n < count; n++) PermuteAndUpdate();` -/
def rounds : Nat → Highway → Highway
  | 0, s => s
  | n + 1, s => rounds n (PermuteAndUpdate s)

/-- `Shift128Left` (tests/highwayhash/hh_portable.h:260-267): `(*a1, *a0)` -/
def Shift128Left (kBits : Nat) (a1 a0 : U64) : U64 × U64 := (a1 <<< kBits ||| a0 >>> (64 - kBits), a0 <<< kBits)

/-- `ModularReduction` (tests/highwayhash/hh_portable.h:271-288): `(*m1, *m0)` -/
def ModularReduction (a3_unmasked a2 a1 a0 : U64) : U64 × U64 :=
  let a3 := a3_unmasked &&& 0x3FFFFFFFFFFFFFFF#64
  let shl1 := Shift128Left 1 a3 a2
  let shl2 := Shift128Left 2 a3 a2
  (a1 ^^^ shl1.1 ^^^ shl2.1, a0 ^^^ shl1.2 ^^^ shl2.2)

/-- `Finalize(HHResult64 *)` (tests/highwayhash/hh_portable.h:98-104) -/
def Finalize64 (s : Highway) : U64 :=
  let s := rounds 4 s
  s.v0.x0 + s.v1.x0 + s.mul0.x0 + s.mul1.x0

/-- `Finalize(HHResult128 *)` (tests/highwayhash/hh_portable.h:106-113) -/
def Finalize128 (s : Highway) : U64 × U64 :=
  let s := rounds 6 s
  (s.v0.x0 + s.mul0.x0 + s.v1.x2 + s.mul1.x2, s.v0.x1 + s.mul0.x1 + s.v1.x3 + s.mul1.x3)

/-- `Finalize(HHResult256 *)` (tests/highwayhash/hh_portable.h:115-124) -/
def Finalize256 (s : Highway) : Quad :=
  let s := rounds 10 s
  let a := ModularReduction (s.v1.x1 + s.mul1.x1) (s.v1.x0 + s.mul1.x0) (s.v0.x1 + s.mul0.x1) (s.v0.x0 + s.mul0.x0)
  let b := ModularReduction (s.v1.x3 + s.mul1.x3) (s.v1.x2 + s.mul1.x2) (s.v0.x3 + s.mul0.x3) (s.v0.x2 + s.mul0.x2)
  ⟨a.2, a.1, b.2, b.1⟩

/-- The loop of `HighwayHashT` (tests/highwayhash/highwayhash.h:101-103) -/
def hashLoop (cfg : Cfg) (strict : Bool) (bytes truncated : Nat) : Nat → Nat → Highway → M Highway
  | 0, _, _ => fail .diverge
  | fuel + 1, offset, s =>
    if offset < truncated then do
      iterate
      let p ← ptrAdd cfg bytes offset
      let s ← Update cfg strict (.memory p) s
      hashLoop cfg strict bytes truncated fuel (szAdd cfg offset 32) s
    else pure s

/-- `HighwayHashT` before `Finalize` (tests/highwayhash/highwayhash.h:94-107) -/
def HighwayHashT (cfg : Cfg) (strict : Bool) (s : Highway) (bytes size : Nat) : M Highway := do
  let remainder := size &&& (32 - 1)
  let truncated := size &&& (2 ^ cfg.bits - 1 - (32 - 1))
  let s ← hashLoop cfg strict bytes truncated (size + 1) 0 s
  if remainder ≠ 0 then do
    let p ← ptrAdd cfg bytes truncated
    UpdateRemainder cfg strict (.memory p) remainder s
  else pure s

/-- `HighwayHash64_Portable` (tests/highwayhash/highwayhash_target.cc:26-33) and `operator()` for 64 bits (47-54) -/
def HighwayHash64_Portable (cfg : Cfg) (strict : Bool) (key : Quad) (bytes size : Nat) : M U64 := do
  let s ← HighwayHashT cfg strict (Reset key) bytes size
  pure (Finalize64 s)

/-- `operator()` for 128 bits (tests/highwayhash/highwayhash_target.cc:56-63); `hash` is returned. -/
def HighwayHash128_Portable (cfg : Cfg) (strict : Bool) (key : Quad) (bytes size : Nat) : M (U64 × U64) := do
  let s ← HighwayHashT cfg strict (Reset key) bytes size
  pure (Finalize128 s)

/-- `operator()` for 256 bits (tests/highwayhash/highwayhash_target.cc:65-72); `hash` is returned. -/
def HighwayHash256_Portable (cfg : Cfg) (strict : Bool) (key : Quad) (bytes size : Nat) : M Quad := do
  let s ← HighwayHashT cfg strict (Reset key) bytes size
  pure (Finalize256 s)

/-- `thunk_HighwayHash64_Portable` (tests/highwayhash/highwayhash_target.cc:35-43) -/
def thunk_HighwayHash64_Portable (cfg : Cfg) (strict : Bool) (input length : Nat) (seed : U64) : M U64 :=
  HighwayHash64_Portable cfg strict ⟨seed, seed, seed, seed⟩ input length

/-- `HighwayHashCatT` (tests/highwayhash/highwayhash.h:196-199): `buffer_`, `state_`, `buffer_usage_` -/
structure HighwayHashCatT where
  buffer : List Byte
  state : Highway
  usage : Nat

/-- The constructor of `HighwayHashCatT` (tests/highwayhash/highwayhash.h:119-122) with `ZeroInitialize`
(tests/highwayhash/hh_portable.h:126-130) -/
def catNew (key : Quad) : HighwayHashCatT := { buffer := List.replicate 32 0#8, state := Reset key, usage := 0 }

/-- `HighwayHashCatT::Reset` (tests/highwayhash/highwayhash.h:125-128) -/
def catReset (key : Quad) (st : HighwayHashCatT) : HighwayHashCatT := { st with state := Reset key, usage := 0 }

/-- The `while` loop of `Append` (tests/highwayhash/highwayhash.h:162-166): the state, `bytes` and `num_bytes` -/
def catLoop (cfg : Cfg) (strict : Bool) : Nat → Nat → Nat → Highway → M (Highway × Nat × Nat)
  | 0, _, _, _ => fail .diverge
  | fuel + 1, bytes, num_bytes, s =>
    if 32 ≤ num_bytes then do
      iterate
      let s ← Update cfg strict (.memory bytes) s
      let bytes ← ptrAdd cfg bytes 32
      catLoop cfg strict fuel bytes (num_bytes - 32) s
    else pure (s, bytes, num_bytes)

/-- `AppendAndUpdate` (tests/highwayhash/hh_portable.h:149-161). The bytes of `tmp` before the copies do not matter. -/
def AppendAndUpdate (cfg : Cfg) (strict : Bool) (from' : Nat) (size_mod32 : Nat) (buffer : List Byte)
    (buffer_valid : Nat) (s : Highway) : M Highway := do
  let tmp ← copyBytes cfg strict (.array buffer) 0 buffer_valid 0 (List.replicate 32 0#8)
  let tmp ← copyBytes cfg strict (.memory from') buffer_valid size_mod32 0 tmp
  Update cfg strict (.array tmp) s

/-- `HighwayHashCatT::Append` (tests/highwayhash/highwayhash.h:134-179), with `AppendPartial` and `CopyPartial`
(tests/highwayhash/hh_portable.h:132-147) -/
def catAppend (cfg : Cfg) (strict : Bool) (bytes num_bytes : Nat) (st : HighwayHashCatT) : M HighwayHashCatT := do
  let capacity := szSub cfg 32 st.usage
  if num_bytes < capacity then do
    let buffer ← copyBytes cfg strict (.memory bytes) st.usage num_bytes 0 st.buffer
    pure { st with buffer := buffer, usage := szAdd cfg st.usage num_bytes }
  else do
    let (s, bytes, num_bytes) ← (if st.usage ≠ 0 then do
        let s ← AppendAndUpdate cfg strict bytes capacity st.buffer st.usage st.state
        let bytes ← ptrAdd cfg bytes capacity
        pure (s, bytes, num_bytes - capacity)
      else pure (st.state, bytes, num_bytes) : M (Highway × Nat × Nat))
    let (s, bytes, num_bytes) ← catLoop cfg strict (num_bytes + 1) bytes num_bytes s
    let buffer ← (if num_bytes ≠ 0 then copyBytes cfg strict (.memory bytes) 0 num_bytes 0 st.buffer
      else pure st.buffer)
    pure { buffer := buffer, state := s, usage := num_bytes }

/-- `HighwayHashCatT::Finalize` before `Finalize` of the state (tests/highwayhash/highwayhash.h:184-190) -/
def catCopy (cfg : Cfg) (strict : Bool) (st : HighwayHashCatT) : M Highway :=
  if st.usage ≠ 0 then UpdateRemainder cfg strict (.array st.buffer) st.usage st.state
  else pure st.state

/-- `HighwayHashCatT::Finalize` for 64 bits (tests/highwayhash/highwayhash.h:184-193) -/
def catFinalize64 (cfg : Cfg) (strict : Bool) (st : HighwayHashCatT) : M U64 := do
  let copy ← catCopy cfg strict st
  pure (Finalize64 copy)

/-- `HighwayHashCatT::Finalize` for 128 bits (tests/highwayhash/highwayhash.h:184-193) -/
def catFinalize128 (cfg : Cfg) (strict : Bool) (st : HighwayHashCatT) : M (U64 × U64) := do
  let copy ← catCopy cfg strict st
  pure (Finalize128 copy)

/-- `HighwayHashCatT::Finalize` for 256 bits (tests/highwayhash/highwayhash.h:184-193) -/
def catFinalize256 (cfg : Cfg) (strict : Bool) (st : HighwayHashCatT) : M Quad := do
  let copy ← catCopy cfg strict st
  pure (Finalize256 copy)

end HighwayPortable

end T1ha.Model
