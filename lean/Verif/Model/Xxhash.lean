import Verif.Model.Highway
import Verif.SpecXxhash

/-!
# tests/xxhash: XXH32 and XXH64

xxHash, which the test program measures, as compiled by tests/xxhash/xxh_thunk.c. `XXH_ACCEPT_NULL_INPUT_POINTER` is 0
(xxhash.h:797-799), `XXH_DEBUGLEVEL` is 0 (xxhash.h:934-947, so that `XXH_ASSERT` does nothing).

Messages are read from memory. The state of incremental hashing is a value; reading or writing outside of its array of
bytes is `Err.fault`. Hence allocating, freeing and copying states (xxhash.h:1389-1402, 1930-1943) is not modelled, nor
is a message which overlaps the state it is added to.
-/

namespace T1ha.Model

/-- `XXH_FORCE_MEMORY_ACCESS` (tests/xxhash/xxhash.h:754-788): 0 (the default), 1, 2 (ARMv6 with GCC), 3 -/
inductive XxhAccess
  | memcpy
  | packed
  | direct
  | shift
  deriving DecidableEq, Repr

/-- How xxHash is compiled, apart from what is in `Cfg`. -/
structure Xxh where
  access : XxhAccess
  /-- `XXH_FORCE_ALIGN_CHECK` (tests/xxhash/xxhash.h:820-827) -/
  alignCheck : Bool
  /-- `XXH_REROLL` (tests/xxhash/xxhash.h:864-870) -/
  reroll : Bool
  /-- `XXH_REROLL_XXH64` (tests/xxhash/xxhash.h:1559-1570) -/
  reroll64 : Bool
  /-- `XXH_swap32` and `XXH_swap64`: an intrinsic or C code (tests/xxhash/xxhash.h:1087-1100, 1614-1630) -/
  swap : BswapImpl
  /-- The instruction which the compiler uses to dereference a `const xxh_u32 *` works at every address. -/
  lenient32 : Bool
  /-- The instruction which the compiler uses to dereference a `const xxh_u64 *` works at every address. (Not so on
  ARMv6: LDRD and LDM need alignment.) -/
  lenient64 : Bool
  deriving DecidableEq, Repr

/-! ## Arithmetic -/

/-- `XXH_rotl32` (tests/xxhash/xxhash.h:1074-1085). The intrinsics are taken to be right. -/
def XXH_rotl32 (x : U32) (r : Nat) (_ : 0 < r ∧ r < 32 := by decide) : U32 := (x <<< r) ||| (x >>> (32 - r))

/-- `XXH_rotl64` (tests/xxhash/xxhash.h:1074-1085). The intrinsics are taken to be right. -/
def XXH_rotl64 (x : U64) (r : Nat) (_ : 0 < r ∧ r < 64 := by decide) : U64 := (x <<< r) ||| (x >>> (64 - r))

/-- `XXH_swap32` (tests/xxhash/xxhash.h:1087-1100). The intrinsics are taken to reverse the bytes. -/
def XXH_swap32 (x : Xxh) (v : U32) : U32 :=
  match x.swap with
  | .builtin => BitVec.ofNat 32 (beVal (leBytes 4 v.toNat))
  | .portable =>
    ((v <<< 24) &&& 0xff000000#32) ||| ((v <<< 8) &&& 0x00ff0000#32) ||| ((v >>> 8) &&& 0x0000ff00#32) |||
      ((v >>> 24) &&& 0x000000ff#32)

/-- `XXH_swap64` (tests/xxhash/xxhash.h:1614-1630). The intrinsics are taken to reverse the bytes. -/
def XXH_swap64 (x : Xxh) (v : U64) : U64 :=
  match x.swap with
  | .builtin => BitVec.ofNat 64 (beVal (leBytes 8 v.toNat))
  | .portable =>
    ((v <<< 56) &&& 0xff00000000000000#64) ||| ((v <<< 40) &&& 0x00ff000000000000#64) |||
      ((v <<< 24) &&& 0x0000ff0000000000#64) ||| ((v <<< 8) &&& 0x000000ff00000000#64) |||
      ((v >>> 8) &&& 0x00000000ff000000#64) ||| ((v >>> 24) &&& 0x0000000000ff0000#64) |||
      ((v >>> 40) &&& 0x000000000000ff00#64) ||| ((v >>> 56) &&& 0x00000000000000ff#64)

/-! ## Memory -/

/-- `n` bytes at `b + i`, read at once -/
def Bytes.load : Bytes → Nat → Nat → M (List Byte)
  | .memory p, i, n => Model.load (p + i) n
  | .array l, i, n => if i + n ≤ l.length then pure ((l.drop i).take n) else fail .fault

/-- Whether the address `b + i` is a multiple of `n`. The arrays `mem32` and `mem64` of the states are aligned by the
compiler. -/
def Bytes.isAligned : Bytes → Nat → Nat → Bool
  | .memory p, i, n => (p + i) % n == 0
  | .array _, i, n => i % n == 0

/-- `*(const xxh_u32*)(b + i)` -/
def deref32 (cfg : Cfg) (x : Xxh) (b : Bytes) (i : Nat) : M U32 :=
  if x.lenient32 || b.isAligned i 4 then do
    let bs ← b.load i 4
    pure (BitVec.ofNat 32 (cfg.endian.val bs))
  else fail .misaligned

/-- `*(const xxh_u64*)(b + i)` -/
def deref64 (cfg : Cfg) (x : Xxh) (b : Bytes) (i : Nat) : M U64 :=
  if x.lenient64 || b.isAligned i 8 then do
    let bs ← b.load i 8
    pure (BitVec.ofNat 64 (cfg.endian.val bs))
  else fail .misaligned

/-- `b[i]` -/
def Bytes.byte (b : Bytes) (i : Nat) : M Byte := do
  let bs ← b.load i 1
  pure (bs.getD 0 0)

/-- `XXH_read32(b + i)` (tests/xxhash/xxhash.h:974-1016): by way of a pointer, of a packed union, or with `memcpy` -/
def XXH_read32 (cfg : Cfg) (x : Xxh) (b : Bytes) (i : Nat) : M U32 :=
  match x.access with
  | .direct => deref32 cfg x b i
  | _ => do
    let bs ← b.load i 4
    pure (BitVec.ofNat 32 (cfg.endian.val bs))

/-- `XXH_readLE32(b + i)` (tests/xxhash/xxhash.h:1112-1121, 1132-1136). `XXH_CPU_LITTLE_ENDIAN` is taken to be right. -/
def XXH_readLE32 (cfg : Cfg) (x : Xxh) (b : Bytes) (i : Nat) : M U32 :=
  match x.access with
  | .shift => do
    let b0 ← b.byte i
    let b1 ← b.byte (i + 1)
    let b2 ← b.byte (i + 2)
    let b3 ← b.byte (i + 3)
    pure (b0.setWidth 32 ||| b1.setWidth 32 <<< 8 ||| b2.setWidth 32 <<< 16 ||| b3.setWidth 32 <<< 24)
  | _ => do
    let v ← XXH_read32 cfg x b i
    pure (match cfg.endian with | .little => v | .big => XXH_swap32 x v)

/-- `XXH_readBE32(b + i)` (tests/xxhash/xxhash.h:1123-1130, 1138-1141) -/
def XXH_readBE32 (cfg : Cfg) (x : Xxh) (b : Bytes) (i : Nat) : M U32 :=
  match x.access with
  | .shift => do
    let b3 ← b.byte (i + 3)
    let b2 ← b.byte (i + 2)
    let b1 ← b.byte (i + 1)
    let b0 ← b.byte i
    pure (b3.setWidth 32 ||| b2.setWidth 32 <<< 8 ||| b1.setWidth 32 <<< 16 ||| b0.setWidth 32 <<< 24)
  | _ => do
    let v ← XXH_read32 cfg x b i
    pure (match cfg.endian with | .little => XXH_swap32 x v | .big => v)

/-- `XXH_readLE32_align(b + i, align)` (tests/xxhash/xxhash.h:1144-1152), `XXH_get32bits` (1245); `aligned` stands for
`XXH_aligned` -/
def XXH_readLE32_align (cfg : Cfg) (x : Xxh) (aligned : Bool) (b : Bytes) (i : Nat) : M U32 :=
  if aligned then do
    let v ← deref32 cfg x b i
    pure (match cfg.endian with | .little => v | .big => XXH_swap32 x v)
  else XXH_readLE32 cfg x b i

/-- `XXH_read64(b + i)` (tests/xxhash/xxhash.h:1572-1612) -/
def XXH_read64 (cfg : Cfg) (x : Xxh) (b : Bytes) (i : Nat) : M U64 :=
  match x.access with
  | .direct => deref64 cfg x b i
  | _ => do
    let bs ← b.load i 8
    pure (BitVec.ofNat 64 (cfg.endian.val bs))

/-- `XXH_readLE64(b + i)` (tests/xxhash/xxhash.h:1634-1647, 1663-1666) -/
def XXH_readLE64 (cfg : Cfg) (x : Xxh) (b : Bytes) (i : Nat) : M U64 :=
  match x.access with
  | .shift => do
    let b0 ← b.byte i
    let b1 ← b.byte (i + 1)
    let b2 ← b.byte (i + 2)
    let b3 ← b.byte (i + 3)
    let b4 ← b.byte (i + 4)
    let b5 ← b.byte (i + 5)
    let b6 ← b.byte (i + 6)
    let b7 ← b.byte (i + 7)
    pure (b0.setWidth 64 ||| b1.setWidth 64 <<< 8 ||| b2.setWidth 64 <<< 16 ||| b3.setWidth 64 <<< 24 |||
      b4.setWidth 64 <<< 32 ||| b5.setWidth 64 <<< 40 ||| b6.setWidth 64 <<< 48 ||| b7.setWidth 64 <<< 56)
  | _ => do
    let v ← XXH_read64 cfg x b i
    pure (match cfg.endian with | .little => v | .big => XXH_swap64 x v)

/-- `XXH_readBE64(b + i)` (tests/xxhash/xxhash.h:1649-1660, 1668-1671) -/
def XXH_readBE64 (cfg : Cfg) (x : Xxh) (b : Bytes) (i : Nat) : M U64 :=
  match x.access with
  | .shift => do
    let b7 ← b.byte (i + 7)
    let b6 ← b.byte (i + 6)
    let b5 ← b.byte (i + 5)
    let b4 ← b.byte (i + 4)
    let b3 ← b.byte (i + 3)
    let b2 ← b.byte (i + 2)
    let b1 ← b.byte (i + 1)
    let b0 ← b.byte i
    pure (b7.setWidth 64 ||| b6.setWidth 64 <<< 8 ||| b5.setWidth 64 <<< 16 ||| b4.setWidth 64 <<< 24 |||
      b3.setWidth 64 <<< 32 ||| b2.setWidth 64 <<< 40 ||| b1.setWidth 64 <<< 48 ||| b0.setWidth 64 <<< 56)
  | _ => do
    let v ← XXH_read64 cfg x b i
    pure (match cfg.endian with | .little => XXH_swap64 x v | .big => v)

/-- `XXH_readLE64_align(b + i, align)` (tests/xxhash/xxhash.h:1674-1681), `XXH_get64bits` (1727) -/
def XXH_readLE64_align (cfg : Cfg) (x : Xxh) (aligned : Bool) (b : Bytes) (i : Nat) : M U64 :=
  if aligned then do
    let v ← deref64 cfg x b i
    pure (match cfg.endian with | .little => v | .big => XXH_swap64 x v)
  else XXH_readLE64 cfg x b i

/-- `XXH_memcpy(array + k, src, n)` (tests/xxhash/xxhash.h:887-890) into an array of bytes. C does not allow null
pointers. -/
def memcpyInto (array : List Byte) (k src n : Nat) : M (List Byte) :=
  if src = 0 then fail .nullPointer
  else if k + n ≤ array.length then do
    let bs ← Model.load src n
    pure (array.take k ++ bs ++ array.drop (k + n))
  else fail .fault

/-! ## XXH32 -/

/-- `XXH_PRIME32_1` to `XXH_PRIME32_5` (tests/xxhash/xxhash.h:1164-1168) -/
def XXH_PRIME32_1 : U32 := 0x9E3779B1
@[inherit_doc XXH_PRIME32_1] def XXH_PRIME32_2 : U32 := 0x85EBCA77
@[inherit_doc XXH_PRIME32_1] def XXH_PRIME32_3 : U32 := 0xC2B2AE3D
@[inherit_doc XXH_PRIME32_1] def XXH_PRIME32_4 : U32 := 0x27D4EB2F
@[inherit_doc XXH_PRIME32_1] def XXH_PRIME32_5 : U32 := 0x165667B1

/-- `XXH32_round` (tests/xxhash/xxhash.h:1178-1232). The empty assembler statement does nothing. -/
def XXH32_round (acc input : U32) : U32 :=
  let acc := acc + input * XXH_PRIME32_2
  let acc := XXH_rotl32 acc 13
  acc * XXH_PRIME32_1

/-- `XXH32_avalanche` (tests/xxhash/xxhash.h:1235-1243) -/
def XXH32_avalanche (h32 : U32) : U32 :=
  let h32 := h32 ^^^ (h32 >>> 15)
  let h32 := h32 * XXH_PRIME32_2
  let h32 := h32 ^^^ (h32 >>> 13)
  let h32 := h32 * XXH_PRIME32_3
  h32 ^^^ (h32 >>> 16)

/-- The state of `XXH32_finalize` and of `XXH64_finalize`: the hash, and how far `ptr` is from the start -/
structure Finalizing (α : Type) where
  h : α
  i : Nat

/-- `XXH_PROCESS1` (tests/xxhash/xxhash.h:1250-1253) -/
def XXH_PROCESS1 (cfg : Cfg) (b : Bytes) (s : Finalizing U32) : M (Finalizing U32) := do
  let byte ← b.byte s.i
  b.pointer cfg (s.i + 1)
  let h32 := s.h + byte.setWidth 32 * XXH_PRIME32_5
  pure { h := XXH_rotl32 h32 11 * XXH_PRIME32_1, i := s.i + 1 }

/-- `XXH_PROCESS4` (tests/xxhash/xxhash.h:1255-1259) -/
def XXH_PROCESS4 (cfg : Cfg) (x : Xxh) (aligned : Bool) (b : Bytes) (s : Finalizing U32) : M (Finalizing U32) := do
  let word ← XXH_readLE32_align cfg x aligned b s.i
  let h32 := s.h + word * XXH_PRIME32_3
  b.pointer cfg (s.i + 4)
  pure { h := XXH_rotl32 h32 17 * XXH_PRIME32_4, i := s.i + 4 }

/-- `while (len >= 4) { XXH_PROCESS4; len -= 4; } while (len > 0) { XXH_PROCESS1; --len; }`
(tests/xxhash/xxhash.h:1264-1271) -/
def finalize32_loop (cfg : Cfg) (x : Xxh) (aligned : Bool) (b : Bytes) (len : Nat) (s : Finalizing U32) :
    M (Finalizing U32) :=
  if 4 ≤ len then do
    iterate
    let s ← XXH_PROCESS4 cfg x aligned b s
    finalize32_loop cfg x aligned b (len - 4) s
  else if 0 < len then do
    iterate
    let s ← XXH_PROCESS1 cfg b s
    finalize32_loop cfg x aligned b (len - 1) s
  else pure s
termination_by len

/-- What the `switch` of `XXH32_finalize` does (tests/xxhash/xxhash.h:1274-1312): for each `case` (falling through to
the following ones), the sizes of the steps; 4 stands for `XXH_PROCESS4` and 1 for `XXH_PROCESS1`. -/
def finalize32_case : Nat → Option (List Nat)
  | 12 => some [4, 4, 4]
  | 8 => some [4, 4]
  | 4 => some [4]
  | 13 => some [4, 4, 4, 1]
  | 9 => some [4, 4, 1]
  | 5 => some [4, 1]
  | 14 => some [4, 4, 4, 1, 1]
  | 10 => some [4, 4, 1, 1]
  | 6 => some [4, 1, 1]
  | 15 => some [4, 4, 4, 1, 1, 1]
  | 11 => some [4, 4, 1, 1, 1]
  | 7 => some [4, 1, 1, 1]
  | 3 => some [1, 1, 1]
  | 2 => some [1, 1]
  | 1 => some [1]
  | 0 => some []
  | _ => none

/-- The steps of a `case`. -/
def finalize32_steps (cfg : Cfg) (x : Xxh) (aligned : Bool) (b : Bytes) :
    List Nat → Finalizing U32 → M (Finalizing U32)
  | [], s => pure s
  | k :: ks, s => do
    let s ← (if k = 4 then XXH_PROCESS4 cfg x aligned b s else XXH_PROCESS1 cfg b s)
    finalize32_steps cfg x aligned b ks s

/-- `XXH32_finalize(h32, b + i, len, align)` (tests/xxhash/xxhash.h:1247-1316) -/
def XXH32_finalize (cfg : Cfg) (x : Xxh) (aligned : Bool) (h32 : U32) (b : Bytes) (i len : Nat) : M U32 :=
  if x.reroll then do
    let s ← finalize32_loop cfg x aligned b (len &&& 15) ⟨h32, i⟩
    pure (XXH32_avalanche s.h)
  else
    match finalize32_case (len &&& 15) with
    | some steps => do
      let s ← finalize32_steps cfg x aligned b steps ⟨h32, i⟩
      pure (XXH32_avalanche s.h)
    | none => pure h32

/-- The four rounds of the loops of `XXH32_endian_align` and `XXH32_update` (tests/xxhash/xxhash.h:1347-1350,
1460-1463), at `b + i` -/
def XXH32_stripe (cfg : Cfg) (read : Bytes → Nat → M U32) (b : Bytes) (i : Nat) (v : Quad32) : M Quad32 := do
  let w ← read b i
  let v1 := XXH32_round v.x0 w
  b.pointer cfg (i + 4)
  let w ← read b (i + 4)
  let v2 := XXH32_round v.x1 w
  b.pointer cfg (i + 8)
  let w ← read b (i + 8)
  let v3 := XXH32_round v.x2 w
  b.pointer cfg (i + 12)
  let w ← read b (i + 12)
  let v4 := XXH32_round v.x3 w
  b.pointer cfg (i + 16)
  pure ⟨v1, v2, v3, v4⟩

/-- The loop of `XXH32_endian_align` (tests/xxhash/xxhash.h:1346-1351); `limit` is relative to `input`. -/
def XXH32_loop (cfg : Cfg) (x : Xxh) (aligned : Bool) (b : Bytes) (limit : Nat) :
    Nat → Nat → Quad32 → M (Nat × Quad32)
  | 0, _, _ => fail .diverge
  | fuel + 1, i, v => do
    iterate
    let v ← XXH32_stripe cfg (XXH_readLE32_align cfg x aligned) b i v
    if i + 16 < limit then XXH32_loop cfg x aligned b limit fuel (i + 16) v else pure (i + 16, v)

/-- `XXH32_endian_align` (tests/xxhash/xxhash.h:1326-1362) -/
def XXH32_endian_align (cfg : Cfg) (x : Xxh) (aligned : Bool) (input len : Nat) (seed : U32) : M U32 := do
  let b := Bytes.memory input
  let bEnd ← ptrAdd cfg input len
  if 16 ≤ len then do
    let limit ← ptrSub cfg bEnd 15
    let v1 := seed + XXH_PRIME32_1 + XXH_PRIME32_2
    let v2 := seed + XXH_PRIME32_2
    let v3 := seed + 0
    let v4 := seed - XXH_PRIME32_1
    let (i, v) ← XXH32_loop cfg x aligned b (limit - input) (len + 1) 0 ⟨v1, v2, v3, v4⟩
    let h32 := XXH_rotl32 v.x0 1 + XXH_rotl32 v.x1 7 + XXH_rotl32 v.x2 12 + XXH_rotl32 v.x3 18
    XXH32_finalize cfg x aligned (h32 + BitVec.ofNat 32 len) b i (len &&& 15)
  else do
    let h32 := seed + XXH_PRIME32_5
    XXH32_finalize cfg x aligned (h32 + BitVec.ofNat 32 len) b 0 (len &&& 15)

/-- `XXH32` (tests/xxhash/xxhash.h:1365-1383) -/
def XXH32 (cfg : Cfg) (x : Xxh) (input len : Nat) (seed : U32) : M U32 :=
  if x.alignCheck && input % 4 == 0 then XXH32_endian_align cfg x true input len seed
  else XXH32_endian_align cfg x false input len seed

/-- `XXH_32` (tests/xxhash/xxh_thunk.c:31-33) -/
def thunk_XXH_32 (cfg : Cfg) (x : Xxh) (input len : Nat) (seed : U64) : M U64 := do
  let h ← XXH32 cfg x input len (seed.setWidth 32)
  pure (h.setWidth 64)

/-- `XXH32_state_t` (tests/xxhash/xxhash.h:397-407); `mem32` as its 16 bytes, without `reserved` -/
structure XXH32_state where
  total_len_32 : U32
  large_len : U32
  v1 : U32
  v2 : U32
  v3 : U32
  v4 : U32
  mem32 : List Byte
  memsize : U32

/-- `XXH_errorcode` (tests/xxhash/xxhash.h:233) -/
inductive XXH_errorcode
  | ok
  | error
  deriving DecidableEq, Repr

/-- `XXH32_reset` (tests/xxhash/xxhash.h:1404-1415) -/
def XXH32_reset (seed : U32) : XXH32_state where
  total_len_32 := 0
  large_len := 0
  v1 := seed + XXH_PRIME32_1 + XXH_PRIME32_2
  v2 := seed + XXH_PRIME32_2
  v3 := seed + 0
  v4 := seed - XXH_PRIME32_1
  mem32 := List.replicate 16 0
  memsize := 0

/-- The loop of `XXH32_update` (tests/xxhash/xxhash.h:1459-1464); `p` is `input + i`. -/
def XXH32_update_loop (cfg : Cfg) (x : Xxh) (input limit : Nat) : Nat → Nat → Quad32 → M (Nat × Quad32)
  | 0, _, _ => fail .diverge
  | fuel + 1, i, v => do
    iterate
    let v ← XXH32_stripe cfg (XXH_readLE32 cfg x) (.memory input) i v
    if input + (i + 16) ≤ limit then XXH32_update_loop cfg x input limit fuel (i + 16) v else pure (i + 16, v)

/-- "some data left from previous update" (tests/xxhash/xxhash.h:1440-1450): the new state, and how far `p` is from
`input` -/
def XXH32_update_fill (cfg : Cfg) (x : Xxh) (state : XXH32_state) (input : Nat) : M (XXH32_state × Nat) :=
  if state.memsize ≠ 0 then do
    let mem ← memcpyInto state.mem32 state.memsize.toNat input (16 - state.memsize).toNat
    let w1 ← XXH_readLE32 cfg x (.array mem) 0
    let w2 ← XXH_readLE32 cfg x (.array mem) 4
    let w3 ← XXH_readLE32 cfg x (.array mem) 8
    let w4 ← XXH_readLE32 cfg x (.array mem) 12
    let _ ← ptrAdd cfg input (16 - state.memsize).toNat
    pure ({ state with
      mem32 := mem
      v1 := XXH32_round state.v1 w1
      v2 := XXH32_round state.v2 w2
      v3 := XXH32_round state.v3 w3
      v4 := XXH32_round state.v4 w4
      memsize := 0 }, (16 - state.memsize).toNat)
  else pure (state, 0)

/-- `XXH32_update` (tests/xxhash/xxhash.h:1418-1479). A null pointer is address 0. -/
def XXH32_update (cfg : Cfg) (x : Xxh) (state : XXH32_state) (input len : Nat) : M (XXH32_state × XXH_errorcode) :=
  if input = 0 then pure (state, .error)
  else do
    let bEnd ← ptrAdd cfg input len
    let total := state.total_len_32 + BitVec.ofNat 32 len
    let state := { state with
      total_len_32 := total
      large_len := state.large_len ||| ((if 16 ≤ len then 1 else 0) ||| (if 16 ≤ total.toNat then 1 else 0)) }
    if szAdd cfg state.memsize.toNat len < 16 then do
      let mem ← memcpyInto state.mem32 state.memsize.toNat input len
      pure ({ state with mem32 := mem, memsize := state.memsize + BitVec.ofNat 32 len }, .ok)
    else do
      let (state, i) ← XXH32_update_fill cfg x state input
      let limit ← ptrSub cfg bEnd 16
      let (state, i) ← (if input + i ≤ limit then do
          let limit ← ptrSub cfg bEnd 16
          let (i, v) ← XXH32_update_loop cfg x input limit (len + 1) i ⟨state.v1, state.v2, state.v3, state.v4⟩
          pure ({ state with v1 := v.x0, v2 := v.x1, v3 := v.x2, v4 := v.x3 }, i)
        else pure (state, i))
      if input + i < bEnd then do
        let mem ← memcpyInto state.mem32 0 (input + i) (bEnd - (input + i))
        pure ({ state with mem32 := mem, memsize := BitVec.ofNat 32 (bEnd - (input + i)) }, .ok)
      else pure (state, .ok)

/-- `XXH32_digest` (tests/xxhash/xxhash.h:1482-1498) -/
def XXH32_digest (cfg : Cfg) (x : Xxh) (state : XXH32_state) : M U32 :=
  let h32 := if state.large_len ≠ 0 then
      XXH_rotl32 state.v1 1 + XXH_rotl32 state.v2 7 + XXH_rotl32 state.v3 12 + XXH_rotl32 state.v4 18
    else state.v3 + XXH_PRIME32_5
  let h32 := h32 + state.total_len_32
  XXH32_finalize cfg x true h32 (.array state.mem32) 0 state.memsize.toNat

/-- `XXH32_canonicalFromHash` (tests/xxhash/xxhash.h:1516-1521) -/
def XXH32_canonicalFromHash (cfg : Cfg) (x : Xxh) (dst : Nat) (hash : U32) : M Unit :=
  let hash := match cfg.endian with | .little => XXH_swap32 x hash | .big => hash
  store dst (cfg.endian.bytes 4 hash.toNat)

/-- `XXH32_hashFromCanonical` (tests/xxhash/xxhash.h:1523-1526) -/
def XXH32_hashFromCanonical (cfg : Cfg) (x : Xxh) (src : Nat) : M U32 := XXH_readBE32 cfg x (.memory src) 0

/-! ## XXH64 -/

/-- `XXH_PRIME64_1` to `XXH_PRIME64_5` (tests/xxhash/xxhash.h:1686-1690) -/
def XXH_PRIME64_1 : U64 := 0x9E3779B185EBCA87
@[inherit_doc XXH_PRIME64_1] def XXH_PRIME64_2 : U64 := 0xC2B2AE3D27D4EB4F
@[inherit_doc XXH_PRIME64_1] def XXH_PRIME64_3 : U64 := 0x165667B19E3779F9
@[inherit_doc XXH_PRIME64_1] def XXH_PRIME64_4 : U64 := 0x85EBCA77C2B2AE63
@[inherit_doc XXH_PRIME64_1] def XXH_PRIME64_5 : U64 := 0x27D4EB2F165667C5

/-- `XXH64_round` (tests/xxhash/xxhash.h:1700-1706) -/
def XXH64_round (acc input : U64) : U64 :=
  let acc := acc + input * XXH_PRIME64_2
  let acc := XXH_rotl64 acc 31
  acc * XXH_PRIME64_1

/-- `XXH64_mergeRound` (tests/xxhash/xxhash.h:1708-1714) -/
def XXH64_mergeRound (acc val : U64) : U64 :=
  let val := XXH64_round 0 val
  let acc := acc ^^^ val
  acc * XXH_PRIME64_1 + XXH_PRIME64_4

/-- `XXH64_avalanche` (tests/xxhash/xxhash.h:1716-1724) -/
def XXH64_avalanche (h64 : U64) : U64 :=
  let h64 := h64 ^^^ (h64 >>> 33)
  let h64 := h64 * XXH_PRIME64_2
  let h64 := h64 ^^^ (h64 >>> 29)
  let h64 := h64 * XXH_PRIME64_3
  h64 ^^^ (h64 >>> 32)

/-- `XXH_PROCESS1_64` (tests/xxhash/xxhash.h:1732-1735) -/
def XXH_PROCESS1_64 (cfg : Cfg) (b : Bytes) (s : Finalizing U64) : M (Finalizing U64) := do
  let byte ← b.byte s.i
  b.pointer cfg (s.i + 1)
  let h64 := s.h ^^^ (byte.setWidth 64 * XXH_PRIME64_5)
  pure { h := XXH_rotl64 h64 11 * XXH_PRIME64_1, i := s.i + 1 }

/-- `XXH_PROCESS4_64` (tests/xxhash/xxhash.h:1737-1741) -/
def XXH_PROCESS4_64 (cfg : Cfg) (x : Xxh) (aligned : Bool) (b : Bytes) (s : Finalizing U64) : M (Finalizing U64) := do
  let word ← XXH_readLE32_align cfg x aligned b s.i
  let h64 := s.h ^^^ (word.setWidth 64 * XXH_PRIME64_1)
  b.pointer cfg (s.i + 4)
  pure { h := XXH_rotl64 h64 23 * XXH_PRIME64_2 + XXH_PRIME64_3, i := s.i + 4 }

/-- `XXH_PROCESS8_64` (tests/xxhash/xxhash.h:1743-1748) -/
def XXH_PROCESS8_64 (cfg : Cfg) (x : Xxh) (aligned : Bool) (b : Bytes) (s : Finalizing U64) : M (Finalizing U64) := do
  let word ← XXH_readLE64_align cfg x aligned b s.i
  let k1 := XXH64_round 0 word
  b.pointer cfg (s.i + 8)
  let h64 := s.h ^^^ k1
  pure { h := XXH_rotl64 h64 27 * XXH_PRIME64_1 + XXH_PRIME64_4, i := s.i + 8 }

/-- `while (len >= 8) { XXH_PROCESS8_64; len -= 8; }` (tests/xxhash/xxhash.h:1753-1756): what is left of `len`, too -/
def finalize64_words (cfg : Cfg) (x : Xxh) (aligned : Bool) (b : Bytes) (len : Nat) (s : Finalizing U64) :
    M (Nat × Finalizing U64) :=
  if 8 ≤ len then do
    iterate
    let s ← XXH_PROCESS8_64 cfg x aligned b s
    finalize64_words cfg x aligned b (len - 8) s
  else pure (len, s)
termination_by len

/-- `while (len > 0) { XXH_PROCESS1_64; --len; }` (tests/xxhash/xxhash.h:1761-1764) -/
def finalize64_bytes (cfg : Cfg) (b : Bytes) : Nat → Finalizing U64 → M (Finalizing U64)
  | 0, s => pure s
  | len + 1, s => do
    iterate
    let s ← XXH_PROCESS1_64 cfg b s
    finalize64_bytes cfg b len s

/-- What the `switch` of `XXH64_finalize` does (tests/xxhash/xxhash.h:1767-1847): for each `case` (falling through to
the following ones), the sizes of the steps; 8, 4 and 1 stand for `XXH_PROCESS8_64`, `XXH_PROCESS4_64` and
`XXH_PROCESS1_64`. -/
def finalize64_case : Nat → Option (List Nat)
  | 24 => some [8, 8, 8]
  | 16 => some [8, 8]
  | 8 => some [8]
  | 28 => some [8, 8, 8, 4]
  | 20 => some [8, 8, 4]
  | 12 => some [8, 4]
  | 4 => some [4]
  | 25 => some [8, 8, 8, 1]
  | 17 => some [8, 8, 1]
  | 9 => some [8, 1]
  | 29 => some [8, 8, 8, 4, 1]
  | 21 => some [8, 8, 4, 1]
  | 13 => some [8, 4, 1]
  | 5 => some [4, 1]
  | 26 => some [8, 8, 8, 1, 1]
  | 18 => some [8, 8, 1, 1]
  | 10 => some [8, 1, 1]
  | 30 => some [8, 8, 8, 4, 1, 1]
  | 22 => some [8, 8, 4, 1, 1]
  | 14 => some [8, 4, 1, 1]
  | 6 => some [4, 1, 1]
  | 27 => some [8, 8, 8, 1, 1, 1]
  | 19 => some [8, 8, 1, 1, 1]
  | 11 => some [8, 1, 1, 1]
  | 31 => some [8, 8, 8, 4, 1, 1, 1]
  | 23 => some [8, 8, 4, 1, 1, 1]
  | 15 => some [8, 4, 1, 1, 1]
  | 7 => some [4, 1, 1, 1]
  | 3 => some [1, 1, 1]
  | 2 => some [1, 1]
  | 1 => some [1]
  | 0 => some []
  | _ => none

/-- The steps of a `case`. -/
def finalize64_steps (cfg : Cfg) (x : Xxh) (aligned : Bool) (b : Bytes) :
    List Nat → Finalizing U64 → M (Finalizing U64)
  | [], s => pure s
  | k :: ks, s => do
    let s ← (if k = 8 then XXH_PROCESS8_64 cfg x aligned b s
      else if k = 4 then XXH_PROCESS4_64 cfg x aligned b s else XXH_PROCESS1_64 cfg b s)
    finalize64_steps cfg x aligned b ks s

/-- `XXH64_finalize(h64, b + i, len, align)` (tests/xxhash/xxhash.h:1729-1852) -/
def XXH64_finalize (cfg : Cfg) (x : Xxh) (aligned : Bool) (h64 : U64) (b : Bytes) (i len : Nat) : M U64 :=
  if x.reroll || x.reroll64 then do
    let (len, s) ← finalize64_words cfg x aligned b (len &&& 31) ⟨h64, i⟩
    let (len, s) ← (if 4 ≤ len then do
        let s ← XXH_PROCESS4_64 cfg x aligned b s
        pure (len - 4, s)
      else pure (len, s))
    let s ← finalize64_bytes cfg b len s
    pure (XXH64_avalanche s.h)
  else
    match finalize64_case (len &&& 31) with
    | some steps => do
      let s ← finalize64_steps cfg x aligned b steps ⟨h64, i⟩
      pure (XXH64_avalanche s.h)
    | none => pure 0

/-- The four rounds of the loops of `XXH64_endian_align` and `XXH64_update` (tests/xxhash/xxhash.h:1885-1888,
1997-2000), at `b + i` -/
def XXH64_stripe (cfg : Cfg) (read : Bytes → Nat → M U64) (b : Bytes) (i : Nat) (v : Quad) : M Quad := do
  let w ← read b i
  let v1 := XXH64_round v.x0 w
  b.pointer cfg (i + 8)
  let w ← read b (i + 8)
  let v2 := XXH64_round v.x1 w
  b.pointer cfg (i + 16)
  let w ← read b (i + 16)
  let v3 := XXH64_round v.x2 w
  b.pointer cfg (i + 24)
  let w ← read b (i + 24)
  let v4 := XXH64_round v.x3 w
  b.pointer cfg (i + 32)
  pure ⟨v1, v2, v3, v4⟩

/-- The loop of `XXH64_endian_align` (tests/xxhash/xxhash.h:1884-1889); `limit` is relative to `input`. -/
def XXH64_loop (cfg : Cfg) (x : Xxh) (aligned : Bool) (b : Bytes) (limit : Nat) :
    Nat → Nat → Quad → M (Nat × Quad)
  | 0, _, _ => fail .diverge
  | fuel + 1, i, v => do
    iterate
    let v ← XXH64_stripe cfg (XXH_readLE64_align cfg x aligned) b i v
    if i + 32 ≤ limit then XXH64_loop cfg x aligned b limit fuel (i + 32) v else pure (i + 32, v)

/-- The end of the rounds (tests/xxhash/xxhash.h:1891-1895, 2029-2033) -/
def XXH64_converge (v : Quad) : U64 :=
  let h64 := XXH_rotl64 v.x0 1 + XXH_rotl64 v.x1 7 + XXH_rotl64 v.x2 12 + XXH_rotl64 v.x3 18
  let h64 := XXH64_mergeRound h64 v.x0
  let h64 := XXH64_mergeRound h64 v.x1
  let h64 := XXH64_mergeRound h64 v.x2
  XXH64_mergeRound h64 v.x3

/-- `XXH64_endian_align` (tests/xxhash/xxhash.h:1864-1904) -/
def XXH64_endian_align (cfg : Cfg) (x : Xxh) (aligned : Bool) (input len : Nat) (seed : U64) : M U64 := do
  let b := Bytes.memory input
  let bEnd ← ptrAdd cfg input len
  if 32 ≤ len then do
    let limit ← ptrSub cfg bEnd 32
    let v1 := seed + XXH_PRIME64_1 + XXH_PRIME64_2
    let v2 := seed + XXH_PRIME64_2
    let v3 := seed + 0
    let v4 := seed - XXH_PRIME64_1
    let (i, v) ← XXH64_loop cfg x aligned b (limit - input) (len + 1) 0 ⟨v1, v2, v3, v4⟩
    XXH64_finalize cfg x aligned (XXH64_converge v + BitVec.ofNat 64 len) b i len
  else do
    let h64 := seed + XXH_PRIME64_5
    XXH64_finalize cfg x aligned (h64 + BitVec.ofNat 64 len) b 0 len

/-- `XXH64` (tests/xxhash/xxhash.h:1907-1926) -/
def XXH64 (cfg : Cfg) (x : Xxh) (input len : Nat) (seed : U64) : M U64 :=
  if x.alignCheck && input % 8 == 0 then XXH64_endian_align cfg x true input len seed
  else XXH64_endian_align cfg x false input len seed

/-- `XXH_64` (tests/xxhash/xxh_thunk.c:35-37) -/
def thunk_XXH_64 (cfg : Cfg) (x : Xxh) (input len : Nat) (seed : U64) : M U64 := XXH64 cfg x input len seed

/-- `XXH64_state_t` (tests/xxhash/xxhash.h:412-422); `mem64` as its 32 bytes, without the reserved members -/
structure XXH64_state where
  total_len : U64
  v1 : U64
  v2 : U64
  v3 : U64
  v4 : U64
  mem64 : List Byte
  memsize : U32

/-- `XXH64_reset` (tests/xxhash/xxhash.h:1945-1956) -/
def XXH64_reset (seed : U64) : XXH64_state where
  total_len := 0
  v1 := seed + XXH_PRIME64_1 + XXH_PRIME64_2
  v2 := seed + XXH_PRIME64_2
  v3 := seed + 0
  v4 := seed - XXH_PRIME64_1
  mem64 := List.replicate 32 0
  memsize := 0

/-- The loop of `XXH64_update` (tests/xxhash/xxhash.h:1996-2001); `p` is `input + i`. -/
def XXH64_update_loop (cfg : Cfg) (x : Xxh) (input limit : Nat) : Nat → Nat → Quad → M (Nat × Quad)
  | 0, _, _ => fail .diverge
  | fuel + 1, i, v => do
    iterate
    let v ← XXH64_stripe cfg (XXH_readLE64 cfg x) (.memory input) i v
    if input + (i + 32) ≤ limit then XXH64_update_loop cfg x input limit fuel (i + 32) v else pure (i + 32, v)

/-- "tmp buffer is full" (tests/xxhash/xxhash.h:1979-1987): the new state, and how far `p` is from `input` -/
def XXH64_update_fill (cfg : Cfg) (x : Xxh) (state : XXH64_state) (input : Nat) : M (XXH64_state × Nat) :=
  if state.memsize ≠ 0 then do
    let mem ← memcpyInto state.mem64 state.memsize.toNat input (32 - state.memsize).toNat
    let w1 ← XXH_readLE64 cfg x (.array mem) 0
    let w2 ← XXH_readLE64 cfg x (.array mem) 8
    let w3 ← XXH_readLE64 cfg x (.array mem) 16
    let w4 ← XXH_readLE64 cfg x (.array mem) 24
    let _ ← ptrAdd cfg input (32 - state.memsize).toNat
    pure ({ state with
      mem64 := mem
      v1 := XXH64_round state.v1 w1
      v2 := XXH64_round state.v2 w2
      v3 := XXH64_round state.v3 w3
      v4 := XXH64_round state.v4 w4
      memsize := 0 }, (32 - state.memsize).toNat)
  else pure (state, 0)

/-- `XXH64_update` (tests/xxhash/xxhash.h:1958-2016). A null pointer is address 0. -/
def XXH64_update (cfg : Cfg) (x : Xxh) (state : XXH64_state) (input len : Nat) : M (XXH64_state × XXH_errorcode) :=
  if input = 0 then pure (state, .error)
  else do
    let bEnd ← ptrAdd cfg input len
    let state := { state with total_len := state.total_len + BitVec.ofNat 64 len }
    if szAdd cfg state.memsize.toNat len < 32 then do
      let mem ← memcpyInto state.mem64 state.memsize.toNat input len
      pure ({ state with mem64 := mem, memsize := state.memsize + BitVec.ofNat 32 len }, .ok)
    else do
      let (state, i) ← XXH64_update_fill cfg x state input
      let p32 ← ptrAdd cfg (input + i) 32
      let (state, i) ← (if p32 ≤ bEnd then do
          let limit ← ptrSub cfg bEnd 32
          let (i, v) ← XXH64_update_loop cfg x input limit (len + 1) i ⟨state.v1, state.v2, state.v3, state.v4⟩
          pure ({ state with v1 := v.x0, v2 := v.x1, v3 := v.x2, v4 := v.x3 }, i)
        else pure (state, i))
      if input + i < bEnd then do
        let mem ← memcpyInto state.mem64 0 (input + i) (bEnd - (input + i))
        pure ({ state with mem64 := mem, memsize := BitVec.ofNat 32 (bEnd - (input + i)) }, .ok)
      else pure (state, .ok)

/-- `XXH64_digest` (tests/xxhash/xxhash.h:2019-2041) -/
def XXH64_digest (cfg : Cfg) (x : Xxh) (state : XXH64_state) : M U64 :=
  let h64 := if 32 ≤ state.total_len.toNat then XXH64_converge ⟨state.v1, state.v2, state.v3, state.v4⟩
    else state.v3 + XXH_PRIME64_5
  let h64 := h64 + state.total_len
  XXH64_finalize cfg x true h64 (.array state.mem64) 0 (state.total_len.toNat % 2 ^ cfg.bits)

/-- `XXH64_canonicalFromHash` (tests/xxhash/xxhash.h:2046-2051) -/
def XXH64_canonicalFromHash (cfg : Cfg) (x : Xxh) (dst : Nat) (hash : U64) : M Unit :=
  let hash := match cfg.endian with | .little => XXH_swap64 x hash | .big => hash
  store dst (cfg.endian.bytes 8 hash.toNat)

/-- `XXH64_hashFromCanonical` (tests/xxhash/xxhash.h:2053-2056) -/
def XXH64_hashFromCanonical (cfg : Cfg) (x : Xxh) (src : Nat) : M U64 := XXH_readBE64 cfg x (.memory src) 0

end T1ha.Model
