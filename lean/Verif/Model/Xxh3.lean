import Verif.Model.Xxh3Vector

/-!
# tests/xxhash/xxh3.h: XXH3 with 64 and 128 bits

XXH3, which the test program measures, for all values of `XXH_VECTOR`. tests/xxhash/xxh_thunk.c compiles it with
`XXH_VECTOR` 0 (xxh_thunk.c:27), so that the scalar functions are used there; the functions for SSE2, AVX2, AVX512, NEON
and VSX are in `Verif/Model/Xxh3Vector.lean`.

Messages and secrets of the caller are read from memory. The default secret, secrets made from a seed, local arrays
and the state of incremental hashing are values: reading outside of them is `Err.fault`. Hence copying states
(xxh3.h:1913-1917) is not modelled, nor is a message which overlaps the state it is added to.

`XXH_ASSERT` is modelled except for the assertions on the alignment of arrays (xxh3.h:1462, 1477), on pointers to the
state, which is a value, and those which are true by the lines around them (1528).
-/

namespace T1ha.Model

/-- How XXH3 is compiled, apart from what is in `Cfg` and `Xxh`. -/
structure Xxh3 extends Xxh where
  /-- There is `__uint128_t` or `_umul128` (tests/xxhash/xxh3.h:542-567). -/
  wide : Bool
  /-- `XXH_PREFETCH_DIST` (tests/xxhash/xxh3.h:1598-1608): 320 or 384 unless defined by the user -/
  prefetch : Nat
  /-- `XXH_DEBUGLEVEL` is 1 or more and `NDEBUG` is not defined (tests/xxhash/xxhash.h:934-947). -/
  debug : Bool
  /-- `XXH_VECTOR` (tests/xxhash/xxh3.h:158-187), see `Xxh3.vectorOn` -/
  vector : XxhVector
  deriving DecidableEq, Repr

/-- The functions which are compiled (tests/xxhash/xxh3.h:168-187): there are no big-endian machines with SSE2, and NEON
is not used on big-endian ones. -/
def Xxh3.vectorOn (x : Xxh3) (e : Endian) : XxhVector :=
  match e, x.vector with
  | .little, v => v
  | .big, .vsx => .vsx
  | .big, _ => .scalar

/-- `XXH_ASSERT` (tests/xxhash/xxhash.h:942-947) -/
def XXH_ASSERT (x : Xxh3) (c : Bool) : M Unit := if x.debug && !c then fail .assertFail else pure ()

/-- Whether a pointer is null. -/
def Bytes.isNull : Bytes → Bool
  | .memory p => p == 0
  | .array _ => false

/-- `XXH_PREFETCH(b + i + XXH_PREFETCH_DIST)` (tests/xxhash/xxh3.h:444-455, 1625). Fetching memory ahead has no effect
which can be observed, but the pointer is computed. The arrays (of the state) are taken not to be at the end of the
address space. -/
def XXH_PREFETCH (cfg : Cfg) (x : Xxh3) : Bytes → Nat → M Unit
  | .memory p, i => do
    let _ ← ptrAdd cfg p (i + x.prefetch)
    pure ()
  | .array _, _ => pure ()

/-- `XXH3_kSecret` (tests/xxhash/xxh3.h:469-482) -/
def XXH3_kSecret : List Byte :=
  [0xb8, 0xfe, 0x6c, 0x39, 0x23, 0xa4, 0x4b, 0xbe, 0x7c, 0x01, 0x81, 0x2c, 0xf7, 0x21, 0xad, 0x1c,
   0xde, 0xd4, 0x6d, 0xe9, 0x83, 0x90, 0x97, 0xdb, 0x72, 0x40, 0xa4, 0xa4, 0xb7, 0xb3, 0x67, 0x1f,
   0xcb, 0x79, 0xe6, 0x4e, 0xcc, 0xc0, 0xe5, 0x78, 0x82, 0x5a, 0xd0, 0x7d, 0xcc, 0xff, 0x72, 0x21,
   0xb8, 0x08, 0x46, 0x74, 0xf7, 0x43, 0x24, 0x8e, 0xe0, 0x35, 0x90, 0xe6, 0x81, 0x3a, 0x26, 0x4c,
   0x3c, 0x28, 0x52, 0xbb, 0x91, 0xc3, 0x00, 0xcb, 0x88, 0xd0, 0x65, 0x8b, 0x1b, 0x53, 0x2e, 0xa3,
   0x71, 0x64, 0x48, 0x97, 0xa2, 0x0d, 0xf9, 0x4e, 0x38, 0x19, 0xef, 0x46, 0xa9, 0xde, 0xac, 0xd8,
   0xa8, 0xfa, 0x76, 0x3f, 0xe3, 0x9c, 0x34, 0x3f, 0xf9, 0xdc, 0xbb, 0xc7, 0xc7, 0x0b, 0x4f, 0x1d,
   0x8a, 0x51, 0xe0, 0x4b, 0xcd, 0xb4, 0x59, 0x31, 0xc8, 0x9f, 0x7e, 0xc9, 0xd9, 0x78, 0x73, 0x64,
   0xea, 0xc5, 0xac, 0x83, 0x34, 0xd3, 0xeb, 0xc3, 0xc5, 0x81, 0xa0, 0xff, 0xfa, 0x13, 0x63, 0xeb,
   0x17, 0x0d, 0xdd, 0x51, 0xb7, 0xf0, 0xda, 0x49, 0xd3, 0x16, 0x55, 0x26, 0x29, 0xd4, 0x68, 0x9e,
   0x2b, 0x16, 0xbe, 0x58, 0x7d, 0x47, 0xa1, 0xfc, 0x8f, 0xf8, 0xb8, 0xd1, 0x7a, 0xd0, 0x31, 0xce,
   0x45, 0xcb, 0x3a, 0x8f, 0x95, 0x16, 0x04, 0x28, 0xaf, 0xd7, 0xfb, 0xca, 0xbb, 0x4b, 0x40, 0x7e]

/-! ## Arithmetic -/

/-- `XXH_mult32to64` (tests/xxhash/xxh3.h:501-515). The intrinsic is taken to be right. -/
def XXH_mult32to64 (x y : U64) : U64 := (x.setWidth 32).setWidth 64 * (y.setWidth 32).setWidth 64

/-- `XXH_mult64to128` (tests/xxhash/xxh3.h:524-631). The intrinsic `_umul128` is taken to be right. -/
def XXH_mult64to128 (x : Xxh3) (lhs rhs : U64) : Hash128 :=
  if x.wide then
    let product : BitVec 128 := lhs.setWidth 128 * rhs.setWidth 128
    ⟨product.setWidth 64, (product >>> 64).setWidth 64⟩
  else
    let lo_lo := XXH_mult32to64 (lhs &&& 0xFFFFFFFF#64) (rhs &&& 0xFFFFFFFF#64)
    let hi_lo := XXH_mult32to64 (lhs >>> 32) (rhs &&& 0xFFFFFFFF#64)
    let lo_hi := XXH_mult32to64 (lhs &&& 0xFFFFFFFF#64) (rhs >>> 32)
    let hi_hi := XXH_mult32to64 (lhs >>> 32) (rhs >>> 32)
    let cross := (lo_lo >>> 32) + (hi_lo &&& 0xFFFFFFFF#64) + lo_hi
    let upper := (hi_lo >>> 32) + (cross >>> 32) + hi_hi
    let lower := (cross <<< 32) ||| (lo_lo &&& 0xFFFFFFFF#64)
    ⟨lower, upper⟩

/-- `XXH3_mul128_fold64` (tests/xxhash/xxh3.h:639-644) -/
def XXH3_mul128_fold64 (x : Xxh3) (lhs rhs : U64) : U64 :=
  let product := XXH_mult64to128 x lhs rhs
  product.low64 ^^^ product.high64

/-- `XXH_xorshift64` (tests/xxhash/xxh3.h:647-651) -/
def XXH_xorshift64 (v64 : U64) (shift : Nat) (_ : shift < 64 := by decide) : U64 := v64 ^^^ (v64 >>> shift)

/-- `XXH3_avalanche` (tests/xxhash/xxh3.h:657-663) -/
def XXH3_avalanche (h64 : U64) : U64 :=
  let h64 := XXH_xorshift64 h64 37
  let h64 := h64 * 0x165667919E3779F9
  XXH_xorshift64 h64 32

/-- `XXH3_rrmxmx` (tests/xxhash/xxh3.h:670-678) -/
def XXH3_rrmxmx (h64 len : U64) : U64 :=
  let h64 := h64 ^^^ (XXH_rotl64 h64 49 ^^^ XXH_rotl64 h64 24)
  let h64 := h64 * 0x9FB21C651E98DF25
  let h64 := h64 ^^^ ((h64 >>> 35) + len)
  let h64 := h64 * 0x9FB21C651E98DF25
  XXH_xorshift64 h64 28

/-! ## Short messages, 64 bits -/

/-- `combined` (tests/xxhash/xxh3.h:725-729) and `combinedl` (2203-2207) -/
def XXH3_combined (input : Bytes) (len : Nat) : M U32 := do
  let c1 ← input.byte 0
  let c2 ← input.byte (len >>> 1)
  let c3 ← input.byte (len - 1)
  pure ((c1.setWidth 32 <<< 16) ||| (c2.setWidth 32 <<< 24) ||| (c3.setWidth 32 <<< 0) ||| (BitVec.ofNat 32 len <<< 8))

/-- `XXH_readLE32(secret + j) ^ XXH_readLE32(secret + k)` (tests/xxhash/xxh3.h:730, 2209-2210) -/
def XXH3_flip32 (cfg : Cfg) (x : Xxh3) (secret : Bytes) (j k : Nat) : M U64 := do
  let a ← XXH_readLE32 cfg x.toXxh secret j
  let b ← XXH_readLE32 cfg x.toXxh secret k
  pure ((a ^^^ b).setWidth 64)

/-- `XXH_readLE64(secret + j) ^ XXH_readLE64(secret + k)` (tests/xxhash/xxh3.h:745, 758-759, 776, 2230, 2253-2254,
2330-2331) -/
def XXH3_flip64 (cfg : Cfg) (x : Xxh3) (secret : Bytes) (j k : Nat) : M U64 := do
  let a ← XXH_readLE64 cfg x.toXxh secret j
  let b ← XXH_readLE64 cfg x.toXxh secret k
  pure (a ^^^ b)

/-- `XXH3_len_1to3_64b` (tests/xxhash/xxh3.h:714-734) -/
def XXH3_len_1to3_64b (cfg : Cfg) (x : Xxh3) (input : Bytes) (len : Nat) (secret : Bytes) (seed : U64) : M U64 := do
  XXH_ASSERT x (!input.isNull)
  XXH_ASSERT x (1 ≤ len && len ≤ 3)
  XXH_ASSERT x (!secret.isNull)
  let combined ← XXH3_combined input len
  let flip ← XXH3_flip32 cfg x secret 0 4
  let bitflip := flip + seed
  let keyed := combined.setWidth 64 ^^^ bitflip
  pure (XXH64_avalanche keyed)

/-- The seed for 4 to 8 bytes (tests/xxhash/xxh3.h:742, 2226) -/
def XXH3_seed4to8 (x : Xxh3) (seed : U64) : U64 := seed ^^^ ((XXH_swap32 x.toXxh (seed.setWidth 32)).setWidth 64 <<< 32)

/-- `XXH3_len_4to8_64b` (tests/xxhash/xxh3.h:736-750). The last assertion is wrong: the function is called for 8
bytes. -/
def XXH3_len_4to8_64b (cfg : Cfg) (x : Xxh3) (input : Bytes) (len : Nat) (secret : Bytes) (seed : U64) : M U64 := do
  XXH_ASSERT x (!input.isNull)
  XXH_ASSERT x (!secret.isNull)
  XXH_ASSERT x (4 ≤ len && len < 8)
  let seed := XXH3_seed4to8 x seed
  let input1 ← XXH_readLE32 cfg x.toXxh input 0
  let input2 ← XXH_readLE32 cfg x.toXxh input (len - 4)
  let flip ← XXH3_flip64 cfg x secret 8 16
  let bitflip := flip - seed
  let input64 := input2.setWidth 64 + (input1.setWidth 64 <<< 32)
  let keyed := input64 ^^^ bitflip
  pure (XXH3_rrmxmx keyed (BitVec.ofNat 64 len))

/-- `XXH3_len_9to16_64b` (tests/xxhash/xxh3.h:752-767) -/
def XXH3_len_9to16_64b (cfg : Cfg) (x : Xxh3) (input : Bytes) (len : Nat) (secret : Bytes) (seed : U64) : M U64 := do
  XXH_ASSERT x (!input.isNull)
  XXH_ASSERT x (!secret.isNull)
  XXH_ASSERT x (8 ≤ len && len ≤ 16)
  let flip1 ← XXH3_flip64 cfg x secret 24 32
  let bitflip1 := flip1 + seed
  let flip2 ← XXH3_flip64 cfg x secret 40 48
  let bitflip2 := flip2 - seed
  let lo ← XXH_readLE64 cfg x.toXxh input 0
  let input_lo := lo ^^^ bitflip1
  let hi ← XXH_readLE64 cfg x.toXxh input (len - 8)
  let input_hi := hi ^^^ bitflip2
  let acc := BitVec.ofNat 64 len + XXH_swap64 x.toXxh input_lo + input_hi + XXH3_mul128_fold64 x input_lo input_hi
  pure (XXH3_avalanche acc)

/-- `XXH3_len_0to16_64b` (tests/xxhash/xxh3.h:769-778) -/
def XXH3_len_0to16_64b (cfg : Cfg) (x : Xxh3) (input : Bytes) (len : Nat) (secret : Bytes) (seed : U64) : M U64 := do
  XXH_ASSERT x (len ≤ 16)
  if 8 < len then XXH3_len_9to16_64b cfg x input len secret seed
  else if 4 ≤ len then XXH3_len_4to8_64b cfg x input len secret seed
  else if len ≠ 0 then XXH3_len_1to3_64b cfg x input len secret seed
  else do
    let flip ← XXH3_flip64 cfg x secret 56 64
    pure (XXH64_avalanche (seed ^^^ flip))

/-! ## Messages of 17 to 240 bytes, 64 bits -/

/-- `XXH3_mix16B(input + i, secret + j, seed64)` (tests/xxhash/xxh3.h:806-836) -/
def XXH3_mix16B (cfg : Cfg) (x : Xxh3) (input : Bytes) (i : Nat) (secret : Bytes) (j : Nat) (seed64 : U64) : M U64 := do
  let input_lo ← XXH_readLE64 cfg x.toXxh input i
  let input_hi ← XXH_readLE64 cfg x.toXxh input (i + 8)
  let secret_lo ← XXH_readLE64 cfg x.toXxh secret j
  let secret_hi ← XXH_readLE64 cfg x.toXxh secret (j + 8)
  pure (XXH3_mul128_fold64 x (input_lo ^^^ (secret_lo + seed64)) (input_hi ^^^ (secret_hi - seed64)))

/-- `acc += XXH3_mix16B(input + i, secret + j, seed); acc += XXH3_mix16B(input + len - k, secret + j + 16, seed);`
(tests/xxhash/xxh3.h:851-862) -/
def XXH3_mixEnds (cfg : Cfg) (x : Xxh3) (input : Bytes) (len : Nat) (secret : Bytes) (seed : U64) (i k j : Nat)
    (acc : U64) : M U64 := do
  let a ← XXH3_mix16B cfg x input i secret j seed
  let b ← XXH3_mix16B cfg x input (len - k) secret (j + 16) seed
  pure (acc + a + b)

/-- `XXH3_len_17to128_64b` (tests/xxhash/xxh3.h:839-866) -/
def XXH3_len_17to128_64b (cfg : Cfg) (x : Xxh3) (input : Bytes) (len : Nat) (secret : Bytes) (secretSize : Nat)
    (seed : U64) : M U64 := do
  XXH_ASSERT x (136 ≤ secretSize)
  XXH_ASSERT x (16 < len && len ≤ 128)
  let acc := BitVec.ofNat 64 len * XXH_PRIME64_1
  let acc ← (if 32 < len then do
      let acc ← (if 64 < len then do
          let acc ← (if 96 < len then XXH3_mixEnds cfg x input len secret seed 48 64 96 acc else pure acc)
          XXH3_mixEnds cfg x input len secret seed 32 48 64 acc
        else pure acc)
      XXH3_mixEnds cfg x input len secret seed 16 32 32 acc
    else pure acc)
  let acc ← XXH3_mixEnds cfg x input len secret seed 0 16 0 acc
  pure (XXH3_avalanche acc)

/-- The loops of `XXH3_len_129to240_64b` (tests/xxhash/xxh3.h:883-885, 912-914), with `todo` iterations left; `i` is
the position in the message, `j` that in the secret. -/
def XXH3_mixLoop (cfg : Cfg) (x : Xxh3) (input secret : Bytes) (seed : U64) : Nat → Nat → Nat → U64 → M U64
  | 0, _, _, acc => pure acc
  | todo + 1, i, j, acc => do
    iterate
    let a ← XXH3_mix16B cfg x input i secret j seed
    XXH3_mixLoop cfg x input secret seed todo (i + 16) (j + 16) (acc + a)

/-- `XXH3_len_129to240_64b` (tests/xxhash/xxh3.h:869-920) -/
def XXH3_len_129to240_64b (cfg : Cfg) (x : Xxh3) (input : Bytes) (len : Nat) (secret : Bytes) (secretSize : Nat)
    (seed : U64) : M U64 := do
  XXH_ASSERT x (136 ≤ secretSize)
  XXH_ASSERT x (128 < len && len ≤ 240)
  let acc := BitVec.ofNat 64 len * XXH_PRIME64_1
  let nbRounds := len / 16
  let acc ← XXH3_mixLoop cfg x input secret seed 8 0 0 acc
  let acc := XXH3_avalanche acc
  XXH_ASSERT x (8 ≤ nbRounds)
  let acc ← XXH3_mixLoop cfg x input secret seed (nbRounds - 8) (16 * 8) 3 acc
  let a ← XXH3_mix16B cfg x input (len - 16) secret (136 - 17) seed
  pure (XXH3_avalanche (acc + a))

/-! ## Long messages -/

/-- An iteration of the loop of `XXH3_accumulate_512_scalar` (tests/xxhash/xxh3.h:1464-1467) -/
def XXH3_accumulate_lane (cfg : Cfg) (x : Xxh3) (input : Bytes) (i : Nat) (secret : Bytes) (j : Nat) (acc : Lanes)
    (k : Fin 8) : M Lanes := do
  let data_val ← XXH_readLE64 cfg x.toXxh input (i + 8 * k)
  let key ← XXH_readLE64 cfg x.toXxh secret (j + k * 8)
  let data_key := data_val ^^^ key
  let acc := setLane acc (k ^^^ 1) (acc (k ^^^ 1) + data_val)
  pure (setLane acc k (acc k + XXH_mult32to64 (data_key &&& 0xFFFFFFFF#64) (data_key >>> 32)))

/-- `XXH3_accumulate_512_scalar(acc, input + i, secret + j)` (tests/xxhash/xxh3.h:1453-1469) -/
def XXH3_accumulate_512_scalar (cfg : Cfg) (x : Xxh3) (acc : Lanes) (input : Bytes) (i : Nat) (secret : Bytes) (j : Nat) :
    M Lanes :=
  [0, 1, 2, 3, 4, 5, 6, 7].foldlM (XXH3_accumulate_lane cfg x input i secret j) acc

/-- `XXH3_scrambleAcc_scalar(acc, secret + j)` (tests/xxhash/xxh3.h:1471-1486) -/
def XXH3_scrambleAcc_scalar (cfg : Cfg) (x : Xxh3) (acc : Lanes) (secret : Bytes) (j : Nat) : M Lanes :=
  [0, 1, 2, 3, 4, 5, 6, 7].foldlM (fun (acc : Lanes) (k : Fin 8) => do
    let key64 ← XXH_readLE64 cfg x.toXxh secret (j + 8 * k)
    let acc64 := acc k
    let acc64 := XXH_xorshift64 acc64 47
    let acc64 := acc64 ^^^ key64
    let acc64 := acc64 * XXH_PRIME32_1.setWidth 64
    pure (setLane acc k acc64)) acc

/-- `XXH_writeLE64` (tests/xxhash/xxh3.h:934-938): the bytes which are written -/
def XXH_writeLE64 (cfg : Cfg) (x : Xxh3) (v64 : U64) : List Byte :=
  cfg.endian.bytes 8 (match cfg.endian with | .little => v64 | .big => XXH_swap64 x.toXxh v64).toNat

/-- `XXH3_initCustomSecret_scalar` (tests/xxhash/xxh3.h:1488-1548): the secret, which is written from its beginning to
its end -/
def XXH3_initCustomSecret_scalar (cfg : Cfg) (x : Xxh3) (seed64 : U64) : M (List Byte) :=
  (List.range 12).foldlM (fun customSecret i => do
    let lo ← XXH_readLE64 cfg x.toXxh (.array XXH3_kSecret) (16 * i)
    let hi ← XXH_readLE64 cfg x.toXxh (.array XXH3_kSecret) (16 * i + 8)
    pure (customSecret ++ XXH_writeLE64 cfg x (lo + seed64) ++ XXH_writeLE64 cfg x (hi - seed64))) []

/-- `XXH3_accumulate_512(acc, input + i, secret + j)` (tests/xxhash/xxh3.h:1558-1594) -/
def XXH3_accumulate_512 (cfg : Cfg) (x : Xxh3) (acc : Lanes) (input : Bytes) (i : Nat) (secret : Bytes) (j : Nat) :
    M Lanes :=
  match x.vectorOn cfg.endian with
  | .scalar => XXH3_accumulate_512_scalar cfg x acc input i secret j
  | .sse2 => XXH3_accumulate_512_sse2 acc input i secret j
  | .avx2 => XXH3_accumulate_512_avx2 acc input i secret j
  | .avx512 => XXH3_accumulate_512_avx512 acc input i secret j
  | .neon vzip => XXH3_accumulate_512_neon vzip acc input i secret j
  | .vsx => XXH3_accumulate_512_vsx cfg.endian acc input i secret j

/-- `XXH3_scrambleAcc(acc, secret + j)` (tests/xxhash/xxh3.h:1558-1594) -/
def XXH3_scrambleAcc (cfg : Cfg) (x : Xxh3) (acc : Lanes) (secret : Bytes) (j : Nat) : M Lanes :=
  match x.vectorOn cfg.endian with
  | .scalar => XXH3_scrambleAcc_scalar cfg x acc secret j
  | .sse2 => XXH3_scrambleAcc_sse2 acc secret j
  | .avx2 => XXH3_scrambleAcc_avx2 acc secret j
  | .avx512 => XXH3_scrambleAcc_avx512 acc secret j
  | .neon vzip => XXH3_scrambleAcc_neon vzip acc secret j
  | .vsx => XXH3_scrambleAcc_vsx cfg.endian acc secret j

/-- `XXH3_initCustomSecret` (tests/xxhash/xxh3.h:1558-1594) -/
def XXH3_initCustomSecret (cfg : Cfg) (x : Xxh3) (seed64 : U64) : M (List Byte) :=
  match x.vectorOn cfg.endian with
  | .sse2 => XXH3_initCustomSecret_sse2 XXH3_kSecret seed64
  | .avx2 => XXH3_initCustomSecret_avx2 XXH3_kSecret seed64
  | .avx512 => XXH3_initCustomSecret_avx512 XXH3_kSecret seed64
  | _ => XXH3_initCustomSecret_scalar cfg x seed64

/-- `XXH3_accumulate(acc, input + i, secret + j, nbStripes)` (tests/xxhash/xxh3.h:1615-1630), with `todo` iterations
left: `i` and `j` go on. -/
def XXH3_accumulate (cfg : Cfg) (x : Xxh3) (input secret : Bytes) : Nat → Nat → Nat → Lanes → M Lanes
  | 0, _, _, acc => pure acc
  | todo + 1, i, j, acc => do
    iterate
    XXH_PREFETCH cfg x input i
    let acc ← XXH3_accumulate_512 cfg x acc input i secret j
    XXH3_accumulate cfg x input secret todo (i + 64) (j + 8) acc

/-- The loop over the blocks (tests/xxhash/xxh3.h:1647-1650), with `todo` iterations left; `i` is the position in the
message. -/
def XXH3_hashLong_blocks (cfg : Cfg) (x : Xxh3) (input secret : Bytes) (secretSize nbStripesPerBlock block_len : Nat) :
    Nat → Nat → Lanes → M Lanes
  | 0, _, acc => pure acc
  | todo + 1, i, acc => do
    iterate
    let acc ← XXH3_accumulate cfg x input secret nbStripesPerBlock i 0 acc
    let acc ← XXH3_scrambleAcc cfg x acc secret (secretSize - 64)
    XXH3_hashLong_blocks cfg x input secret secretSize nbStripesPerBlock block_len todo (i + block_len) acc

/-- `XXH3_hashLong_internal_loop` (tests/xxhash/xxh3.h:1632-1663), for secrets of at least 71 bytes -/
def XXH3_hashLong_internal_loop (cfg : Cfg) (x : Xxh3) (acc : Lanes) (input : Bytes) (len : Nat) (secret : Bytes)
    (secretSize : Nat) : M Lanes :=
  let nbStripesPerBlock := (secretSize - 64) / 8
  let block_len := 64 * nbStripesPerBlock % 2 ^ cfg.bits
  if block_len = 0 then fail .divideByZero
  else do
    let nb_blocks := (len - 1) / block_len
    XXH_ASSERT x (136 ≤ secretSize)
    let acc ← XXH3_hashLong_blocks cfg x input secret secretSize nbStripesPerBlock block_len nb_blocks 0 acc
    XXH_ASSERT x (64 < len)
    let nbStripes := ((len - 1) - block_len * nb_blocks) / 64
    XXH_ASSERT x (nbStripes ≤ secretSize / 8)
    let acc ← XXH3_accumulate cfg x input secret nbStripes (nb_blocks * block_len) 0 acc
    XXH3_accumulate_512 cfg x acc input (len - 64) secret (secretSize - 64 - 7)

/-- `XXH3_mix2Accs(acc + 2 * i, secret + j)` (tests/xxhash/xxh3.h:1665-1671), with the two numbers -/
def XXH3_mix2Accs (cfg : Cfg) (x : Xxh3) (acc0 acc1 : U64) (secret : Bytes) (j : Nat) : M U64 := do
  let a ← XXH_readLE64 cfg x.toXxh secret j
  let b ← XXH_readLE64 cfg x.toXxh secret (j + 8)
  pure (XXH3_mul128_fold64 x (acc0 ^^^ a) (acc1 ^^^ b))

/-- `XXH3_mergeAccs(acc, secret + j, start)` (tests/xxhash/xxh3.h:1673-1698); the loop is unrolled -/
def XXH3_mergeAccs (cfg : Cfg) (x : Xxh3) (acc : Lanes) (secret : Bytes) (j : Nat) (start : U64) : M U64 := do
  let a ← XXH3_mix2Accs cfg x (acc 0) (acc 1) secret j
  let b ← XXH3_mix2Accs cfg x (acc 2) (acc 3) secret (j + 16 * 1)
  let c ← XXH3_mix2Accs cfg x (acc 4) (acc 5) secret (j + 16 * 2)
  let d ← XXH3_mix2Accs cfg x (acc 6) (acc 7) secret (j + 16 * 3)
  pure (XXH3_avalanche (start + a + b + c + d))

/-- `XXH3_INIT_ACC` (tests/xxhash/xxh3.h:1700-1701) -/
def XXH3_INIT_ACC : Lanes := fun i =>
  [XXH_PRIME32_3.setWidth 64, XXH_PRIME64_1, XXH_PRIME64_2, XXH_PRIME64_3, XXH_PRIME64_4, XXH_PRIME32_2.setWidth 64,
    XXH_PRIME64_5, XXH_PRIME32_1.setWidth 64].getD i 0

/-- `XXH3_hashLong_64b_internal` (tests/xxhash/xxh3.h:1703-1719) -/
def XXH3_hashLong_64b_internal (cfg : Cfg) (x : Xxh3) (input : Bytes) (len : Nat) (secret : Bytes) (secretSize : Nat) :
    M U64 := do
  let acc ← XXH3_hashLong_internal_loop cfg x XXH3_INIT_ACC input len secret secretSize
  XXH_ASSERT x (64 + 11 ≤ secretSize)
  XXH3_mergeAccs cfg x acc secret 11 (BitVec.ofNat 64 len * XXH_PRIME64_1)

/-- `XXH3_hashLong_64b_withSecret` (tests/xxhash/xxh3.h:1724-1730) -/
def XXH3_hashLong_64b_withSecret (cfg : Cfg) (x : Xxh3) (input : Bytes) (len : Nat) (_seed64 : U64) (secret : Bytes)
    (secretLen : Nat) : M U64 :=
  XXH3_hashLong_64b_internal cfg x input len secret secretLen

/-- `XXH3_hashLong_64b_default` (tests/xxhash/xxh3.h:1739-1745) -/
def XXH3_hashLong_64b_default (cfg : Cfg) (x : Xxh3) (input : Bytes) (len : Nat) (_seed64 : U64) (_secret : Bytes)
    (_secretLen : Nat) : M U64 :=
  XXH3_hashLong_64b_internal cfg x input len (.array XXH3_kSecret) 192

/-- `XXH3_hashLong_64b_withSeed` (tests/xxhash/xxh3.h:1779-1786) and `XXH3_hashLong_64b_withSeed_internal`
(1758-1774) -/
def XXH3_hashLong_64b_withSeed (cfg : Cfg) (x : Xxh3) (input : Bytes) (len : Nat) (seed : U64) (_secret : Bytes)
    (_secretLen : Nat) : M U64 :=
  if seed = 0 then XXH3_hashLong_64b_internal cfg x input len (.array XXH3_kSecret) 192
  else do
    let secret ← XXH3_initCustomSecret cfg x seed
    XXH3_hashLong_64b_internal cfg x input len (.array secret) 192

/-- `XXH3_64bits_internal` (tests/xxhash/xxh3.h:1792-1812) -/
def XXH3_64bits_internal (cfg : Cfg) (x : Xxh3) (input : Bytes) (len : Nat) (seed64 : U64) (secret : Bytes)
    (secretLen : Nat) (f_hashLong : Bytes → Nat → U64 → Bytes → Nat → M U64) : M U64 := do
  XXH_ASSERT x (136 ≤ secretLen)
  if len ≤ 16 then XXH3_len_0to16_64b cfg x input len secret seed64
  else if len ≤ 128 then XXH3_len_17to128_64b cfg x input len secret secretLen seed64
  else if len ≤ 240 then XXH3_len_129to240_64b cfg x input len secret secretLen seed64
  else f_hashLong input len seed64 secret secretLen

/-- `XXH3_64bits` (tests/xxhash/xxh3.h:1817-1820) -/
def XXH3_64bits (cfg : Cfg) (x : Xxh3) (input : Bytes) (len : Nat) : M U64 :=
  XXH3_64bits_internal cfg x input len 0 (.array XXH3_kSecret) 192 (XXH3_hashLong_64b_default cfg x)

/-- `XXH3_64bits_withSecret` (tests/xxhash/xxh3.h:1822-1826) -/
def XXH3_64bits_withSecret (cfg : Cfg) (x : Xxh3) (input : Bytes) (len : Nat) (secret : Bytes) (secretSize : Nat) :
    M U64 :=
  XXH3_64bits_internal cfg x input len 0 secret secretSize (XXH3_hashLong_64b_withSecret cfg x)

/-- `XXH3_64bits_withSeed` (tests/xxhash/xxh3.h:1828-1832) -/
def XXH3_64bits_withSeed (cfg : Cfg) (x : Xxh3) (input : Bytes) (len : Nat) (seed : U64) : M U64 :=
  XXH3_64bits_internal cfg x input len seed (.array XXH3_kSecret) 192 (XXH3_hashLong_64b_withSeed cfg x)

/-- `thunk_XXH3_64` (tests/xxhash/xxh_thunk.c:40-42) -/
def thunk_XXH3_64 (cfg : Cfg) (x : Xxh3) (input len : Nat) (seed : U64) : M U64 :=
  XXH3_64bits_withSeed cfg x (.memory input) len seed

/-! ## Short messages, 128 bits -/

/-- `XXH3_len_1to3_128b` (tests/xxhash/xxh3.h:2191-2218) -/
def XXH3_len_1to3_128b (cfg : Cfg) (x : Xxh3) (input : Bytes) (len : Nat) (secret : Bytes) (seed : U64) :
    M Hash128 := do
  XXH_ASSERT x (!input.isNull)
  XXH_ASSERT x (1 ≤ len && len ≤ 3)
  XXH_ASSERT x (!secret.isNull)
  let combinedl ← XXH3_combined input len
  let combinedh := XXH_rotl32 (XXH_swap32 x.toXxh combinedl) 13
  let flipl ← XXH3_flip32 cfg x secret 0 4
  let bitflipl := flipl + seed
  let fliph ← XXH3_flip32 cfg x secret 8 12
  let bitfliph := fliph - seed
  let keyed_lo := combinedl.setWidth 64 ^^^ bitflipl
  let keyed_hi := combinedh.setWidth 64 ^^^ bitfliph
  pure ⟨XXH64_avalanche keyed_lo, XXH64_avalanche keyed_hi⟩

/-- `XXH3_len_4to8_128b` (tests/xxhash/xxh3.h:2220-2245) -/
def XXH3_len_4to8_128b (cfg : Cfg) (x : Xxh3) (input : Bytes) (len : Nat) (secret : Bytes) (seed : U64) :
    M Hash128 := do
  XXH_ASSERT x (!input.isNull)
  XXH_ASSERT x (!secret.isNull)
  XXH_ASSERT x (4 ≤ len && len ≤ 8)
  let seed := XXH3_seed4to8 x seed
  let input_lo ← XXH_readLE32 cfg x.toXxh input 0
  let input_hi ← XXH_readLE32 cfg x.toXxh input (len - 4)
  let input_64 := input_lo.setWidth 64 + (input_hi.setWidth 64 <<< 32)
  let flip ← XXH3_flip64 cfg x secret 16 24
  let bitflip := flip + seed
  let keyed := input_64 ^^^ bitflip
  let m128 := XXH_mult64to128 x keyed (XXH_PRIME64_1 + BitVec.ofNat 64 (len <<< 2))
  let high64 := m128.high64 + (m128.low64 <<< 1)
  let low64 := m128.low64 ^^^ (high64 >>> 3)
  let low64 := XXH_xorshift64 low64 35
  let low64 := low64 * 0x9FB21C651E98DF25
  let low64 := XXH_xorshift64 low64 28
  pure ⟨low64, XXH3_avalanche high64⟩

/-- `XXH3_len_9to16_128b` (tests/xxhash/xxh3.h:2247-2317) -/
def XXH3_len_9to16_128b (cfg : Cfg) (x : Xxh3) (input : Bytes) (len : Nat) (secret : Bytes) (seed : U64) :
    M Hash128 := do
  XXH_ASSERT x (!input.isNull)
  XXH_ASSERT x (!secret.isNull)
  XXH_ASSERT x (9 ≤ len && len ≤ 16)
  let flipl ← XXH3_flip64 cfg x secret 32 40
  let bitflipl := flipl - seed
  let fliph ← XXH3_flip64 cfg x secret 48 56
  let bitfliph := fliph + seed
  let input_lo ← XXH_readLE64 cfg x.toXxh input 0
  let input_hi ← XXH_readLE64 cfg x.toXxh input (len - 8)
  let m128 := XXH_mult64to128 x (input_lo ^^^ input_hi ^^^ bitflipl) XXH_PRIME64_1
  let low64 := m128.low64 + (BitVec.ofNat 64 (len - 1) <<< 54)
  let input_hi := input_hi ^^^ bitfliph
  let high64 := m128.high64 + (if cfg.bits / 8 < 8 then
      (input_hi &&& 0xFFFFFFFF00000000#64) + XXH_mult32to64 ((input_hi.setWidth 32).setWidth 64) (XXH_PRIME32_2.setWidth 64)
    else input_hi + XXH_mult32to64 ((input_hi.setWidth 32).setWidth 64) ((XXH_PRIME32_2 - 1).setWidth 64))
  let low64 := low64 ^^^ XXH_swap64 x.toXxh high64
  let h128 := XXH_mult64to128 x low64 XXH_PRIME64_2
  pure ⟨XXH3_avalanche h128.low64, XXH3_avalanche (h128.high64 + high64 * XXH_PRIME64_2)⟩

/-- `XXH3_len_0to16_128b` (tests/xxhash/xxh3.h:2322-2336) -/
def XXH3_len_0to16_128b (cfg : Cfg) (x : Xxh3) (input : Bytes) (len : Nat) (secret : Bytes) (seed : U64) :
    M Hash128 := do
  XXH_ASSERT x (len ≤ 16)
  if 8 < len then XXH3_len_9to16_128b cfg x input len secret seed
  else if 4 ≤ len then XXH3_len_4to8_128b cfg x input len secret seed
  else if len ≠ 0 then XXH3_len_1to3_128b cfg x input len secret seed
  else do
    let bitflipl ← XXH3_flip64 cfg x secret 64 72
    let bitfliph ← XXH3_flip64 cfg x secret 80 88
    pure ⟨XXH64_avalanche (seed ^^^ bitflipl), XXH64_avalanche (seed ^^^ bitfliph)⟩

/-! ## Messages of 17 to 240 bytes, 128 bits -/

/-- `XXH128_mix32B(acc, input + i, input + k, secret + j, seed)` (tests/xxhash/xxh3.h:2341-2350) -/
def XXH128_mix32B (cfg : Cfg) (x : Xxh3) (input secret : Bytes) (acc : Hash128) (i k j : Nat) (seed : U64) :
    M Hash128 := do
  let a ← XXH3_mix16B cfg x input i secret j seed
  let low64 := acc.low64 + a
  let b0 ← XXH_readLE64 cfg x.toXxh input k
  let b1 ← XXH_readLE64 cfg x.toXxh input (k + 8)
  let low64 := low64 ^^^ (b0 + b1)
  let c ← XXH3_mix16B cfg x input k secret (j + 16) seed
  let high64 := acc.high64 + c
  let d0 ← XXH_readLE64 cfg x.toXxh input i
  let d1 ← XXH_readLE64 cfg x.toXxh input (i + 8)
  let high64 := high64 ^^^ (d0 + d1)
  pure ⟨low64, high64⟩

/-- What follows the loops (tests/xxhash/xxh3.h:2374-2382, 2423-2431) -/
def XXH3_final128 (len : Nat) (seed : U64) (acc : Hash128) : Hash128 :=
  let low64 := acc.low64 + acc.high64
  let high64 := (acc.low64 * XXH_PRIME64_1) + (acc.high64 * XXH_PRIME64_4) +
    ((BitVec.ofNat 64 len - seed) * XXH_PRIME64_2)
  ⟨XXH3_avalanche low64, 0 - XXH3_avalanche high64⟩

/-- `XXH3_len_17to128_128b` (tests/xxhash/xxh3.h:2353-2384) -/
def XXH3_len_17to128_128b (cfg : Cfg) (x : Xxh3) (input : Bytes) (len : Nat) (secret : Bytes) (secretSize : Nat)
    (seed : U64) : M Hash128 := do
  XXH_ASSERT x (136 ≤ secretSize)
  XXH_ASSERT x (16 < len && len ≤ 128)
  let acc : Hash128 := ⟨BitVec.ofNat 64 len * XXH_PRIME64_1, 0⟩
  let acc ← (if 32 < len then do
      let acc ← (if 64 < len then do
          let acc ← (if 96 < len then XXH128_mix32B cfg x input secret acc 48 (len - 64) 96 seed else pure acc)
          XXH128_mix32B cfg x input secret acc 32 (len - 48) 64 seed
        else pure acc)
      XXH128_mix32B cfg x input secret acc 16 (len - 32) 32 seed
    else pure acc)
  let acc ← XXH128_mix32B cfg x input secret acc 0 (len - 16) 0 seed
  pure (XXH3_final128 len seed acc)

/-- The loops of `XXH3_len_129to240_128b` (tests/xxhash/xxh3.h:2399-2405, 2409-2415), with `todo` iterations left; `i`
is the position in the message, `j` that in the secret. -/
def XXH128_mixLoop (cfg : Cfg) (x : Xxh3) (input secret : Bytes) (seed : U64) : Nat → Nat → Nat → Hash128 → M Hash128
  | 0, _, _, acc => pure acc
  | todo + 1, i, j, acc => do
    iterate
    let acc ← XXH128_mix32B cfg x input secret acc i (i + 16) j seed
    XXH128_mixLoop cfg x input secret seed todo (i + 32) (j + 32) acc

/-- `XXH3_len_129to240_128b` (tests/xxhash/xxh3.h:2386-2433) -/
def XXH3_len_129to240_128b (cfg : Cfg) (x : Xxh3) (input : Bytes) (len : Nat) (secret : Bytes) (secretSize : Nat)
    (seed : U64) : M Hash128 := do
  XXH_ASSERT x (136 ≤ secretSize)
  XXH_ASSERT x (128 < len && len ≤ 240)
  let nbRounds := len / 32
  let acc ← XXH128_mixLoop cfg x input secret seed 4 0 0 ⟨BitVec.ofNat 64 len * XXH_PRIME64_1, 0⟩
  let acc : Hash128 := ⟨XXH3_avalanche acc.low64, XXH3_avalanche acc.high64⟩
  XXH_ASSERT x (4 ≤ nbRounds)
  let acc ← XXH128_mixLoop cfg x input secret seed (nbRounds - 4) (32 * 4) 3 acc
  let acc ← XXH128_mix32B cfg x input secret acc (len - 16) (len - 32) (136 - 17 - 16) (0 - seed)
  pure (XXH3_final128 len seed acc)

/-! ## Long messages, 128 bits -/

/-- `XXH3_hashLong_128b_internal` (tests/xxhash/xxh3.h:2435-2458) -/
def XXH3_hashLong_128b_internal (cfg : Cfg) (x : Xxh3) (input : Bytes) (len : Nat) (secret : Bytes) (secretSize : Nat) :
    M Hash128 := do
  let acc ← XXH3_hashLong_internal_loop cfg x XXH3_INIT_ACC input len secret secretSize
  XXH_ASSERT x (64 + 11 ≤ secretSize)
  let low64 ← XXH3_mergeAccs cfg x acc secret 11 (BitVec.ofNat 64 len * XXH_PRIME64_1)
  let high64 ← XXH3_mergeAccs cfg x acc secret (secretSize - 64 - 11) (~~~(BitVec.ofNat 64 len * XXH_PRIME64_2))
  pure ⟨low64, high64⟩

/-- `XXH3_hashLong_128b_default` (tests/xxhash/xxh3.h:2463-2471) -/
def XXH3_hashLong_128b_default (cfg : Cfg) (x : Xxh3) (input : Bytes) (len : Nat) (_seed64 : U64) (_secret : Bytes)
    (_secretLen : Nat) : M Hash128 :=
  XXH3_hashLong_128b_internal cfg x input len (.array XXH3_kSecret) 192

/-- `XXH3_hashLong_128b_withSecret` (tests/xxhash/xxh3.h:2476-2484) -/
def XXH3_hashLong_128b_withSecret (cfg : Cfg) (x : Xxh3) (input : Bytes) (len : Nat) (_seed64 : U64) (secret : Bytes)
    (secretLen : Nat) : M Hash128 :=
  XXH3_hashLong_128b_internal cfg x input len secret secretLen

/-- `XXH3_hashLong_128b_withSeed` (tests/xxhash/xxh3.h:2507-2514) and `XXH3_hashLong_128b_withSeed_internal`
(2486-2502) -/
def XXH3_hashLong_128b_withSeed (cfg : Cfg) (x : Xxh3) (input : Bytes) (len : Nat) (seed64 : U64) (_secret : Bytes)
    (_secretLen : Nat) : M Hash128 :=
  if seed64 = 0 then XXH3_hashLong_128b_internal cfg x input len (.array XXH3_kSecret) 192
  else do
    let secret ← XXH3_initCustomSecret cfg x seed64
    XXH3_hashLong_128b_internal cfg x input len (.array secret) 192

/-- `XXH3_128bits_internal` (tests/xxhash/xxh3.h:2519-2538) -/
def XXH3_128bits_internal (cfg : Cfg) (x : Xxh3) (input : Bytes) (len : Nat) (seed64 : U64) (secret : Bytes)
    (secretLen : Nat) (f_hl128 : Bytes → Nat → U64 → Bytes → Nat → M Hash128) : M Hash128 := do
  XXH_ASSERT x (136 ≤ secretLen)
  if len ≤ 16 then XXH3_len_0to16_128b cfg x input len secret seed64
  else if len ≤ 128 then XXH3_len_17to128_128b cfg x input len secret secretLen seed64
  else if len ≤ 240 then XXH3_len_129to240_128b cfg x input len secret secretLen seed64
  else f_hl128 input len seed64 secret secretLen

/-- `XXH3_128bits` (tests/xxhash/xxh3.h:2543-2548) -/
def XXH3_128bits (cfg : Cfg) (x : Xxh3) (input : Bytes) (len : Nat) : M Hash128 :=
  XXH3_128bits_internal cfg x input len 0 (.array XXH3_kSecret) 192 (XXH3_hashLong_128b_default cfg x)

/-- `XXH3_128bits_withSecret` (tests/xxhash/xxh3.h:2550-2556) -/
def XXH3_128bits_withSecret (cfg : Cfg) (x : Xxh3) (input : Bytes) (len : Nat) (secret : Bytes) (secretSize : Nat) :
    M Hash128 :=
  XXH3_128bits_internal cfg x input len 0 secret secretSize (XXH3_hashLong_128b_withSecret cfg x)

/-- `XXH3_128bits_withSeed` (tests/xxhash/xxh3.h:2558-2564) and `XXH128` (2566-2570) -/
def XXH3_128bits_withSeed (cfg : Cfg) (x : Xxh3) (input : Bytes) (len : Nat) (seed : U64) : M Hash128 :=
  XXH3_128bits_internal cfg x input len seed (.array XXH3_kSecret) 192 (XXH3_hashLong_128b_withSeed cfg x)

/-- `thunk_XXH3_128` (tests/xxhash/xxh_thunk.c:44-46) -/
def thunk_XXH3_128 (cfg : Cfg) (x : Xxh3) (input len : Nat) (seed : U64) : M U64 := do
  let h ← XXH3_128bits_withSeed cfg x (.memory input) len seed
  pure h.low64

/-! ## Hashing in pieces -/

/-- `XXH3_state_t` (tests/xxhash/xxhash.h:555-571), without `reserved32` and `reserved64` -/
structure XXH3_state where
  acc : Lanes
  customSecret : List Byte
  buffer : List Byte
  bufferedSize : U32
  nbStripesPerBlock : Nat
  nbStripesSoFar : Nat
  secretLimit : Nat
  totalLen : U64
  seed : U64
  /-- `none` is the null pointer -/
  extSecret : Option Bytes

/-- `XXH3_64bits_reset_internal` (tests/xxhash/xxh3.h:1919-1940) and `XXH3_128bits_reset_internal` (2580-2586) -/
def XXH3_reset_internal (cfg : Cfg) (x : Xxh3) (seed : U64) (secret : Bytes) (secretSize : Nat) : M XXH3_state := do
  XXH_ASSERT x (!secret.isNull)
  XXH_ASSERT x (136 ≤ secretSize)
  let secretLimit := szSub cfg secretSize 64
  pure
    { acc := XXH3_INIT_ACC
      customSecret := List.replicate 192 0
      buffer := List.replicate 256 0
      bufferedSize := 0
      nbStripesPerBlock := secretLimit / 8
      nbStripesSoFar := 0
      secretLimit := secretLimit
      totalLen := 0
      seed := seed
      extSecret := if secret.isNull then none else some secret }

/-- `XXH3_64bits_reset` (tests/xxhash/xxh3.h:1942-1948) and `XXH3_128bits_reset` (2588-2594) -/
def XXH3_reset (cfg : Cfg) (x : Xxh3) : M XXH3_state := XXH3_reset_internal cfg x 0 (.array XXH3_kSecret) 192

/-- `XXH3_64bits_reset_withSecret` (tests/xxhash/xxh3.h:1950-1958) and `XXH3_128bits_reset_withSecret` (2596-2604) -/
def XXH3_reset_withSecret (cfg : Cfg) (x : Xxh3) (secret secretSize : Nat) : M (XXH3_state × XXH_errorcode) := do
  let state ← XXH3_reset_internal cfg x 0 (.memory secret) secretSize
  if secret = 0 then pure (state, .error)
  else if secretSize < 136 then pure (state, .error)
  else pure (state, .ok)

/-- `XXH3_64bits_reset_withSeed` (tests/xxhash/xxh3.h:1960-1968) and `XXH3_128bits_reset_withSeed` (2606-2614) -/
def XXH3_reset_withSeed (cfg : Cfg) (x : Xxh3) (seed : U64) : M XXH3_state := do
  let state ← XXH3_reset_internal cfg x seed (.array XXH3_kSecret) 192
  let secret ← XXH3_initCustomSecret cfg x seed
  pure { state with customSecret := secret, extSecret := none }

/-- `(state->extSecret == NULL) ? state->customSecret : state->extSecret` (tests/xxhash/xxh3.h:2014, 2113, 2625) -/
def XXH3_state.secret (state : XXH3_state) : Bytes := state.extSecret.getD (.array state.customSecret)

/-- `XXH3_consumeStripes(acc, &nbStripesSoFar, nbStripesPerBlock, input + i, nbStripes, secret, secretLimit)`
(tests/xxhash/xxh3.h:1973-1995): the numbers and `nbStripesSoFar` -/
def XXH3_consumeStripes (cfg : Cfg) (x : Xxh3) (acc : Lanes) (nbStripesSoFar nbStripesPerBlock : Nat) (input : Bytes)
    (i nbStripes : Nat) (secret : Bytes) (secretLimit : Nat) : M (Lanes × Nat) := do
  XXH_ASSERT x (nbStripes ≤ nbStripesPerBlock)
  XXH_ASSERT x (nbStripesSoFar < nbStripesPerBlock)
  if szSub cfg nbStripesPerBlock nbStripesSoFar ≤ nbStripes then do
    let toEndofBlock := szSub cfg nbStripesPerBlock nbStripesSoFar
    let afterBlock := nbStripes - toEndofBlock
    let acc ← XXH3_accumulate cfg x input secret toEndofBlock i (nbStripesSoFar * 8) acc
    let acc ← XXH3_scrambleAcc cfg x acc secret secretLimit
    let acc ← XXH3_accumulate cfg x input secret afterBlock (i + toEndofBlock * 64) 0 acc
    pure (acc, afterBlock)
  else do
    let acc ← XXH3_accumulate cfg x input secret nbStripes i (nbStripesSoFar * 8) acc
    pure (acc, nbStripesSoFar + nbStripes)

/-- "Complete it, then consume it" (tests/xxhash/xxh3.h:2032-2043): the new state, and how far `input` is from its
beginning -/
def XXH3_update_fill (cfg : Cfg) (x : Xxh3) (state : XXH3_state) (input : Nat) : M (XXH3_state × Nat) :=
  if state.bufferedSize ≠ 0 then do
    let loadSize := szSub cfg 256 state.bufferedSize.toNat
    let buffer ← memcpyInto state.buffer state.bufferedSize.toNat input loadSize
    let _ ← ptrAdd cfg input loadSize
    let (acc, soFar) ← XXH3_consumeStripes cfg x state.acc state.nbStripesSoFar state.nbStripesPerBlock (.array buffer) 0 4
      state.secret state.secretLimit
    pure ({ state with buffer := buffer, acc := acc, nbStripesSoFar := soFar, bufferedSize := 0 }, loadSize)
  else pure (state, 0)

/-- The loop of `XXH3_update` (tests/xxhash/xxh3.h:2049-2056): the numbers, `nbStripesSoFar` and how far `input` is from
its beginning -/
def XXH3_update_loop (cfg : Cfg) (x : Xxh3) (state : XXH3_state) (input limit : Nat) :
    Nat → Nat → Lanes → Nat → M (Lanes × Nat × Nat)
  | 0, _, _, _ => fail .diverge
  | fuel + 1, i, acc, soFar => do
    iterate
    let (acc, soFar) ← XXH3_consumeStripes cfg x acc soFar state.nbStripesPerBlock (.memory input) i 4 state.secret
      state.secretLimit
    let _ ← ptrAdd cfg input (i + 256)
    if input + (i + 256) < limit then XXH3_update_loop cfg x state input limit fuel (i + 256) acc soFar
    else pure (acc, soFar, i + 256)

/-- "Consume input by a multiple of internal buffer size" (tests/xxhash/xxh3.h:2047-2059) -/
def XXH3_update_direct (cfg : Cfg) (x : Xxh3) (state : XXH3_state) (input len i bEnd : Nat) : M (XXH3_state × Nat) := do
  let next ← ptrAdd cfg input (i + 256)
  if next < bEnd then do
    let limit ← ptrSub cfg bEnd 256
    let (acc, soFar, i) ← XXH3_update_loop cfg x state input limit (len + 1) i state.acc state.nbStripesSoFar
    let last ← ptrSub cfg (input + i) 64
    let buffer ← memcpyInto state.buffer (256 - 64) last 64
    pure ({ state with acc := acc, nbStripesSoFar := soFar, buffer := buffer }, i)
  else pure (state, i)

/-- `XXH3_update` (tests/xxhash/xxh3.h:2000-2067), `XXH3_64bits_update` (2069-2074), `XXH3_128bits_update`
(2616-2621). A null pointer is address 0. -/
def XXH3_update (cfg : Cfg) (x : Xxh3) (state : XXH3_state) (input len : Nat) : M (XXH3_state × XXH_errorcode) :=
  if input = 0 then pure (state, .error)
  else do
    let bEnd ← ptrAdd cfg input len
    let state := { state with totalLen := state.totalLen + BitVec.ofNat 64 len }
    if szAdd cfg state.bufferedSize.toNat len ≤ 256 then do
      let buffer ← memcpyInto state.buffer state.bufferedSize.toNat input len
      pure ({ state with buffer := buffer, bufferedSize := state.bufferedSize + BitVec.ofNat 32 len }, .ok)
    else do
      let (state, i) ← XXH3_update_fill cfg x state input
      XXH_ASSERT x (input + i < bEnd)
      let (state, i) ← XXH3_update_direct cfg x state input len i bEnd
      XXH_ASSERT x (input + i < bEnd)
      let buffer ← memcpyInto state.buffer 0 (input + i) (bEnd - (input + i))
      pure ({ state with buffer := buffer, bufferedSize := BitVec.ofNat 32 (bEnd - (input + i)) }, .ok)

/-- `XXH3_digest_long` (tests/xxhash/xxh3.h:2077-2109) -/
def XXH3_digest_long (cfg : Cfg) (x : Xxh3) (state : XXH3_state) (secret : Bytes) : M Lanes :=
  if 64 ≤ state.bufferedSize.toNat then do
    let nbStripes := (state.bufferedSize.toNat - 1) / 64
    let (acc, _) ← XXH3_consumeStripes cfg x state.acc state.nbStripesSoFar state.nbStripesPerBlock
      (.array state.buffer) 0 nbStripes secret state.secretLimit
    XXH3_accumulate_512 cfg x acc (.array state.buffer) (state.bufferedSize.toNat - 64) secret (state.secretLimit - 7)
  else do
    let catchupSize := 64 - state.bufferedSize.toNat
    XXH_ASSERT x (0 < state.bufferedSize.toNat)
    let first ← (Bytes.array state.buffer).load (256 - catchupSize) catchupSize
    let second ← (Bytes.array state.buffer).load 0 state.bufferedSize.toNat
    XXH3_accumulate_512 cfg x state.acc (.array (first ++ second)) 0 secret (state.secretLimit - 7)

/-- `XXH3_64bits_digest` (tests/xxhash/xxh3.h:2111-2126) -/
def XXH3_64bits_digest (cfg : Cfg) (x : Xxh3) (state : XXH3_state) : M U64 :=
  if 240 < state.totalLen.toNat then do
    let acc ← XXH3_digest_long cfg x state state.secret
    XXH3_mergeAccs cfg x acc state.secret 11 (state.totalLen * XXH_PRIME64_1)
  else if state.seed ≠ 0 then
    XXH3_64bits_withSeed cfg x (.array state.buffer) (state.totalLen.toNat % 2 ^ cfg.bits) state.seed
  else XXH3_64bits_withSecret cfg x (.array state.buffer) (state.totalLen.toNat % 2 ^ cfg.bits) state.secret
    (szAdd cfg state.secretLimit 64)

/-- `XXH3_128bits_digest` (tests/xxhash/xxh3.h:2623-2646) -/
def XXH3_128bits_digest (cfg : Cfg) (x : Xxh3) (state : XXH3_state) : M Hash128 :=
  if 240 < state.totalLen.toNat then do
    let acc ← XXH3_digest_long cfg x state state.secret
    XXH_ASSERT x (64 + 11 ≤ szAdd cfg state.secretLimit 64)
    let low64 ← XXH3_mergeAccs cfg x acc state.secret 11 (state.totalLen * XXH_PRIME64_1)
    let high64 ← XXH3_mergeAccs cfg x acc state.secret (state.secretLimit + 64 - 64 - 11)
      (~~~(state.totalLen * XXH_PRIME64_2))
    pure ⟨low64, high64⟩
  else if state.seed ≠ 0 then
    XXH3_128bits_withSeed cfg x (.array state.buffer) (state.totalLen.toNat % 2 ^ cfg.bits) state.seed
  else XXH3_128bits_withSecret cfg x (.array state.buffer) (state.totalLen.toNat % 2 ^ cfg.bits) state.secret
    (szAdd cfg state.secretLimit 64)

/-! ## Hashes of 128 bits as values -/

/-- The bytes of a `XXH128_hash_t` (tests/xxhash/xxhash.h:453-456) -/
def hash128Bytes (cfg : Cfg) (h : Hash128) : List Byte :=
  cfg.endian.bytes 8 h.low64.toNat ++ cfg.endian.bytes 8 h.high64.toNat

/-- `XXH128_isEqual` (tests/xxhash/xxh3.h:2653-2657); `memcmp` returns 0 if and only if the bytes are the same -/
def XXH128_isEqual (cfg : Cfg) (h1 h2 : Hash128) : Int := if hash128Bytes cfg h1 = hash128Bytes cfg h2 then 1 else 0

/-- `XXH128_cmp` (tests/xxhash/xxh3.h:2663-2671), given the two hashes which the pointers refer to -/
def XXH128_cmp (h1 h2 : Hash128) : Int :=
  let hcmp : Int := (if h1.high64 > h2.high64 then 1 else 0) - (if h2.high64 > h1.high64 then 1 else 0)
  if hcmp ≠ 0 then hcmp
  else (if h1.low64 > h2.low64 then 1 else 0) - (if h2.low64 > h1.low64 then 1 else 0)

/-- The 16 bytes which `XXH128_canonicalFromHash` (tests/xxhash/xxh3.h:2675-2685) writes -/
def XXH128_canonical (cfg : Cfg) (x : Xxh3) (hash : Hash128) : List Byte :=
  let hash : Hash128 := match cfg.endian with
    | .little => ⟨XXH_swap64 x.toXxh hash.low64, XXH_swap64 x.toXxh hash.high64⟩
    | .big => hash
  cfg.endian.bytes 8 hash.high64.toNat ++ cfg.endian.bytes 8 hash.low64.toNat

/-- `XXH128_canonicalFromHash` (tests/xxhash/xxh3.h:2675-2685): eight bytes, then eight bytes -/
def XXH128_canonicalFromHash (cfg : Cfg) (x : Xxh3) (dst : Nat) (hash : Hash128) : M Unit := do
  store dst ((XXH128_canonical cfg x hash).take 8)
  store (dst + 8) ((XXH128_canonical cfg x hash).drop 8)

/-- `XXH128_hashFromCanonical` (tests/xxhash/xxh3.h:2687-2694) -/
def XXH128_hashFromCanonical (cfg : Cfg) (x : Xxh3) (src : Nat) : M Hash128 := do
  let high64 ← XXH_readBE64 cfg x.toXxh (.memory src) 0
  let low64 ← XXH_readBE64 cfg x.toXxh (.memory src) 8
  pure ⟨low64, high64⟩

/-! ## Secrets -/

/-- `while (filled < sizeof(seeds))` (tests/xxhash/xxh3.h:2158-2162); `seeds` is what has been filled so far -/
def XXH3_seeds_loop : Nat → List Byte → M (List Byte)
  | 0, _ => fail .diverge
  | fuel + 1, seeds =>
    if seeds.length < 96 then do
      iterate
      XXH3_seeds_loop fuel (seeds ++ seeds.take (min seeds.length (96 - seeds.length)))
    else pure seeds

/-- The loop over the segments (tests/xxhash/xxh3.h:2166-2172), with `todo` iterations left; `segnb` is 12 - `todo` -/
def XXH3_segments (cfg : Cfg) (x : Xxh3) (secretBuffer : Nat) (scrambler seeds : List Byte) : Nat → M Unit
  | 0 => pure ()
  | todo + 1 => do
    let segnb := 12 - (todo + 1)
    iterate
    let seed ← XXH_readLE64 cfg x.toXxh (.array seeds) (8 * segnb)
    let h ← XXH3_128bits_withSeed cfg x (.array scrambler) 16 (seed + BitVec.ofNat 64 segnb)
    store (secretBuffer + segnb * 16) (XXH128_canonical cfg x h)
    XXH3_segments cfg x secretBuffer scrambler seeds todo

/-- `XXH3_generateSecret` (tests/xxhash/xxh3.h:2131-2173) -/
def XXH3_generateSecret (cfg : Cfg) (x : Xxh3) (secretBuffer customSeed customSeedSize : Nat) : M Unit := do
  XXH_ASSERT x (secretBuffer ≠ 0)
  if customSeedSize = 0 then store secretBuffer XXH3_kSecret
  else do
    XXH_ASSERT x (customSeed ≠ 0)
    let h ← XXH3_128bits_withSeed cfg x (.memory customSeed) customSeedSize 0
    let scrambler := XXH128_canonical cfg x h
    let first ← load customSeed (min customSeedSize 96)
    let seeds ← XXH3_seeds_loop 97 first
    store secretBuffer scrambler
    XXH3_segments cfg x secretBuffer scrambler seeds 11

end T1ha.Model
