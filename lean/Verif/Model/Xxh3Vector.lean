import Verif.Model.Xxhash
import Verif.SpecXxh3
import Verif.ArmSimd
import Verif.PowerSimd

/-!
# tests/xxhash/xxh3.h: the functions with vector instructions

`XXH3_accumulate_512`, `XXH3_scrambleAcc` and `XXH3_initCustomSecret` for SSE2, AVX2, AVX512, NEON and VSX
(tests/xxhash/xxh3.h:247-440, 977-1447). As in `Verif/Model/Xxh3.lean`, the accumulator is a value of eight numbers; the
message and the secret are read from memory or are arrays. The instructions which read the message and the secret need no
alignment. The accumulator, the default secret and the secret which is made from a seed are declared with the alignment
which the instructions for them need (469, 1709, 1769), as are the members of the state; for states which are allocated
see `Verif/Model/Xxh3Alloc.lean`.
-/

namespace T1ha.Model

open X86

/-- `XXH_VECTOR` (tests/xxhash/xxh3.h:161-166). For NEON, which of the two ways to split a vector is compiled
(tests/xxhash/xxh3.h:326-346); for VSX, whether it is VSX or ZVector makes no difference. -/
inductive XxhVector where
  | scalar
  | sse2
  | avx2
  | avx512
  | neon (vzip : Bool)
  | vsx
  deriving DecidableEq, Repr

/-- `acc[k] = v`, as in tests/xxhash/xxh3.h:1466-1467 -/
def setLane (acc : Lanes) (k : Fin 8) (v : U64) : Lanes := fun i => if i = k then v else acc i

/-- `_MM_SHUFFLE(z, y, x, w)` (xmmintrin.h) -/
def MM_SHUFFLE (z y x w : Nat) : Nat := z * 64 + y * 16 + x * 4 + w

/-! ## 128 bits -/

/-- `xacc[k]`, the accumulator as an array of vectors of two numbers -/
def accVec (acc : Lanes) (k : Fin 4) : U128 := set64x (acc ⟨2 * k + 1, by omega⟩) (acc ⟨2 * k, by omega⟩)

/-- `xacc[k] = v` -/
def setAccVec (acc : Lanes) (k : Fin 4) (v : U128) : Lanes :=
  setLane (setLane acc ⟨2 * k, by omega⟩ (lane0 v)) ⟨2 * k + 1, by omega⟩ (lane1 v)

/-- `_mm_loadu_si128`, `_mm_load_ps`, `vld1q_u8` at `b + i` -/
def load128 (b : Bytes) (i : Nat) : M U128 := do
  let l ← b.load i 16
  pure (ofList l)

/-- The body of the loop of `XXH3_accumulate_512_sse2` (tests/xxhash/xxh3.h:1211-1225) -/
def accumulateSse2 (data_vec key_vec xacc : U128) : U128 :=
  let data_key := X86.xor data_vec key_vec
  let data_key_lo := shuffle32 data_key (MM_SHUFFLE 0 3 0 1)
  let product := mulEpu32 data_key data_key_lo
  let data_swap := shuffle32 data_vec (MM_SHUFFLE 1 0 3 2)
  let sum := add64 xacc data_swap
  add64 product sum

/-- `XXH3_accumulate_512_sse2` (tests/xxhash/xxh3.h:1194-1227) -/
def XXH3_accumulate_512_sse2 (acc : Lanes) (input : Bytes) (i : Nat) (secret : Bytes) (j : Nat) : M Lanes :=
  [0, 1, 2, 3].foldlM (fun (acc : Lanes) (k : Fin 4) => do
    let data_vec ← load128 input (i + 16 * k)
    let key_vec ← load128 secret (j + 16 * k)
    pure (setAccVec acc k (accumulateSse2 data_vec key_vec (accVec acc k)))) acc

/-- The body of the loop of `XXH3_scrambleAcc_sse2` (tests/xxhash/xxh3.h:1241-1253) -/
def scrambleSse2 (key_vec acc_vec : U128) : U128 :=
  let prime32 := set1_32 XXH_PRIME32_1
  let shifted := srli64 acc_vec 47
  let data_vec := X86.xor acc_vec shifted
  let data_key := X86.xor data_vec key_vec
  let data_key_hi := shuffle32 data_key (MM_SHUFFLE 0 3 0 1)
  let prod_lo := mulEpu32 data_key prime32
  let prod_hi := mulEpu32 data_key_hi prime32
  add64 prod_lo (slli64 prod_hi 32)

/-- `XXH3_scrambleAcc_sse2` (tests/xxhash/xxh3.h:1229-1255) -/
def XXH3_scrambleAcc_sse2 (acc : Lanes) (secret : Bytes) (j : Nat) : M Lanes :=
  [0, 1, 2, 3].foldlM (fun (acc : Lanes) (k : Fin 4) => do
    let key_vec ← load128 secret (j + 16 * k)
    pure (setAccVec acc k (scrambleSse2 key_vec (accVec acc k)))) acc

/-- `XXH3_initCustomSecret_sse2` (tests/xxhash/xxh3.h:1257-1287): the secret, which is written from its beginning to its
end. `kSecret` is `XXH3_kSecret`. -/
def XXH3_initCustomSecret_sse2 (kSecret : List Byte) (seed64 : U64) : M (List Byte) :=
  let seed := set64x (-seed64) seed64
  (List.range 12).foldlM (fun dest i => do
    let src ← load128 (.array kSecret) (16 * i)
    pure (dest ++ toList (add64 src seed))) []

/-! ## 256 bits -/

/-- `xacc[k]`, the accumulator as an array of vectors of four numbers -/
def accVec256 (acc : Lanes) (k : Fin 2) : U256 := ⟨accVec acc ⟨2 * k, by omega⟩, accVec acc ⟨2 * k + 1, by omega⟩⟩

/-- `xacc[k] = v` -/
def setAccVec256 (acc : Lanes) (k : Fin 2) (v : U256) : Lanes :=
  setAccVec (setAccVec acc ⟨2 * k, by omega⟩ v.lo) ⟨2 * k + 1, by omega⟩ v.hi

/-- `_mm256_loadu_si256` and `_mm256_stream_load_si256` at `b + i` -/
def load256 (b : Bytes) (i : Nat) : M U256 := do
  let l ← b.load i 32
  pure ⟨ofList (l.take 16), ofList (l.drop 16)⟩

/-- The body of the loop of `XXH3_accumulate_512_avx2` (tests/xxhash/xxh3.h:1104-1118) -/
def accumulateAvx2 (data_vec key_vec xacc : U256) : U256 :=
  let data_key := U256.zip X86.xor data_vec key_vec
  let data_key_lo := U256.map (shuffle32 · (MM_SHUFFLE 0 3 0 1)) data_key
  let product := U256.zip mulEpu32 data_key data_key_lo
  let data_swap := U256.map (shuffle32 · (MM_SHUFFLE 1 0 3 2)) data_vec
  let sum := U256.zip add64 xacc data_swap
  U256.zip add64 product sum

/-- `XXH3_accumulate_512_avx2` (tests/xxhash/xxh3.h:1088-1120) -/
def XXH3_accumulate_512_avx2 (acc : Lanes) (input : Bytes) (i : Nat) (secret : Bytes) (j : Nat) : M Lanes :=
  [0, 1].foldlM (fun (acc : Lanes) (k : Fin 2) => do
    let data_vec ← load256 input (i + 32 * k)
    let key_vec ← load256 secret (j + 32 * k)
    pure (setAccVec256 acc k (accumulateAvx2 data_vec key_vec (accVec256 acc k)))) acc

/-- The body of the loop of `XXH3_scrambleAcc_avx2` (tests/xxhash/xxh3.h:1134-1146) -/
def scrambleAvx2 (key_vec acc_vec : U256) : U256 :=
  let prime32 : U256 := ⟨set1_32 XXH_PRIME32_1, set1_32 XXH_PRIME32_1⟩
  let shifted := U256.map (srli64 · 47) acc_vec
  let data_vec := U256.zip X86.xor acc_vec shifted
  let data_key := U256.zip X86.xor data_vec key_vec
  let data_key_hi := U256.map (shuffle32 · (MM_SHUFFLE 0 3 0 1)) data_key
  let prod_lo := U256.zip mulEpu32 data_key prime32
  let prod_hi := U256.zip mulEpu32 data_key_hi prime32
  U256.zip add64 prod_lo (U256.map (slli64 · 32) prod_hi)

/-- `XXH3_scrambleAcc_avx2` (tests/xxhash/xxh3.h:1122-1148) -/
def XXH3_scrambleAcc_avx2 (acc : Lanes) (secret : Bytes) (j : Nat) : M Lanes :=
  [0, 1].foldlM (fun (acc : Lanes) (k : Fin 2) => do
    let key_vec ← load256 secret (j + 32 * k)
    pure (setAccVec256 acc k (scrambleAvx2 key_vec (accVec256 acc k)))) acc

/-- `XXH3_initCustomSecret_avx2` (tests/xxhash/xxh3.h:1150-1184) -/
def XXH3_initCustomSecret_avx2 (kSecret : List Byte) (seed64 : U64) : M (List Byte) :=
  let seed := set256 (-seed64) seed64 (-seed64) seed64
  (List.range 6).foldlM (fun dest i => do
    let src ← load256 (.array kSecret) (32 * i)
    let v := U256.zip add64 src seed
    pure (dest ++ toList v.lo ++ toList v.hi)) []

/-! ## 512 bits -/

/-- An `__m512i` value: the low half and the high half. The instructions used here (VPXORQ, VPSHUFD, VPMULUDQ, VPADDQ,
VPSRLQ, VPSLLQ) treat all 128 bits alike. -/
structure U512 where
  lo : U256
  hi : U256

/-- A function of all 128 bits. -/
def U512.map (f : U128 → U128) (x : U512) : U512 := ⟨x.lo.map f, x.hi.map f⟩

/-- A function of all 128 bits of two values. -/
def U512.zip (f : U128 → U128 → U128) (x y : U512) : U512 := ⟨x.lo.zip f y.lo, x.hi.zip f y.hi⟩

/-- `*xacc`, the accumulator as a vector of eight numbers -/
def accVec512 (acc : Lanes) : U512 := ⟨accVec256 acc 0, accVec256 acc 1⟩

/-- `*xacc = v` -/
def setAccVec512 (acc : Lanes) (v : U512) : Lanes := setAccVec256 (setAccVec256 acc 0 v.lo) 1 v.hi

/-- `_mm512_loadu_si512` and `_mm512_stream_load_si512` at `b + i` -/
def load512 (b : Bytes) (i : Nat) : M U512 := do
  let l ← b.load i 64
  pure ⟨⟨ofList (l.take 16), ofList ((l.drop 16).take 16)⟩, ⟨ofList ((l.drop 32).take 16), ofList (l.drop 48)⟩⟩

/-- `XXH3_accumulate_512_avx512` (tests/xxhash/xxh3.h:983-1009) -/
def XXH3_accumulate_512_avx512 (acc : Lanes) (input : Bytes) (i : Nat) (secret : Bytes) (j : Nat) : M Lanes := do
  let data_vec ← load512 input i
  let key_vec ← load512 secret j
  let data_key := U512.zip X86.xor data_vec key_vec
  let data_key_lo := U512.map (shuffle32 · (MM_SHUFFLE 0 3 0 1)) data_key
  let product := U512.zip mulEpu32 data_key data_key_lo
  let data_swap := U512.map (shuffle32 · (MM_SHUFFLE 1 0 3 2)) data_vec
  let sum := U512.zip add64 (accVec512 acc) data_swap
  pure (setAccVec512 acc (U512.zip add64 product sum))

/-- `XXH3_scrambleAcc_avx512` (tests/xxhash/xxh3.h:1032-1054) -/
def XXH3_scrambleAcc_avx512 (acc : Lanes) (secret : Bytes) (j : Nat) : M Lanes := do
  let prime256 : U256 := ⟨set1_32 XXH_PRIME32_1, set1_32 XXH_PRIME32_1⟩
  let prime32 : U512 := ⟨prime256, prime256⟩
  let acc_vec := accVec512 acc
  let shifted := U512.map (srli64 · 47) acc_vec
  let data_vec := U512.zip X86.xor acc_vec shifted
  let key_vec ← load512 secret j
  let data_key := U512.zip X86.xor data_vec key_vec
  let data_key_hi := U512.map (shuffle32 · (MM_SHUFFLE 0 3 0 1)) data_key
  let prod_lo := U512.zip mulEpu32 data_key prime32
  let prod_hi := U512.zip mulEpu32 data_key_hi prime32
  pure (setAccVec512 acc (U512.zip add64 prod_lo (U512.map (slli64 · 32) prod_hi)))

/-- `_mm512_mask_set1_epi64(_mm512_set1_epi64(x), mask, y)`: `y` in the lanes of which the bit of the mask is set -/
def maskSet1 (x : U64) (mask : Nat) (y : U64) : U512 :=
  let f := fun i => if mask.testBit i then y else x
  ⟨set256 (f 3) (f 2) (f 1) (f 0), set256 (f 7) (f 6) (f 5) (f 4)⟩

/-- `XXH3_initCustomSecret_avx512` (tests/xxhash/xxh3.h:1056-1078) -/
def XXH3_initCustomSecret_avx512 (kSecret : List Byte) (seed64 : U64) : M (List Byte) :=
  let seed := maskSet1 seed64 0xAA (-seed64)
  (List.range 3).foldlM (fun dest i => do
    let src ← load512 (.array kSecret) (64 * i)
    let v := U512.zip add64 src seed
    pure (dest ++ toList v.lo.lo ++ toList v.lo.hi ++ toList v.hi.lo ++ toList v.hi.hi)) []

/-! ## NEON -/

open Arm in
/-- `XXH_SPLIT_IN_PLACE` (tests/xxhash/xxh3.h:317-346): what becomes of `outLo` and `outHi` -/
def XXH_SPLIT_IN_PLACE (vzip : Bool) (v : U128) : U32x2 × U32x2 :=
  if vzip then
    let v := vzip32 v
    (vget_low_u32 v, vget_high_u32 v)
  else (vmovn_u64 v, vshrn_n_u64 v 32)

open Arm in
/-- The body of the loop of `XXH3_accumulate_512_neon` (tests/xxhash/xxh3.h:1307-1325) -/
def accumulateNeon (vzip : Bool) (data_vec key_vec xacc : U128) : U128 :=
  let swapped := vextq_u64_1 data_vec data_vec
  let xacc := vaddq_u64 xacc swapped
  let data_key := veorq data_vec key_vec
  let (data_key_lo, data_key_hi) := XXH_SPLIT_IN_PLACE vzip data_key
  vmlal_u32 xacc data_key_lo data_key_hi

/-- `XXH3_accumulate_512_neon` (tests/xxhash/xxh3.h:1293-1328) -/
def XXH3_accumulate_512_neon (vzip : Bool) (acc : Lanes) (input : Bytes) (i : Nat) (secret : Bytes) (j : Nat) :
    M Lanes :=
  [0, 1, 2, 3].foldlM (fun (acc : Lanes) (k : Fin 4) => do
    let data_vec ← load128 input (i + k * 16)
    let key_vec ← load128 secret (j + k * 16)
    pure (setAccVec acc k (accumulateNeon vzip data_vec key_vec (accVec acc k)))) acc

open Arm in
/-- The body of the loop of `XXH3_scrambleAcc_neon` (tests/xxhash/xxh3.h:1341-1378) -/
def scrambleNeon (vzip : Bool) (key_vec acc_vec : U128) : U128 :=
  let prime := vdup_n_u32 XXH_PRIME32_1
  let shifted := vshrq_n_u64 acc_vec 47
  let data_vec := veorq acc_vec shifted
  let data_key := veorq data_vec key_vec
  let (data_key_lo, data_key_hi) := XXH_SPLIT_IN_PLACE vzip data_key
  let prod_hi := vmull_u32 data_key_hi prime
  let xacc := vshlq_n_u64 prod_hi 32
  vmlal_u32 xacc data_key_lo prime

/-- `XXH3_scrambleAcc_neon` (tests/xxhash/xxh3.h:1330-1380) -/
def XXH3_scrambleAcc_neon (vzip : Bool) (acc : Lanes) (secret : Bytes) (j : Nat) : M Lanes :=
  [0, 1, 2, 3].foldlM (fun (acc : Lanes) (k : Fin 4) => do
    let key_vec ← load128 secret (j + k * 16)
    pure (setAccVec acc k (scrambleNeon vzip key_vec (accVec acc k)))) acc

/-! ## VSX -/

open Ppc in
/-- `XXH_vec_revb` (tests/xxhash/xxh3.h:382-390), on a big-endian machine. The bytes of the constant are in the order of
memory. The instruction which `vec_revb` stands for is taken to do the same. -/
def XXH_vec_revb (val : U128) : U128 := vperm .big val (vec64 0x0706050403020100 0x0F0E0D0C0B0A0908)

open Ppc in
/-- `XXH_vec_loadu(b + i)` (tests/xxhash/xxh3.h:397-405). `XXH_VSX_BE` is taken to be right. -/
def XXH_vec_loadu (e : Endian) (b : Bytes) (i : Nat) : M U128 := do
  let l ← b.load i 16
  let ret := vec64 (BitVec.ofNat 64 (e.val (l.take 8))) (BitVec.ofNat 64 (e.val (l.drop 8)))
  pure (match e with | .little => ret | .big => XXH_vec_revb ret)

open Ppc in
/-- `vec_xxpermdi(x, y, 2)`, `vec_permi(x, y, 2)`: the element 1 of `x` and the element 0 of `y` -/
def vec_permi_2 (x y : U128) : U128 := vec64 (lane1 x) (lane0 y)

open Ppc in
/-- The body of the loop of `XXH3_accumulate_512_vsx` (tests/xxhash/xxh3.h:1398-1415). `XXH_vec_mulo` is VMULOUW
(tests/xxhash/xxh3.h:413-438) and, of s390x, VMLOF, which is the same. -/
def accumulateVsx (data_vec key_vec xacc : U128) : U128 :=
  let data_key := data_vec ^^^ key_vec
  let shuffled := rl64 data_key 32
  let product := vmulouw data_key shuffled
  let xacc := Ppc.add xacc product
  let data_swapped := vec_permi_2 data_vec data_vec
  Ppc.add xacc data_swapped

/-- `XXH3_accumulate_512_vsx` (tests/xxhash/xxh3.h:1387-1417) -/
def XXH3_accumulate_512_vsx (e : Endian) (acc : Lanes) (input : Bytes) (i : Nat) (secret : Bytes) (j : Nat) : M Lanes :=
  [0, 1, 2, 3].foldlM (fun (acc : Lanes) (k : Fin 4) => do
    let data_vec ← XXH_vec_loadu e input (i + 16 * k)
    let key_vec ← XXH_vec_loadu e secret (j + 16 * k)
    pure (setAccVec acc k (accumulateVsx data_vec key_vec (accVec acc k)))) acc

open Ppc in
/-- The body of the loop of `XXH3_scrambleAcc_vsx` (tests/xxhash/xxh3.h:1432-1445) -/
def scrambleVsx (e : Endian) (key_vec acc_vec : U128) : U128 :=
  let prime := vec32 e fun _ => XXH_PRIME32_1
  let data_vec := acc_vec ^^^ shiftRight acc_vec 47
  let data_key := data_vec ^^^ key_vec
  let prod_even := vmuleuw data_key prime
  let prod_odd := vmulouw data_key prime
  Ppc.add prod_odd (vec64 (lane0 prod_even <<< 32) (lane1 prod_even <<< 32))

/-- `XXH3_scrambleAcc_vsx` (tests/xxhash/xxh3.h:1419-1446) -/
def XXH3_scrambleAcc_vsx (e : Endian) (acc : Lanes) (secret : Bytes) (j : Nat) : M Lanes :=
  [0, 1, 2, 3].foldlM (fun (acc : Lanes) (k : Fin 4) => do
    let key_vec ← XXH_vec_loadu e secret (j + 16 * k)
    pure (setAccVec acc k (scrambleVsx e key_vec (accVec acc k)))) acc

end T1ha.Model
