import Verif.SpecXxhash

/-!
# Specification of XXH3

As pure functions of the message bytes, of the seed and of the secret. No memory, pointers, alignment, compilers,
platforms or build options. No definition is shared with the model of the C code except the vocabulary of
`Verif/Basic.lean`, the type of 128-bit results and the type of eight numbers.

The version is that of the repository (0.7.4).
-/

namespace T1ha

/-- A hash of 128 bits. -/
structure Hash128 where
  low64 : U64
  high64 : U64
  deriving DecidableEq, Repr

/-- Eight 64-bit numbers. -/
abbrev Lanes := Fin 8 → U64

namespace Spec

/-- The eight bytes at position `i`, as a number. -/
def at64 (b : List Byte) (i : Nat) : U64 := num ((b.drop i).take 8)

/-- The four bytes at position `i`, as a number. -/
def at32 (b : List Byte) (i : Nat) : U32 := num32 ((b.drop i).take 4)

/-- The bytes of a number in the reverse order. -/
def reverse32 (v : U32) : U32 := BitVec.ofNat 32 (beVal (leBytes 4 v.toNat))
@[inherit_doc reverse32] def reverse64 (v : U64) : U64 := BitVec.ofNat 64 (beVal (leBytes 8 v.toNat))

/-- The secret which is used if the caller gives none. -/
def xxh3Secret : List Byte :=
  [0xb8, 0xfe, 0x6c, 0x39, 0x23, 0xa4, 0x4b, 0xbe, 0x7c, 0x01, 0x81, 0x2c, 0xf7, 0x21, 0xad, 0x1c,
   0xde, 0xd4, 0x6d, 0xe9, 0x83, 0x90, 0x97, 0xdb, 0x72, 0x40, 0xa4, 0xa4, 0xb7, 0xb3, 0x67, 0x1f,
   0xcb, 0x79, 0xe6, 0x4e, 0xcc, 0xc0, 0xe5, 0x78, 0x82, 0x5a, 0xd0, 0x7d, 0xcc, 0xff, 0x72, 0x21,
   0xb8, 0x08, 0x46, 0x74, 0xf7, 0x43, 0x24, 0x8e, 0xe0, 0x35, 0x90, 0xe6, 0x81, 0x3a, 0x26, 0x4c,
   0x3c, 0x28, 0x52, 0xbb, 0x91, 0xc3, 0x00, 0xcb, 0x88, 0xd0, 0x65, 0x8b, 0x1b, 0x53, 0x2e, 0xa3,
   0x71, 0x64, 0x48, 0x97, 0xa2, 0x0d, 0xf9, 0x4e, 0x38, 0x19, 0xef, 0x46, 0xa9, 0xde, 0xac, 0xd8,
   0xa8, 0xfa, 0x76, 0x3f, 0xe3, 0x9c, 0x34, 0x3f, 0xf9, 0xdc, 0xbb, 0xc7, 0xc7, 0x0b, 0x4f, 0x1d,
   0x8a, 0x51, 0xe0, 0x4b, 0xcd, 0xb4, 0x59, 0x31, 0xc8, 0x9f, 0x7e, 0xc9, 0xd9, 0x78, 0x73, 0x64,
   0xea, 0xc5, 0xac, 0x83, 0x34, 0xd3, 0xeb, 0xc3, 0xc5, 0x81, 0xa0, 0xff, 0xfa, 0x13, 0x63, 0xeb,
   0x17, 0x0d, 0xdd, 0x51, 0xb7, 0xf0, 0xda, 0x49, 0xd3, 0x16, 0x55, 0x26, 0x29, 0xd4, 0x68, 0x9e,
   0x2b, 0x16, 0xbe, 0x58, 0x7d, 0x47, 0xa1, 0xfc, 0x8f, 0xf8, 0xb8, 0xd1, 0x7a, 0xd0, 0x31, 0xce,
   0x45, 0xcb, 0x3a, 0x8f, 0x95, 0x16, 0x04, 0x28, 0xaf, 0xd7, 0xfb, 0xca, 0xbb, 0x4b, 0x40, 0x7e]

/-! ## Mixing -/

def xxh3Avalanche (h : U64) : U64 :=
  let h := (h ^^^ (h >>> 37)) * 0x165667919E3779F9
  h ^^^ (h >>> 32)

def xxh3Rrmxmx (h len : U64) : U64 :=
  let h := (h ^^^ (h.rotateLeft 49 ^^^ h.rotateLeft 24)) * 0x9FB21C651E98DF25
  let h := (h ^^^ ((h >>> 35) + len)) * 0x9FB21C651E98DF25
  h ^^^ (h >>> 28)

/-- 16 bytes of the message at `i` and of the secret at `j`. -/
def xxh3Mix16 (m s : List Byte) (seed : U64) (i j : Nat) : U64 :=
  mux (at64 m i ^^^ (at64 s j + seed)) (at64 m (i + 8) ^^^ (at64 s (j + 8) - seed))

/-! ## At most 16 bytes -/

/-- One to three bytes: the last one, the length, the first one, the middle one. -/
def xxh3Combined (m : List Byte) : U32 :=
  num32 [m.getD (m.length - 1) 0, BitVec.ofNat 8 m.length, m.getD 0 0, m.getD (m.length / 2) 0]

/-- The seed for 4 to 8 bytes. -/
def xxh3Seed (seed : U64) : U64 := seed ^^^ ((reverse32 (seed.setWidth 32)).setWidth 64 <<< 32)

/-- At most 16 bytes. -/
def xxh3Short (m s : List Byte) (seed : U64) : U64 :=
  if m.length = 0 then xxh64Avalanche (seed ^^^ (at64 s 56 ^^^ at64 s 64))
  else if m.length ≤ 3 then
    xxh64Avalanche ((xxh3Combined m).setWidth 64 ^^^ ((at32 s 0 ^^^ at32 s 4).setWidth 64 + seed))
  else if m.length ≤ 8 then
    xxh3Rrmxmx (((at32 m (m.length - 4)).setWidth 64 + ((at32 m 0).setWidth 64 <<< 32)) ^^^
      ((at64 s 8 ^^^ at64 s 16) - xxh3Seed seed)) (len64 m)
  else
    let lo := at64 m 0 ^^^ ((at64 s 24 ^^^ at64 s 32) + seed)
    let hi := at64 m (m.length - 8) ^^^ ((at64 s 40 ^^^ at64 s 48) - seed)
    xxh3Avalanche (len64 m + reverse64 lo + hi + mux lo hi)

/-! ## 17 to 240 bytes -/

/-- 17 to 128 bytes: from the middle to both ends. -/
def xxh3Middle (m s : List Byte) (seed : U64) : U64 :=
  xxh3Avalanche ((List.range ((m.length + 31) / 32)).foldr
    (fun j acc => acc + xxh3Mix16 m s seed (16 * j) (32 * j) +
      xxh3Mix16 m s seed (m.length - 16 * (j + 1)) (32 * j + 16)) (len64 m * xxhQ1))

/-- 129 to 240 bytes. -/
def xxh3Large (m s : List Byte) (seed : U64) : U64 :=
  let acc := xxh3Avalanche ((List.range 8).foldl (fun acc i => acc + xxh3Mix16 m s seed (16 * i) (16 * i))
    (len64 m * xxhQ1))
  let acc := (List.range (m.length / 16 - 8)).foldl
    (fun acc i => acc + xxh3Mix16 m s seed (16 * (i + 8)) (16 * i + 3)) acc
  xxh3Avalanche (acc + xxh3Mix16 m s seed (m.length - 16) 119)

/-! ## More than 240 bytes -/

def xxh3Start (i : Fin 8) : U64 :=
  [xxhP3.setWidth 64, xxhQ1, xxhQ2, xxhQ3, xxhQ4, xxhP2.setWidth 64, xxhQ5, xxhP1.setWidth 64].getD i 0

/-- The product of the two halves of a number. -/
def xxh3Halves (k : U64) : U64 := (k &&& 0xFFFFFFFF#64) * (k >>> 32)

/-- Absorb 64 bytes with the 64 bytes of the secret at `j`. -/
def xxh3Accumulate (s : List Byte) (j : Nat) (acc : Lanes) (stripe : List Byte) : Lanes := fun i =>
  acc i + at64 stripe (8 * (i ^^^ 1 : Fin 8)) + xxh3Halves (at64 stripe (8 * i) ^^^ at64 s (j + 8 * i))

/-- Done at the end of a block, with the last 64 bytes of the secret. -/
def xxh3Scramble (s : List Byte) (acc : Lanes) : Lanes := fun i =>
  (acc i ^^^ (acc i >>> 47) ^^^ at64 s (s.length - 64 + 8 * i)) * xxhP1.setWidth 64

/-- The number of stripes of a block. -/
def xxh3PerBlock (s : List Byte) : Nat := (s.length - 64) / 8

/-- Absorb stripe number `i`. -/
def xxh3Stripe (s : List Byte) (i : Nat) (acc : Lanes) (stripe : List Byte) : Lanes :=
  let acc := xxh3Accumulate s (8 * (i % xxh3PerBlock s)) acc stripe
  if (i + 1) % xxh3PerBlock s = 0 then xxh3Scramble s acc else acc

/-- Absorb stripes of which the first one has number `i`. -/
def xxh3Absorb (s : List Byte) : Nat → Lanes → List (List Byte) → Lanes
  | _, acc, [] => acc
  | i, acc, stripe :: stripes => xxh3Absorb s (i + 1) (xxh3Stripe s i acc stripe) stripes

/-- All stripes of a long message: as many as there are before its last byte, and once more the last 64 bytes, with
bytes of the secret which are not used for other stripes. -/
def xxh3Long (m s : List Byte) : Lanes :=
  xxh3Accumulate s (s.length - 71) (xxh3Absorb s 0 xxh3Start (chunks 64 ((m.length - 1) / 64) m))
    (m.drop (m.length - 64))

/-- The hash of eight numbers, with the bytes of the secret at `j`. -/
def xxh3Merge (s : List Byte) (j : Nat) (acc : Lanes) (start : U64) : U64 :=
  xxh3Avalanche (start + mux (acc 0 ^^^ at64 s j) (acc 1 ^^^ at64 s (j + 8)) +
    mux (acc 2 ^^^ at64 s (j + 16)) (acc 3 ^^^ at64 s (j + 24)) +
    mux (acc 4 ^^^ at64 s (j + 32)) (acc 5 ^^^ at64 s (j + 40)) +
    mux (acc 6 ^^^ at64 s (j + 48)) (acc 7 ^^^ at64 s (j + 56)))

/-! ## XXH3_64bits -/

/-- XXH3 of a message, with a secret and a seed for short messages and a secret for long ones. -/
def xxh3 (m s : List Byte) (seed : U64) (long : List Byte) : U64 :=
  if m.length ≤ 16 then xxh3Short m s seed
  else if m.length ≤ 128 then xxh3Middle m s seed
  else if m.length ≤ 240 then xxh3Large m s seed
  else xxh3Merge long 11 (xxh3Long m long) (len64 m * xxhQ1)

/-- The secret of a seed. -/
def xxh3Seeded (seed : U64) : List Byte :=
  (List.range 12).flatMap fun i =>
    leBytes 8 (at64 xxh3Secret (16 * i) + seed).toNat ++ leBytes 8 (at64 xxh3Secret (16 * i + 8) - seed).toNat

/-- `XXH3_64bits_withSecret` -/
def xxh3WithSecret (m s : List Byte) : U64 := xxh3 m s 0 s

/-- `XXH3_64bits_withSeed`; with the seed 0, `XXH3_64bits` -/
def xxh3WithSeed (m : List Byte) (seed : U64) : U64 := xxh3 m xxh3Secret seed (xxh3Seeded seed)

/-! ## XXH3_128bits -/

/-- At most 16 bytes. -/
def xxh3Short128 (m s : List Byte) (seed : U64) : Hash128 :=
  if m.length = 0 then
    ⟨xxh64Avalanche (seed ^^^ (at64 s 64 ^^^ at64 s 72)), xxh64Avalanche (seed ^^^ (at64 s 80 ^^^ at64 s 88))⟩
  else if m.length ≤ 3 then
    let lo := xxh3Combined m
    let hi := (reverse32 lo).rotateLeft 13
    ⟨xxh64Avalanche (lo.setWidth 64 ^^^ ((at32 s 0 ^^^ at32 s 4).setWidth 64 + seed)),
      xxh64Avalanche (hi.setWidth 64 ^^^ ((at32 s 8 ^^^ at32 s 12).setWidth 64 - seed))⟩
  else if m.length ≤ 8 then
    let p := product (((at32 m 0).setWidth 64 + ((at32 m (m.length - 4)).setWidth 64 <<< 32)) ^^^
      ((at64 s 16 ^^^ at64 s 24) + xxh3Seed seed)) (xxhQ1 + 4 * len64 m)
    let hi := p.2 + 2 * p.1
    let lo := p.1 ^^^ (hi >>> 3)
    let lo := (lo ^^^ (lo >>> 35)) * 0x9FB21C651E98DF25
    ⟨lo ^^^ (lo >>> 28), xxh3Avalanche hi⟩
  else
    let last := at64 m (m.length - 8)
    let p := product (at64 m 0 ^^^ last ^^^ ((at64 s 32 ^^^ at64 s 40) - seed)) xxhQ1
    let k := last ^^^ ((at64 s 48 ^^^ at64 s 56) + seed)
    let hi := p.2 + k + (k &&& 0xFFFFFFFF#64) * (xxhP2.setWidth 64 - 1)
    let lo := (p.1 + (len64 m - 1) <<< 54) ^^^ reverse64 hi
    let q := product lo xxhQ2
    ⟨xxh3Avalanche q.1, xxh3Avalanche (q.2 + hi * xxhQ2)⟩

/-- 32 bytes of the message, at `i` and at `k`, with the bytes of the secret at `j`. -/
def xxh3Mix32 (m s : List Byte) (seed : U64) (acc : Hash128) (i k j : Nat) : Hash128 :=
  ⟨(acc.low64 + xxh3Mix16 m s seed i j) ^^^ (at64 m k + at64 m (k + 8)),
    (acc.high64 + xxh3Mix16 m s seed k (j + 16)) ^^^ (at64 m i + at64 m (i + 8))⟩

/-- The hash of two numbers. -/
def xxh3Final128 (m : List Byte) (seed : U64) (acc : Hash128) : Hash128 :=
  ⟨xxh3Avalanche (acc.low64 + acc.high64),
    -xxh3Avalanche (acc.low64 * xxhQ1 + acc.high64 * xxhQ4 + (len64 m - seed) * xxhQ2)⟩

/-- 17 to 128 bytes: from the middle to both ends. -/
def xxh3Middle128 (m s : List Byte) (seed : U64) : Hash128 :=
  xxh3Final128 m seed ((List.range ((m.length + 31) / 32)).foldr
    (fun j acc => xxh3Mix32 m s seed acc (16 * j) (m.length - 16 * (j + 1)) (32 * j)) ⟨len64 m * xxhQ1, 0⟩)

/-- 129 to 240 bytes. -/
def xxh3Large128 (m s : List Byte) (seed : U64) : Hash128 :=
  let acc := (List.range 4).foldl (fun acc i => xxh3Mix32 m s seed acc (32 * i) (32 * i + 16) (32 * i))
    ⟨len64 m * xxhQ1, 0⟩
  let acc := (List.range (m.length / 32 - 4)).foldl
    (fun acc i => xxh3Mix32 m s seed acc (32 * (i + 4)) (32 * (i + 4) + 16) (32 * i + 3))
    ⟨xxh3Avalanche acc.low64, xxh3Avalanche acc.high64⟩
  xxh3Final128 m seed (xxh3Mix32 m s (-seed) acc (m.length - 16) (m.length - 32) 103)

/-- XXH3 of a message, with a secret and a seed for short messages and a secret for long ones. -/
def xxh3_128 (m s : List Byte) (seed : U64) (long : List Byte) : Hash128 :=
  if m.length ≤ 16 then xxh3Short128 m s seed
  else if m.length ≤ 128 then xxh3Middle128 m s seed
  else if m.length ≤ 240 then xxh3Large128 m s seed
  else ⟨xxh3Merge long 11 (xxh3Long m long) (len64 m * xxhQ1),
    xxh3Merge long (long.length - 75) (xxh3Long m long) (~~~(len64 m * xxhQ2))⟩

/-- `XXH3_128bits_withSecret` -/
def xxh3_128WithSecret (m s : List Byte) : Hash128 := xxh3_128 m s 0 s

/-- `XXH3_128bits_withSeed` and `XXH128`; with the seed 0, `XXH3_128bits` -/
def xxh3_128WithSeed (m : List Byte) (seed : U64) : Hash128 := xxh3_128 m xxh3Secret seed (xxh3Seeded seed)

end Spec

end T1ha
