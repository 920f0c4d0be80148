import Verif.SpecOthers

/-!
# Specification of xxHash: XXH32 and XXH64

As pure functions of the message bytes and of the seed (doc/xxhash_spec.md of the project xxHash is the description of
the two functions by their author; it is not part of the repository). No memory, pointers, alignment, compilers,
platforms or build options. No definition is shared with the model of the C code except the vocabulary of
`Verif/Basic.lean` and the two types of four numbers.
-/

namespace T1ha

/-- Four 32-bit numbers. -/
structure Quad32 where
  x0 : U32
  x1 : U32
  x2 : U32
  x3 : U32
  deriving DecidableEq, Repr

namespace Spec

/-- A byte string as a 32-bit number, least significant byte first. -/
def num32 (bs : List Byte) : U32 := BitVec.ofNat 32 (leVal bs)

/-! ## XXH32 -/

def xxhP1 : U32 := 0x9E3779B1
def xxhP2 : U32 := 0x85EBCA77
def xxhP3 : U32 := 0xC2B2AE3D
def xxhP4 : U32 := 0x27D4EB2F
def xxhP5 : U32 := 0x165667B1

def xxh32Round (acc input : U32) : U32 := (acc + input * xxhP2).rotateLeft 13 * xxhP1

def xxh32Start (seed : U32) : Quad32 := ⟨seed + xxhP1 + xxhP2, seed + xxhP2, seed, seed - xxhP1⟩

/-- Absorb 16 bytes. -/
def xxh32Stripe (v : Quad32) (blk : List Byte) : Quad32 :=
  ⟨xxh32Round v.x0 (word32 .little blk 0), xxh32Round v.x1 (word32 .little blk 1),
   xxh32Round v.x2 (word32 .little blk 2), xxh32Round v.x3 (word32 .little blk 3)⟩

def xxh32Converge (v : Quad32) : U32 :=
  v.x0.rotateLeft 1 + v.x1.rotateLeft 7 + v.x2.rotateLeft 12 + v.x3.rotateLeft 18

def xxh32Word (h : U32) (blk : List Byte) : U32 := (h + num32 blk * xxhP3).rotateLeft 17 * xxhP4
def xxh32Byte (h : U32) (b : Byte) : U32 := (h + b.setWidth 32 * xxhP5).rotateLeft 11 * xxhP1

/-- The last bytes (less than 16): words of 4 bytes, then single bytes. -/
def xxh32Tail (h : U32) (r : List Byte) : U32 := (rest 4 r).foldl xxh32Byte ((blocks 4 r).foldl xxh32Word h)

def xxh32Avalanche (h : U32) : U32 :=
  let h := (h ^^^ (h >>> 15)) * xxhP2
  let h := (h ^^^ (h >>> 13)) * xxhP3
  h ^^^ (h >>> 16)

/-- XXH32 of a message. -/
def xxh32 (m : List Byte) (seed : U32) : U32 :=
  let h := if 16 ≤ m.length then xxh32Converge ((blocks 16 m).foldl xxh32Stripe (xxh32Start seed)) else seed + xxhP5
  xxh32Avalanche (xxh32Tail (h + BitVec.ofNat 32 m.length) (rest 16 m))

/-! ## XXH64 -/

def xxhQ1 : U64 := 0x9E3779B185EBCA87
def xxhQ2 : U64 := 0xC2B2AE3D27D4EB4F
def xxhQ3 : U64 := 0x165667B19E3779F9
def xxhQ4 : U64 := 0x85EBCA77C2B2AE63
def xxhQ5 : U64 := 0x27D4EB2F165667C5

def xxh64Round (acc input : U64) : U64 := (acc + input * xxhQ2).rotateLeft 31 * xxhQ1

def xxh64Start (seed : U64) : Quad := ⟨seed + xxhQ1 + xxhQ2, seed + xxhQ2, seed, seed - xxhQ1⟩

/-- Absorb 32 bytes. -/
def xxh64Stripe (v : Quad) (blk : List Byte) : Quad :=
  ⟨xxh64Round v.x0 (word64 .little blk 0), xxh64Round v.x1 (word64 .little blk 1),
   xxh64Round v.x2 (word64 .little blk 2), xxh64Round v.x3 (word64 .little blk 3)⟩

def xxh64Merge (acc val : U64) : U64 := (acc ^^^ xxh64Round 0 val) * xxhQ1 + xxhQ4

def xxh64Converge (v : Quad) : U64 :=
  let h := v.x0.rotateLeft 1 + v.x1.rotateLeft 7 + v.x2.rotateLeft 12 + v.x3.rotateLeft 18
  xxh64Merge (xxh64Merge (xxh64Merge (xxh64Merge h v.x0) v.x1) v.x2) v.x3

def xxh64Word (h : U64) (blk : List Byte) : U64 :=
  (h ^^^ xxh64Round 0 (num blk)).rotateLeft 27 * xxhQ1 + xxhQ4
def xxh64Half (h : U64) (blk : List Byte) : U64 := (h ^^^ num blk * xxhQ1).rotateLeft 23 * xxhQ2 + xxhQ3
def xxh64Byte (h : U64) (b : Byte) : U64 := (h ^^^ b.setWidth 64 * xxhQ5).rotateLeft 11 * xxhQ1

/-- The last bytes (less than 32): words of 8 bytes, then at most one of 4 bytes, then single bytes. -/
def xxh64Tail (h : U64) (r : List Byte) : U64 :=
  let q := rest 8 r
  (rest 4 q).foldl xxh64Byte ((blocks 4 q).foldl xxh64Half ((blocks 8 r).foldl xxh64Word h))

def xxh64Avalanche (h : U64) : U64 :=
  let h := (h ^^^ (h >>> 33)) * xxhQ2
  let h := (h ^^^ (h >>> 29)) * xxhQ3
  h ^^^ (h >>> 32)

/-- XXH64 of a message. -/
def xxh64 (m : List Byte) (seed : U64) : U64 :=
  let h := if 32 ≤ m.length then xxh64Converge ((blocks 32 m).foldl xxh64Stripe (xxh64Start seed)) else seed + xxhQ5
  xxh64Avalanche (xxh64Tail (h + len64 m) (rest 32 m))

/-! ## The canonical representation -/

/-- The 4 bytes of a number, most significant first. -/
def canonical32 (h : U32) : List Byte := [h.extractLsb' 24 8, h.extractLsb' 16 8, h.extractLsb' 8 8, h.extractLsb' 0 8]

/-- The 8 bytes of a number, most significant first. -/
def canonical64 (h : U64) : List Byte :=
  [h.extractLsb' 56 8, h.extractLsb' 48 8, h.extractLsb' 40 8, h.extractLsb' 32 8,
   h.extractLsb' 24 8, h.extractLsb' 16 8, h.extractLsb' 8 8, h.extractLsb' 0 8]

end Spec

end T1ha
