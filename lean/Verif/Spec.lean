import Verif.Basic
import Verif.X86

/-!
# Specification of the t1ha hash functions

The functions below define each t1ha hash as a pure function of the message bytes and the seed.
They do not mention memory, pointers, alignment, compilers, platforms or build options, and they
share no definition with the model of the C code (`Verif/Model/*`) except the vocabulary of
`Verif/Basic.lean` and (for the AES-NI variants) the description of the CPU instructions.
-/

namespace T1ha.Spec

/-! ## Common pieces -/

def prime0 : U64 := 0xEC99BF0D8372CAAB
def prime1 : U64 := 0x82434FE90EDCEF39
def prime2 : U64 := 0xD4F06DB99D67BE4B
def prime3 : U64 := 0xBD9CACC22C6E9571
def prime4 : U64 := 0x9C06FAF4D023E3AB
def prime5 : U64 := 0xC060724A8424F345
def prime6 : U64 := 0xCB5AF53AE3AAAC31

/-- Full 128-bit product of two 64-bit numbers, as a pair (low half, high half). -/
def product (x y : U64) : U64 × U64 :=
  (BitVec.ofNat 64 (x.toNat * y.toNat), BitVec.ofNat 64 (x.toNat * y.toNat / 2 ^ 64))

/-- Low half xor high half of the product. -/
def mux (x p : U64) : U64 := (product x p).1 ^^^ (product x p).2

/-- One step of the t1ha2 mixer: `x` is xored with the low half and `y` is increased by the high
half of the product `(y + v) * p`. -/
def mix (x y v p : U64) : U64 × U64 :=
  (x ^^^ (product (y + v) p).1, y + (product (y + v) p).2)

/-- The complete `k`-byte blocks at the start of a message. -/
def blocks (k : Nat) (m : List Byte) : List (List Byte) := chunks k (m.length / k) m

/-- What remains of a message after its complete `k`-byte blocks. -/
def rest (k : Nat) (m : List Byte) : List Byte := m.drop (k * (m.length / k))

/-- A message as a list of 64-bit words of 8 bytes each; the last word may be made of fewer bytes. -/
def words64 (e : Endian) (m : List Byte) : List U64 :=
  (chunks 8 ((m.length + 7) / 8) m).map fun w => BitVec.ofNat 64 (e.val w)

/-- A message as a list of 32-bit words of 4 bytes each; the last word may be made of fewer bytes. -/
def words32 (e : Endian) (m : List Byte) : List U32 :=
  (chunks 4 ((m.length + 3) / 4) m).map fun w => BitVec.ofNat 32 (e.val w)

/-- The `i`-th 64-bit word of a block. -/
def word64 (e : Endian) (blk : List Byte) (i : Nat) : U64 :=
  BitVec.ofNat 64 (e.val ((blk.drop (8 * i)).take 8))

/-- The `i`-th 32-bit word of a block. -/
def word32 (e : Endian) (blk : List Byte) (i : Nat) : U32 :=
  BitVec.ofNat 32 (e.val ((blk.drop (4 * i)).take 4))

/-- Multiplier for a tail word that is followed by `n` more words. -/
def tailPrime : Nat → U64
  | 0 => prime1
  | 1 => prime2
  | 2 => prime3
  | _ => prime4

/-! ## t1ha2 -/

structure State where
  a : U64
  b : U64
  c : U64
  d : U64
  deriving DecidableEq, Repr

def init (x y : U64) : State where
  a := x
  b := y
  c := y.rotateRight 23 + ~~~x
  d := ~~~y + x.rotateRight 19

/-- Absorb one 32-byte block. -/
def absorb (s : State) (blk : List Byte) : State :=
  let w := word64 .little blk
  { a := s.a ^^^ prime5 * (w 0 + (w 2 + s.d).rotateRight 56 + w 3)
    b := s.b ^^^ prime6 * (w 1 + (w 3 + s.c).rotateRight 19 + w 2)
    c := s.c ^^^ (s.a + (w 0).rotateRight 57)
    d := s.d ^^^ (s.b + (w 1).rotateRight 38) }

def absorbAll (s : State) (blks : List (List Byte)) : State := blks.foldl absorb s

def squash (s : State) : State :=
  { s with
    a := s.a ^^^ prime6 * (s.c + s.d.rotateRight 23)
    b := s.b ^^^ prime5 * (s.c.rotateRight 19 + s.d) }

/-- Mix the tail words into the pair `(a, b)`: words followed by an odd number of words go to `a`,
the others to `b`. -/
def tailAB : List U64 → U64 × U64 → U64 × U64
  | [], ab => ab
  | w :: ws, (a, b) =>
    let p := tailPrime ws.length
    if ws.length % 2 = 1 then
      let m := mix a b w p
      tailAB ws (m.1, m.2)
    else
      let m := mix b a w p
      tailAB ws (m.2, m.1)

def final64 (ab : U64 × U64) : U64 :=
  mux ((ab.1 + ab.2.rotateRight 41) * prime0 ^^^ (ab.1.rotateRight 23 + ab.2) * prime6) prime5

/-- Mix the tail words into the state; the word followed by 3, 2, 1, 0 words goes to
`a`, `b`, `c`, `d` respectively. -/
def tailABCD : List U64 → State → State
  | [], s => s
  | w :: ws, s =>
    match ws.length with
    | 0 => let m := mix s.d s.c w prime1; tailABCD ws { s with d := m.1, c := m.2 }
    | 1 => let m := mix s.c s.b w prime2; tailABCD ws { s with c := m.1, b := m.2 }
    | 2 => let m := mix s.b s.a w prime3; tailABCD ws { s with b := m.1, a := m.2 }
    | _ => let m := mix s.a s.d w prime4; tailABCD ws { s with a := m.1, d := m.2 }

/-- 128-bit result: (low half, high half). -/
def final128 (s : State) : U64 × U64 :=
  let m1 := mix s.a s.b (s.c.rotateRight 41 ^^^ s.d) prime0
  let m2 := mix m1.2 s.c (s.d.rotateRight 23 ^^^ m1.1) prime6
  let m3 := mix m2.2 s.d (m1.1.rotateRight 19 ^^^ m2.1) prime5
  let m4 := mix m3.2 m1.1 (m2.1.rotateRight 31 ^^^ m3.1) prime4
  (m4.2 ^^^ m2.1, m3.1 + m4.1)

/-- 64-bit value of a length. -/
def len64 (m : List Byte) : U64 := BitVec.ofNat 64 m.length

/-- `t1ha2_atonce` -/
def t1ha2_atonce (m : List Byte) (seed : U64) : U64 :=
  if m.length > 32 then
    let s := squash (absorbAll (init seed (len64 m)) (blocks 32 m))
    final64 (tailAB (words64 .little (rest 32 m)) (s.a, s.b))
  else
    final64 (tailAB (words64 .little m) (seed, len64 m))

/-- `t1ha2_atonce128`: (returned value, `*extra_result`). -/
def t1ha2_atonce128 (m : List Byte) (seed : U64) : U64 × U64 :=
  if m.length > 32 then
    final128 (tailABCD (words64 .little (rest 32 m))
      (absorbAll (init seed (len64 m)) (blocks 32 m)))
  else
    final128 (tailABCD (words64 .little m) (init seed (len64 m)))

/-- The message that streaming actually absorbs: the data followed by its length in bits
(8 bytes, little endian), with the top bit flipped. -/
def padded (m : List Byte) : List Byte :=
  m ++ leBytes 8 ((8 * m.length) % 2 ^ 64 ^^^ 2 ^ 63)

/-- Streaming, 64-bit result. -/
def t1ha2_stream (m : List Byte) (seedX seedY : U64) : U64 :=
  let s := squash (absorbAll (init seedX seedY) (blocks 32 (padded m)))
  final64 (tailAB (words64 .little (rest 32 (padded m))) (s.a, s.b))

/-- Streaming, 128-bit result: (returned value, `*extra_result`). -/
def t1ha2_stream128 (m : List Byte) (seedX seedY : U64) : U64 × U64 :=
  final128 (tailABCD (words64 .little (rest 32 (padded m)))
    (absorbAll (init seedX seedY) (blocks 32 (padded m))))

/-! ## t1ha1 -/

def t1ha1Absorb (e : Endian) (s : State) (blk : List Byte) : State :=
  let w := word64 e blk
  let d := s.d - (s.b ^^^ (w 1).rotateRight 31)
  let c := s.c + (s.a ^^^ (w 0).rotateRight 41)
  { a := s.a ^^^ prime1 * ((w 0 ^^^ (w 2 + s.d).rotateRight 17) + w 3)
    b := s.b ^^^ prime0 * ((w 1 ^^^ (w 3 + s.c).rotateRight 17) + w 2)
    c := c
    d := d }

def t1ha1Tail : List U64 → U64 × U64 → U64 × U64
  | [], ab => ab
  | w :: ws, (a, b) =>
    let x := mux w (tailPrime ws.length)
    if ws.length % 2 = 1 then t1ha1Tail ws (a, b + x) else t1ha1Tail ws (a + x, b)

def t1ha1Final (ab : U64 × U64) : U64 :=
  let x := (ab.1 ^^^ ab.2) * prime0
  mux ((ab.1 + ab.2).rotateRight 17) prime4 + (x ^^^ x.rotateRight 41)

/-- `t1ha1_le` (for `.little`) and `t1ha1_be` (for `.big`). -/
def t1ha1 (e : Endian) (m : List Byte) (seed : U64) : U64 :=
  if m.length > 32 then
    let s := (blocks 32 m).foldl (t1ha1Absorb e)
      { a := seed, b := len64 m, c := (len64 m).rotateRight 17 + seed,
        d := len64 m ^^^ seed.rotateRight 17 }
    t1ha1Final (t1ha1Tail (words64 e (rest 32 m))
      (s.a ^^^ prime6 * (s.c.rotateRight 17 + s.d), s.b ^^^ prime5 * (s.c + s.d.rotateRight 17)))
  else
    t1ha1Final (t1ha1Tail (words64 e m) (seed, len64 m))

/-! ## t1ha0, portable 32-bit variants -/

def prime32_0 : U32 := 0x92D78269
def prime32_1 : U32 := 0xCA9B4735
def prime32_2 : U32 := 0xA4ABA1C3
def prime32_3 : U32 := 0xF6499843
def prime32_4 : U32 := 0x86F0FD61
def prime32_5 : U32 := 0xCA2DA6FB
def prime32_6 : U32 := 0xC4BB3575

structure State32 where
  a : U32
  b : U32
  c : U32
  d : U32

def mix32 (x y v p : U32) : U32 × U32 :=
  let prod := (y + v).toNat * p.toNat
  (x ^^^ BitVec.ofNat 32 prod, y + BitVec.ofNat 32 (prod / 2 ^ 32))

def tailPrime32 : Nat → U32
  | 0 => prime32_1
  | 1 => prime32_2
  | 2 => prime32_3
  | _ => prime32_4

def absorb32 (e : Endian) (s : State32) (blk : List Byte) : State32 :=
  let w := word32 e blk
  { a := prime32_0 * ((w 1 + (w 3 + s.d).rotateRight 17) ^^^ w 2)
    b := prime32_1 * ((w 0 ^^^ (w 2 + s.c).rotateRight 11) + w 3)
    c := s.c ^^^ (s.b + w 1).rotateRight 7
    d := s.d ^^^ (s.a + w 0).rotateRight 3 }

def tail32 : List U32 → U32 × U32 → U32 × U32
  | [], ab => ab
  | w :: ws, (a, b) =>
    let p := tailPrime32 ws.length
    if ws.length % 2 = 1 then
      let m := mix32 a b w p
      tail32 ws (m.1, m.2)
    else
      let m := mix32 b a w p
      tail32 ws (m.2, m.1)

def final32 (ab : U32 × U32) : U64 :=
  let l := ab.1 ++ (ab.2 ^^^ ab.1.rotateRight 13)
  let l := l * prime0
  let l := (l ^^^ l >>> 41) * prime4
  (l ^^^ l >>> 47) * prime6

/-- `t1ha0_32le` (for `.little`) and `t1ha0_32be` (for `.big`). -/
def t1ha0_32 (e : Endian) (m : List Byte) (seed : U64) : U64 :=
  let n : U32 := BitVec.ofNat 32 m.length
  let a : U32 := n.rotateRight 17 + BitVec.ofNat 32 seed.toNat
  let b : U32 := n ^^^ BitVec.ofNat 32 (seed.toNat / 2 ^ 32)
  if m.length > 16 then
    let s := (blocks 16 m).foldl (absorb32 e) { a := a, b := b, c := ~~~a, d := b.rotateRight 5 }
    let c := s.c + s.a
    let d := s.d + s.b
    final32 (tail32 (words32 e (rest 16 m))
      (s.a ^^^ prime32_6 * (c.rotateRight 16 + d), s.b ^^^ prime32_5 * (c + d.rotateRight 16)))
  else
    final32 (tail32 (words32 e m) (a, b))

/-! ## t1ha0, AES-NI variants -/

open X86 (aesenc aesdec add64 sub64 set64x lane0 lane1)

/-- The `i`-th 16-byte vector of a message. -/
def vec (m : List Byte) (i : Nat) : U128 := BitVec.ofNat 128 (leVal ((m.drop (16 * i)).take 16))

/-- Two 128-bit accumulators. -/
structure XY where
  x : U128
  y : U128

/-- Step over two vectors. -/
def aesPair (s : XY) (v0 v1 : U128) : XY :=
  { x := aesdec s.x (add64 s.y v0), y := aesdec s.y (sub64 s.x v1) }

/-- Final mixing of the accumulators into the pair `(a, b)`. -/
def aesSqueeze (s : XY) : U64 × U64 :=
  let x := add64 (aesdec s.x (aesenc s.y s.x)) s.y
  (lane0 x, lane1 x)

/-- Step over a 128-byte block, variant A. -/
def aesBlockA (s : XY) (blk : List Byte) : XY :=
  let v := vec blk
  { x := aesenc (aesenc (v 4) (v 5) ^^^ add64 (v 6) (v 7)) (add64 s.x s.y)
    y := aesenc (aesenc (aesenc (v 2) (s.x ^^^ v 6)) (v 3))
          (aesdec (sub64 (v 7) (aesenc (v 0) s.y)) (v 1) ^^^ v 5) }

/-- Less than 128 bytes, variant A: a 64-byte piece, a 32-byte piece, a 16-byte piece, each if
the remaining length allows. -/
def aesRestA (s : XY) (r : List Byte) : XY :=
  let (s, r) := if r.length ≥ 64 then
      (aesPair (aesPair s (vec r 0) (vec r 1)) (vec r 2) (vec r 3), r.drop 64) else (s, r)
  let (s, r) := if r.length ≥ 32 then (aesPair s (vec r 0) (vec r 1), r.drop 32) else (s, r)
  if r.length ≥ 16 then { x := aesdec s.x (vec r 0), y := add64 s.x s.y } else s

/-- `t1ha0_ia32aes_noavx` and `t1ha0_ia32aes_avx` -/
def t1ha0_aesA (m : List Byte) (seed : U64) : U64 :=
  if m.length > 32 then
    let x := set64x seed (len64 m)
    let s := (blocks 128 m).foldl aesBlockA { x := x, y := aesenc x (set64x prime5 prime6) }
    let s := aesRestA s (rest 128 m)
    final64 (tailAB (words64 .little (rest 16 m)) (aesSqueeze s))
  else
    final64 (tailAB (words64 .little m) (seed, len64 m))

/-- Step over a 128-byte block, variant B; the last component is the salt. -/
def aesBlockB (s : XY × U128) (blk : List Byte) : XY × U128 :=
  let v := vec blk
  let t := (List.range 7).foldl (fun t i => aesdec t (v (i + 1))) (aesenc (v 0) s.2)
  ({ x := add64 s.1.y s.1.x, y := aesenc s.1.x t }, add64 s.2 (set64x prime5 prime6))

/-- `t1ha0_ia32aes_avx2` -/
def t1ha0_aesB (m : List Byte) (seed : U64) : U64 :=
  if m.length > 32 then
    let x := set64x seed (len64 m)
    let y := aesenc x (set64x prime0 prime1)
    -- the complete 16-byte vectors
    let v := m.take (16 * (m.length / 16))
    -- an odd vector goes first
    let odd := (v.length / 16) % 2 = 1
    let s : XY := if odd then { x := add64 x (vec v 0), y := aesenc (add64 x (vec v 0)) y }
      else { x := x, y := y }
    let v := if odd then v.drop 16 else v
    let s := ((blocks 128 v).foldl aesBlockB (s, s.y)).1
    let s := (blocks 32 (rest 128 v)).foldl (fun s p => aesPair s (vec p 0) (vec p 1)) s
    final64 (tailAB (words64 .little (rest 16 m)) (aesSqueeze s))
  else
    final64 (tailAB (words64 .little m) (seed, len64 m))

end T1ha.Spec
