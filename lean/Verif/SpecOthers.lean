import Verif.Spec

/-!
# Specification of the hash functions of other authors which the test program measures

StadtX, wyhash (final version 7) and HighwayHash as pure functions of the message bytes and of the seed
or key. No memory, pointers, alignment, compilers, platforms or build options. They share no definition
with the model of the C and C++ code except the vocabulary of `Verif/Basic.lean` and the type `Quad`.
-/

namespace T1ha

/-- Four 64-bit numbers. -/
structure Quad where
  x0 : U64
  x1 : U64
  x2 : U64
  x3 : U64
  deriving DecidableEq, Repr

/-- Combine two quadruples number by number. -/
def Quad.zip (f : U64 → U64 → U64) (a b : Quad) : Quad :=
  ⟨f a.x0 b.x0, f a.x1 b.x1, f a.x2 b.x2, f a.x3 b.x3⟩

def Quad.map (f : U64 → U64) (a : Quad) : Quad := ⟨f a.x0, f a.x1, f a.x2, f a.x3⟩

namespace Spec

/-- A byte string as a 64-bit number, least significant byte first. -/
def num (bs : List Byte) : U64 := BitVec.ofNat 64 (leVal bs)

/-- The complete 8-byte words of a message. -/
def fullWords (m : List Byte) : List U64 := (blocks 8 m).map num

/-! ## StadtX -/

def stadtxK0 : U64 := 0xb89b0f8e1655514f
def stadtxK1 : U64 := 0x8c6f736011bd5127
def stadtxK2 : U64 := 0x8f29bd94edce7b39
def stadtxK3 : U64 := 0x9c1b8e1e9628323f
def stadtxK2s : U64 := 0x802910e3
def stadtxK3s : U64 := 0x819b13af
def stadtxK4s : U64 := 0x91cb27e5
def stadtxK5s : U64 := 0xc1a269c1

/-- Absorb a word of a message of less than 32 bytes. -/
def stadtxShortWord (v : U64 × U64) (w : U64) : U64 × U64 :=
  let v0 := (v.1 + w * stadtxK3).rotateRight 17 ^^^ v.2
  (v0, v.2.rotateRight 53 + v0)

/-- Absorb the last bytes (less than 8) of a message of less than 32 bytes. -/
def stadtxShortTail (v0 v1 : U64) : List Byte → U64 × U64
  | [a, b, c, d, e, f, g] =>
    (v0 + num [g] <<< 32 + num [e] <<< 16, v1 + num [f] <<< 48 + num [a, b, c, d])
  | [a, b, c, d, e, f] => (v0 + num [e] <<< 16, v1 + num [f] <<< 48 + num [a, b, c, d])
  | [a, b, c, d, e] => (v0 + num [e] <<< 16, v1 + num [a, b, c, d])
  | [a, b, c, d] => (v0, v1 + num [a, b, c, d])
  | [a, b, c] => (v0 + num [c] <<< 48, v1 + num [a, b])
  | [a, b] => (v0, v1 + num [a, b])
  | [a] => (v0 + num [a], v1.rotateLeft 32 ^^^ 0xFF)
  | _ => (v0, v1.rotateLeft 32 ^^^ 0xFF)

/-- The result for a message of less than 32 bytes. -/
def stadtxShortFinal (v : U64 × U64) : U64 :=
  let v1 := v.2 ^^^ v.1
  let v0 := v.1.rotateRight 33 + v1
  let v1 := v1.rotateLeft 17 ^^^ v0
  let v0 := v0.rotateLeft 43 + v1
  let v1 := v1.rotateLeft 31 - v0
  let v0 := v0.rotateLeft 13 ^^^ v1
  let v1 := v1 - v0
  let v0 := v0.rotateLeft 41 + v1
  let v1 := v1.rotateLeft 37 ^^^ v0
  let v0 := v0.rotateRight 39 + v1
  let v1 := v1.rotateRight 15 + v0
  let v0 := v0.rotateLeft 15 ^^^ v1
  let v1 := v1.rotateRight 5
  v0 ^^^ v1

/-- Absorb a block of 32 bytes. -/
def stadtxAbsorb (s : Quad) (blk : List Byte) : Quad :=
  let w := word64 .little blk
  let v0 := (s.x0 + w 0 * stadtxK2s).rotateLeft 57 ^^^ s.x3
  let v1 := (s.x1 + w 1 * stadtxK3s).rotateLeft 63 ^^^ s.x2
  let v2 := (s.x2 + w 2 * stadtxK4s).rotateRight 47 + v0
  let v3 := (s.x3 + w 3 * stadtxK5s).rotateRight 11 - v1
  ⟨v0, v1, v2, v3⟩

/-- Absorb the complete words (at most 3) after the last block: the word which is followed by 2, 1, 0 words
goes to the first, second, third number. -/
def stadtxWords : List U64 → Quad → Quad
  | [], s => { s with x3 := s.x3.rotateRight 11 - s.x1 }
  | w :: ws, s =>
    stadtxWords ws <| match ws.length with
      | 0 => { s with x2 := (s.x2 + w * stadtxK4s).rotateRight 47 + s.x0 }
      | 1 => { s with x1 := (s.x1 + w * stadtxK3s).rotateLeft 63 ^^^ s.x2 }
      | _ => { s with x0 := (s.x0 + w * stadtxK2s).rotateLeft 57 ^^^ s.x3 }

/-- Absorb the last bytes (less than 8) of a message of at least 32 bytes. -/
def stadtxTail (s : Quad) : List Byte → Quad
  | [a, b, c, d, e, f, g] =>
    { s with x1 := s.x1 + num [g], x2 := s.x2 + num [e, f], x3 := s.x3 + num [a, b, c, d] }
  | [a, b, c, d, e, f] => { s with x2 := s.x2 + num [e, f], x3 := s.x3 + num [a, b, c, d] }
  | [a, b, c, d, e] => { s with x1 := s.x1 + num [e], x2 := s.x2 + num [a, b, c, d] }
  | [a, b, c, d] => { s with x2 := s.x2 + num [a, b, c, d] }
  | [a, b, c] => { s with x3 := s.x3 + num [c], x1 := s.x1 + num [a, b] }
  | [a, b] => { s with x1 := s.x1 + num [a, b] }
  | [a] => { s with x2 := s.x2 + num [a], x3 := s.x3.rotateLeft 32 ^^^ 0xFF }
  | _ => { s with x3 := s.x3.rotateLeft 32 ^^^ 0xFF }

/-- The result for a message of at least 32 bytes. -/
def stadtxFinal (s : Quad) : U64 :=
  let v1 := s.x1 - s.x2
  let v0 := s.x0.rotateRight 19
  let v1 := v1 - v0
  let v1 := v1.rotateRight 53
  let v3 := s.x3 ^^^ v1
  let v0 := v0 - v3
  let v3 := v3.rotateLeft 43
  let v0 := v0 + v3
  let v0 := v0.rotateRight 3
  let v3 := v3 - v0
  let v2 := s.x2.rotateRight 43 - v3
  let v2 := v2.rotateLeft 55 ^^^ v0
  let v1 := v1 - v2
  let v3 := v3.rotateRight 7 - v2
  let v2 := v2.rotateRight 31
  let v3 := v3 + v2
  let v2 := v2 - v1
  let v3 := v3.rotateRight 39
  let v2 := v2 ^^^ v3
  let v3 := v3.rotateRight 17 ^^^ v2
  let v1 := v1 + v3
  let v1 := v1.rotateRight 9
  let v2 := v2 ^^^ v1
  let v2 := v2.rotateLeft 24
  let v3 := v3 ^^^ v2
  let v3 := v3.rotateRight 59
  let v0 := v0.rotateRight 1 - v1
  v0 ^^^ v1 ^^^ v2 ^^^ v3

/-- StadtX of a message, from a state of four numbers. -/
def stadtx (state : Quad) (m : List Byte) : U64 :=
  let start : Quad := ⟨state.x0 ^^^ (len64 m + 1) * stadtxK0, state.x1 ^^^ (len64 m + 2) * stadtxK1,
    state.x2 ^^^ (len64 m + 3) * stadtxK2, state.x3 ^^^ (len64 m + 4) * stadtxK3⟩
  if m.length < 32 then
    let v := (fullWords m).foldl stadtxShortWord (start.x0, start.x1)
    stadtxShortFinal (stadtxShortTail v.1 v.2 (rest 8 m))
  else
    let r := rest 32 m
    let s := stadtxWords (fullWords r) ((blocks 32 m).foldl stadtxAbsorb start)
    stadtxFinal (stadtxTail { s with x0 := s.x0 ^^^ (len64 r + 1) * stadtxK3 } (rest 8 r))

/-- Two numbers from one: `x ^ (x >> k)` and `x ^ (x << k)`. -/
def xorRight (k : Nat) (x : U64) : U64 := x ^^^ (x >>> k)
def xorLeft (k : Nat) (x : U64) : U64 := x ^^^ (x <<< k)

/-- The scrambling of a number of the state. -/
def stadtxScramble (prime x : U64) : U64 :=
  xorRight 46 (xorLeft 15 (xorRight 19 (xorRight 30 (xorLeft 35 (xorRight 13 x)) * prime)))

/-- `x`, but for 0, which is replaced. -/
def orElse (instead x : U64) : U64 := if x = 0 then instead else x

/-- The state for two seeds. -/
def stadtxState (a b : U64) : Quad :=
  ⟨stadtxScramble 0xdd51e5d1c9a5a151 (stadtxScramble 0x801178846e899d17 (orElse 1 (a ^^^ 0x43f6a8885a308d31))),
    stadtxScramble 0x803340f36895c2b5 (stadtxScramble 0x93a7d6c8c62e4835 (orElse 2 (b ^^^ 0x3198a2e03707344a))),
    stadtxScramble 0xcd95d1e509b995cd (stadtxScramble 0xbea9344eb7565eeb (orElse 4 (a ^^^ 0x4093822299f31d00))),
    stadtxScramble 0xaab8b6b05abfc6cd (stadtxScramble 0x9999791977e30c13 (orElse 8 (b ^^^ 0x82efa98ec4e6c894)))⟩

/-! ## wyhash -/

/-- The five secret numbers. -/
structure WySecret where
  s0 : U64
  s1 : U64
  s2 : U64
  s3 : U64
  s4 : U64

/-- The default ones. -/
def wyp : WySecret :=
  ⟨0xa0761d6478bd642f, 0xe7037ed1a0b428db, 0x8ebc6af09c88c6e3, 0x589965cc75374cc3, 0x1d8e4e27c47d124f⟩

/-- Absorb a block of 64 bytes into the two halves of the state. -/
def wyAbsorb64 (k : WySecret) (s : U64 × U64) (blk : List Byte) : U64 × U64 :=
  let w := word64 .little blk
  (mux (w 0 ^^^ k.s1) (w 1 ^^^ s.1) ^^^ mux (w 2 ^^^ k.s2) (w 3 ^^^ s.1),
   mux (w 4 ^^^ k.s3) (w 5 ^^^ s.2) ^^^ mux (w 6 ^^^ k.s4) (w 7 ^^^ s.2))

/-- Absorb a block of 16 bytes. -/
def wyAbsorb16 (k : WySecret) (s : U64) (blk : List Byte) : U64 :=
  let w := word64 .little blk
  mux (w 0 ^^^ k.s1) (w 1 ^^^ s)

/-- The last bytes (at most 16) as two numbers: the first and the last 8 bytes; or, if there are at most 8,
the first and the last 4; or, if there are less than 4, the first, the middle and the last one. -/
def wyLast (m : List Byte) : U64 × U64 :=
  if 8 < m.length then (num (m.take 8), num (m.drop (m.length - 8)))
  else if 4 ≤ m.length then (num (m.take 4), num (m.drop (m.length - 4)))
  else match m with
    | [] => (0, 0)
    | [a] => (num [a, a, a], 0)
    | [a, b] => (num [b, b, a], 0)
    | _ => (num [m.getD 2 0, m.getD 1 0, m.getD 0 0], 0)

/-- wyhash: blocks of 64 bytes while more than 64 bytes remain, blocks of 16 bytes while more than 16
remain, and the rest. -/
def wyhash (k : WySecret) (m : List Byte) (seed : U64) : U64 :=
  let n := (m.length - 1) / 64
  let s := (chunks 64 n m).foldl (wyAbsorb64 k) (seed ^^^ k.s0, seed ^^^ k.s0)
  let s := if n = 0 then s.1 else s.1 ^^^ s.2
  let m' := m.drop (64 * n)
  let n' := (m'.length - 1) / 16
  let s := (chunks 16 n' m').foldl (wyAbsorb16 k) s
  let ab := wyLast (m'.drop (16 * n'))
  mux (k.s1 ^^^ len64 m) (mux (ab.1 ^^^ k.s1) (ab.2 ^^^ s))

/-! ## HighwayHash -/

/-- The state of HighwayHash. -/
structure Highway where
  v0 : Quad
  v1 : Quad
  mul0 : Quad
  mul1 : Quad
  deriving DecidableEq, Repr

def highwayInit0 : Quad := ⟨0xdbe6d5d5fe4cce2f, 0xa4093822299f31d0, 0x13198a2e03707344, 0x243f6a8885a308d3⟩
def highwayInit1 : Quad := ⟨0x3bd39e10cb0ef593, 0xc0acf169b5f18a8c, 0xbe5466cf34e90c6c, 0x452821e638d01377⟩

/-- Exchange the halves. -/
def swap32 (x : U64) : U64 := x.rotateRight 32

def highwayStart (key : Quad) : Highway where
  v0 := highwayInit0.zip (· ^^^ ·) key
  v1 := highwayInit1.zip (· ^^^ ·) (key.map swap32)
  mul0 := highwayInit0
  mul1 := highwayInit1

/-- The product of the low half of `a` and of the high half of `b`. -/
def halves (a b : U64) : U64 := BitVec.ofNat 64 (a.toNat % 2 ^ 32 * (b.toNat / 2 ^ 32))

/-- The zipper merge: the 16 bytes of two numbers in another order. -/
def zipper (a b : U64) : U64 × U64 :=
  let bytes := leBytes 8 a.toNat ++ leBytes 8 b.toNat
  (num ([3, 12, 2, 5, 14, 1, 15, 0].map fun i => bytes.getD i 0),
   num ([11, 4, 10, 13, 9, 6, 8, 7].map fun i => bytes.getD i 0))

/-- The same for the first two and for the last two of four numbers. -/
def zipper4 (a : Quad) : Quad :=
  ⟨(zipper a.x0 a.x1).1, (zipper a.x0 a.x1).2, (zipper a.x2 a.x3).1, (zipper a.x2 a.x3).2⟩

/-- Absorb four numbers. -/
def highwayUpdate (s : Highway) (lanes : Quad) : Highway :=
  let v1 := s.v1.zip (· + ·) (s.mul0.zip (· + ·) lanes)
  let mul0 := s.mul0.zip (· ^^^ ·) (v1.zip halves s.v0)
  let v0 := s.v0.zip (· + ·) s.mul1
  let mul1 := s.mul1.zip (· ^^^ ·) (v0.zip halves v1)
  let v0 := v0.zip (· + ·) (zipper4 v1)
  let v1 := v1.zip (· + ·) (zipper4 v0)
  ⟨v0, v1, mul0, mul1⟩

/-- A packet of 32 bytes as four numbers. -/
def lanes (packet : List Byte) : Quad :=
  let w := word64 .little packet
  ⟨w 0, w 1, w 2, w 3⟩

def highwayPacket (s : Highway) (packet : List Byte) : Highway := highwayUpdate s (lanes packet)

/-- Rotate both halves to the left. -/
def rotHalves (n : Nat) (x : U64) : U64 :=
  (x >>> 32).setWidth 32 |>.rotateLeft n |>.append (x.setWidth 32 |>.rotateLeft n)

/-- The packet made of the last bytes (1 to 31) of a message: the complete groups of 4 bytes; then, at the
end of the packet, the last 4 bytes, or, if there are less than 16 bytes, in the middle, the first, the
middle and the last one of the bytes after the groups. -/
def highwayPadded (m : List Byte) : List Byte :=
  let n := m.length / 4 * 4
  let r := m.drop n
  if 16 ≤ m.length then m.take n ++ List.replicate (28 - n) 0 ++ m.drop (m.length - 4)
  else m.take n ++ List.replicate (16 - n) 0 ++
    (if r = [] then [0, 0, 0] else [r.getD 0 0, r.getD (r.length / 2) 0, r.getD (r.length - 1) 0]) ++
    List.replicate 13 0

/-- Absorb the last bytes (1 to 31) of a message, made a packet by `pad`. -/
def highwayRemainder (pad : List Byte → List Byte) (s : Highway) (m : List Byte) : Highway :=
  let n := len64 m
  highwayPacket { s with v0 := s.v0.map (· + (n <<< 32 + n)), v1 := s.v1.map (rotHalves m.length) } (pad m)

/-- Absorb a message. -/
def highwayAbsorb (pad : List Byte → List Byte) (key : Quad) (m : List Byte) : Highway :=
  let s := (blocks 32 m).foldl highwayPacket (highwayStart key)
  if rest 32 m = [] then s else highwayRemainder pad s (rest 32 m)

/-- Absorb a message. -/
def highwayAll (key : Quad) (m : List Byte) : Highway := highwayAbsorb highwayPadded key m

/-- Absorb the first four numbers of the state, permuted, `n` times. -/
def highwayRounds : Nat → Highway → Highway
  | 0, s => s
  | n + 1, s =>
    highwayRounds n (highwayUpdate s ⟨swap32 s.v0.x2, swap32 s.v0.x3, swap32 s.v0.x0, swap32 s.v0.x1⟩)

/-- `a` modulo the polynomial x^128 + x^2 + x, for a 256-bit number `a` (four numbers, the low one first; its
highest two bits do not count): the low half of `a`, and the high half shifted by 1 and by 2 bits. -/
def reduce (a0 a1 a2 a3 : U64) : U128 :=
  let hi : U128 := (a3 <<< 2 >>> 2) ++ a2
  (a1 ++ a0) ^^^ (hi <<< 1) ^^^ (hi <<< 2)

/-- The result of 64 bits after the message has been absorbed. -/
def highwayResult64 (s : Highway) : U64 :=
  let s := highwayRounds 4 s
  s.v0.x0 + s.v1.x0 + s.mul0.x0 + s.mul1.x0

/-- The result of 128 bits: two numbers, the low one first. -/
def highwayResult128 (s : Highway) : U64 × U64 :=
  let s := highwayRounds 6 s
  (s.v0.x0 + s.mul0.x0 + s.v1.x2 + s.mul1.x2, s.v0.x1 + s.mul0.x1 + s.v1.x3 + s.mul1.x3)

/-- The result of 256 bits: four numbers, the low one first. -/
def highwayResult256 (s : Highway) : Quad :=
  let s := highwayRounds 10 s
  let a := s.v0.zip (· + ·) s.mul0
  let b := s.v1.zip (· + ·) s.mul1
  let lo := reduce a.x0 a.x1 b.x0 b.x1
  let hi := reduce a.x2 a.x3 b.x2 b.x3
  ⟨lo.setWidth 64, (lo >>> 64).setWidth 64, hi.setWidth 64, (hi >>> 64).setWidth 64⟩

/-- HighwayHash, 64 bits. -/
def highway64 (key : Quad) (m : List Byte) : U64 := highwayResult64 (highwayAll key m)

/-- HighwayHash, 128 bits. -/
def highway128 (key : Quad) (m : List Byte) : U64 × U64 := highwayResult128 (highwayAll key m)

/-- HighwayHash, 256 bits. -/
def highway256 (key : Quad) (m : List Byte) : Quad := highwayResult256 (highwayAll key m)

/-! ### What the C++ implementation makes of it on a machine of a given byte order -/

/-- The bytes of a number, given least significant first, as the machine stores them. -/
def stored : Endian → List Byte → List Byte
  | .little, l => l
  | .big, l => l.reverse

/-- `highwayPadded`, with the end of the packet as four bytes of a number, or the middle as eight bytes of a
number, stored by the machine. -/
def highwayStored (e : Endian) (m : List Byte) : List Byte :=
  let n := m.length / 4 * 4
  let r := m.drop n
  if 16 ≤ m.length then m.take n ++ List.replicate (28 - n) 0 ++ stored e (m.drop (m.length - 4))
  else m.take n ++ List.replicate (16 - n) 0 ++
    stored e ((if r = [] then [0, 0, 0] else [r.getD 0 0, r.getD (r.length / 2) 0, r.getD (r.length - 1) 0]) ++
      List.replicate 5 0) ++ List.replicate 8 0

end Spec

end T1ha
