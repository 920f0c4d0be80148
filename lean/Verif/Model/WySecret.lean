import Verif.Model.Wyhash

/-!
# tests/wyhash/wyhash.h: `make_secret`, `wyrand`, `wyhash64`

Nothing in the repository calls these functions. The five words of the secret are a list of those which are finished,
instead of an array in the memory: the code reads none which it has not written.
-/

namespace T1ha.Model

/-- `wyhash64` (tests/wyhash/wyhash.h:185-190) -/
def wyhash64 (mum : WyMum) (A B : U64) : U64 :=
  let A := A ^^^ _wyp 0
  let B := B ^^^ _wyp 1
  let r := _wymum mum A B
  _wymix mum (r.1 ^^^ _wyp 0) (r.2 ^^^ _wyp 1)

/-- `wyrand` (tests/wyhash/wyhash.h:191-194): the new `*seed`, and what is returned -/
def wyrand (mum : WyMum) (seed : U64) : U64 × U64 :=
  let seed := seed + _wyp 0
  (seed, _wymix mum seed (seed ^^^ _wyp 1))

/-- `portable_popcount` (tests/wyhash/wyhash.h:206-215) -/
def portable_popcount (x : U64) : BitVec 32 :=
  let x := x - (x >>> 1 &&& 0x5555555555555555)
  let x := (x &&& 0x3333333333333333) + (x >>> 2 &&& 0x3333333333333333)
  let x := (x + x >>> 4) &&& 0x0f0f0f0f0f0f0f0f
  let x := x + x >>> 8
  let x := x + x >>> 16
  let x := x + x >>> 32
  (x &&& 0x7f).setWidth 32

/-- `c` of `make_secret` (tests/wyhash/wyhash.h:218-223) -/
def secretBytes : List Byte :=
  [15,  23,  27,  29,  30,  39,  43,  45,  46,  51,  53,  54,
   57,  58,  60,  71,  75,  77,  78,  83,  85,  86,  89,  90,
   92,  99,  101, 102, 105, 106, 108, 113, 114, 116, 120, 135,
   139, 141, 142, 147, 149, 150, 153, 154, 156, 163, 165, 166,
   169, 170, 172, 177, 178, 180, 184, 195, 197, 198, 201, 202,
   204, 209, 210, 212, 216, 225, 226, 228, 232, 240]

/-- The loop which puts a word together (tests/wyhash/wyhash.h:228-230) from `j` on, of which `rounds` rounds are left:
the seed and the word. -/
def secretWord (mum : WyMum) : (rounds : Nat) → (j : Nat) → (seed word : U64) → U64 × U64
  | 0, _, seed, word => (seed, word)
  | rounds + 1, j, seed, word =>
    let r := wyrand mum seed
    let c := secretBytes.getD (r.2.toNat % secretBytes.length) 0
    secretWord mum rounds (j + 8) r.1 (word ||| c.setWidth 64 <<< j)

/-- The loop which compares with the earlier words (tests/wyhash/wyhash.h:235-239): `ok`. -/
def secretDistance (word : U64) : List U64 → Bool
  | [] => true
  | u :: us => if portable_popcount (u ^^^ word) ≠ 32 then false else secretDistance word us

/-- The loop which looks for a divisor (tests/wyhash/wyhash.h:242-246) from `j` on: `ok`. -/
def secretPrime (word : U64) (j : Nat) : Bool :=
  if j < 0x100000000 then if word.toNat % j = 0 then false else secretPrime word (j + 2) else true
termination_by 0x100000000 - j

/-- The body of the `do` loop (tests/wyhash/wyhash.h:226-246): the seed, the word and `ok`. -/
def secretRound (mum : WyMum) (earlier : List U64) (seed : U64) : U64 × U64 × Bool :=
  let r := secretWord mum 8 0 seed 0
  (r.1, r.2,
    if r.2 % 2 = 0 then false
    else if ! secretDistance r.2 earlier then false
    else secretPrime r.2 3)

/-- The `do` loop (tests/wyhash/wyhash.h:226-247): the seed and the word; `none` if it has not ended after `fuel`
rounds. -/
def secretLoop (mum : WyMum) (earlier : List U64) : (fuel : Nat) → (seed : U64) → Option (U64 × U64)
  | 0, _ => none
  | fuel + 1, seed =>
    let r := secretRound mum earlier seed
    if r.2.2 then some (r.1, r.2.1) else secretLoop mum earlier fuel r.1

/-- The loop over the words (tests/wyhash/wyhash.h:224-248), of which `n` are left. -/
def secretWords (mum : WyMum) (fuel : Nat) : (n : Nat) → (earlier : List U64) → (seed : U64) → Option (List U64)
  | 0, earlier, _ => some earlier
  | n + 1, earlier, seed =>
    match secretLoop mum earlier fuel seed with
    | none => none
    | some (seed, word) => secretWords mum fuel n (earlier ++ [word]) seed

/-- `make_secret` (tests/wyhash/wyhash.h:217-249): the five words, `none` if one of them has not been found in `fuel`
rounds. -/
def make_secret (mum : WyMum) (fuel : Nat) (seed : U64) : Option (List U64) := secretWords mum fuel 5 [] seed

end T1ha.Model
