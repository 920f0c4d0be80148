import Verif.Model.Bits
import Verif.SpecOthers

/-!
# tests/wyhash

wyhash, which the test program measures. `WYHASH_CONDOM` is 1 and `WYHASH_32BIT_MUM` is 0
(tests/wyhash/wyhash.h:5-8).
-/

namespace T1ha.Model

/-- Which `_wymum` the compiler gets (tests/wyhash/wyhash.h:37-71). -/
inductive WyMum
  /-- `__uint128_t` -/
  | int128
  /-- `_umul128` -/
  | umul128
  /-- four multiplications -/
  | portable
  deriving DecidableEq, Repr

/-- `_wymum` (tests/wyhash/wyhash.h:25-72): the new `*A`, `*B`. The intrinsic `_umul128` is taken to be right. -/
def _wymum (mum : WyMum) (A B : U64) : U64 × U64 :=
  match mum with
  | .int128 =>
    let r : U128 := A.setWidth 128
    let r := r * B.setWidth 128
    (r.setWidth 64, (r >>> 64).setWidth 64)
  | .umul128 =>
    (BitVec.ofNat 64 (A.toNat * B.toNat), BitVec.ofNat 64 (A.toNat * B.toNat / 2 ^ 64))
  | .portable =>
    let ha := A >>> 32
    let hb := B >>> 32
    let la := (A.setWidth 32).setWidth 64
    let lb := (B.setWidth 32).setWidth 64
    let rh := ha * hb
    let rm0 := ha * lb
    let rm1 := hb * la
    let rl := la * lb
    let t := rl + rm0 <<< 32
    let c : U64 := if t < rl then 1 else 0
    let lo := t + rm1 <<< 32
    let c := c + if lo < t then 1 else 0
    let hi := rh + rm0 >>> 32 + rm1 >>> 32 + c
    (lo, hi)

/-- `_wymix` (tests/wyhash/wyhash.h:73-76) -/
def _wymix (mum : WyMum) (A B : U64) : U64 :=
  let r := _wymum mum A B
  r.1 ^^^ r.2

/-- `_wyr8` (tests/wyhash/wyhash.h:88-92, 99-103, 110-114). `WYHASH_LITTLE_ENDIAN` is taken to be right. The
local variable is not part of the memory of the model. -/
def _wyr8 (cfg : Cfg) (p : Nat) : M U64 := do
  let v ← readInt cfg p 8
  match cfg.endian with
  | .little => pure (BitVec.ofNat 64 v)
  | .big => pure (BitVec.ofNat 64 (beVal (leBytes 8 v)))

/-- `_wyr4` (tests/wyhash/wyhash.h:93-97, 104-108, 115-119) -/
def _wyr4 (cfg : Cfg) (p : Nat) : M U64 := do
  let v ← readInt cfg p 4
  match cfg.endian with
  | .little => pure (BitVec.ofNat 64 v)
  | .big => pure (BitVec.ofNat 64 (beVal (leBytes 4 v)))

/-- `_wyr3` (tests/wyhash/wyhash.h:121-123) -/
def _wyr3 (p k : Nat) : M U64 := do
  let b0 ← byteAt p 0
  let b1 ← byteAt p (k >>> 1)
  let b2 ← byteAt p (k - 1)
  pure (b0.setWidth 64 <<< 16 ||| b1.setWidth 64 <<< 8 ||| b2.setWidth 64)

/-- `_wyfinish16` (tests/wyhash/wyhash.h:125-150). The array `secret` is passed by value. -/
def _wyfinish16 (cfg : Cfg) (mum : WyMum) (p : Nat) (len seed : U64) (secret : Fin 5 → U64) (i : Nat) :
    M U64 := do
  let (a, b) ← (if i ≤ 8 then
      if 4 ≤ i then do
        let a ← _wyr4 cfg p
        let q ← ptrAdd cfg p i
        let q ← ptrSub cfg q 4
        let b ← _wyr4 cfg q
        pure (a, b)
      else if i ≠ 0 then do
        let a ← _wyr3 p i
        pure (a, 0)
      else pure (0, 0)
    else do
      let a ← _wyr8 cfg p
      let q ← ptrAdd cfg p i
      let q ← ptrSub cfg q 8
      let b ← _wyr8 cfg q
      pure (a, b) : M (U64 × U64))
  pure (_wymix mum (secret 1 ^^^ len) (_wymix mum (a ^^^ secret 1) (b ^^^ seed)))

/-- `_wyfinish` (tests/wyhash/wyhash.h:152-160); `fuel` bounds the depth of the recursion, which is counted like
the iterations of a loop. -/
def _wyfinish (cfg : Cfg) (mum : WyMum) : Nat → Nat → U64 → U64 → (Fin 5 → U64) → Nat → M U64
  | 0, _, _, _, _, _ => fail .diverge
  | fuel + 1, p, len, seed, secret, i => do
    if i ≤ 16 then _wyfinish16 cfg mum p len seed secret i
    else do
      iterate
      let q ← ptrAdd cfg p 16
      let x ← _wyr8 cfg p
      let y ← _wyr8 cfg (p + 8)
      _wyfinish cfg mum fuel q len (_wymix mum (x ^^^ secret 1) (y ^^^ seed)) secret (i - 16)

/-- The `do ... while` loop of `wyhash` (tests/wyhash/wyhash.h:169-176): the new `seed`, `see1`, `p`, `i` -/
def wyhash_loop (cfg : Cfg) (mum : WyMum) (secret : Fin 5 → U64) :
    Nat → U64 → U64 → Nat → Nat → M (U64 × U64 × Nat × Nat)
  | 0, _, _, _, _ => fail .diverge
  | fuel + 1, seed, see1, p, i => do
    iterate
    let x0 ← _wyr8 cfg p
    let x1 ← _wyr8 cfg (p + 8)
    let x2 ← _wyr8 cfg (p + 16)
    let x3 ← _wyr8 cfg (p + 24)
    let seed := _wymix mum (x0 ^^^ secret 1) (x1 ^^^ seed) ^^^ _wymix mum (x2 ^^^ secret 2) (x3 ^^^ seed)
    let x4 ← _wyr8 cfg (p + 32)
    let x5 ← _wyr8 cfg (p + 40)
    let x6 ← _wyr8 cfg (p + 48)
    let x7 ← _wyr8 cfg (p + 56)
    let see1 := _wymix mum (x4 ^^^ secret 3) (x5 ^^^ see1) ^^^ _wymix mum (x6 ^^^ secret 4) (x7 ^^^ see1)
    let p ← ptrAdd cfg p 64
    let i := i - 64
    if 64 < i then wyhash_loop cfg mum secret fuel seed see1 p i
    else pure (seed, see1, p, i)

/-- `wyhash` (tests/wyhash/wyhash.h:162-180) -/
def wyhash (cfg : Cfg) (mum : WyMum) (key len : Nat) (seed : U64) (secret : Fin 5 → U64) : M U64 := do
  let i := len
  let seed := seed ^^^ secret 0
  let (seed, p, i) ← (if 64 < i then do
      let (seed, see1, p, i) ← wyhash_loop cfg mum secret i seed seed key i
      pure (seed ^^^ see1, p, i)
    else pure (seed, key, i))
  _wyfinish cfg mum (i + 1) p (BitVec.ofNat 64 len) seed secret i

/-- `_wyp` (tests/wyhash/wyhash.h:182-184) -/
def _wyp : Fin 5 → U64
  | 0 => 0xa0761d6478bd642f
  | 1 => 0xe7037ed1a0b428db
  | 2 => 0x8ebc6af09c88c6e3
  | 3 => 0x589965cc75374cc3
  | 4 => 0x1d8e4e27c47d124f

/-- `thunk_wyhash_v7` (tests/wyhash/wyhash_thunk.c:25-27) -/
def thunk_wyhash_v7 (cfg : Cfg) (mum : WyMum) (input length : Nat) (seed : U64) : M U64 :=
  wyhash cfg mum input length seed _wyp

/-- The calls of `wyhash_v7_selftest` (tests/wyhash/wyhash_thunk.c:30-42): the string literal, the seed, and the
expected value. The length is that of the literal. -/
def wyhash_v7_cases : List (String × U64 × U64) :=
  [("", 0, 0x42bc986dc5eec4d3), ("a", 1, 0x84508dc903c31551), ("abc", 2, 0xbc54887cfc9ecb1),
    ("message digest", 3, 0xadc146444841c430), ("abcdefghijklmnopqrstuvwxyz", 4, 0x4c0977bd4f14f34a),
    ("ABCDEFGHIJKLMNOPQRSTUVWXYZabcdefghijklmnopqrstuvwxyz0123456789", 5, 0x6f8bd609a8a276d2),
    ("12345678901234567890123456789012345678901234567890123456789012345678901234567890", 6,
      0x498d7c21668259ad)]

/-- `wyhash_v7_selftest` (tests/wyhash/wyhash_thunk.c:29-44): `at_ k` is the address of the `k`-th literal (for the
first call a null pointer). -/
def wyhash_v7_selftest (cfg : Cfg) (mum : WyMum) (at_ : Nat → Nat) :
    List (String × U64 × U64) → Nat → Bool → M Bool
  | [], _, failed => pure failed
  | (text, seed, expected) :: rest, k, failed => do
    let v ← wyhash cfg mum (at_ k) text.utf8ByteSize seed _wyp
    wyhash_v7_selftest cfg mum at_ rest (k + 1) (failed || v != expected)

end T1ha.Model
