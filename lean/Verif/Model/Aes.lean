import Verif.Model.Bits
import Verif.X86

/-!
# src/t1ha0_ia32aes_a.h, src/t1ha0_ia32aes_b.h

The AES-NI variants. `_mm256_zeroupper` and `_mm_empty` have no effect on the values; `unlikely` has no
effect.
-/

namespace T1ha.Model

open X86 (aesenc aesdec add64 sub64 set64x lane0 lane1 lane32 unpackhi64 shuffle32)

/-- What the compiler is told about the CPU (src/t1ha0_ia32aes_a.h:109-131,
src/t1ha0_ia32aes_b.h:96-117). -/
structure AesCfg where
  /-- `__x86_64__` or `_M_X64` -/
  x86_64 : Bool
  /-- `__SSE4_1__` or `__AVX__` -/
  sse41 : Bool
  deriving DecidableEq, Repr

/-- `_mm_loadu_si128` -/
def loadu (p : Nat) : M U128 := do
  let bs ← load p 16
  pure (BitVec.ofNat 128 (leVal bs))

/-- `a` and `b` from `x`, in the four ways of src/t1ha0_ia32aes_a.h:109-131 and
src/t1ha0_ia32aes_b.h:96-117 (same text). -/
def aes_extract (ac : AesCfg) (x : U128) : U64 × U64 :=
  if ac.x86_64 then
    if ac.sse41 then (lane0 x, lane1 x)
    else (lane0 x, lane0 (unpackhi64 x x))
  else
    if ac.sse41 then
      ((lane32 x 0).setWidth 64 ||| (lane32 x 1).signExtend 64 <<< 32,
        (lane32 x 2).setWidth 64 ||| (lane32 x 3).signExtend 64 <<< 32)
    else
      let a := (lane32 x 0).setWidth 64
      let a := a ||| (lane32 (shuffle32 x 1) 0).signExtend 64 <<< 32
      let x := unpackhi64 x x
      let b := (lane32 x 0).setWidth 64
      let b := b ||| (lane32 (shuffle32 x 1) 0).signExtend 64 <<< 32
      (a, b)

/-- The `switch` at the end (src/t1ha0_ia32aes_a.h:141-178, src/t1ha0_ia32aes_b.h:126-163, same text):
each case falls through to the next one. -/
def aes_tail (cfg : Cfg) (a b : U64) (v len : Nat) : M U64 := do
  let (a, b, v) ← (if 24 < len then do
      let w ← fetch64_le_unaligned cfg v
      let v ← ptrAdd cfg v 8
      let ab := mixup64 cfg a b w prime_4
      pure (ab.1, ab.2, v)
    else pure (a, b, v))
  let (a, b, v) ← (if 16 < len then do
      let w ← fetch64_le_unaligned cfg v
      let v ← ptrAdd cfg v 8
      let ba := mixup64 cfg b a w prime_3
      pure (ba.2, ba.1, v)
    else pure (a, b, v))
  let (a, b, v) ← (if 8 < len then do
      let w ← fetch64_le_unaligned cfg v
      let v ← ptrAdd cfg v 8
      let ab := mixup64 cfg a b w prime_2
      pure (ab.1, ab.2, v)
    else pure (a, b, v))
  let (a, b) ← (if 0 < len then do
      let w ← tail64_le_unaligned cfg v len
      let ba := mixup64 cfg b a w prime_1
      pure (ba.2, ba.1)
    else pure (a, b))
  pure (final64 cfg a b)

/-- The loop over blocks of 128 bytes (src/t1ha0_ia32aes_a.h:61-82): `x`, `y`, `v` after it. -/
def aes_a_loop (cfg : Cfg) (detent : Nat) : Nat → U128 → U128 → Nat → M (U128 × U128 × Nat)
  | 0, _, _, _ => fail .diverge
  | fuel + 1, x, y, v =>
    if v < detent then do
      iterate
      let v0 ← loadu v
      let v1 ← loadu (v + 16)
      let v2 ← loadu (v + 32)
      let v3 ← loadu (v + 48)
      let v4 ← loadu (v + 64)
      let v5 ← loadu (v + 80)
      let v6 ← loadu (v + 96)
      let v7 ← loadu (v + 112)
      let v0y := aesenc v0 y
      let v2x6 := aesenc v2 (x ^^^ v6)
      let v45_67 := aesenc v4 v5 ^^^ add64 v6 v7
      let v0y7_1 := aesdec (sub64 v7 v0y) v1
      let v2x6_3 := aesenc v2x6 v3
      let x := aesenc v45_67 (add64 x y)
      let y := aesenc v2x6_3 (v0y7_1 ^^^ v5)
      let v ← ptrAdd cfg v 128
      aes_a_loop cfg detent fuel x y v
    else pure (x, y, v)

/-- Two vectors (src/t1ha0_ia32aes_a.h:85-88, 90-93, 97-100, src/t1ha0_ia32aes_b.h:89-92). -/
def aes_pair (cfg : Cfg) (x y : U128) (v : Nat) : M (U128 × U128 × Nat) := do
  let l0 ← loadu v
  let v ← ptrAdd cfg v 16
  let v0y := add64 y l0
  let l1 ← loadu v
  let v ← ptrAdd cfg v 16
  let v1x := sub64 x l1
  let x := aesdec x v0y
  let y := aesdec y v1x
  pure (x, y, v)

/-- src/t1ha0_ia32aes_a.h:84-106: the rest after the loop -/
def aes_a_rest (cfg : Cfg) (x y : U128) (v len : Nat) : M (U128 × U128 × Nat) := do
  let (x, y, v) ← (if len &&& 64 ≠ 0 then do
      let (x, y, v) ← aes_pair cfg x y v
      aes_pair cfg x y v
    else pure (x, y, v))
  let (x, y, v) ← (if len &&& 32 ≠ 0 then aes_pair cfg x y v else pure (x, y, v))
  if len &&& 16 ≠ 0 then do
    let y := add64 x y
    let l ← loadu v
    let v ← ptrAdd cfg v 16
    let x := aesdec x l
    pure (x, y, v)
  else pure (x, y, v)

/-- `t1ha0_ia32aes_noavx` (src/t1ha0_ia32aes_noavx.c:1-4) and `t1ha0_ia32aes_avx`
(src/t1ha0_ia32aes_avx.c:1-4): src/t1ha0_ia32aes_a.h:49-179 -/
def t1ha0_ia32aes_a (cfg : Cfg) (ac : AesCfg) (data len : Nat) (seed : U64) : M U64 := do
  let a := seed
  let b := BitVec.ofNat 64 len
  if 32 < len then do
    let x := set64x a b
    let y := aesenc x (set64x prime_5 prime_6)
    let end_ ← ptrAdd cfg data len
    let detent ← ptrSub cfg end_ 127
    let (x, y, v) ← aes_a_loop cfg detent len x y data
    let (x, y, v) ← aes_a_rest cfg x y v len
    let x := add64 (aesdec x (aesenc y x)) y
    let (a, b) := aes_extract ac x
    aes_tail cfg a b v (len &&& 15)
  else aes_tail cfg a b data len

/-- `t1ha0_ia32aes_noavx` (src/t1ha0_ia32aes_noavx.c:1-4) -/
def t1ha0_ia32aes_noavx (cfg : Cfg) (ac : AesCfg) (data len : Nat) (seed : U64) : M U64 :=
  t1ha0_ia32aes_a cfg ac data len seed

/-- `t1ha0_ia32aes_avx` (src/t1ha0_ia32aes_avx.c:1-4) -/
def t1ha0_ia32aes_avx (cfg : Cfg) (ac : AesCfg) (data len : Nat) (seed : U64) : M U64 :=
  t1ha0_ia32aes_a cfg ac data len seed

/-- `aesdec` with the next vector, once for each of src/t1ha0_ia32aes_b.h:72-74, 76-79 -/
def aes_b_dec (cfg : Cfg) (t : U128) (v : Nat) : M (U128 × Nat) := do
  let l ← loadu v
  let v ← ptrAdd cfg v 16
  pure (aesdec t l, v)

/-- The `do ... while` over blocks of 128 bytes (src/t1ha0_ia32aes_b.h:70-85): `x`, `y`, `v` after
it. -/
def aes_b_loop (cfg : Cfg) (detent : Nat) : Nat → U128 → U128 → U128 → Nat → M (U128 × U128 × Nat)
  | 0, _, _, _, _ => fail .diverge
  | fuel + 1, x, y, salt, v => do
    iterate
    let l ← loadu v
    let v ← ptrAdd cfg v 16
    let t := aesenc l salt
    let (t, v) ← aes_b_dec cfg t v
    let (t, v) ← aes_b_dec cfg t v
    let (t, v) ← aes_b_dec cfg t v
    let (t, v) ← aes_b_dec cfg t v
    let (t, v) ← aes_b_dec cfg t v
    let (t, v) ← aes_b_dec cfg t v
    let (t, v) ← aes_b_dec cfg t v
    let salt := add64 salt (set64x prime_5 prime_6)
    let t := aesenc x t
    let x := add64 y x
    let y := t
    let v7 ← ptrAdd cfg v (7 * 16)
    if v7 < detent then aes_b_loop cfg detent fuel x y salt v
    else pure (x, y, v)

/-- The `while` over pairs of vectors (src/t1ha0_ia32aes_b.h:88-93) -/
def aes_b_pairs (cfg : Cfg) (detent : Nat) : Nat → U128 → U128 → Nat → M (U128 × U128 × Nat)
  | 0, _, _, _ => fail .diverge
  | fuel + 1, x, y, v =>
    if v < detent then do
      iterate
      let (x, y, v) ← aes_pair cfg x y v
      aes_b_pairs cfg detent fuel x y v
    else pure (x, y, v)

/-- `len & ~15ul` (src/t1ha0_ia32aes_b.h:59): the constant has the width of `unsigned long`, and is
extended with zeros to the width of `size_t`. -/
def aes_b_mask (cfg : Cfg) (len : Nat) : Nat :=
  len &&& (2 ^ (if cfg.ulong64 then 64 else 32) - 16)

/-- `t1ha0_ia32aes_avx2` (src/t1ha0_ia32aes_avx2.c:1-4): src/t1ha0_ia32aes_b.h:49-164 -/
def t1ha0_ia32aes_avx2 (cfg : Cfg) (ac : AesCfg) (data len : Nat) (seed : U64) : M U64 := do
  let a := seed
  let b := BitVec.ofNat 64 len
  if 32 < len then do
    let x := set64x a b
    let y := aesenc x (set64x prime_0 prime_1)
    let v := data
    let detent ← ptrAdd cfg data (aes_b_mask cfg len)
    let (x, y, v) ← (if len &&& 16 ≠ 0 then do
        let l ← loadu v
        let v ← ptrAdd cfg v 16
        let x := add64 x l
        let y := aesenc x y
        pure (x, y, v)
      else pure (x, y, v))
    let len := len &&& 15
    let v7 ← ptrAdd cfg v (7 * 16)
    let (x, y, v) ← (if v7 < detent then aes_b_loop cfg detent (detent - v) x y y v
      else pure (x, y, v))
    let (x, y, _) ← aes_b_pairs cfg detent (detent - v + 1) x y v
    let x := add64 (aesdec x (aesenc y x)) y
    let (a, b) := aes_extract ac x
    aes_tail cfg a b detent len
  else aes_tail cfg a b data len

end T1ha.Model
