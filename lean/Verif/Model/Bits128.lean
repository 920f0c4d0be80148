import Verif.Model.Bits

/-!
# src/t1ha_bits.h:1113-1229: helpers for 128-bit numbers

No hash function uses them; they are part of the internal header.
`native` says whether the compiler has 128-bit integers
(`defined(__SIZEOF_INT128__) || _INTEGRAL_MAX_BITS >= 128`, the condition in each of the helpers).
-/

namespace T1ha.Model

/-- `t1ha_uint128_t` (src/t1ha_bits.h:1113-1125). The order of the members follows the byte order of the
machine, so the member `v` of the union is always the number `h * 2^64 + l`. -/
structure Uint128 where
  l : U64
  h : U64
  deriving DecidableEq, Repr

/-- The member `v` of the union (src/t1ha_bits.h:1116). -/
def Uint128.v (x : Uint128) : U128 := x.h ++ x.l

/-- Assignment to the member `v` of the union (src/t1ha_bits.h:1116). -/
def Uint128.ofV (v : U128) : Uint128 := ⟨v.setWidth 64, (v >>> 64).setWidth 64⟩

/-- `x << s` in C: the shift count must be less than the width. -/
def shl {n : Nat} (x : BitVec n) (s : Nat) : M (BitVec n) :=
  if s < n then pure (x <<< s) else fail .badShift

/-- `x >> s` in C: the shift count must be less than the width. -/
def shr {n : Nat} (x : BitVec n) (s : Nat) : M (BitVec n) :=
  if s < n then pure (x >>> s) else fail .badShift

/-- `not128` (src/t1ha_bits.h:1127-1138) -/
def not128 (native : Bool) (v : Uint128) : Uint128 :=
  if native then Uint128.ofV (~~~v.v) else ⟨~~~v.l, ~~~v.h⟩

/-- `left128` (src/t1ha_bits.h:1140-1152) -/
def left128 (cfg : Cfg) (native : Bool) (v : Uint128) (s : Nat) : M Uint128 := do
  cassert cfg (decide (s < 128))
  if native then do
    let r ← shl v.v s
    pure (Uint128.ofV r)
  else do
    let l ← (if s < 64 then shl v.l s else pure 0)
    let h ← (if s < 64 then do
        let x ← shl v.h s
        let y ← (if s ≠ 0 then shr v.l (64 - s) else pure 0)
        pure (x ||| y)
      else shl v.l (s - 64))
    pure ⟨l, h⟩

/-- `right128` (src/t1ha_bits.h:1154-1166) -/
def right128 (cfg : Cfg) (native : Bool) (v : Uint128) (s : Nat) : M Uint128 := do
  cassert cfg (decide (s < 128))
  if native then do
    let r ← shr v.v s
    pure (Uint128.ofV r)
  else do
    let l ← (if s < 64 then do
        let x ← (if s ≠ 0 then shl v.h (64 - s) else pure 0)
        let y ← shr v.l s
        pure (x ||| y)
      else shr v.h (s - 64))
    let h ← (if s < 64 then shr v.h s else pure 0)
    pure ⟨l, h⟩

/-- `or128` (src/t1ha_bits.h:1168-1179) -/
def or128 (native : Bool) (x y : Uint128) : Uint128 :=
  if native then Uint128.ofV (x.v ||| y.v) else ⟨x.l ||| y.l, x.h ||| y.h⟩

/-- `xor128` (src/t1ha_bits.h:1181-1192) -/
def xor128 (native : Bool) (x y : Uint128) : Uint128 :=
  if native then Uint128.ofV (x.v ^^^ y.v) else ⟨x.l ^^^ y.l, x.h ^^^ y.h⟩

/-- `rot128` (src/t1ha_bits.h:1194-1204) -/
def rot128 (cfg : Cfg) (native : Bool) (v : Uint128) (s : Nat) : M Uint128 :=
  let s := s &&& 127
  if native then do
    let x ← shl v.v (128 - s)
    let y ← shr v.v s
    pure (Uint128.ofV (x ||| y))
  else if s ≠ 0 then do
    let x ← left128 cfg native v (128 - s)
    let y ← right128 cfg native v s
    pure (or128 native x y)
  else pure v

/-- `add128` (src/t1ha_bits.h:1206-1216) -/
def add128 (cfg : Cfg) (native : Bool) (x y : Uint128) : Uint128 :=
  if native then Uint128.ofV (x.v + y.v)
  else
    let c := add64carry_first cfg x.l y.l
    ⟨c.2, add64carry_last cfg c.1 x.h y.h⟩

/-- `mul128` (src/t1ha_bits.h:1218-1229) -/
def mul128 (cfg : Cfg) (native : Bool) (x y : Uint128) : Uint128 :=
  if native then Uint128.ofV (x.v * y.v)
  else
    let r := mul_64x64_128 cfg x.l y.l
    ⟨r.1, r.2 + (x.l * y.h + y.l * x.h)⟩

end T1ha.Model
