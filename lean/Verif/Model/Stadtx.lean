import Verif.Model.Bits
import Verif.SpecOthers

/-!
# tests/stadtx

StadtX, which the test program measures.
-/

namespace T1ha.Model

/-- `ROTL64` (tests/stadtx/stadtx_hash.h:12) -/
def ROTL64 (x : U64) (r : Nat) (h : 0 < 64 - r ∧ 64 - r < 64 := by decide) : U64 := rot64 x (64 - r) h

/-- `ROTR64` (tests/stadtx/stadtx_hash.h:13) -/
def ROTR64 (x : U64) (r : Nat) (h : 0 < r ∧ r < 64 := by decide) : U64 := rot64 x r h

/-- tests/stadtx/stadtx_hash.h:75 -/
def STADTX_K0_uint64_t : U64 := 0xb89b0f8e1655514f
/-- tests/stadtx/stadtx_hash.h:76 -/
def STADTX_K1_uint64_t : U64 := 0x8c6f736011bd5127
/-- tests/stadtx/stadtx_hash.h:77 -/
def STADTX_K2_uint64_t : U64 := 0x8f29bd94edce7b39
/-- tests/stadtx/stadtx_hash.h:78 -/
def STADTX_K3_uint64_t : U64 := 0x9c1b8e1e9628323f
/-- tests/stadtx/stadtx_hash.h:80 -/
def STADTX_K2_uint32_t : U32 := 0x802910e3
/-- tests/stadtx/stadtx_hash.h:81 -/
def STADTX_K3_uint32_t : U32 := 0x819b13af
/-- tests/stadtx/stadtx_hash.h:82 -/
def STADTX_K4_uint32_t : U32 := 0x91cb27e5
/-- tests/stadtx/stadtx_hash.h:83 -/
def STADTX_K5_uint32_t : U32 := 0xc1a269c1

/-- One of the cases 3, 2, 1 of the first `switch` (tests/stadtx/stadtx_hash.h:95-98, 101-104, 107-110: the
same text three times): the new `v0`, `v1`, `key` -/
def stadtx_short_word (cfg : Cfg) (v0 v1 : U64) (key : Nat) : M (U64 × U64 × Nat) := do
  let x ← fetch64_le_unaligned cfg key
  let v0 := v0 + x * STADTX_K3_uint64_t
  let v0 := ROTR64 v0 17 ^^^ v1
  let v1 := ROTR64 v1 53 + v0
  let key ← ptrAdd cfg key 8
  pure (v0, v1, key)

/-- The first `switch` for less than 32 bytes (tests/stadtx/stadtx_hash.h:93-115): the new `v0`, `v1`, `key`.
Each case falls through to the next one. -/
def stadtx_short_words (cfg : Cfg) (v0 v1 : U64) (key len : Nat) : M (U64 × U64 × Nat) := do
  let (v0, v1, key) ← (if 3 ≤ len >>> 3 then stadtx_short_word cfg v0 v1 key else pure (v0, v1, key))
  let (v0, v1, key) ← (if 2 ≤ len >>> 3 then stadtx_short_word cfg v0 v1 key else pure (v0, v1, key))
  if 1 ≤ len >>> 3 then stadtx_short_word cfg v0 v1 key else pure (v0, v1, key)

/-- The second `switch` for less than 32 bytes (tests/stadtx/stadtx_hash.h:116-141): the new `v0`, `v1` -/
def stadtx_short_tail (cfg : Cfg) (v0 v1 : U64) (key len : Nat) : M (U64 × U64) :=
  match len &&& 7 with
  | 7 => do
    let k6 ← byteAt key 6
    let v0 := v0 + k6.setWidth 64 <<< 32
    let k5 ← byteAt key 5
    let v1 := v1 + k5.setWidth 64 <<< 48
    let k4 ← byteAt key 4
    let v0 := v0 + k4.setWidth 64 <<< 16
    let x ← fetch32_le_unaligned cfg key
    pure (v0, v1 + x.setWidth 64)
  | 6 => do
    let k5 ← byteAt key 5
    let v1 := v1 + k5.setWidth 64 <<< 48
    let k4 ← byteAt key 4
    let v0 := v0 + k4.setWidth 64 <<< 16
    let x ← fetch32_le_unaligned cfg key
    pure (v0, v1 + x.setWidth 64)
  | 5 => do
    let k4 ← byteAt key 4
    let v0 := v0 + k4.setWidth 64 <<< 16
    let x ← fetch32_le_unaligned cfg key
    pure (v0, v1 + x.setWidth 64)
  | 4 => do
    let x ← fetch32_le_unaligned cfg key
    pure (v0, v1 + x.setWidth 64)
  | 3 => do
    let k2 ← byteAt key 2
    let v0 := v0 + k2.setWidth 64 <<< 48
    let x ← fetch16_le_unaligned cfg key
    pure (v0, v1 + x.setWidth 64)
  | 2 => do
    let x ← fetch16_le_unaligned cfg key
    pure (v0, v1 + x.setWidth 64)
  | 1 => do
    let k0 ← byteAt key 0
    let v0 := v0 + k0.setWidth 64
    pure (v0, ROTL64 v1 32 ^^^ 0xFF)
  | _ => pure (v0, ROTL64 v1 32 ^^^ 0xFF)

/-- The end of the function for less than 32 bytes (tests/stadtx/stadtx_hash.h:142-155) -/
def stadtx_short_final (v0 v1 : U64) : U64 :=
  let v1 := v1 ^^^ v0
  let v0 := ROTR64 v0 33 + v1
  let v1 := ROTL64 v1 17 ^^^ v0
  let v0 := ROTL64 v0 43 + v1
  let v1 := ROTL64 v1 31 - v0
  let v0 := ROTL64 v0 13 ^^^ v1
  let v1 := v1 - v0
  let v0 := ROTL64 v0 41 + v1
  let v1 := ROTL64 v1 37 ^^^ v0
  let v0 := ROTR64 v0 39 + v1
  let v1 := ROTR64 v1 15 + v0
  let v0 := ROTL64 v0 15 ^^^ v1
  let v1 := ROTR64 v1 5
  v0 ^^^ v1

/-- The `do ... while` loop (tests/stadtx/stadtx_hash.h:160-171): the new `v0` ... `v3`, `key`, `len` -/
def stadtx_loop (cfg : Cfg) : Nat → Quad → Nat → Nat → M (Quad × Nat × Nat)
  | 0, _, _, _ => fail .diverge
  | fuel + 1, v, key, len => do
    iterate
    let x ← fetch64_le_unaligned cfg key
    let v0 := v.x0 + x * STADTX_K2_uint32_t.setWidth 64
    let v0 := ROTL64 v0 57 ^^^ v.x3
    let x ← fetch64_le_unaligned cfg (key + 8)
    let v1 := v.x1 + x * STADTX_K3_uint32_t.setWidth 64
    let v1 := ROTL64 v1 63 ^^^ v.x2
    let x ← fetch64_le_unaligned cfg (key + 16)
    let v2 := v.x2 + x * STADTX_K4_uint32_t.setWidth 64
    let v2 := ROTR64 v2 47 + v0
    let x ← fetch64_le_unaligned cfg (key + 24)
    let v3 := v.x3 + x * STADTX_K5_uint32_t.setWidth 64
    let v3 := ROTR64 v3 11 - v1
    let key ← ptrAdd cfg key 32
    let len := len - 32
    if 32 ≤ len then stadtx_loop cfg fuel ⟨v0, v1, v2, v3⟩ key len
    else pure (⟨v0, v1, v2, v3⟩, key, len)

/-- Case 3 of the `switch` over words (tests/stadtx/stadtx_hash.h:175-177): the new `v0` ... `v3`, `key` -/
def stadtx_word_3 (cfg : Cfg) (v : Quad) (key : Nat) : M (Quad × Nat) := do
  let x ← fetch64_le_unaligned cfg key
  let v0 := v.x0 + x * STADTX_K2_uint32_t.setWidth 64
  let key ← ptrAdd cfg key 8
  pure ({ v with x0 := ROTL64 v0 57 ^^^ v.x3 }, key)

/-- Case 2 of the `switch` over words (tests/stadtx/stadtx_hash.h:180-182) -/
def stadtx_word_2 (cfg : Cfg) (v : Quad) (key : Nat) : M (Quad × Nat) := do
  let x ← fetch64_le_unaligned cfg key
  let v1 := v.x1 + x * STADTX_K3_uint32_t.setWidth 64
  let key ← ptrAdd cfg key 8
  pure ({ v with x1 := ROTL64 v1 63 ^^^ v.x2 }, key)

/-- Case 1 of the `switch` over words (tests/stadtx/stadtx_hash.h:185-187) -/
def stadtx_word_1 (cfg : Cfg) (v : Quad) (key : Nat) : M (Quad × Nat) := do
  let x ← fetch64_le_unaligned cfg key
  let v2 := v.x2 + x * STADTX_K4_uint32_t.setWidth 64
  let key ← ptrAdd cfg key 8
  pure ({ v with x2 := ROTR64 v2 47 + v.x0 }, key)

/-- The `switch` over words after the loop (tests/stadtx/stadtx_hash.h:173-191), each case falls through to the
next one: the new `v0` ... `v3`, `key` -/
def stadtx_words (cfg : Cfg) (v : Quad) (key len : Nat) : M (Quad × Nat) := do
  let (v, key) ← (if 3 ≤ len >>> 3 then stadtx_word_3 cfg v key else pure (v, key))
  let (v, key) ← (if 2 ≤ len >>> 3 then stadtx_word_2 cfg v key else pure (v, key))
  let (v, key) ← (if 1 ≤ len >>> 3 then stadtx_word_1 cfg v key else pure (v, key))
  pure ({ v with x3 := ROTR64 v.x3 11 - v.x1 }, key)

/-- The `switch` over the last bytes (tests/stadtx/stadtx_hash.h:193-219): the new `v0` ... `v3` -/
def stadtx_tail (cfg : Cfg) (v : Quad) (key len : Nat) : M Quad :=
  match len &&& 7 with
  | 7 => do
    let k6 ← byteAt key 6
    let v := { v with x1 := v.x1 + k6.setWidth 64 }
    let x ← fetch16_le_unaligned cfg (key + 4)
    let v := { v with x2 := v.x2 + x.setWidth 64 }
    let x ← fetch32_le_unaligned cfg key
    pure { v with x3 := v.x3 + x.setWidth 64 }
  | 6 => do
    let x ← fetch16_le_unaligned cfg (key + 4)
    let v := { v with x2 := v.x2 + x.setWidth 64 }
    let x ← fetch32_le_unaligned cfg key
    pure { v with x3 := v.x3 + x.setWidth 64 }
  | 5 => do
    let k4 ← byteAt key 4
    let v := { v with x1 := v.x1 + k4.setWidth 64 }
    let x ← fetch32_le_unaligned cfg key
    pure { v with x2 := v.x2 + x.setWidth 64 }
  | 4 => do
    let x ← fetch32_le_unaligned cfg key
    pure { v with x2 := v.x2 + x.setWidth 64 }
  | 3 => do
    let k2 ← byteAt key 2
    let v := { v with x3 := v.x3 + k2.setWidth 64 }
    let x ← fetch16_le_unaligned cfg key
    pure { v with x1 := v.x1 + x.setWidth 64 }
  | 2 => do
    let x ← fetch16_le_unaligned cfg key
    pure { v with x1 := v.x1 + x.setWidth 64 }
  | 1 => do
    let k0 ← byteAt key 0
    let v := { v with x2 := v.x2 + k0.setWidth 64 }
    pure { v with x3 := ROTL64 v.x3 32 ^^^ 0xFF }
  | _ => pure { v with x3 := ROTL64 v.x3 32 ^^^ 0xFF }

/-- The end of the function for at least 32 bytes (tests/stadtx/stadtx_hash.h:221-249) -/
def stadtx_final (v : Quad) : U64 :=
  let v1 := v.x1 - v.x2
  let v0 := ROTR64 v.x0 19
  let v1 := v1 - v0
  let v1 := ROTR64 v1 53
  let v3 := v.x3 ^^^ v1
  let v0 := v0 - v3
  let v3 := ROTL64 v3 43
  let v0 := v0 + v3
  let v0 := ROTR64 v0 3
  let v3 := v3 - v0
  let v2 := ROTR64 v.x2 43 - v3
  let v2 := ROTL64 v2 55 ^^^ v0
  let v1 := v1 - v2
  let v3 := ROTR64 v3 7 - v2
  let v2 := ROTR64 v2 31
  let v3 := v3 + v2
  let v2 := v2 - v1
  let v3 := ROTR64 v3 39
  let v2 := v2 ^^^ v3
  let v3 := ROTR64 v3 17 ^^^ v2
  let v1 := v1 + v3
  let v1 := ROTR64 v1 9
  let v2 := v2 ^^^ v1
  let v2 := ROTL64 v2 24
  let v3 := v3 ^^^ v2
  let v3 := ROTR64 v3 59
  let v0 := ROTR64 v0 1 - v1
  v0 ^^^ v1 ^^^ v2 ^^^ v3

/-- `stadtx_hash_with_state` (tests/stadtx/stadtx_hash.h:85-251). `key_len + 1` ... `key_len + 4` are computed in
`size_t`, `len + 1` in `uint64_t`. Simplification: the four words of the state are passed by value. -/
def stadtx_hash_with_state (cfg : Cfg) (state : Quad) (key key_len : Nat) : M U64 := do
  let len := key_len
  let v0 := state.x0 ^^^ BitVec.ofNat 64 (szAdd cfg key_len 1) * STADTX_K0_uint64_t
  let v1 := state.x1 ^^^ BitVec.ofNat 64 (szAdd cfg key_len 2) * STADTX_K1_uint64_t
  if len < 32 then do
    let (v0, v1, key) ← stadtx_short_words cfg v0 v1 key len
    let (v0, v1) ← stadtx_short_tail cfg v0 v1 key len
    pure (stadtx_short_final v0 v1)
  else do
    let v2 := state.x2 ^^^ BitVec.ofNat 64 (szAdd cfg key_len 3) * STADTX_K2_uint64_t
    let v3 := state.x3 ^^^ BitVec.ofNat 64 (szAdd cfg key_len 4) * STADTX_K3_uint64_t
    let (v, key, len) ← stadtx_loop cfg len ⟨v0, v1, v2, v3⟩ key len
    let (v, key) ← stadtx_words cfg v key len
    let v := { v with x0 := v.x0 ^^^ (BitVec.ofNat 64 len + 1) * STADTX_K3_uint64_t }
    let v ← stadtx_tail cfg v key len
    pure (stadtx_final v)

/-- `thunk_StadtX` (tests/stadtx/stadtx_thunk.c:25-28) -/
def thunk_StadtX (cfg : Cfg) (input length : Nat) (seed : U64) : M U64 :=
  stadtx_hash_with_state cfg ⟨seed, seed, seed, seed⟩ input length

/-- `STADTX_SCRAMBLE64` (tests/stadtx/stadtx_hash.h:25-34) -/
def STADTX_SCRAMBLE64 (v prime : U64) : U64 :=
  let v := v ^^^ v >>> 13
  let v := v ^^^ v <<< 35
  let v := v ^^^ v >>> 30
  let v := v * prime
  let v := v ^^^ v >>> 19
  let v := v ^^^ v <<< 15
  let v := v ^^^ v >>> 46
  v

/-- `stadtx_seed_state` (tests/stadtx/stadtx_hash.h:36-73): `seed[0]`, `seed[1]` are passed by value. -/
def stadtx_seed_state (seed0 seed1 : U64) : Quad :=
  let s0 := seed0 ^^^ 0x43f6a8885a308d31
  let s1 := seed1 ^^^ 0x3198a2e03707344a
  let s2 := seed0 ^^^ 0x4093822299f31d00
  let s3 := seed1 ^^^ 0x82efa98ec4e6c894
  let s0 := if s0 = 0 then 1 else s0
  let s1 := if s1 = 0 then 2 else s1
  let s2 := if s2 = 0 then 4 else s2
  let s3 := if s3 = 0 then 8 else s3
  ⟨STADTX_SCRAMBLE64 (STADTX_SCRAMBLE64 s0 0x801178846e899d17) 0xdd51e5d1c9a5a151,
    STADTX_SCRAMBLE64 (STADTX_SCRAMBLE64 s1 0x93a7d6c8c62e4835) 0x803340f36895c2b5,
    STADTX_SCRAMBLE64 (STADTX_SCRAMBLE64 s2 0xbea9344eb7565eeb) 0xcd95d1e509b995cd,
    STADTX_SCRAMBLE64 (STADTX_SCRAMBLE64 s3 0x9999791977e30c13) 0xaab8b6b05abfc6cd⟩

/-- `stadtx_hash` (tests/stadtx/stadtx_hash.h:253-258) -/
def stadtx_hash (cfg : Cfg) (seed0 seed1 : U64) (key key_len : Nat) : M U64 :=
  stadtx_hash_with_state cfg (stadtx_seed_state seed0 seed1) key key_len

end T1ha.Model
