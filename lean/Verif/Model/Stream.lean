import Verif.Model.T1ha2

/-!
# src/t1ha2.c, streaming functions

The context is a `t1ha_context_t` in memory.
-/

namespace T1ha.Model

/-! ## `t1ha_context_t` (t1ha.h:415-420): offsets of the members -/

/-- `state` (t1ha.h:416), 32 bytes -/
def offState : Nat := 0
/-- `buffer` (t1ha.h:417), 32 bytes -/
def offBuffer : Nat := 32
/-- `partial` (t1ha.h:418), a `size_t` -/
def offPartial : Nat := 64
/-- `total` (t1ha.h:419), a `uint64_t` -/
def offTotal (cfg : Cfg) : Nat := if cfg.ptr64 = false ∧ cfg.u64Align4 = true then 68 else 72
/-- End of the last member (the size of the structure without the padding at its end). -/
def ctxSize (cfg : Cfg) : Nat := offTotal cfg + 8

/-- `sizeof(size_t)` -/
def szBytes (cfg : Cfg) : Nat := cfg.bits / 8

/-- Read a `uint64_t` variable. -/
def readU64 (cfg : Cfg) (p : Nat) : M U64 := do
  let x ← readInt cfg p 8
  pure (BitVec.ofNat 64 x)

/-- Write a `uint64_t` variable. -/
def writeU64 (cfg : Cfg) (p : Nat) (v : U64) : M Unit := writeInt cfg p 8 v.toNat

/-- Read `a, b, c, d` of a `t1ha_state256_t` (t1ha.h:406-412). -/
def readState (cfg : Cfg) (p : Nat) : M State256 := do
  let a ← readU64 cfg p
  let b ← readU64 cfg (p + 8)
  let c ← readU64 cfg (p + 16)
  let d ← readU64 cfg (p + 24)
  pure ⟨a, b, c, d⟩

/-- Write `a, b, c, d` of a `t1ha_state256_t` (t1ha.h:406-412). -/
def writeState (cfg : Cfg) (p : Nat) (s : State256) : M Unit := do
  writeU64 cfg p s.a
  writeU64 cfg (p + 8) s.b
  writeU64 cfg (p + 16) s.c
  writeU64 cfg (p + 24) s.d

/-- `ctx->partial` -/
def readPartial (cfg : Cfg) (ctx : Nat) : M Nat := readInt cfg (ctx + offPartial) (szBytes cfg)

/-- `ctx->partial = v` -/
def writePartial (cfg : Cfg) (ctx v : Nat) : M Unit := writeInt cfg (ctx + offPartial) (szBytes cfg) v

/-- `t1ha2_init` (src/t1ha2.c:305-310). `init_ab` and `init_cd` write through the pointer; they do not
read. -/
def t1ha2_init (cfg : Cfg) (ctx : Nat) (seed_x seed_y : U64) : M Unit := do
  let s := init_cd (init_ab ⟨0, 0, 0, 0⟩ seed_x seed_y) seed_x seed_y
  writeState cfg (ctx + offState) s
  writePartial cfg ctx 0
  writeU64 cfg (ctx + offTotal cfg) 0

/-- `T1HA2_UPDATE` applied to a state in memory (src/t1ha2.c:61-75). The members of `*s` are read
before and written after the computation (`s` is not an alias of the data: src/t1ha2.c:312 has
`__restrict` on both). -/
def t1ha2_UPDATE_mem (cfg : Cfg) (al : Aligness) (state v : Nat) : M Unit := do
  let s ← readState cfg state
  let s ← t1ha2_UPDATE cfg al s v
  writeState cfg state s

/-- The inner `do ... while` of `T1HA2_LOOP` for a state in memory (src/t1ha2.c:86-91). -/
def t1ha2_loop_mem (cfg : Cfg) (al : Aligness) (state detent : Nat) : Nat → Nat → M Nat
  | 0, _ => fail .diverge
  | fuel + 1, data => do
    iterate
    let v := data
    let data ← ptrAdd cfg data 32
    t1ha2_UPDATE_mem cfg al state v
    if data < detent then t1ha2_loop_mem cfg al state detent fuel data
    else pure data

/-- `T1HA2_LOOP` for a state in memory (src/t1ha2.c:83-92): the advanced `data` -/
def t1ha2_LOOP_mem (cfg : Cfg) (al : Aligness) (state data len : Nat) : M Nat := do
  let end_ ← ptrAdd cfg data len
  let detent ← ptrSub cfg end_ 31
  t1ha2_loop_mem cfg al state detent len data

/-- The last part of `t1ha2_update` (src/t1ha2.c:331-364): whole blocks directly from the data, the
rest into the buffer. -/
def t1ha2_update_rest (cfg : Cfg) (ctx data length : Nat) : M Unit := do
  let (data, length) ← (if 32 ≤ length then do
      let data ← (if cfg.unaligned = .efficient then
          t1ha2_LOOP_mem cfg .unaligned (ctx + offState) data length
        else
          let misaligned := data &&& (cfg.alignment64 - 1) != 0
          if misaligned then t1ha2_LOOP_mem cfg .unaligned (ctx + offState) data length
          else t1ha2_LOOP_mem cfg .aligned (ctx + offState) data length)
      pure (data, length &&& 31)
    else pure (data, length))
  if length ≠ 0 then do
    writePartial cfg ctx length
    memcpy (ctx + offBuffer) data length
  else pure ()

/-- `t1ha2_update` (src/t1ha2.c:312-365) -/
def t1ha2_update (cfg : Cfg) (ctx data length : Nat) : M Unit := do
  let total ← readU64 cfg (ctx + offTotal cfg)
  writeU64 cfg (ctx + offTotal cfg) (total + BitVec.ofNat 64 length)
  let part ← readPartial cfg ctx
  if part ≠ 0 then do
    let left := szSub cfg 32 part
    let chunk := if left ≤ length then left else length
    memcpy (ctx + offBuffer + part) data chunk
    let part ← readPartial cfg ctx
    writePartial cfg ctx (szAdd cfg part chunk)
    let part ← readPartial cfg ctx
    if part < 32 then
      cassert cfg (decide (length ≤ left))
    else do
      writePartial cfg ctx 0
      let data ← ptrAdd cfg data chunk
      let length := szSub cfg length chunk
      t1ha2_UPDATE_mem cfg .aligned (ctx + offState) (ctx + offBuffer)
      t1ha2_update_rest cfg ctx data length
  else t1ha2_update_rest cfg ctx data length

/-- `t1ha2_final` (src/t1ha2.c:367-381). `bits` is the address of the local variable of this name;
`extra_result` is `none` for `NULL`. The tail macros work on `ctx->state` in memory: it is read before
and written after the mixing. -/
def t1ha2_final (cfg : Cfg) (ctx : Nat) (extra_result : Option Nat) (bits : Nat) : M U64 := do
  let total ← readU64 cfg (ctx + offTotal cfg)
  let v := (total <<< 3) ^^^ (1#64 <<< 63)
  let v := match cfg.endian with
    | .little => v
    | .big => bswap64 cfg v
  writeU64 cfg bits v
  t1ha2_update cfg ctx bits 8
  match extra_result with
  | none => do
    let s ← readState cfg (ctx + offState)
    let s := squash s
    writeState cfg (ctx + offState) s
    let part ← readPartial cfg ctx
    let s ← t1ha2_TAIL_AB_mix cfg .aligned s (ctx + offBuffer) part
    writeState cfg (ctx + offState) s
    pure (final64 cfg s.a s.b)
  | some extra => do
    let s ← readState cfg (ctx + offState)
    let part ← readPartial cfg ctx
    let s ← t1ha2_TAIL_ABCD_mix cfg .aligned s (ctx + offBuffer) part
    writeState cfg (ctx + offState) s
    let r := final128 cfg s.a s.b s.c s.d
    writeInt cfg extra 8 r.2.toNat
    pure r.1

end T1ha.Model
