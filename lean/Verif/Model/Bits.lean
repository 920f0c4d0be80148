import Verif.Model.Machine

/-!
# src/t1ha_bits.h

Byte swapping, memory fetches, tails, 64x64 to 128 bit multiplication, mixers.
(The 128-bit helpers of src/t1ha_bits.h:1113-1229 are in `Verif/Model/Bits128.lean`.)
-/

namespace T1ha.Model

/-! ## Byte swapping -/

/-- `bswap64` (src/t1ha_bits.h:179, 255, 364-379) -/
def bswap64 (cfg : Cfg) (v : U64) : U64 :=
  match cfg.bswap with
  | .builtin => BitVec.ofNat 64 (beVal (leBytes 8 v.toNat))
  | .portable =>
    v <<< 56 ||| v >>> 56 ||| ((v <<< 40) &&& 0x00ff000000000000#64) |||
      ((v <<< 24) &&& 0x0000ff0000000000#64) |||
      ((v <<< 8) &&& 0x000000ff00000000#64) |||
      ((v >>> 8) &&& 0x00000000ff000000#64) |||
      ((v >>> 24) &&& 0x0000000000ff0000#64) |||
      ((v >>> 40) &&& 0x000000000000ff00#64)

/-- `bswap32` (src/t1ha_bits.h:180, 256, 381-392) -/
def bswap32 (cfg : Cfg) (v : U32) : U32 :=
  match cfg.bswap32 with
  | .builtin => BitVec.ofNat 32 (beVal (leBytes 4 v.toNat))
  | .portable =>
    v <<< 24 ||| v >>> 24 ||| ((v <<< 8) &&& 0x00ff0000#32) ||| ((v >>> 8) &&& 0x0000ff00#32)

/-- `bswap16` (src/t1ha_bits.h:182, 257, 394-402). The portable version shifts in `int`. -/
def bswap16 (cfg : Cfg) (v : U16) : U16 :=
  match cfg.bswap16 with
  | .builtin => BitVec.ofNat 16 (beVal (leBytes 2 v.toNat))
  | .portable => ((v.setWidth 32 <<< 8) ||| (v.setWidth 32 >>> 8) : U32).setWidth 16

/-! ## Memory -/

/-- `p[i]` for `const uint8_t *p` -/
def byteAt (p i : Nat) : M Byte := do
  let bs ← load (p + i) 1
  pure (bs.headD 0)

/-- `read_unaligned(ptr, bits)` for `n = bits / 8` (src/t1ha_bits.h:410, 414-445): a load that the
compiler makes work at any address. In the packed structure the member of `n` bytes comes after those of
1, 2, ... `n / 2` bytes, hence `n - 1` bytes after the start. -/
def read_unaligned (cfg : Cfg) (p n : Nat) : M Nat :=
  if cfg.proxy then do
    let q ← ptrSub cfg p (n - 1)
    readInt cfg (q + (n - 1)) n
  else readInt cfg p n

/-- `read_aligned(ptr, bits)` for `n = bits / 8` (src/t1ha_bits.h:411, 447-482). The address is
promised to be a multiple of `ALIGNMENT_bits`, which matters unless unaligned access is efficient. -/
def read_aligned (cfg : Cfg) (p n : Nat) : M Nat :=
  if cfg.unaligned = .efficient ∨ p % (if n = 8 then cfg.alignment64 else n) = 0 then readInt cfg p n
  else fail .misaligned

/-! ### Little endian -/

/-- `fetch16_le_aligned` (src/t1ha_bits.h:526-536) -/
def fetch16_le_aligned (cfg : Cfg) (v : Nat) : M U16 := do
  cassert cfg (v % 2 == 0)
  let x ← read_aligned cfg v 2
  match cfg.endian with
  | .little => pure (BitVec.ofNat 16 x)
  | .big => pure (bswap16 cfg (BitVec.ofNat 16 x))

/-- `fetch16_le_unaligned` (src/t1ha_bits.h:538-550) -/
def fetch16_le_unaligned (cfg : Cfg) (v : Nat) : M U16 :=
  if cfg.unaligned = .unable then do
    let p0 ← byteAt v 0
    let p1 ← byteAt v 1
    pure ((p0.setWidth 32 ||| p1.setWidth 32 <<< 8 : U32).setWidth 16)
  else do
    let x ← read_unaligned cfg v 2
    match cfg.endian with
    | .little => pure (BitVec.ofNat 16 x)
    | .big => pure (bswap16 cfg (BitVec.ofNat 16 x))

/-- `fetch32_le_aligned` (src/t1ha_bits.h:552-562) -/
def fetch32_le_aligned (cfg : Cfg) (v : Nat) : M U32 := do
  cassert cfg (v % 4 == 0)
  let x ← read_aligned cfg v 4
  match cfg.endian with
  | .little => pure (BitVec.ofNat 32 x)
  | .big => pure (bswap32 cfg (BitVec.ofNat 32 x))

/-- `fetch32_le_unaligned` (src/t1ha_bits.h:564-576) -/
def fetch32_le_unaligned (cfg : Cfg) (v : Nat) : M U32 :=
  if cfg.unaligned = .unable then do
    let lo ← fetch16_le_unaligned cfg v
    let hi ← fetch16_le_unaligned cfg (v + 2)
    pure (lo.setWidth 32 ||| hi.setWidth 32 <<< 16)
  else do
    let x ← read_unaligned cfg v 4
    match cfg.endian with
    | .little => pure (BitVec.ofNat 32 x)
    | .big => pure (bswap32 cfg (BitVec.ofNat 32 x))

/-- `fetch64_le_aligned` (src/t1ha_bits.h:578-588) -/
def fetch64_le_aligned (cfg : Cfg) (v : Nat) : M U64 := do
  cassert cfg (v % cfg.alignment64 == 0)
  let x ← read_aligned cfg v 8
  match cfg.endian with
  | .little => pure (BitVec.ofNat 64 x)
  | .big => pure (bswap64 cfg (BitVec.ofNat 64 x))

/-- `fetch64_le_unaligned` (src/t1ha_bits.h:590-602) -/
def fetch64_le_unaligned (cfg : Cfg) (v : Nat) : M U64 :=
  if cfg.unaligned = .unable then do
    let lo ← fetch32_le_unaligned cfg v
    let hi ← fetch32_le_unaligned cfg (v + 4)
    pure (lo.setWidth 64 ||| hi.setWidth 64 <<< 32)
  else do
    let x ← read_unaligned cfg v 8
    match cfg.endian with
    | .little => pure (BitVec.ofNat 64 x)
    | .big => pure (bswap64 cfg (BitVec.ofNat 64 x))

/-- Byte-by-byte part of `tail64_le_aligned` and `tail64_le_unaligned`
(src/t1ha_bits.h:642-670, 733-761): the cases 0, 7, 6, ..., 1 in this order, each falling through to
the next one. `k` is 8 for case 0 and the case label otherwise. In case 0, `p[7] << 8` is computed in
`int`. -/
def tail64_le_bytes (p k : Nat) : M U64 := do
  let r : U64 := 0#64
  let r ← (if 8 ≤ k then do
      let b ← byteAt p 7
      pure ((b.setWidth 32 <<< 8 : U32).setWidth 64)
    else pure r)
  let r ← (if 7 ≤ k then do
      let b ← byteAt p 6
      pure ((r + b.setWidth 64) <<< 8)
    else pure r)
  let r ← (if 6 ≤ k then do
      let b ← byteAt p 5
      pure ((r + b.setWidth 64) <<< 8)
    else pure r)
  let r ← (if 5 ≤ k then do
      let b ← byteAt p 4
      pure ((r + b.setWidth 64) <<< 8)
    else pure r)
  let r ← (if 4 ≤ k then do
      let b ← byteAt p 3
      pure ((r + b.setWidth 64) <<< 8)
    else pure r)
  let r ← (if 3 ≤ k then do
      let b ← byteAt p 2
      pure ((r + b.setWidth 64) <<< 8)
    else pure r)
  let r ← (if 2 ≤ k then do
      let b ← byteAt p 1
      pure ((r + b.setWidth 64) <<< 8)
    else pure r)
  let b ← byteAt p 0
  pure (r + b.setWidth 64)

/-- `tail64_le_aligned` (src/t1ha_bits.h:604-674) -/
def tail64_le_aligned (cfg : Cfg) (p tail : Nat) : M U64 :=
  if cfg.alignedOneshot then do
    let shift := (szSub cfg 8 tail &&& 7) <<< 3
    let x ← fetch64_le_aligned cfg p
    pure (x &&& (~~~0#64 >>> shift))
  else
    let t := tail &&& 7
    match cfg.endian with
    | .little =>
      -- case 0
      if t = 0 then fetch64_le_aligned cfg p
      -- cases 7, 6, 5, 4 (each falls through to the next one)
      else if 4 ≤ t then do
        let r : U64 := 0#64
        let r ← (if 7 ≤ t then do
            let b ← byteAt p 6
            pure (b.setWidth 64 <<< 8)
          else pure r)
        let r ← (if 6 ≤ t then do
            let b ← byteAt p 5
            pure ((r + b.setWidth 64) <<< 8)
          else pure r)
        let r ← (if 5 ≤ t then do
            let b ← byteAt p 4
            pure ((r + b.setWidth 64) <<< 32)
          else pure r)
        let x ← fetch32_le_aligned cfg p
        pure (r + x.setWidth 64)
      -- cases 3, 2
      else if 2 ≤ t then do
        let r : U64 := 0#64
        let r ← (if 3 ≤ t then do
            let b ← byteAt p 2
            pure (b.setWidth 64 <<< 16)
          else pure r)
        let x ← fetch16_le_aligned cfg p
        pure (r + x.setWidth 64)
      -- case 1
      else do
        let b ← byteAt p 0
        pure (b.setWidth 64)
    | .big => tail64_le_bytes p (if t = 0 then 8 else t)

/-- `can_read_underside(ptr, size)` (src/t1ha_bits.h:679-680) -/
def can_read_underside (cfg : Cfg) (p size : Nat) : Bool :=
  (cfg.pageSize - size) &&& p != 0

/-- `tail64_le_unaligned` (src/t1ha_bits.h:683-765) -/
def tail64_le_unaligned (cfg : Cfg) (p tail : Nat) : M U64 :=
  if cfg.canReadUnderside && cfg.word64 then do
    let offset := szSub cfg 8 tail &&& 7
    let shift := offset <<< 3
    if can_read_underside cfg p 8 then do
      let p ← ptrSub cfg p offset
      let x ← fetch64_le_unaligned cfg p
      pure (x >>> shift)
    else do
      let x ← fetch64_le_unaligned cfg p
      pure (x &&& (~~~0#64 >>> shift))
  else
    let t := tail &&& 7
    if cfg.unaligned = .efficient ∧ cfg.endian = .little then
      -- case 0
      if t = 0 then fetch64_le_unaligned cfg p
      -- cases 7, 6, 5, 4 (each falls through to the next one)
      else if 4 ≤ t then do
        let r : U64 := 0#64
        let r ← (if 7 ≤ t then do
            let b ← byteAt p 6
            pure (b.setWidth 64 <<< 8)
          else pure r)
        let r ← (if 6 ≤ t then do
            let b ← byteAt p 5
            pure ((r + b.setWidth 64) <<< 8)
          else pure r)
        let r ← (if 5 ≤ t then do
            let b ← byteAt p 4
            pure ((r + b.setWidth 64) <<< 32)
          else pure r)
        let x ← fetch32_le_unaligned cfg p
        pure (r + x.setWidth 64)
      -- cases 3, 2
      else if 2 ≤ t then do
        let r : U64 := 0#64
        let r ← (if 3 ≤ t then do
            let b ← byteAt p 2
            pure (b.setWidth 64 <<< 16)
          else pure r)
        let x ← fetch16_le_unaligned cfg p
        pure (r + x.setWidth 64)
      -- case 1
      else do
        let b ← byteAt p 0
        pure (b.setWidth 64)
    else tail64_le_bytes p (if t = 0 then 8 else t)

/-! ### Big endian -/

/-- `fetch16_be_aligned` (src/t1ha_bits.h:769-779) -/
def fetch16_be_aligned (cfg : Cfg) (v : Nat) : M U16 := do
  cassert cfg (v % 2 == 0)
  let x ← read_aligned cfg v 2
  match cfg.endian with
  | .big => pure (BitVec.ofNat 16 x)
  | .little => pure (bswap16 cfg (BitVec.ofNat 16 x))

/-- `fetch16_be_unaligned` (src/t1ha_bits.h:781-793) -/
def fetch16_be_unaligned (cfg : Cfg) (v : Nat) : M U16 :=
  if cfg.unaligned = .unable then do
    let p0 ← byteAt v 0
    let p1 ← byteAt v 1
    pure ((p0.setWidth 32 <<< 8 ||| p1.setWidth 32 : U32).setWidth 16)
  else do
    let x ← read_unaligned cfg v 2
    match cfg.endian with
    | .big => pure (BitVec.ofNat 16 x)
    | .little => pure (bswap16 cfg (BitVec.ofNat 16 x))

/-- `fetch32_be_aligned` (src/t1ha_bits.h:230, 795-805). The instruction of Elbrus is taken to require
alignment. -/
def fetch32_be_aligned (cfg : Cfg) (v : Nat) : M U32 :=
  if cfg.beLoad then
    if v % 4 = 0 then do
      let bs ← load v 4
      pure (BitVec.ofNat 32 (beVal bs))
    else fail .misaligned
  else do
    cassert cfg (v % 4 == 0)
    let x ← read_aligned cfg v 4
    match cfg.endian with
    | .big => pure (BitVec.ofNat 32 x)
    | .little => pure (bswap32 cfg (BitVec.ofNat 32 x))

/-- `fetch32_be_unaligned` (src/t1ha_bits.h:807-819) -/
def fetch32_be_unaligned (cfg : Cfg) (v : Nat) : M U32 :=
  if cfg.unaligned = .unable then do
    let hi ← fetch16_be_unaligned cfg v
    let lo ← fetch16_be_unaligned cfg (v + 2)
    pure (hi.setWidth 32 <<< 16 ||| lo.setWidth 32)
  else do
    let x ← read_unaligned cfg v 4
    match cfg.endian with
    | .big => pure (BitVec.ofNat 32 x)
    | .little => pure (bswap32 cfg (BitVec.ofNat 32 x))

/-- `fetch64_be_aligned` (src/t1ha_bits.h:229, 821-831). The instruction of Elbrus is taken to require
alignment. -/
def fetch64_be_aligned (cfg : Cfg) (v : Nat) : M U64 :=
  if cfg.beLoad then
    if v % cfg.alignment64 = 0 then do
      let bs ← load v 8
      pure (BitVec.ofNat 64 (beVal bs))
    else fail .misaligned
  else do
    cassert cfg (v % cfg.alignment64 == 0)
    let x ← read_aligned cfg v 8
    match cfg.endian with
    | .big => pure (BitVec.ofNat 64 x)
    | .little => pure (bswap64 cfg (BitVec.ofNat 64 x))

/-- `fetch64_be_unaligned` (src/t1ha_bits.h:833-845) -/
def fetch64_be_unaligned (cfg : Cfg) (v : Nat) : M U64 :=
  if cfg.unaligned = .unable then do
    let hi ← fetch32_be_unaligned cfg v
    let lo ← fetch32_be_unaligned cfg (v + 4)
    pure (hi.setWidth 64 <<< 32 ||| lo.setWidth 64)
  else do
    let x ← read_unaligned cfg v 8
    match cfg.endian with
    | .big => pure (BitVec.ofNat 64 x)
    | .little => pure (bswap64 cfg (BitVec.ofNat 64 x))

/-- Byte-by-byte part of `tail64_be_aligned` and `tail64_be_unaligned`
(src/t1ha_bits.h:879-901, 952-974). The low bytes are combined as `uint32_t`. `t` is the case label. -/
def tail64_be_bytes (p t : Nat) : M U64 :=
  match t with
  | 1 => do
    let p0 ← byteAt p 0
    pure (p0.setWidth 64)
  | 2 => do
    let p0 ← byteAt p 0
    let p1 ← byteAt p 1
    pure ((p1.setWidth 32 ||| p0.setWidth 32 <<< 8 : U32).setWidth 64)
  | 3 => do
    let p0 ← byteAt p 0
    let p1 ← byteAt p 1
    let p2 ← byteAt p 2
    pure ((p2.setWidth 32 ||| p1.setWidth 32 <<< 8 ||| p0.setWidth 32 <<< 16 : U32).setWidth 64)
  | 4 => do
    let p0 ← byteAt p 0
    let p1 ← byteAt p 1
    let p2 ← byteAt p 2
    let p3 ← byteAt p 3
    pure ((p3.setWidth 32 ||| p2.setWidth 32 <<< 8 ||| p1.setWidth 32 <<< 16 |||
      p0.setWidth 32 <<< 24 : U32).setWidth 64)
  | 5 => do
    let p0 ← byteAt p 0
    let p1 ← byteAt p 1
    let p2 ← byteAt p 2
    let p3 ← byteAt p 3
    let p4 ← byteAt p 4
    pure ((p4.setWidth 32 ||| p3.setWidth 32 <<< 8 ||| p2.setWidth 32 <<< 16 |||
      p1.setWidth 32 <<< 24 : U32).setWidth 64 ||| p0.setWidth 64 <<< 32)
  | 6 => do
    let p0 ← byteAt p 0
    let p1 ← byteAt p 1
    let p2 ← byteAt p 2
    let p3 ← byteAt p 3
    let p4 ← byteAt p 4
    let p5 ← byteAt p 5
    pure ((p5.setWidth 32 ||| p4.setWidth 32 <<< 8 ||| p3.setWidth 32 <<< 16 |||
      p2.setWidth 32 <<< 24 : U32).setWidth 64 ||| p1.setWidth 64 <<< 32 ||| p0.setWidth 64 <<< 40)
  | 7 => do
    let p0 ← byteAt p 0
    let p1 ← byteAt p 1
    let p2 ← byteAt p 2
    let p3 ← byteAt p 3
    let p4 ← byteAt p 4
    let p5 ← byteAt p 5
    let p6 ← byteAt p 6
    pure ((p6.setWidth 32 ||| p5.setWidth 32 <<< 8 ||| p4.setWidth 32 <<< 16 |||
      p3.setWidth 32 <<< 24 : U32).setWidth 64 ||| p2.setWidth 64 <<< 32 |||
      p1.setWidth 64 <<< 40 ||| p0.setWidth 64 <<< 48)
  | 0 => do
    let p0 ← byteAt p 0
    let p1 ← byteAt p 1
    let p2 ← byteAt p 2
    let p3 ← byteAt p 3
    let p4 ← byteAt p 4
    let p5 ← byteAt p 5
    let p6 ← byteAt p 6
    let p7 ← byteAt p 7
    pure ((p7.setWidth 32 ||| p6.setWidth 32 <<< 8 ||| p5.setWidth 32 <<< 16 |||
      p4.setWidth 32 <<< 24 : U32).setWidth 64 ||| p3.setWidth 64 <<< 32 |||
      p2.setWidth 64 <<< 40 ||| p1.setWidth 64 <<< 48 ||| p0.setWidth 64 <<< 56)
  | _ => fail .unreachable

/-- `tail64_be_aligned` (src/t1ha_bits.h:847-905) -/
def tail64_be_aligned (cfg : Cfg) (p tail : Nat) : M U64 :=
  if cfg.alignedOneshot then do
    let shift := (szSub cfg 8 tail &&& 7) <<< 3
    let x ← fetch64_be_aligned cfg p
    pure (x >>> shift)
  else
    let t := tail &&& 7
    match cfg.endian with
    | .big =>
      match t with
      | 1 => do
        let p0 ← byteAt p 0
        pure (p0.setWidth 64)
      | 2 => do
        let x ← fetch16_be_aligned cfg p
        pure (x.setWidth 64)
      | 3 => do
        let x ← fetch16_be_aligned cfg p
        let p2 ← byteAt p 2
        pure ((x.setWidth 32 <<< 8 ||| p2.setWidth 32 : U32).setWidth 64)
      | 4 => do
        let x ← fetch32_be_aligned cfg p
        pure (x.setWidth 64)
      | 5 => do
        let x ← fetch32_be_aligned cfg p
        let p4 ← byteAt p 4
        pure (x.setWidth 64 <<< 8 ||| p4.setWidth 64)
      | 6 => do
        let x ← fetch32_be_aligned cfg p
        let y ← fetch16_be_aligned cfg (p + 4)
        pure (x.setWidth 64 <<< 16 ||| y.setWidth 64)
      | 7 => do
        let x ← fetch32_be_aligned cfg p
        let y ← fetch16_be_aligned cfg (p + 4)
        let p6 ← byteAt p 6
        pure (x.setWidth 64 <<< 24 ||| (y.setWidth 32 <<< 8 : U32).setWidth 64 ||| p6.setWidth 64)
      | 0 => fetch64_be_aligned cfg p
      | _ => fail .unreachable
    | .little => tail64_be_bytes p t

/-- `tail64_be_unaligned` (src/t1ha_bits.h:907-978) -/
def tail64_be_unaligned (cfg : Cfg) (p tail : Nat) : M U64 :=
  if cfg.canReadUnderside && cfg.word64 then do
    let offset := szSub cfg 8 tail &&& 7
    let shift := offset <<< 3
    if can_read_underside cfg p 8 then do
      let p ← ptrSub cfg p offset
      let x ← fetch64_be_unaligned cfg p
      pure (x &&& (~~~0#64 >>> shift))
    else do
      let x ← fetch64_be_unaligned cfg p
      pure (x >>> shift)
  else
    let t := tail &&& 7
    if cfg.unaligned = .efficient ∧ cfg.endian = .big then
      match t with
      | 1 => do
        let p0 ← byteAt p 0
        pure (p0.setWidth 64)
      | 2 => do
        let x ← fetch16_be_unaligned cfg p
        pure (x.setWidth 64)
      | 3 => do
        let x ← fetch16_be_unaligned cfg p
        let p2 ← byteAt p 2
        pure ((x.setWidth 32 <<< 8 ||| p2.setWidth 32 : U32).setWidth 64)
      -- `fetch32_be` is not declared
      | 4 => fail .undeclared
      | 5 => do
        let x ← fetch32_be_unaligned cfg p
        let p4 ← byteAt p 4
        pure (x.setWidth 64 <<< 8 ||| p4.setWidth 64)
      | 6 => do
        let x ← fetch32_be_unaligned cfg p
        let y ← fetch16_be_unaligned cfg (p + 4)
        pure (x.setWidth 64 <<< 16 ||| y.setWidth 64)
      | 7 => do
        let x ← fetch32_be_unaligned cfg p
        let y ← fetch16_be_unaligned cfg (p + 4)
        let p6 ← byteAt p 6
        pure (x.setWidth 64 <<< 24 ||| (y.setWidth 32 <<< 8 : U32).setWidth 64 ||| p6.setWidth 64)
      | 0 => fetch64_be_unaligned cfg p
      | _ => fail .unreachable
    else tail64_be_bytes p t

/-- The macro parameter `ALIGNESS` of the bodies (src/t1ha0.c:269, src/t1ha1.c:63, src/t1ha2.c:61). -/
inductive Aligness
  | aligned
  | unaligned
  deriving DecidableEq, Repr

/-- `fetch64_##ENDIANNES##_##ALIGNESS` (src/t1ha1.c:71, src/t1ha2.c:64) -/
def fetch64 (cfg : Cfg) (e : Endian) (al : Aligness) (v : Nat) : M U64 :=
  match e, al with
  | .little, .aligned => fetch64_le_aligned cfg v
  | .little, .unaligned => fetch64_le_unaligned cfg v
  | .big, .aligned => fetch64_be_aligned cfg v
  | .big, .unaligned => fetch64_be_unaligned cfg v

/-- `tail64_##ENDIANNES##_##ALIGNESS` (src/t1ha1.c:123, src/t1ha2.c:134, 182) -/
def tail64 (cfg : Cfg) (e : Endian) (al : Aligness) (v tail : Nat) : M U64 :=
  match e, al with
  | .little, .aligned => tail64_le_aligned cfg v tail
  | .little, .unaligned => tail64_le_unaligned cfg v tail
  | .big, .aligned => tail64_be_aligned cfg v tail
  | .big, .unaligned => tail64_be_unaligned cfg v tail

/-! ## Arithmetic -/

/-- `rot64` (src/t1ha_bits.h:258, 982-986). The shift counts are literals at all call sites; the proof
argument shows that neither shift is out of range. -/
def rot64 (v : U64) (s : Nat) (_h : 0 < s ∧ s < 64 := by decide) : U64 :=
  (v >>> s) ||| (v <<< (64 - s))

/-- `mul_32x32_64` (src/t1ha_bits.h:280, 333, 988-993) -/
def mul_32x32_64 (a b : U32) : U64 := a.setWidth 64 * b.setWidth 64

/-- `_addcarry_u32` and `__builtin_addcll`-like instructions: sum and carry of `w`-bit numbers. -/
def addCarry (w : Nat) (carry : Bool) (x y : BitVec w) : Bool × BitVec w :=
  (decide (2 ^ w ≤ x.toNat + y.toNat + carry.toNat), x + y + BitVec.ofNat w carry.toNat)

/-- `msvc32_add64carry_next` and, for no incoming carry, `msvc32_add64carry_first`
(src/t1ha_bits.h:290-313): (carry, sum); `sum32[0]` is the low half on this little-endian machine. -/
def msvc32_add64carry_next (carry : Bool) (base addend : U64) : Bool × U64 :=
  let base_32l : U32 := base.setWidth 32
  let base_32h : U32 := (base >>> 32).setWidth 32
  let addend_32l : U32 := addend.setWidth 32
  let addend_32h : U32 := (addend >>> 32).setWidth 32
  let lo := addCarry 32 carry base_32l addend_32l
  let hi := addCarry 32 lo.1 base_32h addend_32h
  (hi.1, hi.2 ++ lo.2)

/-- `add64carry_first` (src/t1ha_bits.h:203-208, 266, 291-301, 995-1007): (carry, sum) -/
def add64carry_first (cfg : Cfg) (base addend : U64) : Bool × U64 :=
  match cfg.carry with
  | .builtin => addCarry 64 false base addend
  | .msvc32 => msvc32_add64carry_next false base addend
  | .plain =>
    let sum := base + addend
    (decide (sum < addend), sum)

/-- `add64carry_next` (src/t1ha_bits.h:211-217, 267-268, 303-315, 1009-1021): (carry, sum) -/
def add64carry_next (cfg : Cfg) (carry : Bool) (base addend : U64) : Bool × U64 :=
  match cfg.carry with
  | .builtin => addCarry 64 carry base addend
  | .msvc32 => msvc32_add64carry_next carry base addend
  | .plain =>
    let sum := base + addend + BitVec.ofNat 64 carry.toNat
    (decide (sum < addend) || (carry && decide (sum = addend)), sum)

/-- `add64carry_last` (src/t1ha_bits.h:219-226, 269-270, 317-329, 1023-1034): the sum -/
def add64carry_last (cfg : Cfg) (carry : Bool) (base addend : U64) : U64 :=
  match cfg.carry with
  | .builtin => (addCarry 64 carry base addend).2
  | .msvc32 => (msvc32_add64carry_next carry base addend).2
  | .plain => base + addend + BitVec.ofNat 64 carry.toNat

/-- `mul_64x64_128` (src/t1ha_bits.h:264, 1036-1067): (returned low half, `*h`) -/
def mul_64x64_128 (cfg : Cfg) (a b : U64) : U64 × U64 :=
  match cfg.mul with
  | .int128 =>
    let r : U128 := a.setWidth 128 * b.setWidth 128
    (r.setWidth 64, (r >>> 64).setWidth 64)
  | .umul128 =>
    let r : U128 := a.setWidth 128 * b.setWidth 128
    (r.setWidth 64, (r >>> 64).setWidth 64)
  | .high => (a * b, BitVec.ofNat 64 (a.toNat * b.toNat / 2 ^ 64))
  | .portable =>
    let ll := mul_32x32_64 (a.setWidth 32) (b.setWidth 32)
    let lh := mul_32x32_64 ((a >>> 32).setWidth 32) (b.setWidth 32)
    let hl := mul_32x32_64 (a.setWidth 32) ((b >>> 32).setWidth 32)
    let hh := mul_32x32_64 ((a >>> 32).setWidth 32) ((b >>> 32).setWidth 32)
    let c1 := add64carry_first cfg ll (lh <<< 32)
    let l := c1.2
    let h := add64carry_last cfg c1.1 hh (lh >>> 32)
    let c2 := add64carry_first cfg l (hl <<< 32)
    let l := c2.2
    let h := add64carry_last cfg c2.1 h (hl >>> 32)
    (l, h)

/-- `mul_64x64_high` (src/t1ha_bits.h:198, 275, 1069-1076). The intrinsics are taken to be right. -/
def mul_64x64_high (cfg : Cfg) (a b : U64) : U64 :=
  match cfg.mul with
  | .umul128 | .high => BitVec.ofNat 64 (a.toNat * b.toNat / 2 ^ 64)
  | .int128 | .portable => (mul_64x64_128 cfg a b).2

/-- src/t1ha_bits.h:1081 -/
def prime_0 : U64 := 0xEC99BF0D8372CAAB
/-- src/t1ha_bits.h:1082 -/
def prime_1 : U64 := 0x82434FE90EDCEF39
/-- src/t1ha_bits.h:1083 -/
def prime_2 : U64 := 0xD4F06DB99D67BE4B
/-- src/t1ha_bits.h:1084 -/
def prime_3 : U64 := 0xBD9CACC22C6E9571
/-- src/t1ha_bits.h:1085 -/
def prime_4 : U64 := 0x9C06FAF4D023E3AB
/-- src/t1ha_bits.h:1086 -/
def prime_5 : U64 := 0xC060724A8424F345
/-- src/t1ha_bits.h:1087 -/
def prime_6 : U64 := 0xCB5AF53AE3AAAC31

/-- `mux64` (src/t1ha_bits.h:1089-1095) -/
def mux64 (cfg : Cfg) (v prime : U64) : U64 :=
  let lh := mul_64x64_128 cfg v prime
  lh.1 ^^^ lh.2

/-- `final64` (src/t1ha_bits.h:1097-1101) -/
def final64 (cfg : Cfg) (a b : U64) : U64 :=
  let x := (a + rot64 b 41) * prime_0
  let y := (rot64 a 23 + b) * prime_6
  mux64 cfg (x ^^^ y) prime_5

/-- `mixup64` (src/t1ha_bits.h:1103-1109): the new `(*a, *b)` -/
def mixup64 (cfg : Cfg) (a b v prime : U64) : U64 × U64 :=
  let lh := mul_64x64_128 cfg (b + v) prime
  (a ^^^ lh.1, b + lh.2)

end T1ha.Model
