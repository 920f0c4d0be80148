import Verif.Model.Bits

/-!
# src/t1ha0.c, the portable 32-bit functions
-/

namespace T1ha.Model

/-- Byte-by-byte part of `tail32_le_aligned` and `tail32_le_unaligned` (src/t1ha0.c:74-87, 129-142):
the cases 0, 3, 2, 1 in this order, each falling through to the next one. `k` is 4 for case 0 and the
case label otherwise. -/
def tail32_le_bytes (p k : Nat) : M U32 := do
  let r : U32 := 0#32
  let r ← (if 4 ≤ k then do
      let b ← byteAt p 3
      pure ((r + b.setWidth 32) <<< 8)
    else pure r)
  let r ← (if 3 ≤ k then do
      let b ← byteAt p 2
      pure ((r + b.setWidth 32) <<< 8)
    else pure r)
  let r ← (if 2 ≤ k then do
      let b ← byteAt p 1
      pure ((r + b.setWidth 32) <<< 8)
    else pure r)
  let b ← byteAt p 0
  pure (r + b.setWidth 32)

/-- `tail32_le_aligned` (src/t1ha0.c:48-91) -/
def tail32_le_aligned (cfg : Cfg) (p tail : Nat) : M U32 :=
  if cfg.alignedOneshot then do
    let shift := (szSub cfg 4 tail &&& 3) <<< 3
    let x ← fetch32_le_aligned cfg p
    pure (x &&& (~~~0#32 >>> shift))
  else
    let t := tail &&& 3
    match cfg.endian with
    | .little =>
      -- case 0
      if t = 0 then fetch32_le_aligned cfg p
      -- cases 3, 2
      else if 2 ≤ t then do
        let r : U32 := 0#32
        let r ← (if 3 ≤ t then do
            let b ← byteAt p 2
            pure (b.setWidth 32 <<< 16)
          else pure r)
        let x ← fetch16_le_aligned cfg p
        pure (r + x.setWidth 32)
      -- case 1
      else do
        let b ← byteAt p 0
        pure (b.setWidth 32)
    | .big => tail32_le_bytes p (if t = 0 then 4 else t)

/-- `tail32_le_unaligned` (src/t1ha0.c:93-146) -/
def tail32_le_unaligned (cfg : Cfg) (p tail : Nat) : M U32 :=
  if cfg.canReadUnderside then do
    let offset := szSub cfg 4 tail &&& 3
    let shift := offset <<< 3
    if can_read_underside cfg p 4 then do
      let p ← ptrSub cfg p offset
      let x ← fetch32_le_unaligned cfg p
      pure (x >>> shift)
    else do
      let x ← fetch32_le_unaligned cfg p
      pure (x &&& (~~~0#32 >>> shift))
  else
    let t := tail &&& 3
    if cfg.unaligned = .efficient ∧ cfg.endian = .little then
      -- case 0
      if t = 0 then fetch32_le_unaligned cfg p
      -- cases 3, 2
      else if 2 ≤ t then do
        let r : U32 := 0#32
        let r ← (if 3 ≤ t then do
            let b ← byteAt p 2
            pure (b.setWidth 32 <<< 16)
          else pure r)
        let x ← fetch16_le_unaligned cfg p
        pure (r + x.setWidth 32)
      -- case 1
      else do
        let b ← byteAt p 0
        pure (b.setWidth 32)
    else tail32_le_bytes p (if t = 0 then 4 else t)

/-- Byte-by-byte part of `tail32_be_aligned` and `tail32_be_unaligned`
(src/t1ha0.c:172-180, 220-228). `t` is the case label. -/
def tail32_be_bytes (p t : Nat) : M U32 :=
  match t with
  | 1 => do
    let p0 ← byteAt p 0
    pure (p0.setWidth 32)
  | 2 => do
    let p0 ← byteAt p 0
    let p1 ← byteAt p 1
    pure (p1.setWidth 32 ||| p0.setWidth 32 <<< 8)
  | 3 => do
    let p0 ← byteAt p 0
    let p1 ← byteAt p 1
    let p2 ← byteAt p 2
    pure (p2.setWidth 32 ||| p1.setWidth 32 <<< 8 ||| p0.setWidth 32 <<< 16)
  | 0 => do
    let p0 ← byteAt p 0
    let p1 ← byteAt p 1
    let p2 ← byteAt p 2
    let p3 ← byteAt p 3
    pure (p3.setWidth 32 ||| p2.setWidth 32 <<< 8 ||| p1.setWidth 32 <<< 16 ||| p0.setWidth 32 <<< 24)
  | _ => fail .unreachable

/-- `tail32_be_aligned` (src/t1ha0.c:148-184). In case 3 the shift is done in `int`. -/
def tail32_be_aligned (cfg : Cfg) (p tail : Nat) : M U32 :=
  if cfg.alignedOneshot then do
    let shift := (szSub cfg 4 tail &&& 3) <<< 3
    let x ← fetch32_be_aligned cfg p
    pure (x >>> shift)
  else
    let t := tail &&& 3
    match cfg.endian with
    | .big =>
      match t with
      | 1 => do
        let p0 ← byteAt p 0
        pure (p0.setWidth 32)
      | 2 => do
        let x ← fetch16_be_aligned cfg p
        pure (x.setWidth 32)
      | 3 => do
        let x ← fetch16_be_aligned cfg p
        let p2 ← byteAt p 2
        pure (x.setWidth 32 <<< 8 ||| p2.setWidth 32)
      | 0 => fetch32_be_aligned cfg p
      | _ => fail .unreachable
    | .little => tail32_be_bytes p t

/-- `tail32_be_unaligned` (src/t1ha0.c:186-232). In case 3 the shift is done in `int`. -/
def tail32_be_unaligned (cfg : Cfg) (p tail : Nat) : M U32 :=
  if cfg.canReadUnderside then do
    let offset := szSub cfg 4 tail &&& 3
    let shift := offset <<< 3
    if can_read_underside cfg p 4 then do
      let p ← ptrSub cfg p offset
      let x ← fetch32_be_unaligned cfg p
      pure (x &&& (~~~0#32 >>> shift))
    else do
      let x ← fetch32_be_unaligned cfg p
      pure (x >>> shift)
  else
    let t := tail &&& 3
    if cfg.unaligned = .efficient ∧ cfg.endian = .big then
      match t with
      | 1 => do
        let p0 ← byteAt p 0
        pure (p0.setWidth 32)
      | 2 => do
        let x ← fetch16_be_unaligned cfg p
        pure (x.setWidth 32)
      | 3 => do
        let x ← fetch16_be_unaligned cfg p
        let p2 ← byteAt p 2
        pure (x.setWidth 32 <<< 8 ||| p2.setWidth 32)
      | 0 => fetch32_be_unaligned cfg p
      | _ => fail .unreachable
    else tail32_be_bytes p t

/-- `fetch32_##ENDIANNES##_##ALIGNESS` (src/t1ha0.c:277) -/
def fetch32 (cfg : Cfg) (e : Endian) (al : Aligness) (v : Nat) : M U32 :=
  match e, al with
  | .little, .aligned => fetch32_le_aligned cfg v
  | .little, .unaligned => fetch32_le_unaligned cfg v
  | .big, .aligned => fetch32_be_aligned cfg v
  | .big, .unaligned => fetch32_be_unaligned cfg v

/-- `tail32_##ENDIANNES##_##ALIGNESS` (src/t1ha0.c:320) -/
def tail32 (cfg : Cfg) (e : Endian) (al : Aligness) (v tail : Nat) : M U32 :=
  match e, al with
  | .little, .aligned => tail32_le_aligned cfg v tail
  | .little, .unaligned => tail32_le_unaligned cfg v tail
  | .big, .aligned => tail32_be_aligned cfg v tail
  | .big, .unaligned => tail32_be_unaligned cfg v tail

/-- `rot32` (src/t1ha_bits.h:259, src/t1ha0.c:236-240). The shift counts are literals at all call
sites; the proof argument shows that neither shift is out of range. -/
def rot32 (v : U32) (s : Nat) (_h : 0 < s ∧ s < 32 := by decide) : U32 :=
  (v >>> s) ||| (v <<< (32 - s))

/-- `mixup32` (src/t1ha0.c:242-247): the new `(*a, *b)` -/
def mixup32 (a b v prime : U32) : U32 × U32 :=
  let l := mul_32x32_64 (b + v) prime
  (a ^^^ l.setWidth 32, b + (l >>> 32).setWidth 32)

/-- `final32` (src/t1ha0.c:249-257) -/
def final32 (a b : U32) : U64 :=
  let l : U64 := (b ^^^ rot32 a 13).setWidth 64 ||| a.setWidth 64 <<< 32
  let l := l * prime_0
  let l := l ^^^ l >>> 41
  let l := l * prime_4
  let l := l ^^^ l >>> 47
  let l := l * prime_6
  l

/-- src/t1ha0.c:260 -/
def prime32_0 : U32 := 0x92D78269
/-- src/t1ha0.c:261 -/
def prime32_1 : U32 := 0xCA9B4735
/-- src/t1ha0.c:262 -/
def prime32_2 : U32 := 0xA4ABA1C3
/-- src/t1ha0.c:263 -/
def prime32_3 : U32 := 0xF6499843
/-- src/t1ha0.c:264 -/
def prime32_4 : U32 := 0x86F0FD61
/-- src/t1ha0.c:265 -/
def prime32_5 : U32 := 0xCA2DA6FB
/-- src/t1ha0.c:266 -/
def prime32_6 : U32 := 0xC4BB3575

/-- The variables `a, b, c, d` of `T1HA0_BODY` and the pointer `v`. -/
structure T1ha0Vars where
  a : U32
  b : U32
  c : U32
  d : U32
  v : Nat

/-- The loop of `T1HA0_BODY` (src/t1ha0.c:276-290); `prefetch` has no effect. -/
def t1ha0_loop (cfg : Cfg) (e : Endian) (al : Aligness) (detent : Nat) :
    Nat → T1ha0Vars → M T1ha0Vars
  | 0, _ => fail .diverge
  | fuel + 1, s => do
    iterate
    let w0 ← fetch32 cfg e al s.v
    let w1 ← fetch32 cfg e al (s.v + 4)
    let w2 ← fetch32 cfg e al (s.v + 8)
    let w3 ← fetch32 cfg e al (s.v + 12)
    let v ← ptrAdd cfg s.v 16
    let d13 := w1 + rot32 (w3 + s.d) 17
    let c02 := w0 ^^^ rot32 (w2 + s.c) 11
    let d := s.d ^^^ rot32 (s.a + w0) 3
    let c := s.c ^^^ rot32 (s.b + w1) 7
    let b := prime32_1 * (c02 + w3)
    let a := prime32_0 * (d13 ^^^ w2)
    if v < detent then t1ha0_loop cfg e al detent fuel ⟨a, b, c, d, v⟩
    else pure ⟨a, b, c, d, v⟩

/-- The `switch` of `T1HA0_BODY` (src/t1ha0.c:300-324): each case falls through to the next one. -/
def t1ha0_tail (cfg : Cfg) (e : Endian) (al : Aligness) (a b : U32) (v len : Nat) : M U64 := do
  let (a, b, v) ← (if 12 < len then do
      let w ← fetch32 cfg e al v
      let v ← ptrAdd cfg v 4
      let ab := mixup32 a b w prime32_4
      pure (ab.1, ab.2, v)
    else pure (a, b, v))
  let (a, b, v) ← (if 8 < len then do
      let w ← fetch32 cfg e al v
      let v ← ptrAdd cfg v 4
      let ba := mixup32 b a w prime32_3
      pure (ba.2, ba.1, v)
    else pure (a, b, v))
  let (a, b, v) ← (if 4 < len then do
      let w ← fetch32 cfg e al v
      let v ← ptrAdd cfg v 4
      let ab := mixup32 a b w prime32_2
      pure (ab.1, ab.2, v)
    else pure (a, b, v))
  let (a, b) ← (if 0 < len then do
      let w ← tail32 cfg e al v len
      let ba := mixup32 b a w prime32_1
      pure (ba.2, ba.1)
    else pure (a, b))
  pure (final32 a b)

/-- `T1HA0_BODY` (src/t1ha0.c:269-324) with `a`, `b` as set by the callers (src/t1ha0.c:327-328,
343-344). -/
def t1ha0_body (cfg : Cfg) (e : Endian) (al : Aligness) (data len : Nat) (seed : U64) : M U64 := do
  let a := rot32 (BitVec.ofNat 32 len) 17 + seed.setWidth 32
  let b := BitVec.ofNat 32 len ^^^ (seed >>> 32).setWidth 32
  if 16 < len then do
    let c := ~~~a
    let d := rot32 b 5
    let end_ ← ptrAdd cfg data len
    let detent ← ptrSub cfg end_ 15
    let s ← t1ha0_loop cfg e al detent len ⟨a, b, c, d, data⟩
    let c := s.c + s.a
    let d := s.d + s.b
    let a := s.a ^^^ prime32_6 * (rot32 c 16 + d)
    let b := s.b ^^^ prime32_5 * (c + rot32 d 16)
    t1ha0_tail cfg e al a b s.v (len &&& 15)
  else t1ha0_tail cfg e al a b data len

/-- `t1ha0_32le` for `e = .little` (src/t1ha0.c:326-340), `t1ha0_32be` for `e = .big`
(src/t1ha0.c:342-356): the two functions have the same text but for the byte order. -/
def t1ha0_32 (cfg : Cfg) (e : Endian) (data len : Nat) (seed : U64) : M U64 :=
  if cfg.unaligned = .efficient then t1ha0_body cfg e .unaligned data len seed
  else
    let misaligned := data &&& (4 - 1) != 0
    if misaligned then t1ha0_body cfg e .unaligned data len seed
    else t1ha0_body cfg e .aligned data len seed

/-- `t1ha0_32le` (src/t1ha0.c:326-340) -/
def t1ha0_32le (cfg : Cfg) (data len : Nat) (seed : U64) : M U64 := t1ha0_32 cfg .little data len seed

/-- `t1ha0_32be` (src/t1ha0.c:342-356) -/
def t1ha0_32be (cfg : Cfg) (data len : Nat) (seed : U64) : M U64 := t1ha0_32 cfg .big data len seed

end T1ha.Model
