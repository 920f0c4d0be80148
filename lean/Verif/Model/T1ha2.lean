import Verif.Model.Bits

/-!
# src/t1ha2.c, one-shot functions
-/

namespace T1ha.Model

/-- `t1ha_state256_t`, member `n` (t1ha.h:406-412) -/
structure State256 where
  a : U64
  b : U64
  c : U64
  d : U64
  deriving DecidableEq, Repr

/-- `init_ab` (src/t1ha2.c:48-52) -/
def init_ab (s : State256) (x y : U64) : State256 := { s with a := x, b := y }

/-- `init_cd` (src/t1ha2.c:54-58) -/
def init_cd (s : State256) (x y : U64) : State256 :=
  { s with c := rot64 y 23 + ~~~x, d := ~~~y + rot64 x 19 }

/-- `T1HA2_UPDATE` (src/t1ha2.c:61-75). Both uses (src/t1ha2.c:90, 328) pass `le` for
`ENDIANNES`. -/
def t1ha2_UPDATE (cfg : Cfg) (al : Aligness) (s : State256) (v : Nat) : M State256 := do
  let w0 ← fetch64 cfg .little al v
  let w1 ← fetch64 cfg .little al (v + 8)
  let w2 ← fetch64 cfg .little al (v + 16)
  let w3 ← fetch64 cfg .little al (v + 24)
  let d02 := w0 + rot64 (w2 + s.d) 56
  let c13 := w1 + rot64 (w3 + s.c) 19
  let s := { s with d := s.d ^^^ (s.b + rot64 w1 38) }
  let s := { s with c := s.c ^^^ (s.a + rot64 w0 57) }
  let s := { s with b := s.b ^^^ prime_6 * (c13 + w2) }
  let s := { s with a := s.a ^^^ prime_5 * (d02 + w3) }
  pure s

/-- `squash` (src/t1ha2.c:77-80) -/
def squash (s : State256) : State256 :=
  let s := { s with a := s.a ^^^ prime_6 * (s.c + rot64 s.d 23) }
  { s with b := s.b ^^^ prime_5 * (rot64 s.c 19 + s.d) }

/-- The inner `do ... while` of `T1HA2_LOOP` (src/t1ha2.c:86-91): returns the state and the advanced
`data`; `prefetch` has no effect. -/
def t1ha2_loop (cfg : Cfg) (al : Aligness) (detent : Nat) :
    Nat → State256 → Nat → M (State256 × Nat)
  | 0, _, _ => fail .diverge
  | fuel + 1, s, data => do
    iterate
    let v := data
    let data ← ptrAdd cfg data 32
    let s ← t1ha2_UPDATE cfg al s v
    if data < detent then t1ha2_loop cfg al detent fuel s data
    else pure (s, data)

/-- `T1HA2_LOOP` (src/t1ha2.c:83-92) -/
def t1ha2_LOOP (cfg : Cfg) (al : Aligness) (s : State256) (data len : Nat) : M (State256 × Nat) := do
  let end_ ← ptrAdd cfg data len
  let detent ← ptrSub cfg end_ 31
  t1ha2_loop cfg al detent len s data

/-- The mixing part of `T1HA2_TAIL_AB` with `ENDIANNES` = `le` (src/t1ha2.c:97-136): each case falls
through to the next one. Returns the new state. -/
def t1ha2_TAIL_AB_mix (cfg : Cfg) (al : Aligness) (s : State256) (v len : Nat) : M State256 := do
  let (s, v) ← (if 24 < len then do
      let w ← fetch64 cfg .little al v
      let v ← ptrAdd cfg v 8
      let ab := mixup64 cfg s.a s.b w prime_4
      pure ({ s with a := ab.1, b := ab.2 }, v)
    else pure (s, v))
  let (s, v) ← (if 16 < len then do
      let w ← fetch64 cfg .little al v
      let v ← ptrAdd cfg v 8
      let ba := mixup64 cfg s.b s.a w prime_3
      pure ({ s with b := ba.1, a := ba.2 }, v)
    else pure (s, v))
  let (s, v) ← (if 8 < len then do
      let w ← fetch64 cfg .little al v
      let v ← ptrAdd cfg v 8
      let ab := mixup64 cfg s.a s.b w prime_2
      pure ({ s with a := ab.1, b := ab.2 }, v)
    else pure (s, v))
  let s ← (if 0 < len then do
      let w ← tail64 cfg .little al v len
      let ba := mixup64 cfg s.b s.a w prime_1
      pure { s with b := ba.1, a := ba.2 }
    else pure s)
  pure s

/-- `T1HA2_TAIL_AB` with `ENDIANNES` = `le` (src/t1ha2.c:95-140) -/
def t1ha2_TAIL_AB (cfg : Cfg) (al : Aligness) (s : State256) (v len : Nat) : M U64 := do
  let s ← t1ha2_TAIL_AB_mix cfg al s v len
  pure (final64 cfg s.a s.b)

/-- `final128` (src/t1ha2.c:190-198): (returned value, `*h`) -/
def final128 (cfg : Cfg) (a b c d : U64) : U64 × U64 :=
  let ab := mixup64 cfg a b (rot64 c 41 ^^^ d) prime_0
  let a := ab.1
  let b := ab.2
  let bc := mixup64 cfg b c (rot64 d 23 ^^^ a) prime_6
  let b := bc.1
  let c := bc.2
  let cd := mixup64 cfg c d (rot64 a 19 ^^^ b) prime_5
  let c := cd.1
  let d := cd.2
  let da := mixup64 cfg d a (rot64 b 31 ^^^ c) prime_4
  let d := da.1
  let a := da.2
  (a ^^^ b, c + d)

/-- The mixing part of `T1HA2_TAIL_ABCD` with `ENDIANNES` = `le` (src/t1ha2.c:145-184): each case falls
through to the next one. Returns the new state. -/
def t1ha2_TAIL_ABCD_mix (cfg : Cfg) (al : Aligness) (s : State256) (v len : Nat) :
    M State256 := do
  let (s, v) ← (if 24 < len then do
      let w ← fetch64 cfg .little al v
      let v ← ptrAdd cfg v 8
      let ad := mixup64 cfg s.a s.d w prime_4
      pure ({ s with a := ad.1, d := ad.2 }, v)
    else pure (s, v))
  let (s, v) ← (if 16 < len then do
      let w ← fetch64 cfg .little al v
      let v ← ptrAdd cfg v 8
      let ba := mixup64 cfg s.b s.a w prime_3
      pure ({ s with b := ba.1, a := ba.2 }, v)
    else pure (s, v))
  let (s, v) ← (if 8 < len then do
      let w ← fetch64 cfg .little al v
      let v ← ptrAdd cfg v 8
      let cb := mixup64 cfg s.c s.b w prime_2
      pure ({ s with c := cb.1, b := cb.2 }, v)
    else pure (s, v))
  let s ← (if 0 < len then do
      let w ← tail64 cfg .little al v len
      let dc := mixup64 cfg s.d s.c w prime_1
      pure { s with d := dc.1, c := dc.2 }
    else pure s)
  pure s

/-- `T1HA2_TAIL_ABCD` with `ENDIANNES` = `le` (src/t1ha2.c:143-188). `extra_result` is the address of a
`uint64_t`. -/
def t1ha2_TAIL_ABCD (cfg : Cfg) (al : Aligness) (s : State256) (v len extra_result : Nat) :
    M U64 := do
  let s ← t1ha2_TAIL_ABCD_mix cfg al s v len
  let r := final128 cfg s.a s.b s.c s.d
  writeInt cfg extra_result 8 r.2.toNat
  pure r.1

/-- The common text of the branches of `t1ha2_atonce` (src/t1ha2.c:207-219, 223-235, 237-249).
`state` starts uninitialised: `garbage`. -/
def t1ha2_atonce_body (cfg : Cfg) (al : Aligness) (garbage : State256) (data length : Nat)
    (seed : U64) : M U64 := do
  let state := init_ab garbage seed (BitVec.ofNat 64 length)
  if 32 < length then do
    let state := init_cd state seed (BitVec.ofNat 64 length)
    let (state, data) ← t1ha2_LOOP cfg al state data length
    let state := squash state
    t1ha2_TAIL_AB cfg al state data (length &&& 31)
  else t1ha2_TAIL_AB cfg al state data length

/-- `t1ha2_atonce` (src/t1ha2.c:202-252). `garbage` is the initial contents of the local variable. -/
def t1ha2_atonce (cfg : Cfg) (garbage : State256) (data length : Nat) (seed : U64) : M U64 :=
  if cfg.unaligned = .efficient then t1ha2_atonce_body cfg .unaligned garbage data length seed
  else
    let misaligned := data &&& (cfg.alignment64 - 1) != 0
    if misaligned then t1ha2_atonce_body cfg .unaligned garbage data length seed
    else t1ha2_atonce_body cfg .aligned garbage data length seed

/-- The common text of the branches of `t1ha2_atonce128` (src/t1ha2.c:262-272, 276-286, 288-298). -/
def t1ha2_atonce128_body (cfg : Cfg) (al : Aligness) (garbage : State256)
    (extra_result data length : Nat) (seed : U64) : M U64 := do
  let state := init_ab garbage seed (BitVec.ofNat 64 length)
  let state := init_cd state seed (BitVec.ofNat 64 length)
  if 32 < length then do
    let (state, data) ← t1ha2_LOOP cfg al state data length
    t1ha2_TAIL_ABCD cfg al state data (length &&& 31) extra_result
  else t1ha2_TAIL_ABCD cfg al state data length extra_result

/-- `t1ha2_atonce128` (src/t1ha2.c:254-301) -/
def t1ha2_atonce128 (cfg : Cfg) (garbage : State256) (extra_result data length : Nat) (seed : U64) :
    M U64 :=
  if cfg.unaligned = .efficient then
    t1ha2_atonce128_body cfg .unaligned garbage extra_result data length seed
  else
    let misaligned := data &&& (cfg.alignment64 - 1) != 0
    if misaligned then t1ha2_atonce128_body cfg .unaligned garbage extra_result data length seed
    else t1ha2_atonce128_body cfg .aligned garbage extra_result data length seed

end T1ha.Model
