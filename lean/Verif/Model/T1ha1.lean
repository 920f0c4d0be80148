import Verif.Model.Bits

/-!
# src/t1ha1.c
-/

namespace T1ha.Model

/-- `mix64` (src/t1ha1.c:49-52) -/
def mix64 (v p : U64) : U64 :=
  let v := v * p
  v ^^^ rot64 v 41

/-- `final_weak_avalanche` (src/t1ha1.c:54-60) -/
def final_weak_avalanche (cfg : Cfg) (a b : U64) : U64 :=
  mux64 cfg (rot64 (a + b) 17) prime_4 + mix64 (a ^^^ b) prime_0

/-- The variables `a, b, c, d` of `T1HA1_BODY` and the pointer `v`. -/
structure T1ha1Vars where
  a : U64
  b : U64
  c : U64
  d : U64
  v : Nat

/-- The loop of `T1HA1_BODY` (src/t1ha1.c:70-84); `prefetch` has no effect. -/
def t1ha1_loop (cfg : Cfg) (e : Endian) (al : Aligness) (detent : Nat) :
    Nat → T1ha1Vars → M T1ha1Vars
  | 0, _ => fail .diverge
  | fuel + 1, s => do
    iterate
    let w0 ← fetch64 cfg e al s.v
    let w1 ← fetch64 cfg e al (s.v + 8)
    let w2 ← fetch64 cfg e al (s.v + 16)
    let w3 ← fetch64 cfg e al (s.v + 24)
    let v ← ptrAdd cfg s.v 32
    let d02 := w0 ^^^ rot64 (w2 + s.d) 17
    let c13 := w1 ^^^ rot64 (w3 + s.c) 17
    let d := s.d - (s.b ^^^ rot64 w1 31)
    let c := s.c + (s.a ^^^ rot64 w0 41)
    let b := s.b ^^^ prime_0 * (c13 + w2)
    let a := s.a ^^^ prime_1 * (d02 + w3)
    if v < detent then t1ha1_loop cfg e al detent fuel ⟨a, b, c, d, v⟩
    else pure ⟨a, b, c, d, v⟩

/-- The `switch` of `T1HA1_BODY` (src/t1ha1.c:91-127): each case falls through to the next one. -/
def t1ha1_tail (cfg : Cfg) (e : Endian) (al : Aligness) (a b : U64) (v len : Nat) : M U64 := do
  let (b, v) ← (if 24 < len then do
      let w ← fetch64 cfg e al v
      let v ← ptrAdd cfg v 8
      pure (b + mux64 cfg w prime_4, v)
    else pure (b, v))
  let (a, v) ← (if 16 < len then do
      let w ← fetch64 cfg e al v
      let v ← ptrAdd cfg v 8
      pure (a + mux64 cfg w prime_3, v)
    else pure (a, v))
  let (b, v) ← (if 8 < len then do
      let w ← fetch64 cfg e al v
      let v ← ptrAdd cfg v 8
      pure (b + mux64 cfg w prime_2, v)
    else pure (b, v))
  let a ← (if 0 < len then do
      let w ← tail64 cfg e al v len
      pure (a + mux64 cfg w prime_1)
    else pure a)
  pure (final_weak_avalanche cfg a b)

/-- `T1HA1_BODY` (src/t1ha1.c:63-127) with `a = seed`, `b = len` as set by the callers. -/
def t1ha1_body (cfg : Cfg) (e : Endian) (al : Aligness) (data len : Nat) (seed : U64) : M U64 := do
  let a := seed
  let b := BitVec.ofNat 64 len
  if 32 < len then do
    let c := rot64 (BitVec.ofNat 64 len) 17 + seed
    let d := BitVec.ofNat 64 len ^^^ rot64 seed 17
    let end_ ← ptrAdd cfg data len
    let detent ← ptrSub cfg end_ 31
    let s ← t1ha1_loop cfg e al detent len ⟨a, b, c, d, data⟩
    let a := s.a ^^^ prime_6 * (rot64 s.c 17 + s.d)
    let b := s.b ^^^ prime_5 * (s.c + rot64 s.d 17)
    t1ha1_tail cfg e al a b s.v (len &&& 31)
  else t1ha1_tail cfg e al a b data len

/-- `t1ha1_le` for `e = .little` (src/t1ha1.c:129-143), `t1ha1_be` for `e = .big`
(src/t1ha1.c:145-159): the two functions have the same text but for the byte order. -/
def t1ha1 (cfg : Cfg) (e : Endian) (data len : Nat) (seed : U64) : M U64 :=
  if cfg.unaligned = .efficient then t1ha1_body cfg e .unaligned data len seed
  else
    let misaligned := data &&& (cfg.alignment64 - 1) != 0
    if misaligned then t1ha1_body cfg e .unaligned data len seed
    else t1ha1_body cfg e .aligned data len seed

/-- `t1ha1_le` (src/t1ha1.c:129-143) -/
def t1ha1_le (cfg : Cfg) (data len : Nat) (seed : U64) : M U64 := t1ha1 cfg .little data len seed

/-- `t1ha1_be` (src/t1ha1.c:145-159) -/
def t1ha1_be (cfg : Cfg) (data len : Nat) (seed : U64) : M U64 := t1ha1 cfg .big data len seed

end T1ha.Model
