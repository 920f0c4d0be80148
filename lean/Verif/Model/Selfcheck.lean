import Verif.Model.Dispatch
import Verif.Model.Stream
import Verif.RefTables

/-!
# The self-check

src/t1ha_selfcheck.c, src/t1ha_selfcheck_all.c, and the functions at the ends of src/t1ha0_selfcheck.c,
src/t1ha1_selfcheck.c, src/t1ha2_selfcheck.c.

The reference tables and the test pattern are constant arrays in memory, at arbitrary addresses
(`Statics`). Local variables whose address is taken are at arbitrary addresses too (`Frame`); they may be
different for each of the hash functions which are checked.

Simplification: for `f() | g()` C leaves open which of the two is called first. The model calls the left
one first.
-/

namespace T1ha.Model

/-- The type of hash functions: `uint64_t (*)(const void *, size_t, uint64_t)` -/
abbrev HashFn := Nat → Nat → U64 → M U64

/-- `int` -/
abbrev CInt := BitVec 32

/-- `for (i = ...; i < bound; i++)`, with the variables which the body changes. -/
def forLoop {σ : Type} (bound : Nat) (body : Nat → σ → M σ) : Nat → Nat → σ → M σ
  | 0, _, _ => fail .diverge
  | fuel + 1, i, s =>
    if i < bound then do
      iterate
      let s ← body i s
      forLoop bound body fuel (i + 1) s
    else pure s

/-- `probe` (src/t1ha_selfcheck.c:55-61) -/
def probe (cfg : Cfg) (hash : HashFn) (reference : U64) (data len : Nat) (seed : U64) : M Bool := do
  let actual ← hash data len seed
  cassert cfg (actual == reference)
  pure (actual != reference)

/-- `failed |= probe(hash, *reference_values++, data, len, seed)` (src/t1ha_selfcheck.c:68-71, 76, 84-85,
93-94): the new values of `reference_values` and `failed` -/
def probeNext (cfg : Cfg) (hash : HashFn) (reference_values : Nat) (failed : Bool) (data len : Nat)
    (seed : U64) : M (Nat × Bool) := do
  let reference ← readU64 cfg reference_values
  let reference_values ← ptrAdd cfg reference_values 8
  let r ← probe cfg hash reference data len seed
  pure (reference_values, failed || r)

/-- The first loop (src/t1ha_selfcheck.c:73-78) -/
def selfcheck_bins (cfg : Cfg) (hash : HashFn) (t1ha_test_pattern reference_values : Nat) (failed : Bool) :
    M (Nat × Bool × U64) :=
  forLoop 64 (fun i (s : Nat × Bool × U64) => do
    let r ← probeNext cfg hash s.1 s.2.1 t1ha_test_pattern i s.2.2
    pure (r.1, r.2, s.2.2 <<< 1)) 64 1 (reference_values, failed, 1)

/-- The second loop (src/t1ha_selfcheck.c:80-86); `i <= 7` is `i < 8` here -/
def selfcheck_aligns (cfg : Cfg) (hash : HashFn) (t1ha_test_pattern reference_values : Nat) (failed : Bool) :
    M (Nat × Bool × U64) :=
  forLoop 8 (fun i (s : Nat × Bool × U64) => do
    let seed := s.2.2 <<< 1
    let data ← ptrAdd cfg t1ha_test_pattern i
    let r ← probeNext cfg hash s.1 s.2.1 data (64 - i) seed
    pure (r.1, r.2, seed)) 8 1 (reference_values, failed, ~~~0)

/-- `pattern_long[i] = (uint8_t)i` for all `i` (src/t1ha_selfcheck.c:88-90) -/
def selfcheck_fill (cfg : Cfg) (pattern_long : Nat) : M Unit :=
  forLoop 512 (fun i _ => do
    let p ← ptrAdd cfg pattern_long i
    store p [BitVec.ofNat 8 i]) 513 0 ()

/-- The last loop (src/t1ha_selfcheck.c:91-95); `i <= 7` is `i < 8` here -/
def selfcheck_longs (cfg : Cfg) (hash : HashFn) (pattern_long reference_values : Nat) (failed : Bool)
    (seed : U64) : M (Nat × Bool) :=
  forLoop 8 (fun i (s : Nat × Bool) => do
    let data ← ptrAdd cfg pattern_long i
    probeNext cfg hash s.1 s.2 data (128 + i * 17) seed) 9 0 (reference_values, failed)

/-- `t1ha_selfcheck` (src/t1ha_selfcheck.c:63-98). `t1ha_test_pattern` and `pattern_long` are the
addresses of the arrays of these names. -/
def t1ha_selfcheck (cfg : Cfg) (t1ha_test_pattern pattern_long : Nat) (hash : HashFn)
    (reference_values : Nat) : M CInt := do
  let failed := false
  let zero : U64 := 0
  let r ← probeNext cfg hash reference_values failed 0 0 zero
  let r ← probeNext cfg hash r.1 r.2 0 0 (~~~zero)
  let r ← probeNext cfg hash r.1 r.2 t1ha_test_pattern 64 zero
  let r ← selfcheck_bins cfg hash t1ha_test_pattern r.1 r.2
  let r ← selfcheck_aligns cfg hash t1ha_test_pattern r.1 r.2.1
  selfcheck_fill cfg pattern_long
  let r ← selfcheck_longs cfg hash pattern_long r.1 r.2.1 r.2.2
  pure (if r.2 then -1 else 0)

/-! ## What is checked -/

/-- The calls of `t1ha_selfcheck`, by the hash function which is passed. -/
inductive Checked
  | t1ha2_atonce
  | thunk_atonce128
  | thunk_stream
  | thunk_stream128
  | t1ha1_le
  | t1ha1_be
  | t1ha0_32le
  | t1ha0_32be
  | t1ha0_ia32aes_noavx
  | t1ha0_ia32aes_avx
  | t1ha0_ia32aes_avx2
  deriving DecidableEq, Repr

/-- The reference tables. -/
inductive Table
  | t1ha_refval_2atonce
  | t1ha_refval_2atonce128
  | t1ha_refval_2stream
  | t1ha_refval_2stream128
  | t1ha_refval_64le
  | t1ha_refval_64be
  | t1ha_refval_32le
  | t1ha_refval_32be
  | t1ha_refval_ia32aes_a
  | t1ha_refval_ia32aes_b
  deriving DecidableEq, Repr

/-- The contents of the tables in the sources. -/
def Table.values : Table → List U64
  | t1ha_refval_2atonce => Ref.t1ha_refval_2atonce
  | t1ha_refval_2atonce128 => Ref.t1ha_refval_2atonce128
  | t1ha_refval_2stream => Ref.t1ha_refval_2stream
  | t1ha_refval_2stream128 => Ref.t1ha_refval_2stream128
  | t1ha_refval_64le => Ref.t1ha_refval_64le
  | t1ha_refval_64be => Ref.t1ha_refval_64be
  | t1ha_refval_32le => Ref.t1ha_refval_32le
  | t1ha_refval_32be => Ref.t1ha_refval_32be
  | t1ha_refval_ia32aes_a => Ref.t1ha_refval_ia32aes_a
  | t1ha_refval_ia32aes_b => Ref.t1ha_refval_ia32aes_b

/-- Addresses of the constant arrays. -/
structure Statics where
  t1ha_test_pattern : Nat
  table : Table → Nat

/-- Addresses of local variables during one call of `t1ha_selfcheck`: of `pattern_long`
(src/t1ha_selfcheck.c:88); of `unused` and `ctx` in the thunks (src/t1ha2_selfcheck.c:152, 162, 170, 173);
of `bits` in `t1ha2_final` (src/t1ha2.c:369). -/
structure Frame where
  pattern_long : Nat
  unused : Nat
  ctx : Nat
  bits : Nat

/-- The hash functions which are linked to the self-check, by name. (So that theorems can also speak
about a library with a faulty function.) -/
abbrev Library := Checked → HashFn

/-- `thunk_atonce128` (src/t1ha2_selfcheck.c:150-154) -/
def thunk_atonce128 (cfg : Cfg) (stack : State256) (fr : Frame) : HashFn := fun data len seed =>
  t1ha2_atonce128 cfg stack fr.unused data len seed

/-- `thunk_stream` (src/t1ha2_selfcheck.c:160-166) -/
def thunk_stream (cfg : Cfg) (fr : Frame) : HashFn := fun data len seed => do
  t1ha2_init cfg fr.ctx seed seed
  t1ha2_update cfg fr.ctx data len
  t1ha2_final cfg fr.ctx none fr.bits

/-- `thunk_stream128` (src/t1ha2_selfcheck.c:168-175) -/
def thunk_stream128 (cfg : Cfg) (fr : Frame) : HashFn := fun data len seed => do
  t1ha2_init cfg fr.ctx seed seed
  t1ha2_update cfg fr.ctx data len
  t1ha2_final cfg fr.ctx (some fr.unused) fr.bits

/-- The functions of this library. (`stack`, `ac`: see `OneShot`.) -/
def library (cfg : Cfg) (stack : State256) (ac : AesCfg) (fr : Checked → Frame) : Library
  | .t1ha2_atonce => (OneShot.t1ha2_atonce stack).run cfg
  | .thunk_atonce128 => thunk_atonce128 cfg stack (fr .thunk_atonce128)
  | .thunk_stream => thunk_stream cfg (fr .thunk_stream)
  | .thunk_stream128 => thunk_stream128 cfg (fr .thunk_stream128)
  | .t1ha1_le => OneShot.t1ha1_le.run cfg
  | .t1ha1_be => OneShot.t1ha1_be.run cfg
  | .t1ha0_32le => OneShot.t1ha0_32le.run cfg
  | .t1ha0_32be => OneShot.t1ha0_32be.run cfg
  | .t1ha0_ia32aes_noavx => (OneShot.t1ha0_ia32aes_noavx ac).run cfg
  | .t1ha0_ia32aes_avx => (OneShot.t1ha0_ia32aes_avx ac).run cfg
  | .t1ha0_ia32aes_avx2 => (OneShot.t1ha0_ia32aes_avx2 ac).run cfg

section
variable (b : Build) (cpu : Cpu) (st : Statics) (fr : Checked → Frame) (lib : Library)

/-- `t1ha_selfcheck(f, refval)` -/
def check (f : Checked) (refval : Table) : M CInt :=
  t1ha_selfcheck b.cfg st.t1ha_test_pattern (fr f).pattern_long (lib f) (st.table refval)

/-- `t1ha_selfcheck__t1ha2_atonce` (src/t1ha2_selfcheck.c:146-148) -/
def t1ha_selfcheck__t1ha2_atonce : M CInt := check b st fr lib .t1ha2_atonce .t1ha_refval_2atonce

/-- `t1ha_selfcheck__t1ha2_atonce128` (src/t1ha2_selfcheck.c:156-158) -/
def t1ha_selfcheck__t1ha2_atonce128 : M CInt := check b st fr lib .thunk_atonce128 .t1ha_refval_2atonce128

/-- `t1ha_selfcheck__t1ha2_stream` (src/t1ha2_selfcheck.c:177-180) -/
def t1ha_selfcheck__t1ha2_stream : M CInt := do
  let x ← check b st fr lib .thunk_stream .t1ha_refval_2stream
  let y ← check b st fr lib .thunk_stream128 .t1ha_refval_2stream128
  pure (x ||| y)

/-- `t1ha_selfcheck__t1ha2` (src/t1ha2_selfcheck.c:182-185) -/
def t1ha_selfcheck__t1ha2 : M CInt := do
  let x ← t1ha_selfcheck__t1ha2_atonce b st fr lib
  let y ← t1ha_selfcheck__t1ha2_atonce128 b st fr lib
  let z ← t1ha_selfcheck__t1ha2_stream b st fr lib
  pure (x ||| y ||| z)

/-- `t1ha_selfcheck__t1ha1_le` (src/t1ha1_selfcheck.c:100-102) -/
def t1ha_selfcheck__t1ha1_le : M CInt := check b st fr lib .t1ha1_le .t1ha_refval_64le

/-- `t1ha_selfcheck__t1ha1_be` (src/t1ha1_selfcheck.c:104-106) -/
def t1ha_selfcheck__t1ha1_be : M CInt := check b st fr lib .t1ha1_be .t1ha_refval_64be

/-- `t1ha_selfcheck__t1ha1` (src/t1ha1_selfcheck.c:108-110) -/
def t1ha_selfcheck__t1ha1 : M CInt := do
  let x ← t1ha_selfcheck__t1ha1_le b st fr lib
  let y ← t1ha_selfcheck__t1ha1_be b st fr lib
  pure (x ||| y)

/-- `t1ha_selfcheck__t1ha0_32le` (src/t1ha0_selfcheck.c:148-150) -/
def t1ha_selfcheck__t1ha0_32le : M CInt := check b st fr lib .t1ha0_32le .t1ha_refval_32le

/-- `t1ha_selfcheck__t1ha0_32be` (src/t1ha0_selfcheck.c:152-154) -/
def t1ha_selfcheck__t1ha0_32be : M CInt := check b st fr lib .t1ha0_32be .t1ha_refval_32be

/-- `t1ha_selfcheck__t1ha0_ia32aes_noavx` (src/t1ha0_selfcheck.c:157-159) -/
def t1ha_selfcheck__t1ha0_ia32aes_noavx : M CInt :=
  check b st fr lib .t1ha0_ia32aes_noavx .t1ha_refval_ia32aes_a

/-- `t1ha_selfcheck__t1ha0_ia32aes_avx` (src/t1ha0_selfcheck.c:161-163) -/
def t1ha_selfcheck__t1ha0_ia32aes_avx : M CInt :=
  check b st fr lib .t1ha0_ia32aes_avx .t1ha_refval_ia32aes_a

/-- `t1ha_selfcheck__t1ha0_ia32aes_avx2` (src/t1ha0_selfcheck.c:166-168) -/
def t1ha_selfcheck__t1ha0_ia32aes_avx2 : M CInt :=
  check b st fr lib .t1ha0_ia32aes_avx2 .t1ha_refval_ia32aes_b

/-- The part of `t1ha_selfcheck__t1ha0` about AES-NI (src/t1ha0_selfcheck.c:184-199): the new `rc`.
`t1ha_ia32cpu_features` is declared only for ia32 (src/t1ha_bits.h:1233-1234). -/
def selfcheck_aes (rc : CInt) : M CInt :=
  if b.aesniAvailable then
    match b.arch with
    | .e2k => do
      let x ← t1ha_selfcheck__t1ha0_ia32aes_noavx b st fr lib
      let rc := rc ||| x
      let x ← t1ha_selfcheck__t1ha0_ia32aes_avx b st fr lib
      pure (rc ||| x)
    | .ia32 =>
      let features := t1ha_ia32cpu_features b cpu
      if t1ha_ia32_AESNI_avail features then do
        let x ← t1ha_selfcheck__t1ha0_ia32aes_noavx b st fr lib
        let rc := rc ||| x
        if t1ha_ia32_AVX_avail features then do
          let x ← t1ha_selfcheck__t1ha0_ia32aes_avx b st fr lib
          let rc := rc ||| x
          if t1ha_ia32_AVX2_avail features then do
            let x ← t1ha_selfcheck__t1ha0_ia32aes_avx2 b st fr lib
            pure (rc ||| x)
          else pure rc
        else pure rc
      else pure rc
    | .other => fail .undeclared
  else pure rc

/-- `t1ha_selfcheck__t1ha0` (src/t1ha0_selfcheck.c:172-202) -/
def t1ha_selfcheck__t1ha0 : M CInt := do
  let x ← t1ha_selfcheck__t1ha0_32le b st fr lib
  let y ← t1ha_selfcheck__t1ha0_32be b st fr lib
  let rc := x ||| y
  let rc ← (if b.cfg.word64 && (!b.no1 || !b.no2) then do
      let x ← (if b.no1 then t1ha_selfcheck__t1ha2 b st fr lib else t1ha_selfcheck__t1ha1 b st fr lib)
      pure (rc ||| x)
    else pure rc)
  selfcheck_aes b cpu st fr lib rc

/-- `t1ha_selfcheck__all_enabled` (src/t1ha_selfcheck_all.c:47-63) -/
def t1ha_selfcheck__all_enabled : M CInt := do
  let rc : CInt := 0
  let rc ← (if b.no2 then pure rc else do
      let x ← t1ha_selfcheck__t1ha2 b st fr lib
      pure (rc ||| x))
  let rc ← (if b.no1 then pure rc else do
      let x ← t1ha_selfcheck__t1ha1 b st fr lib
      pure (rc ||| x))
  if b.no0 then pure rc else do
    let x ← t1ha_selfcheck__t1ha0 b cpu st fr lib
    pure (rc ||| x)

end

end T1ha.Model
