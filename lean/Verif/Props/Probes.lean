import Verif.Contract
import Verif.Props.Api
import Verif.Model.Selfcheck
import Verif.Props.Dispatch

/-!
# The self-check: the vocabulary of the theorems

What the self-check should ask of a hash function.
-/

namespace T1ha.Model

/-- The first address after the `n` bytes at `p` is at most `q`, or the other way round. -/
def Disjoint (p n q k : Nat) : Prop := p + n ≤ q ∨ q + k ≤ p

/-- Where the message of a probe is. -/
inductive Base
  /-- nowhere: a null pointer -/
  | null
  /-- in the array `t1ha_test_pattern` of 64 bytes -/
  | pattern
  /-- in an array of 512 bytes: 0, 1, 2, ... -/
  | long
  deriving DecidableEq, Repr

/-- The bytes there. -/
def Base.bytes : Base → List Byte
  | null => []
  | pattern => Ref.t1ha_test_pattern
  | long => (List.range 512).map fun i => BitVec.ofNat 8 i

/-- A call of the hash function: `len` bytes at an offset. -/
structure Probe where
  base : Base
  off : Nat
  len : Nat
  seed : U64
  deriving DecidableEq, Repr

/-- The message. -/
def Probe.msg (p : Probe) : List Byte := (p.base.bytes.drop p.off).take p.len

/-- The 81 probes: the empty message twice, the pattern, its first 1 ... 63 bytes, its last 63 ... 57
bytes, and 8 longer messages. -/
def probeAt (k : Nat) : Probe :=
  if k = 0 then ⟨.null, 0, 0, 0⟩
  else if k = 1 then ⟨.null, 0, 0, ~~~0⟩
  else if k = 2 then ⟨.pattern, 0, 64, 0⟩
  else if k < 66 then ⟨.pattern, 0, k - 2, (1 : U64) <<< (k - 3)⟩
  else if k < 73 then ⟨.pattern, k - 65, 64 - (k - 65), (~~~0 : U64) <<< (k - 65)⟩
  else ⟨.long, k - 73, 128 + (k - 73) * 17, (~~~0 : U64) <<< 7⟩

/-- The answers to the probes (`answer k` to probe `k`) are the values in the table. -/
def PassesAll (answer : Nat → U64) (table : List U64) : Prop := ∀ k < 81, table[k]? = some (answer k)

/-- Address of the message of a probe, given the addresses of the arrays. -/
def Probe.addr (pattern long : Nat) (p : Probe) : Nat :=
  match p.base with
  | .null => 0
  | .pattern => pattern + p.off
  | .long => long + p.off

/-- An array of `uint64_t` in memory. -/
def ArrayAt (cfg : Cfg) (w : World) (ov : Overlay) (p : Nat) (vs : List U64) : Prop :=
  ∀ i v, vs[i]? = some v → Holds w ov (p + 8 * i) (cfg.endian.bytes 8 v.toNat)

/-- Nothing which has been written by the program is taken back. -/
def Later (ov ov' : Overlay) : Prop := ∀ a, ov' a = none → ov a = none

/-- The code `hash` returns `answer k` for probe `k` (it may do anything on other arguments), at any time
when the message is where it should be, and writes nothing but its local variables (`scratch`). The answers
may be anything: they may depend on lengths and addresses. -/
def Computes (w : World) (ov : Overlay) (pattern long : Nat) (hash : Nat → Nat → U64 → M U64)
    (answer : Nat → U64) (scratch : Nat → Prop) : Prop :=
  ∀ k < 81, ∀ s : Sys, Later ov s.ov →
    Holds w s.ov ((probeAt k).addr pattern long) (probeAt k).msg →
    ∃ s' t, Returns (hash ((probeAt k).addr pattern long) (probeAt k).msg.length (probeAt k).seed) w s
        (answer k) s' t ∧
      Later s.ov s'.ov ∧ ∀ a, ¬ scratch a → s'.ov a = s.ov a

/-- The memory of the self-check of one function: the reference table (anything), the pattern, and 512
bytes on the stack. -/
structure CheckMem (cfg : Cfg) (w : World) (ov : Overlay) (pattern long refs : Nat) (table : List U64) :
    Prop where
  size : table.length = 81
  holds_table : ArrayAt cfg w ov refs table
  table_fits : refs + 8 * 81 < 2 ^ cfg.bits
  holds_pattern : Holds w ov pattern Ref.t1ha_test_pattern
  pattern_fits : pattern + 64 < 2 ^ cfg.bits
  writable_long : Writable w long 512
  long_fits : long + 512 < 2 ^ cfg.bits
  apart : Disjoint refs (8 * 81) long 512 ∧ Disjoint pattern 64 long 512

/-- The local variables of the hash function are not in the arrays. -/
def Elsewhere (scratch : Nat → Prop) (pattern long refs : Nat) : Prop :=
  ∀ a, scratch a → (a < refs ∨ refs + 8 * 81 ≤ a) ∧ (a < pattern ∨ pattern + 64 ≤ a) ∧
    (a < long ∨ long + 512 ≤ a)

/-- The table which belongs to a function. -/
def Checked.table : Checked → Table
  | .t1ha2_atonce => .t1ha_refval_2atonce
  | .thunk_atonce128 => .t1ha_refval_2atonce128
  | .thunk_stream => .t1ha_refval_2stream
  | .thunk_stream128 => .t1ha_refval_2stream128
  | .t1ha1_le => .t1ha_refval_64le
  | .t1ha1_be => .t1ha_refval_64be
  | .t1ha0_32le => .t1ha_refval_32le
  | .t1ha0_32be => .t1ha_refval_32be
  | .t1ha0_ia32aes_noavx => .t1ha_refval_ia32aes_a
  | .t1ha0_ia32aes_avx => .t1ha_refval_ia32aes_a
  | .t1ha0_ia32aes_avx2 => .t1ha_refval_ia32aes_b

/-- The specification of a function. -/
def Checked.spec : Checked → List Byte → U64 → U64
  | .t1ha2_atonce => Spec.t1ha2_atonce
  | .thunk_atonce128 => fun m seed => (Spec.t1ha2_atonce128 m seed).1
  | .thunk_stream => fun m seed => Spec.t1ha2_stream m seed seed
  | .thunk_stream128 => fun m seed => (Spec.t1ha2_stream128 m seed seed).1
  | .t1ha1_le => Spec.t1ha1 .little
  | .t1ha1_be => Spec.t1ha1 .big
  | .t1ha0_32le => Spec.t1ha0_32 .little
  | .t1ha0_32be => Spec.t1ha0_32 .big
  | .t1ha0_ia32aes_noavx => Spec.t1ha0_aesA
  | .t1ha0_ia32aes_avx => Spec.t1ha0_aesA
  | .t1ha0_ia32aes_avx2 => Spec.t1ha0_aesB

/-- What the specification answers to the probes. -/
def Checked.answer (f : Checked) (k : Nat) : U64 := f.spec (probeAt k).msg (probeAt k).seed

end T1ha.Model

namespace T1ha.Props

open Model

/-- The functions which the self-check should check: those which are enabled and which the processor can
execute. -/
def Covered (b : Build) (cpu : Cpu) : Checked → Prop
  | .t1ha2_atonce | .thunk_atonce128 | .thunk_stream | .thunk_stream128 => b.no2 = false
  | .t1ha1_le | .t1ha1_be => b.no1 = false
  | .t1ha0_32le | .t1ha0_32be => b.no0 = false
  | .t1ha0_ia32aes_noavx => b.no0 = false ∧ Build.OffersAes b ∧
      (b.arch = .e2k ∨ Build.LooksForAes b ∧ HasAes cpu)
  | .t1ha0_ia32aes_avx => b.no0 = false ∧ Build.OffersAes b ∧
      (b.arch = .e2k ∨ Build.LooksForAes b ∧ HasAes cpu ∧ HasAvx cpu ∧ HasOsxsave cpu)
  | .t1ha0_ia32aes_avx2 => b.no0 = false ∧ Build.LooksForAes b ∧ HasAes cpu ∧ HasAvx cpu ∧
      HasOsxsave cpu ∧ HasAvx2 cpu

/-- The library `lib` and its reference tables `T` in memory: every covered function answers `answer f k`
to probe `k` and changes only its local variables (`scratch f`), and these, the array on the stack, the
tables and the pattern are all at different places. (Nothing is said about functions which are not
covered: calling one of these might crash.) -/
structure AllMem (b : Build) (cpu : Cpu) (w : World) (ov : Overlay) (st : Statics) (fr : Checked → Frame)
    (lib : Library) (T : Table → List U64) (answer : Checked → Nat → U64) (scratch : Checked → Nat → Prop) :
    Prop where
  mem : ∀ f, Covered b cpu f →
    CheckMem b.cfg w ov st.t1ha_test_pattern (fr f).pattern_long (st.table f.table) (T f.table)
  code : ∀ f, Covered b cpu f →
    Computes w ov st.t1ha_test_pattern (fr f).pattern_long (lib f) (answer f) (scratch f)
  apart : ∀ f g, Covered b cpu f → Covered b cpu g →
    Elsewhere (scratch f) st.t1ha_test_pattern (fr f).pattern_long (st.table g.table) ∧
    Disjoint (st.table g.table) (8 * 81) (fr f).pattern_long 512

/-- Local variables of the functions of the library whose address is taken: addresses and sizes. -/
def locals (cfg : Cfg) (fr : Frame) : Checked → List (Nat × Nat)
  | .thunk_atonce128 => [(fr.unused, 8)]
  | .thunk_stream => [(fr.ctx, ctxSize cfg), (fr.bits, 8)]
  | .thunk_stream128 => [(fr.ctx, ctxSize cfg), (fr.bits, 8), (fr.unused, 8)]
  | _ => []

/-- An address in one of these. -/
def InLocals (cfg : Cfg) (fr : Frame) (f : Checked) (a : Nat) : Prop :=
  ∃ x ∈ locals cfg fr f, x.1 ≤ a ∧ a < x.1 + x.2

/-- A function of the library, its table and its variables are in a memory where it can work. -/
structure Placed (cfg : Cfg) (w : World) (ov : Overlay) (page : Nat) (st : Statics) (fr : Frame)
    (f : Checked) : Prop where
  mem : CheckMem cfg w ov st.t1ha_test_pattern fr.pattern_long (st.table f.table) f.table.values
  paged : Paged w page
  pageOk : PageOk cfg page
  /-- see `OneShot.Ready` -/
  slack : f ≠ .t1ha0_32le → f ≠ .t1ha0_32be →
    cfg.SafeTail ∨ Mapped w st.t1ha_test_pattern 72 ∧ Mapped w fr.pattern_long 520
  /-- see `OneShot.Ready` -/
  builds : f = .t1ha1_be → cfg.Buildable
  /-- see `OneShot.Ready` -/
  bottom : f = .t1ha0_ia32aes_noavx ∨ f = .t1ha0_ia32aes_avx →
    127 ≤ st.t1ha_test_pattern ∧ 127 ≤ fr.pattern_long
  /-- see `OneShot.Ready` -/
  top : f = .t1ha0_ia32aes_avx2 →
    st.t1ha_test_pattern + 176 < 2 ^ cfg.bits ∧ fr.pattern_long + 624 < 2 ^ cfg.bits
  notNull : st.t1ha_test_pattern ≠ 0 ∧ fr.pattern_long ≠ 0
  /-- see `Buf.above` -/
  above : cfg.proxy = true → cfg.below 8 ≤ st.t1ha_test_pattern ∧ cfg.below 8 ≤ fr.pattern_long
  locals_ok : ∀ x ∈ locals cfg fr f, x.1 ≠ 0 ∧ Writable w x.1 x.2 ∧ x.1 + x.2 < 2 ^ cfg.bits ∧
    Disjoint st.t1ha_test_pattern 64 x.1 x.2 ∧ Disjoint fr.pattern_long 512 x.1 x.2
  /-- The context on the stack is aligned, is not shared with others, and does not overlap `bits`. -/
  ctx_ok : f = .thunk_stream ∨ f = .thunk_stream128 →
    fr.ctx % cfg.alignment64 = 0 ∧ (∃ img, img.length = ctxSize cfg ∧ Holds w ov fr.ctx img) ∧
    Disjoint fr.bits 8 fr.ctx (ctxSize cfg)

/-- All covered functions are placed like this, and the variables are not in the tables. -/
structure AllPlaced (b : Build) (cpu : Cpu) (w : World) (ov : Overlay) (page : Nat) (st : Statics)
    (fr : Checked → Frame) : Prop where
  each : ∀ f, Covered b cpu f → Placed b.cfg w ov page st (fr f) f
  apart : ∀ f g, Covered b cpu f → Covered b cpu g →
    (∀ x ∈ locals b.cfg (fr f) f, Disjoint (st.table g.table) (8 * 81) x.1 x.2) ∧
    Disjoint (st.table g.table) (8 * 81) (fr f).pattern_long 512

/-- The function to check for a function which can be selected for `t1ha0`. -/
def checkedOf : Fn → Checked
  | .t1ha0_ia32aes_avx2 => .t1ha0_ia32aes_avx2
  | .t1ha0_ia32aes_avx => .t1ha0_ia32aes_avx
  | .t1ha0_ia32aes_noavx => .t1ha0_ia32aes_noavx
  | .t1ha1_be => .t1ha1_be
  | .t1ha1_le => .t1ha1_le
  | .t1ha2_atonce => .t1ha2_atonce
  | .t1ha0_32be => .t1ha0_32be
  | .t1ha0_32le => .t1ha0_32le

end T1ha.Props
