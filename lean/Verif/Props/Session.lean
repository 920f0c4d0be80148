import Verif.Contract
import Verif.Spec
import Verif.Model.Stream
import Verif.Props.Api

/-!
# Streaming: the vocabulary of the theorems
-/

namespace T1ha.Model

/-- `n` bytes at `a` lie within the `len` bytes at `p`. -/
def Inside (p len a n : Nat) : Prop := p ≤ a ∧ a + n ≤ p + len

/-- A `t1ha_context_t` with contents `img` is at address `ctx`: nobody else changes it, it can be
written, and it is aligned as `ALIGNMENT_64` requires. -/
structure Ctx (cfg : Cfg) (w : World) (ov : Overlay) (ctx : Nat) (img : List Byte) : Prop where
  size : img.length = ctxSize cfg
  holds : Holds w ov ctx img
  writable : Writable w ctx (ctxSize cfg)
  fits : ctx + ctxSize cfg < 2 ^ cfg.bits
  aligned : ctx % cfg.alignment64 = 0
  notNull : ctx ≠ 0

/-- The bytes `m` are at `data`, which does not overlap the context (`__restrict`). The pointer is not null, not
even if there are no bytes (see `null_update_undefined`). -/
structure Piece (cfg : Cfg) (w : World) (ov : Overlay) (ctx data : Nat) (m : List Byte) : Prop where
  holds : Holds w ov data m
  fits : data + m.length < 2 ^ cfg.bits
  apart : m = [] ∨ data + m.length ≤ ctx ∨ ctx + ctxSize cfg ≤ data
  notNull : data ≠ 0
  /-- It is not at the very bottom of the address space, if pointers before it are computed. -/
  above : cfg.proxy = true → 32 ≤ m.length → 7 ≤ data

/-- What `t1ha2_final` needs besides the context: a stack slot (for the local variable `bits`), and a
place for the second half of the result, if this is asked for. -/
structure Out (cfg : Cfg) (w : World) (ctx : Nat) (extra : Option Nat) (slot : Nat) : Prop where
  slot_writable : Writable w slot 8
  slot_fits : slot + 8 < 2 ^ cfg.bits
  slot_apart : slot + 8 ≤ ctx ∨ ctx + ctxSize cfg ≤ slot
  slot_notNull : slot ≠ 0
  extra_writable : ∀ p, extra = some p → Writable w p 8

/-- `History cfg x y img fed`: a context with contents `img` can be the result of `t1ha2_init` with the
seeds `x`, `y`, and of calls of `t1ha2_update` which were given, all in all, the bytes `fed`.
The calls may be made at different times, in different memories (buffers may be reused for other data
between calls) and with the context at different addresses: a call finds the contents which the call
before it left. -/
inductive History (cfg : Cfg) (x y : U64) : List Byte → List Byte → Prop
  | init {w : World} {s s' : Sys} {ctx : Nat} {before img : List Byte} {t : List Ev}
      (here : Ctx cfg w s.ov ctx before)
      (call : Returns (t1ha2_init cfg ctx x y) w s () s' t)
      (there : Ctx cfg w s'.ov ctx img) :
      History cfg x y img []
  | update {w : World} {s s' : Sys} {ctx data : Nat} {img img' fed m : List Byte} {t : List Ev}
      (past : History cfg x y img fed)
      (here : Ctx cfg w s.ov ctx img)
      (piece : Piece cfg w s.ov ctx data m)
      (call : Returns (t1ha2_update cfg ctx data m.length) w s () s' t)
      (there : Ctx cfg w s'.ov ctx img') :
      History cfg x y img' (fed ++ m)

/-- The pointer `a` points into the `n` bytes at `p`, or just past them. -/
def Within (p n a : Nat) : Prop := p ≤ a ∧ a ≤ p + n

/-- What `t1ha2_init` may do. -/
def InitEv (cfg : Cfg) (ctx : Nat) : Ev → Prop
  | .wr a n => Inside ctx (ctxSize cfg) a n
  | _ => False

/-- What `t1ha2_update` may do. -/
def UpdateEv (cfg : Cfg) (ctx data len : Nat) : Ev → Prop
  | .rd a n => Inside ctx (ctxSize cfg) a n ∨ Inside data len a n
  | .wr a n => Inside ctx (ctxSize cfg) a n
  | .iter => True
  | .ptr a => Within ctx (ctxSize cfg) a ∨ Within data len a ∨
    cfg.proxy = true ∧ 32 ≤ len ∧ data ≤ a + 7 ∧ a < data + len

/-- What `t1ha2_final` may do. -/
def FinalEv (cfg : Cfg) (ctx : Nat) (extra : Option Nat) (slot : Nat) : Ev → Prop
  | .rd a n => Inside ctx (ctxSize cfg) a n ∨ Inside slot 8 a n
  | .wr a n => Inside ctx (ctxSize cfg) a n ∨ Inside slot 8 a n ∨ (extra = some a ∧ n = 8)
  | .iter => False
  | .ptr a => Within ctx (ctxSize cfg) a ∨ Within slot 8 a

/-- The stream is cut into blocks of 32 bytes. So many of them lie wholly within a piece of `len` bytes
which comes after `before` bytes. -/
def wholeBlocks (before len : Nat) : Nat := (before + len) / 32 - (before + 31) / 32

/-- A call changed nothing but the `n` bytes at `p`. -/
def Unchanged (ov ov' : Overlay) (p n : Nat) : Prop := ∀ a, a < p ∨ p + n ≤ a → ov' a = ov a

/-! ## A program which hashes a message in pieces -/

/-- Feed pieces (address, size) one after another. -/
def updates (cfg : Cfg) (ctx : Nat) : List (Nat × Nat) → M Unit
  | [] => pure ()
  | (data, len) :: rest => do
    t1ha2_update cfg ctx data len
    updates cfg ctx rest

/-- Some more calls of `t1ha2_update`, and `t1ha2_final`. -/
def resume (cfg : Cfg) (ctx : Nat) (pieces : List (Nat × Nat)) (extra : Option Nat) (slot : Nat) :
    M U64 := do
  updates cfg ctx pieces
  t1ha2_final cfg ctx extra slot

/-- `t1ha2_init`, some calls of `t1ha2_update`, `t1ha2_final`. -/
def stream (cfg : Cfg) (ctx : Nat) (x y : U64) (pieces : List (Nat × Nat)) (extra : Option Nat)
    (slot : Nat) : M U64 := do
  t1ha2_init cfg ctx x y
  resume cfg ctx pieces extra slot

/-- Addresses and sizes of pieces. -/
def spans (ps : List (Nat × List Byte)) : List (Nat × Nat) := ps.map fun p => (p.1, p.2.length)

/-- The bytes of all pieces together. -/
def joined (ps : List (Nat × List Byte)) : List Byte := (ps.map fun p => p.2).flatten

/-- The pieces (address, contents) are where they should be. -/
def Pieces (cfg : Cfg) (w : World) (ov : Overlay) (ctx : Nat) (ps : List (Nat × List Byte)) : Prop :=
  ∀ p ∈ ps, Piece cfg w ov ctx p.1 p.2

/-- What `t1ha2_final` should return. -/
def streamHash (m : List Byte) (x y : U64) (extra : Option Nat) : U64 :=
  match extra with
  | none => Spec.t1ha2_stream m x y
  | some _ => (Spec.t1ha2_stream128 m x y).1

/-- What `t1ha2_final` should leave at the address of the second result, if this is asked for. -/
def HighAt (cfg : Cfg) (w : World) (ov : Overlay) (m : List Byte) (x y : U64) (extra : Option Nat) : Prop :=
  ∀ p, extra = some p → Holds w ov p (cfg.endian.bytes 8 (Spec.t1ha2_stream128 m x y).2.toNat)

/-! ## Programs with several contexts -/

/-- An operation on contexts; a context is named by its address. -/
inductive Op
  /-- `t1ha2_init(ctx, x, y)` -/
  | init (ctx : Nat) (x y : U64)
  /-- `t1ha2_update(ctx, data, len)`, where the bytes `m` are at `data` -/
  | update (ctx data : Nat) (m : List Byte)
  /-- `*dst = *src` -/
  | copy (dst src : Nat)
  /-- `lo = t1ha2_final(ctx, NULL)` or `lo = t1ha2_final(ctx, &hi)` with `hi` at the given address -/
  | final (ctx : Nat) (extra : Option Nat)

/-- Run a program; the results are those of the calls of `t1ha2_final`: the returned value, and the
second half if it was asked for. (`*dst = *src` is modelled as a copy of all members, without the
padding after the last one.) -/
def runOps (cfg : Cfg) (slot : Nat) : List Op → M (List (U64 × Option U64))
  | [] => pure []
  | .init ctx x y :: ops => do
    t1ha2_init cfg ctx x y
    runOps cfg slot ops
  | .update ctx data m :: ops => do
    t1ha2_update cfg ctx data m.length
    runOps cfg slot ops
  | .copy dst src :: ops => do
    memcpy dst src (ctxSize cfg)
    runOps cfg slot ops
  | .final ctx none :: ops => do
    let lo ← t1ha2_final cfg ctx none slot
    let out ← runOps cfg slot ops
    pure ((lo, none) :: out)
  | .final ctx (some p) :: ops => do
    let lo ← t1ha2_final cfg ctx (some p) slot
    let hi ← readU64 cfg p
    let out ← runOps cfg slot ops
    pure ((lo, some hi) :: out)

/-- A stream in progress: the seeds and the bytes so far. -/
structure Stream where
  x : U64
  y : U64
  fed : List Byte

/-- The streams in progress, by context. -/
abbrev Streams := Nat → Option Stream

def Streams.set (σ : Streams) (c : Nat) (v : Option Stream) : Streams := fun a => if a = c then v else σ a

/-- What an operation should do to the streams. -/
def Op.step (σ : Streams) : Op → Streams
  | .init c x y => σ.set c (some ⟨x, y, []⟩)
  | .update c _ m => σ.set c ((σ c).map fun st => { st with fed := st.fed ++ m })
  | .copy dst src => σ.set dst (σ src)
  | .final c _ => σ.set c none

/-- What an operation should return. -/
def Op.out (σ : Streams) : Op → List (U64 × Option U64)
  | .final c none => ((σ c).map fun st => (Spec.t1ha2_stream st.fed st.x st.y, none)).toList
  | .final c (some _) => ((σ c).map fun st => ((Spec.t1ha2_stream128 st.fed st.x st.y).1,
      some (Spec.t1ha2_stream128 st.fed st.x st.y).2)).toList
  | _ => []

/-- The results of a program should be these. -/
def expected : Streams → List Op → List (U64 × Option U64)
  | _, [] => []
  | σ, op :: ops => op.out σ ++ expected (op.step σ) ops

/-- The operation is used properly: only initialised contexts are updated, copied and finalised. -/
def Op.Proper (σ : Streams) : Op → Prop
  | .init _ _ _ => True
  | .update c _ _ => σ c ≠ none
  | .copy _ src => σ src ≠ none
  | .final c _ => σ c ≠ none

/-- The program is proper. -/
def Proper : Streams → List Op → Prop
  | _, [] => True
  | σ, op :: ops => op.Proper σ ∧ Proper (op.step σ) ops

/-- The variables of a program: contexts `K`, variables `E` for the second half of results, a stack
slot. They do not overlap, except that the `E` may overlap one another and the slot. -/
structure Vars (cfg : Cfg) (w : World) (ov : Overlay) (K E : List Nat) (slot : Nat) : Prop where
  ctx : ∀ c ∈ K, ∃ img, Ctx cfg w ov c img
  ctx_apart : ∀ c ∈ K, ∀ c' ∈ K, c ≠ c' → c + ctxSize cfg ≤ c' ∨ c' + ctxSize cfg ≤ c
  slot_writable : Writable w slot 8
  slot_fits : slot + 8 < 2 ^ cfg.bits
  slot_apart : ∀ c ∈ K, slot + 8 ≤ c ∨ c + ctxSize cfg ≤ slot
  slot_notNull : slot ≠ 0
  extra_writable : ∀ p ∈ E, Writable w p 8
  extra_apart : ∀ p ∈ E, ∀ c ∈ K, p + 8 ≤ c ∨ c + ctxSize cfg ≤ p

/-- The operation is about these variables; its data are elsewhere. -/
def Op.About (cfg : Cfg) (w : World) (ov : Overlay) (K E : List Nat) (slot : Nat) : Op → Prop
  | .init c _ _ => c ∈ K
  | .update c data m => c ∈ K ∧ data ≠ 0 ∧ (cfg.proxy = true → 32 ≤ m.length → 7 ≤ data) ∧
      Holds w ov data m ∧ data + m.length < 2 ^ cfg.bits ∧
      (∀ c' ∈ K, data + m.length ≤ c' ∨ c' + ctxSize cfg ≤ data) ∧
      (∀ p ∈ E, data + m.length ≤ p ∨ p + 8 ≤ data) ∧
      (data + m.length ≤ slot ∨ slot + 8 ≤ data)
  | .copy dst src => dst ∈ K ∧ src ∈ K ∧ dst ≠ src
  | .final c extra => c ∈ K ∧ ∀ p, extra = some p → p ∈ E

/-- The context an operation changes. -/
def Op.on : Op → Nat
  | .init c _ _ => c
  | .update c _ _ => c
  | .copy dst _ => dst
  | .final c _ => c

/-- The operation is not a copy. -/
def Op.Plain : Op → Prop
  | .copy _ _ => False
  | _ => True

/-- The contexts which a program finalises, in order. -/
def finals : List Op → List Nat
  | [] => []
  | .final c _ :: ops => c :: finals ops
  | _ :: ops => finals ops

/-- Of the results of a program: those of the context `c`. -/
def resultsOf (c : Nat) (ops : List Op) (out : List (U64 × Option U64)) : List (U64 × Option U64) :=
  ((finals ops).zip out).filterMap fun r => if r.1 = c then some r.2 else none

/-- The operations of a program on the context `c`. -/
def opsOn (c : Nat) (ops : List Op) : List Op := ops.filter fun op => op.on = c

/-- Nothing is initialised. -/
def noStreams : Streams := fun _ => none

end T1ha.Model
