import Verif.Model.Cfg

/-!
# Abstract machine

Byte-addressed memory which other threads may change, a log of accesses, and a distinct outcome for
each kind of misbehaviour. This models the C abstract machine and the hardware, not a part of the
library.
-/

namespace T1ha.Model

/-- An observable event: a read, a write, or an iteration of a loop. -/
inductive Ev
  /-- read of `size` bytes at `addr` -/
  | rd (addr size : Nat)
  /-- write of `size` bytes at `addr` -/
  | wr (addr size : Nat)
  /-- one more iteration of a loop -/
  | iter
  /-- the pointer `addr` is computed from another one -/
  | ptr (addr : Nat)
  deriving DecidableEq, Repr

/-- What the call sees of memory: `cell t a` is the byte at address `a` at moment `t` (`none`: not
mapped). Other threads may change it as they like. -/
structure World where
  cell : Nat → Nat → Option Byte
  writable : Nat → Bool

/-- State of the running call: the events so far (latest first; their number is the current moment),
and the bytes the call has written. -/
structure Sys where
  log : List Ev
  ov : Nat → Option Byte

/-- Misbehaviour. -/
inductive Err
  /-- access to an unmapped address or write to a read-only one -/
  | fault
  /-- misaligned access where the target cannot do it -/
  | misaligned
  /-- `assert` failed -/
  | assertFail
  /-- pointer arithmetic left the address space -/
  | ptrWrap
  /-- a loop did not end within the given fuel -/
  | diverge
  /-- call of a function which is not declared -/
  | undeclared
  /-- call through a null function pointer -/
  | nullCall
  /-- a null pointer is passed to a function of the C library which does not allow it -/
  | nullPointer
  /-- a statement marked `unreachable()` was reached -/
  | unreachable
  /-- shift by at least the width of the operand -/
  | badShift
  /-- division by zero -/
  | divideByZero
  deriving DecidableEq, Repr

/-- Computations. -/
def M (α : Type) := World → Sys → Except Err (α × Sys)

namespace M

def pure {α : Type} (a : α) : M α := fun _ s => .ok (a, s)

def bind {α β : Type} (m : M α) (f : α → M β) : M β := fun w s =>
  match m w s with
  | .error e => .error e
  | .ok (a, s') => f a w s'

instance : Monad M where
  pure := M.pure
  bind := M.bind

instance : LawfulMonad M := LawfulMonad.mk'
  (id_map := fun m => by
    funext w s
    show M.bind m _ w s = _
    unfold M.bind
    cases m w s <;> rfl)
  (pure_bind := fun _ _ => rfl)
  (bind_assoc := fun m f g => by
    funext w s
    show M.bind (M.bind m f) g w s = M.bind m (fun x => M.bind (f x) g) w s
    unfold M.bind
    cases m w s <;> rfl)

end M

/-- Misbehave. -/
def fail {α : Type} (e : Err) : M α := fun _ _ => .error e

/-- What the call finds at address `a` at moment `t`: its own last write, else what the world holds. -/
def see (w : World) (ov : Nat → Option Byte) (t a : Nat) : Option Byte :=
  (w.cell t a).map fun b => (ov a).getD b

/-- The `n` bytes at `p` at moment `t`, if all are mapped. -/
def seeBytes (w : World) (ov : Nat → Option Byte) (t : Nat) : Nat → Nat → Option (List Byte)
  | _, 0 => some []
  | p, n + 1 =>
    match see w ov t p, seeBytes w ov t (p + 1) n with
    | some b, some bs => some (b :: bs)
    | _, _ => none

/-- Read `n` bytes at `p`. -/
def load (p n : Nat) : M (List Byte) := fun w s =>
  match seeBytes w s.ov s.log.length p n with
  | some bs => .ok (bs, { s with log := .rd p n :: s.log })
  | none => .error .fault

/-- Whether the `n` bytes at `p` can be written at moment `t`. -/
def canWrite (w : World) (t : Nat) : Nat → Nat → Bool
  | _, 0 => true
  | p, n + 1 => (w.cell t p).isSome && w.writable p && canWrite w t (p + 1) n

/-- Overlay after writing the bytes `bs` at `p`. -/
def put (ov : Nat → Option Byte) (p : Nat) (bs : List Byte) : Nat → Option Byte := fun a =>
  if p ≤ a then (bs[a - p]?).or (ov a) else ov a

/-- Write the bytes `bs` at `p`. -/
def store (p : Nat) (bs : List Byte) : M Unit := fun w s =>
  if canWrite w s.log.length p bs.length then
    .ok ((), { log := .wr p bs.length :: s.log, ov := put s.ov p bs })
  else .error .fault

/-- Mark an iteration of a loop. -/
def iterate : M Unit := fun _ s => .ok ((), { s with log := .iter :: s.log })

/-- `assert(cond)` -/
def cassert (cfg : Cfg) (cond : Bool) : M Unit :=
  if cfg.ndebug then pure () else if cond then pure () else fail .assertFail

/-- Record that the pointer `p` is computed. -/
def pointer (p : Nat) : M Nat := fun _ s => .ok (p, { s with log := .ptr p :: s.log })

/-- `p + n` for a byte pointer. The model checks that the address does not leave the address space, and
records the result. (C requires more: staying within the object, or just past its end. Which objects
there are is not part of the model: `Verif.Props.Pointers` is about the recorded results.) -/
def ptrAdd (cfg : Cfg) (p n : Nat) : M Nat :=
  if p + n < 2 ^ cfg.bits then pointer (p + n) else fail .ptrWrap

/-- `p - n` for a byte pointer. -/
def ptrSub (_cfg : Cfg) (p n : Nat) : M Nat :=
  if n ≤ p then pointer (p - n) else fail .ptrWrap

/-- `x - y` in `size_t`. -/
def szSub (cfg : Cfg) (x y : Nat) : Nat := (2 ^ cfg.bits + x - y) % 2 ^ cfg.bits

/-- `x + y` in `size_t`. -/
def szAdd (cfg : Cfg) (x y : Nat) : Nat := (x + y) % 2 ^ cfg.bits

/-- `memcpy(dst, src, n)`, as one read and one write. C does not allow null pointers, even if `n` is 0
(C11 7.24.1). -/
def memcpy (dst src n : Nat) : M Unit :=
  if dst = 0 ∨ src = 0 then fail .nullPointer
  else do
    let bs ← load src n
    store dst bs

/-- Read an unsigned integer of `n` bytes in the byte order of the machine. -/
def readInt (cfg : Cfg) (p n : Nat) : M Nat := do
  let bs ← load p n
  pure (cfg.endian.val bs)

/-- Write an unsigned integer of `n` bytes in the byte order of the machine. -/
def writeInt (cfg : Cfg) (p n v : Nat) : M Unit :=
  store p (cfg.endian.bytes n v)

end T1ha.Model
