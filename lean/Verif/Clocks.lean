import Verif.Model.Mera

/-!
# What the properties of the measurements say

When a clock is usable, what a steady machine is, and what it means that a function is slow.
-/

namespace T1ha.Model

/-- The clock is seen to advance. -/
def Advances (a : Attempt) : Prop := ∃ core start finish, a = .read core start core finish ∧ start < finish

/-- Attempt `k` says nothing about the clock: the thread has been moved to another processor meanwhile, or it is
one of the first six, and the clock ran backwards. -/
def Inconclusive (k : Nat) (a : Attempt) : Prop :=
  ∃ core start core' finish, a = .read core start core' finish ∧ (core ≠ core' ∨ (finish < start ∧ k ≤ 5))

/-- In one of 42 attempts the clock is seen to advance, and the attempts before it say nothing. -/
def Usable (attempt : Nat → Attempt) : Prop :=
  ∃ n < 42, Advances (attempt n) ∧ ∀ k < n, Inconclusive k (attempt k)

/-- How long everything takes on a steady machine: a read of the clock by `mera.start`, before and after the time
is taken, likewise by `mera.finish`, and a call of the function. -/
structure Pace where
  startBefore : Nat
  startAfter : Nat
  finishBefore : Nat
  finishAfter : Nat
  call : Nat

/-- The time from a read of the clock by `mera.start` to one by `mera.finish`. -/
def Pace.overhead (p : Pace) : Nat := p.startAfter + p.finishBefore

/-- No more than one trillion units each, and the clock is seen to advance. -/
structure Pace.Ok (p : Pace) : Prop where
  startBefore : p.startBefore < 2 ^ 40
  startAfter : p.startAfter < 2 ^ 40
  finishBefore : p.finishBefore < 2 ^ 40
  finishAfter : p.finishAfter < 2 ^ 40
  call : p.call < 2 ^ 40
  start : 0 < p.startBefore + p.startAfter
  overhead : 0 < p.overhead

/-- A steady machine: its state is the time. -/
def steady (p : Pace) (core : U32) (time : Nat → U64) (unit : ℚ) (flags : U32) : Bench Nat where
  start t := ((core, BitVec.ofNat 64 (t + p.startBefore)), t + p.startBefore + p.startAfter)
  finish t := ((core, BitVec.ofNat 64 (t + p.finishBefore)), t + p.finishBefore + p.finishAfter)
  target t := t + p.call
  time := time
  convert x := unit * number x
  flags := flags

variable {σ : Type}

/-- Time never runs backwards, and a call of the function takes at least `d`. -/
structure Slow (m : Bench σ) (t : σ → ℚ) (d : ℚ) : Prop where
  nonneg : 0 ≤ d
  start : ∀ s, t s ≤ t (m.start s).2
  finish : ∀ s, t s ≤ t (m.finish s).2
  target : ∀ s, t s + d ≤ t (m.target s)

/-- A machine on which the duration of everything varies, but not by much: `τ` is the time. A read of the clock takes
at least as long as `p` says, and no more than `ε` longer between the moment when the time is taken and the function;
a call of the function takes at least `p.call`, and no more than `e` longer. The thread may be moved to another
processor at any moment, and the clocks of the processors may differ: the clock of a processor is ahead by `ahead`
(modulo `2^64`). `mera.convert` multiplies by `unit`. -/
structure Jitter (m : Bench σ) (ahead : U32 → U64) (τ : σ → Nat) (p : Pace) (ε e : Nat) (unit : ℚ) : Prop where
  start : ∀ s, ∃ a b, (m.start s).1.2 = ahead (m.start s).1.1 + BitVec.ofNat 64 (τ s + a) ∧ τ (m.start s).2 = τ s + a + b ∧
    p.startBefore ≤ a ∧ a < 2 ^ 40 ∧ p.startAfter ≤ b ∧ b ≤ p.startAfter + ε
  finish : ∀ s, ∃ a b, (m.finish s).1.2 = ahead (m.finish s).1.1 + BitVec.ofNat 64 (τ s + a) ∧ τ (m.finish s).2 = τ s + a + b ∧
    p.finishBefore ≤ a ∧ a ≤ p.finishBefore + ε ∧ p.finishAfter ≤ b ∧ b < 2 ^ 40
  target : ∀ s, τ s + p.call ≤ τ (m.target s) ∧ τ (m.target s) ≤ τ s + p.call + e
  convert : ∀ x, m.convert x = unit * number x

end T1ha.Model
