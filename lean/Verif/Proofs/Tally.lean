import Verif.Proofs.RaceFn
import Verif.Props.ReadCount

/-!
# How often each byte is read

A program logic which counts the reads of the byte at one address `x`.
-/

namespace T1ha.Model

/-- 1 if `x` is below `q`, else 0. -/
def bel (x q : Nat) : Int := if x < q then 1 else 0

/-- 1 if `x` is one of the `n` bytes at `p`, else 0. -/
def inr (x p n : Nat) : Int := bel x (p + n) - bel x p

/-- If `m` succeeds and returns `v`, then `Q v n` holds for the number `n` of reads of the byte at `x`. -/
structure Tally (x : Nat) {α : Type} (m : M α) (Q : α → Int → Prop) : Prop where
  intro ::
  run : ∀ w s v s', m w s = .ok (v, s') → ∃ t, s'.log = t ++ s.log ∧ Q v (readsOf x t)

/-- `m` reads the byte at `x` exactly `c` times. -/
abbrev Costs (x : Nat) {α : Type} (m : M α) (c : Int) : Prop := Tally x m fun _ n => n = c

variable {x : Nat} {α β : Type} {cfg : Cfg} {Q : α → Int → Prop} {R : β → Int → Prop}

theorem Tally.pure {v : α} (h : Q v 0) : Tally x (pure v : M α) Q := by
  refine ⟨fun w s v' s' hr => ?_⟩
  cases hr
  exact ⟨[], rfl, h⟩

theorem Tally.fail {e : Err} : Tally x (fail e : M α) Q := ⟨fun _ _ _ _ h => nomatch h⟩

theorem Tally.bind {m : M α} {k : α → M β} (h : Tally x m Q)
    (hk : ∀ a n, Q a n → Tally x (k a) fun b n' => R b (n + n')) : Tally x (m >>= k) R := by
  refine ⟨fun w s v s' h₁ => ?_⟩
  change M.bind m k w s = _ at h₁
  unfold M.bind at h₁
  split at h₁
  · exact nomatch h₁
  · rename_i a s₁ ha
    obtain ⟨t, e, ht⟩ := h.run _ _ _ _ ha
    obtain ⟨u, f, hu⟩ := (hk a _ ht).run _ _ _ _ h₁
    refine ⟨u ++ t, by rw [f, e, List.append_assoc], ?_⟩
    have : ((readsOf x (u ++ t) : Nat) : Int) = readsOf x t + readsOf x u := by
      unfold readsOf
      rw [List.countP_append]
      omega
    rw [this]
    exact hu

theorem Tally.post {m : M α} {Q' : α → Int → Prop} (h : Tally x m Q) (hq : ∀ a n, Q a n → Q' a n) :
    Tally x m Q' :=
  ⟨fun w s v s' hr => let ⟨t, e, ht⟩ := h.run w s v s' hr; ⟨t, e, hq _ _ ht⟩⟩

theorem Tally.after {m : M α} {k : α → M β} {c : Int} (h : Costs x m c)
    (hk : ∀ a, Tally x (k a) fun b n => R b (c + n)) : Tally x (m >>= k) R :=
  Tally.bind h fun a n hn => by rw [hn]; exact hk a

theorem Tally.last {m : M α} {c : Int} (h : Costs x m c) (hq : ∀ a, Q a c) : Tally x m Q :=
  h.post fun a n hn => by rw [hn]; exact hq a

theorem Tally.ite {c : Prop} [Decidable c] {a b : M α} (h : c → Tally x a Q) (h' : ¬ c → Tally x b Q) :
    Tally x (if c then a else b) Q := by
  split
  · exact h ‹_›
  · exact h' ‹_›

theorem inr_reads {p n : Nat} : ((readsOf x [.rd p n] : Nat) : Int) = inr x p n := by
  unfold readsOf inr bel
  simp only [List.countP_cons, List.countP_nil, Ev.reads, decide_eq_true_eq]
  split <;> split <;> split <;> omega

theorem costs_load (p n : Nat) : Costs x (load p n) (inr x p n) := by
  refine ⟨fun w s v s' h₁ => ?_⟩
  unfold Model.load at h₁
  split at h₁
  · cases h₁
    exact ⟨[_], rfl, inr_reads⟩
  · exact nomatch h₁

theorem costs_store (p : Nat) (bs : List Byte) : Costs x (store p bs) 0 := by
  refine ⟨fun w s v s' h₁ => ?_⟩
  unfold Model.store at h₁
  split at h₁
  · cases h₁
    exact ⟨[_], rfl, rfl⟩
  · exact nomatch h₁

theorem costs_writeInt (p n v : Nat) : Costs x (writeInt cfg p n v) 0 := costs_store _ _

theorem costs_iterate : Costs x iterate 0 := by
  refine ⟨fun w s v s' h => ?_⟩
  cases h
  exact ⟨[.iter], rfl, rfl⟩

theorem costs_cassert (c : Bool) : Costs x (cassert cfg c) 0 := by
  unfold Model.cassert
  exact Tally.ite (fun _ => Tally.pure rfl) fun _ => Tally.ite (fun _ => Tally.pure rfl) fun _ => Tally.fail

theorem tally_pointer (p : Nat) : Tally x (pointer p) fun q n => q = p ∧ n = 0 := by
  refine ⟨fun w s v s' h => ?_⟩
  cases h
  exact ⟨[.ptr p], rfl, rfl, rfl⟩

theorem tally_ptrAdd (p n : Nat) : Tally x (ptrAdd cfg p n) fun q c => q = p + n ∧ c = 0 :=
  Tally.ite (fun _ => tally_pointer _) fun _ => Tally.fail

theorem tally_ptrSub (p n : Nat) : Tally x (ptrSub cfg p n) fun q c => (n ≤ p ∧ q = p - n) ∧ c = 0 :=
  Tally.ite (fun h => (tally_pointer _).post fun _ _ hq => ⟨⟨h, hq.1⟩, hq.2⟩) fun _ => Tally.fail

theorem Tally.afterAdd {p n : Nat} {k : Nat → M β} (hk : Tally x (k (p + n)) R) :
    Tally x (ptrAdd cfg p n >>= k) R :=
  Tally.bind (tally_ptrAdd p n) fun a c h => by
    rw [h.1, h.2]
    exact hk.post fun _ _ h => by rwa [Int.zero_add]

theorem Tally.afterSub {p n : Nat} {k : Nat → M β} (hk : n ≤ p → Tally x (k (p - n)) R) :
    Tally x (ptrSub cfg p n >>= k) R :=
  Tally.bind (tally_ptrSub p n) fun a c h => by
    rw [h.1.2, h.2]
    exact (hk h.1.1).post fun _ _ h => by rwa [Int.zero_add]

theorem costs_byteAt (p i : Nat) : Costs x (byteAt p i) (inr x (p + i) 1) :=
  Tally.after (costs_load _ _) fun _ => Tally.pure (Int.add_zero _)

theorem costs_readInt (p n : Nat) : Costs x (readInt cfg p n) (inr x p n) :=
  Tally.after (costs_load _ _) fun _ => Tally.pure (Int.add_zero _)

theorem costs_read_unaligned (p n : Nat) : Costs x (read_unaligned cfg p n) (inr x p n) := by
  unfold read_unaligned
  refine Tally.ite (fun _ => Tally.afterSub fun h => ?_) fun _ => costs_readInt _ _
  rw [Nat.sub_add_cancel h]
  exact costs_readInt _ _

theorem costs_read_aligned (p n : Nat) : Costs x (read_aligned cfg p n) (inr x p n) :=
  Tally.ite (fun _ => costs_readInt _ _) fun _ => Tally.fail

/-- Compare sums of reads. -/
macro "tally_sum" : tactic => `(tactic| first
  | omega
  | (simp only [inr, Nat.add_assoc, Nat.reduceAdd, Nat.add_zero]; omega)
  | fail)

/-- What is known about one operation. -/
syntax "tally_leaf" : tactic
macro_rules | `(tactic| tally_leaf) => `(tactic| with_reducible exact costs_byteAt _ _)
macro_rules | `(tactic| tally_leaf) => `(tactic| with_reducible exact costs_cassert _)
macro_rules | `(tactic| tally_leaf) => `(tactic| with_reducible exact costs_iterate)
macro_rules | `(tactic| tally_leaf) => `(tactic| with_reducible exact costs_load _ _)
macro_rules | `(tactic| tally_leaf) => `(tactic| with_reducible exact costs_writeInt _ _ _)
macro_rules | `(tactic| tally_leaf) => `(tactic| with_reducible exact costs_read_unaligned _ _)
macro_rules | `(tactic| tally_leaf) => `(tactic| with_reducible exact costs_read_aligned _ _)
macro_rules | `(tactic| tally_leaf) => `(tactic| with_reducible exact costs_readInt _ _)

/-- Walk through a computation, up to the returned values. -/
macro "tally" : tactic => `(tactic| repeat' (first
  | with_reducible exact Tally.fail
  | with_reducible refine Tally.pure ?_
  | with_reducible refine Tally.afterAdd ?_
  | with_reducible refine Tally.afterSub (fun _ => ?_)
  | (with_reducible refine Tally.after (by tally_leaf) (fun _ => ?_))
  | with_reducible refine Tally.ite (fun _ => ?_) (fun _ => ?_)
  | (with_reducible refine Tally.last (by tally_leaf) (fun _ => ?_))))

section fetch
variable (cfg) (v : Nat)

theorem costs_fetch16_le_aligned : Costs x (fetch16_le_aligned cfg v) (inr x v 2) := by
  unfold fetch16_le_aligned
  cases cfg.endian <;> tally <;> tally_sum

macro_rules | `(tactic| tally_leaf) => `(tactic| with_reducible exact costs_fetch16_le_aligned _ _)

theorem costs_fetch16_le_unaligned : Costs x (fetch16_le_unaligned cfg v) (inr x v 2) := by
  unfold fetch16_le_unaligned
  cases cfg.endian <;> tally <;> tally_sum

macro_rules | `(tactic| tally_leaf) => `(tactic| with_reducible exact costs_fetch16_le_unaligned _ _)

theorem costs_fetch16_be_aligned : Costs x (fetch16_be_aligned cfg v) (inr x v 2) := by
  unfold fetch16_be_aligned
  cases cfg.endian <;> tally <;> tally_sum

macro_rules | `(tactic| tally_leaf) => `(tactic| with_reducible exact costs_fetch16_be_aligned _ _)

theorem costs_fetch16_be_unaligned : Costs x (fetch16_be_unaligned cfg v) (inr x v 2) := by
  unfold fetch16_be_unaligned
  cases cfg.endian <;> tally <;> tally_sum

macro_rules | `(tactic| tally_leaf) => `(tactic| with_reducible exact costs_fetch16_be_unaligned _ _)

theorem costs_fetch32_le_aligned : Costs x (fetch32_le_aligned cfg v) (inr x v 4) := by
  unfold fetch32_le_aligned
  cases cfg.endian <;> tally <;> tally_sum

macro_rules | `(tactic| tally_leaf) => `(tactic| with_reducible exact costs_fetch32_le_aligned _ _)

theorem costs_fetch32_le_unaligned : Costs x (fetch32_le_unaligned cfg v) (inr x v 4) := by
  unfold fetch32_le_unaligned
  cases cfg.endian <;> tally <;> tally_sum

macro_rules | `(tactic| tally_leaf) => `(tactic| with_reducible exact costs_fetch32_le_unaligned _ _)

theorem costs_fetch32_be_aligned : Costs x (fetch32_be_aligned cfg v) (inr x v 4) := by
  unfold fetch32_be_aligned
  cases cfg.endian <;> tally <;> tally_sum

macro_rules | `(tactic| tally_leaf) => `(tactic| with_reducible exact costs_fetch32_be_aligned _ _)

theorem costs_fetch32_be_unaligned : Costs x (fetch32_be_unaligned cfg v) (inr x v 4) := by
  unfold fetch32_be_unaligned
  cases cfg.endian <;> tally <;> tally_sum

macro_rules | `(tactic| tally_leaf) => `(tactic| with_reducible exact costs_fetch32_be_unaligned _ _)

theorem costs_fetch64_le_aligned : Costs x (fetch64_le_aligned cfg v) (inr x v 8) := by
  unfold fetch64_le_aligned
  cases cfg.endian <;> tally <;> tally_sum

macro_rules | `(tactic| tally_leaf) => `(tactic| with_reducible exact costs_fetch64_le_aligned _ _)

theorem costs_fetch64_le_unaligned : Costs x (fetch64_le_unaligned cfg v) (inr x v 8) := by
  unfold fetch64_le_unaligned
  cases cfg.endian <;> tally <;> tally_sum

macro_rules | `(tactic| tally_leaf) => `(tactic| with_reducible exact costs_fetch64_le_unaligned _ _)

theorem costs_fetch64_be_aligned : Costs x (fetch64_be_aligned cfg v) (inr x v 8) := by
  unfold fetch64_be_aligned
  cases cfg.endian <;> tally <;> tally_sum

macro_rules | `(tactic| tally_leaf) => `(tactic| with_reducible exact costs_fetch64_be_aligned _ _)

theorem costs_fetch64_be_unaligned : Costs x (fetch64_be_unaligned cfg v) (inr x v 8) := by
  unfold fetch64_be_unaligned
  cases cfg.endian <;> tally <;> tally_sum

macro_rules | `(tactic| tally_leaf) => `(tactic| with_reducible exact costs_fetch64_be_unaligned _ _)

theorem costs_fetch64 (e : Endian) (al : Aligness) : Costs x (fetch64 cfg e al v) (inr x v 8) := by
  cases e <;> cases al
  · exact costs_fetch64_le_aligned _ _
  · exact costs_fetch64_le_unaligned _ _
  · exact costs_fetch64_be_aligned _ _
  · exact costs_fetch64_be_unaligned _ _

macro_rules | `(tactic| tally_leaf) => `(tactic| with_reducible exact costs_fetch64 _ _ _ _)

theorem costs_fetch32 (e : Endian) (al : Aligness) : Costs x (fetch32 cfg e al v) (inr x v 4) := by
  cases e <;> cases al
  · exact costs_fetch32_le_aligned _ _
  · exact costs_fetch32_le_unaligned _ _
  · exact costs_fetch32_be_aligned _ _
  · exact costs_fetch32_be_unaligned _ _

macro_rules | `(tactic| tally_leaf) => `(tactic| with_reducible exact costs_fetch32 _ _ _ _)

end fetch

/-! ## Tails -/

/-- Nothing but the bytes of the message is read. -/
def Exact (cfg : Cfg) : Prop := cfg.oneshot = false ∨ cfg.asan = true

/-- A tail of `k` bytes at `p` is read: alone, or as a part of at most `m` bytes. -/
def Shot (cfg : Cfg) (m x p k : Nat) (n : Int) : Prop :=
  ∃ q j, q ≤ p ∧ p + k ≤ q + j ∧ j ≤ m ∧ (Exact cfg → q = p ∧ j = k) ∧ n = inr x q j

theorem shot_exact {m p k : Nat} {n : Int} (hk : k ≤ m) (h : n = inr x p k) : Shot cfg m x p k n :=
  ⟨p, k, Nat.le_refl _, Nat.le_refl _, hk, fun _ => ⟨rfl, rfl⟩, h⟩

theorem not_exact_aligned (h : cfg.alignedOneshot = true) : ¬ Exact cfg := by
  unfold Cfg.alignedOneshot at h
  unfold Exact
  revert h
  cases cfg.oneshot <;> cases cfg.asan <;> simp

theorem not_exact_underside (h : cfg.canReadUnderside = true) : ¬ Exact cfg := by
  unfold Cfg.canReadUnderside at h
  simp only [Bool.and_eq_true, Bool.not_eq_true'] at h
  unfold Exact
  rw [h.1.1.1, h.2]
  simp

/-- One-shot read of the word which starts with the tail -/
theorem shot_after {m p k : Nat} {n : Int} (hk : k ≤ m) (he : ¬ Exact cfg) (h : n = inr x p m) :
    Shot cfg m x p k n :=
  ⟨p, m, Nat.le_refl _, by omega, Nat.le_refl _, fun h => absurd h he, h⟩

/-- One-shot read of the word which ends with the tail -/
theorem shot_before {m p k : Nat} {n : Int} (hk : k ≤ m) (hp : m - k ≤ p) (he : ¬ Exact cfg)
    (h : n = inr x (p - (m - k)) m) : Shot cfg m x p k n :=
  ⟨p - (m - k), m, Nat.sub_le _ _, by omega, Nat.le_refl _, fun h => absurd h he, h⟩

/-- After a walk through the exact reads of a tail of `k` bytes, for a numeral `k`. -/
macro "tally_exact" : tactic => `(tactic| (tally <;> first
  | omega
  | (exact shot_exact (by decide) (by tally_sum))))

theorem upto8 {k : Nat} (h1 : 1 ≤ k) (h8 : k ≤ 8) :
    k = 1 ∨ k = 2 ∨ k = 3 ∨ k = 4 ∨ k = 5 ∨ k = 6 ∨ k = 7 ∨ k = 8 := by omega

theorem upto4 {k : Nat} (h1 : 1 ≤ k) (h8 : k ≤ 4) : k = 1 ∨ k = 2 ∨ k = 3 ∨ k = 4 := by omega

section tails
variable {p k tail : Nat} (h1 : 1 ≤ k)
include h1

theorem tally_tail64_le_bytes (h8 : k ≤ 8) : Tally x (tail64_le_bytes p k) fun _ => Shot cfg 8 x p k := by
  unfold tail64_le_bytes
  rcases upto8 h1 h8 with rfl | rfl | rfl | rfl | rfl | rfl | rfl | rfl <;>
    simp only [Nat.reduceLeDiff, if_true, if_false, bind_assoc, pure_bind] <;> tally_exact

theorem tally_tail64_be_bytes (h8 : k ≤ 8) :
    Tally x (tail64_be_bytes p (k % 8)) fun _ => Shot cfg 8 x p k := by
  unfold tail64_be_bytes
  rcases upto8 h1 h8 with rfl | rfl | rfl | rfl | rfl | rfl | rfl | rfl <;>
    simp only [Nat.reduceMod] <;> tally_exact

theorem tally_tail32_le_bytes (h8 : k ≤ 4) : Tally x (tail32_le_bytes p k) fun _ => Shot cfg 4 x p k := by
  unfold tail32_le_bytes
  rcases upto4 h1 h8 with rfl | rfl | rfl | rfl <;>
    simp only [Nat.reduceLeDiff, if_true, if_false, bind_assoc, pure_bind] <;> tally_exact

theorem tally_tail32_be_bytes (h8 : k ≤ 4) :
    Tally x (tail32_be_bytes p (k % 4)) fun _ => Shot cfg 4 x p k := by
  unfold tail32_be_bytes
  rcases upto4 h1 h8 with rfl | rfl | rfl | rfl <;> simp only [Nat.reduceMod] <;> tally_exact

variable (ht : tail < 2 ^ cfg.bits)
include ht

theorem tally_tail64_le_aligned (h8 : k ≤ 8) (hk : tail % 8 = k % 8) :
    Tally x (tail64_le_aligned cfg p tail) fun _ => Shot cfg 8 x p k := by
  have e7 : tail &&& 7 = k % 8 := by
    rw [show (7 : Nat) = 2 ^ 3 - 1 by rfl, Nat.and_two_pow_sub_one_eq_mod, ← hk]
  unfold tail64_le_aligned
  rw [szSub_and7 ht h1 h8 hk, e7]
  refine Tally.ite (fun hc => ?_) fun _ => ?_
  · tally
    exact shot_after h8 (not_exact_aligned hc) (by tally_sum)
  · dsimp only
    cases cfg.endian
    · clear hk e7
      rcases upto8 h1 h8 with rfl | rfl | rfl | rfl | rfl | rfl | rfl | rfl <;>
        simp only [Nat.reduceLeDiff, Nat.reduceMod, if_true, if_false, bind_assoc, pure_bind,
          Nat.one_mod, reduceCtorEq] <;> tally_exact
    · dsimp only
      rw [show (if k % 8 = 0 then 8 else k % 8) = k by split <;> omega]
      exact tally_tail64_le_bytes h1 h8

theorem tally_tail64_le_unaligned (h8 : k ≤ 8) (hk : tail % 8 = k % 8) :
    Tally x (tail64_le_unaligned cfg p tail) fun _ => Shot cfg 8 x p k := by
  have e7 : tail &&& 7 = k % 8 := by
    rw [show (7 : Nat) = 2 ^ 3 - 1 by rfl, Nat.and_two_pow_sub_one_eq_mod, ← hk]
  unfold tail64_le_unaligned
  rw [szSub_and7 ht h1 h8 hk, e7]
  refine Tally.ite (fun hc => ?_) fun _ => ?_
  · have he := not_exact_underside (Bool.and_eq_true_iff.1 hc).1
    tally
    · exact shot_before h8 (by assumption) he (by tally_sum)
    · exact shot_after h8 he (by tally_sum)
  · dsimp only
    refine Tally.ite (fun _ => ?_) fun _ => ?_
    · clear hk e7
      rcases upto8 h1 h8 with rfl | rfl | rfl | rfl | rfl | rfl | rfl | rfl <;>
        simp only [Nat.reduceLeDiff, Nat.reduceMod, if_true, if_false, bind_assoc, pure_bind,
          Nat.one_mod, reduceCtorEq] <;> tally_exact
    · rw [show (if k % 8 = 0 then 8 else k % 8) = k by split <;> omega]
      exact tally_tail64_le_bytes h1 h8

theorem tally_tail64_be_aligned (h8 : k ≤ 8) (hk : tail % 8 = k % 8) :
    Tally x (tail64_be_aligned cfg p tail) fun _ => Shot cfg 8 x p k := by
  have e7 : tail &&& 7 = k % 8 := by
    rw [show (7 : Nat) = 2 ^ 3 - 1 by rfl, Nat.and_two_pow_sub_one_eq_mod, ← hk]
  unfold tail64_be_aligned
  rw [szSub_and7 ht h1 h8 hk, e7]
  refine Tally.ite (fun hc => ?_) fun _ => ?_
  · tally
    exact shot_after h8 (not_exact_aligned hc) (by tally_sum)
  · dsimp only
    cases cfg.endian
    · exact tally_tail64_be_bytes h1 h8
    · clear hk e7
      rcases upto8 h1 h8 with rfl | rfl | rfl | rfl | rfl | rfl | rfl | rfl <;>
        simp only [Nat.reduceMod] <;> tally_exact

theorem tally_tail64_be_unaligned (h8 : k ≤ 8) (hk : tail % 8 = k % 8) :
    Tally x (tail64_be_unaligned cfg p tail) fun _ => Shot cfg 8 x p k := by
  have e7 : tail &&& 7 = k % 8 := by
    rw [show (7 : Nat) = 2 ^ 3 - 1 by rfl, Nat.and_two_pow_sub_one_eq_mod, ← hk]
  unfold tail64_be_unaligned
  rw [szSub_and7 ht h1 h8 hk, e7]
  refine Tally.ite (fun hc => ?_) fun _ => ?_
  · have he := not_exact_underside (Bool.and_eq_true_iff.1 hc).1
    tally
    · exact shot_before h8 (by assumption) he (by tally_sum)
    · exact shot_after h8 he (by tally_sum)
  · dsimp only
    refine Tally.ite (fun _ => ?_) fun _ => ?_
    · clear hk e7
      rcases upto8 h1 h8 with rfl | rfl | rfl | rfl | rfl | rfl | rfl | rfl <;>
        simp only [Nat.reduceMod] <;> tally_exact
    · exact tally_tail64_be_bytes h1 h8

theorem tally_tail32_le_aligned (h8 : k ≤ 4) (hk : tail % 4 = k % 4) :
    Tally x (tail32_le_aligned cfg p tail) fun _ => Shot cfg 4 x p k := by
  have e7 : tail &&& 3 = k % 4 := by
    rw [show (3 : Nat) = 2 ^ 2 - 1 by rfl, Nat.and_two_pow_sub_one_eq_mod, ← hk]
  unfold tail32_le_aligned
  rw [szSub_and3 ht h1 h8 hk, e7]
  refine Tally.ite (fun hc => ?_) fun _ => ?_
  · tally
    exact shot_after h8 (not_exact_aligned hc) (by tally_sum)
  · dsimp only
    cases cfg.endian
    · clear hk e7
      rcases upto4 h1 h8 with rfl | rfl | rfl | rfl <;>
        simp only [Nat.reduceLeDiff, Nat.reduceMod, if_true, if_false, bind_assoc, pure_bind,
          Nat.one_mod, reduceCtorEq] <;> tally_exact
    · dsimp only
      rw [show (if k % 4 = 0 then 4 else k % 4) = k by split <;> omega]
      exact tally_tail32_le_bytes h1 h8

theorem tally_tail32_le_unaligned (h8 : k ≤ 4) (hk : tail % 4 = k % 4) :
    Tally x (tail32_le_unaligned cfg p tail) fun _ => Shot cfg 4 x p k := by
  have e7 : tail &&& 3 = k % 4 := by
    rw [show (3 : Nat) = 2 ^ 2 - 1 by rfl, Nat.and_two_pow_sub_one_eq_mod, ← hk]
  unfold tail32_le_unaligned
  rw [szSub_and3 ht h1 h8 hk, e7]
  refine Tally.ite (fun hc => ?_) fun _ => ?_
  · have he := not_exact_underside hc
    tally
    · exact shot_before h8 (by assumption) he (by tally_sum)
    · exact shot_after h8 he (by tally_sum)
  · dsimp only
    refine Tally.ite (fun _ => ?_) fun _ => ?_
    · clear hk e7
      rcases upto4 h1 h8 with rfl | rfl | rfl | rfl <;>
        simp only [Nat.reduceLeDiff, Nat.reduceMod, if_true, if_false, bind_assoc, pure_bind,
          Nat.one_mod, reduceCtorEq] <;> tally_exact
    · rw [show (if k % 4 = 0 then 4 else k % 4) = k by split <;> omega]
      exact tally_tail32_le_bytes h1 h8

theorem tally_tail32_be_aligned (h8 : k ≤ 4) (hk : tail % 4 = k % 4) :
    Tally x (tail32_be_aligned cfg p tail) fun _ => Shot cfg 4 x p k := by
  have e7 : tail &&& 3 = k % 4 := by
    rw [show (3 : Nat) = 2 ^ 2 - 1 by rfl, Nat.and_two_pow_sub_one_eq_mod, ← hk]
  unfold tail32_be_aligned
  rw [szSub_and3 ht h1 h8 hk, e7]
  refine Tally.ite (fun hc => ?_) fun _ => ?_
  · tally
    exact shot_after h8 (not_exact_aligned hc) (by tally_sum)
  · dsimp only
    cases cfg.endian
    · exact tally_tail32_be_bytes h1 h8
    · clear hk e7
      rcases upto4 h1 h8 with rfl | rfl | rfl | rfl <;> simp only [Nat.reduceMod] <;> tally_exact

theorem tally_tail32_be_unaligned (h8 : k ≤ 4) (hk : tail % 4 = k % 4) :
    Tally x (tail32_be_unaligned cfg p tail) fun _ => Shot cfg 4 x p k := by
  have e7 : tail &&& 3 = k % 4 := by
    rw [show (3 : Nat) = 2 ^ 2 - 1 by rfl, Nat.and_two_pow_sub_one_eq_mod, ← hk]
  unfold tail32_be_unaligned
  rw [szSub_and3 ht h1 h8 hk, e7]
  refine Tally.ite (fun hc => ?_) fun _ => ?_
  · have he := not_exact_underside hc
    tally
    · exact shot_before h8 (by assumption) he (by tally_sum)
    · exact shot_after h8 he (by tally_sum)
  · dsimp only
    refine Tally.ite (fun _ => ?_) fun _ => ?_
    · clear hk e7
      rcases upto4 h1 h8 with rfl | rfl | rfl | rfl <;> simp only [Nat.reduceMod] <;> tally_exact
    · exact tally_tail32_be_bytes h1 h8

theorem tally_tail64 {e : Endian} {al : Aligness} (h8 : k ≤ 8) (hk : tail % 8 = k % 8) :
    Tally x (tail64 cfg e al p tail) fun _ => Shot cfg 8 x p k := by
  cases e <;> cases al
  · exact tally_tail64_le_aligned h1 ht h8 hk
  · exact tally_tail64_le_unaligned h1 ht h8 hk
  · exact tally_tail64_be_aligned h1 ht h8 hk
  · exact tally_tail64_be_unaligned h1 ht h8 hk

theorem tally_tail32 {e : Endian} {al : Aligness} (h8 : k ≤ 4) (hk : tail % 4 = k % 4) :
    Tally x (tail32 cfg e al p tail) fun _ => Shot cfg 4 x p k := by
  cases e <;> cases al
  · exact tally_tail32_le_aligned h1 ht h8 hk
  · exact tally_tail32_le_unaligned h1 ht h8 hk
  · exact tally_tail32_be_aligned h1 ht h8 hk
  · exact tally_tail32_be_unaligned h1 ht h8 hk

end tails

end T1ha.Model
