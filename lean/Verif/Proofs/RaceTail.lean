import Verif.Proofs.Race

/-!
# Tails while other threads write into the buffer

One-shot reads of a tail take in bytes which were read before, or which are not in the buffer; these do not
matter.
-/

namespace T1ha.Model

variable {w u : World} {B U : Nat → Prop} {α β : Type} {cfg : Cfg} {p : Nat}

/-- Nothing is left. -/
abbrev Gone {α : Type} : α → Nat → Prop := fun _ _ => False

/-! ## Single reads -/

/-- `m` does nothing but one read, maybe after the computation of a pointer. -/
def Once (n W : Nat) (e : Endian) (q : Nat) (m : M (BitVec W)) : Prop :=
  (∃ x, m = fail x) ∨ ∃ f : List Byte → BitVec W, (∀ bs, bs.length = n → f bs = BitVec.ofNat W (e.val bs)) ∧
    (m = (load q n >>= fun bs => pure (f bs)) ∨
      ∃ cfg b d, m = ptrSub cfg b d >>= fun _ => load q n >>= fun bs => pure (f bs))

theorem fail_bind {x : Err} {k : α → M β} : (fail x >>= k) = fail x := rfl

theorem once_assert {n W : Nat} {e : Endian} {q : Nat} {c : Bool} {m : M (BitVec W)} (h : Once n W e q m) :
    Once n W e q (cassert cfg c >>= fun _ => m) := by
  unfold cassert
  split
  · exact h
  · split
    · exact h
    · exact Or.inl ⟨_, rfl⟩

theorem once_read {n W : Nat} {e : Endian} {q : Nat} {g : Nat → M (BitVec W)}
    (hg : ∃ f : Nat → BitVec W, (∀ x, g x = pure (f x)) ∧
      ∀ bs : List Byte, bs.length = n → f (cfg.endian.val bs) = BitVec.ofNat W (e.val bs)) :
    Once n W e q (readInt cfg q n >>= g) := by
  obtain ⟨f, h1, h2⟩ := hg
  refine Or.inr ⟨fun bs => f (cfg.endian.val bs), h2, Or.inl ?_⟩
  unfold readInt
  rw [bind_assoc]
  congr 1
  funext bs
  rw [pure_bind, h1]

theorem once_unaligned {n W : Nat} {e : Endian} {q : Nat} {g : Nat → M (BitVec W)}
    (hg : ∃ f : Nat → BitVec W, (∀ x, g x = pure (f x)) ∧
      ∀ bs : List Byte, bs.length = n → f (cfg.endian.val bs) = BitVec.ofNat W (e.val bs)) :
    Once n W e q (read_unaligned cfg q n >>= g) := by
  unfold read_unaligned
  split
  · obtain ⟨f, h1, h2⟩ := hg
    refine Or.inr ⟨fun bs => f (cfg.endian.val bs), h2, Or.inr ⟨cfg, q, n - 1, ?_⟩⟩
    rw [bind_assoc]
    unfold ptrSub
    split
    · rename_i hn
      funext w s
      show (readInt cfg (q - (n - 1) + (n - 1)) n >>= g) w _ = (load q n >>= fun bs => pure (f (cfg.endian.val bs))) w _
      rw [Nat.sub_add_cancel hn]
      unfold readInt
      rw [bind_assoc]
      simp only [pure_bind, h1]
    · rfl
  · exact once_read hg

theorem once_aligned {n W : Nat} {e : Endian} {q : Nat} {g : Nat → M (BitVec W)}
    (h : Once n W e q (readInt cfg q n >>= g)) : Once n W e q (read_aligned cfg q n >>= g) := by
  unfold read_aligned
  by_cases hc : cfg.unaligned = .efficient ∨ q % (if n = 8 then cfg.alignment64 else n) = 0
  · rw [if_pos hc]
    exact h
  · rw [if_neg hc]
    exact Or.inl ⟨_, rfl⟩

section once
variable (cfg) (p)

theorem once64_le : ∃ f : Nat → BitVec 64, (∀ x, (match cfg.endian with
      | .little => (pure (BitVec.ofNat 64 x) : M U64)
      | .big => pure (bswap64 cfg (BitVec.ofNat 64 x))) = pure (f x)) ∧
    ∀ bs : List Byte, bs.length = 8 → f (cfg.endian.val bs) = BitVec.ofNat 64 (Endian.little.val bs) := by
  cases he : cfg.endian with
  | little => exact ⟨_, fun x => rfl, fun bs hl => rfl⟩
  | big =>
    refine ⟨_, fun x => rfl, fun bs hl => ?_⟩
    rw [bswap64_eq, toNat_ofNat_val (k := 8) _ _ hl (by decide), bswap_val _ _ hl]
    rfl

theorem once64_be : ∃ f : Nat → BitVec 64, (∀ x, (match cfg.endian with
      | .big => (pure (BitVec.ofNat 64 x) : M U64)
      | .little => pure (bswap64 cfg (BitVec.ofNat 64 x))) = pure (f x)) ∧
    ∀ bs : List Byte, bs.length = 8 → f (cfg.endian.val bs) = BitVec.ofNat 64 (Endian.big.val bs) := by
  cases he : cfg.endian with
  | big => exact ⟨_, fun x => rfl, fun bs hl => rfl⟩
  | little =>
    refine ⟨_, fun x => rfl, fun bs hl => ?_⟩
    rw [bswap64_eq, toNat_ofNat_val (k := 8) _ _ hl (by decide), bswap_val _ _ hl]
    rfl

theorem once32_le : ∃ f : Nat → BitVec 32, (∀ x, (match cfg.endian with
      | .little => (pure (BitVec.ofNat 32 x) : M U32)
      | .big => pure (bswap32 cfg (BitVec.ofNat 32 x))) = pure (f x)) ∧
    ∀ bs : List Byte, bs.length = 4 → f (cfg.endian.val bs) = BitVec.ofNat 32 (Endian.little.val bs) := by
  cases he : cfg.endian with
  | little => exact ⟨_, fun x => rfl, fun bs hl => rfl⟩
  | big =>
    refine ⟨_, fun x => rfl, fun bs hl => ?_⟩
    rw [bswap32_eq, toNat_ofNat_val (k := 4) _ _ hl (by decide), bswap_val _ _ hl]
    rfl

theorem once32_be : ∃ f : Nat → BitVec 32, (∀ x, (match cfg.endian with
      | .big => (pure (BitVec.ofNat 32 x) : M U32)
      | .little => pure (bswap32 cfg (BitVec.ofNat 32 x))) = pure (f x)) ∧
    ∀ bs : List Byte, bs.length = 4 → f (cfg.endian.val bs) = BitVec.ofNat 32 (Endian.big.val bs) := by
  cases he : cfg.endian with
  | big => exact ⟨_, fun x => rfl, fun bs hl => rfl⟩
  | little =>
    refine ⟨_, fun x => rfl, fun bs hl => ?_⟩
    rw [bswap32_eq, toNat_ofNat_val (k := 4) _ _ hl (by decide), bswap_val _ _ hl]
    rfl

theorem once_fetch64_le_aligned : Once 8 64 .little p (fetch64_le_aligned cfg p) :=
  once_assert (once_aligned (once_read (once64_le cfg)))

theorem once_fetch64_be_aligned : Once 8 64 .big p (fetch64_be_aligned cfg p) := by
  unfold fetch64_be_aligned
  split
  · split
    · exact Or.inr ⟨_, fun _ _ => rfl, Or.inl rfl⟩
    · exact Or.inl ⟨_, rfl⟩
  · exact once_assert (once_aligned (once_read (once64_be cfg)))

theorem once_fetch32_le_aligned : Once 4 32 .little p (fetch32_le_aligned cfg p) :=
  once_assert (once_aligned (once_read (once32_le cfg)))

theorem once_fetch32_be_aligned : Once 4 32 .big p (fetch32_be_aligned cfg p) := by
  unfold fetch32_be_aligned
  split
  · split
    · exact Or.inr ⟨_, fun _ _ => rfl, Or.inl rfl⟩
    · exact Or.inl ⟨_, rfl⟩
  · exact once_assert (once_aligned (once_read (once32_be cfg)))

theorem once_fetch64_le_unaligned (h : cfg.unaligned ≠ .unable) :
    Once 8 64 .little p (fetch64_le_unaligned cfg p) := by
  unfold fetch64_le_unaligned
  rw [if_neg h]
  exact once_unaligned (once64_le cfg)

theorem once_fetch64_be_unaligned (h : cfg.unaligned ≠ .unable) :
    Once 8 64 .big p (fetch64_be_unaligned cfg p) := by
  unfold fetch64_be_unaligned
  rw [if_neg h]
  exact once_unaligned (once64_be cfg)

theorem once_fetch32_le_unaligned (h : cfg.unaligned ≠ .unable) :
    Once 4 32 .little p (fetch32_le_unaligned cfg p) := by
  unfold fetch32_le_unaligned
  rw [if_neg h]
  exact once_unaligned (once32_le cfg)

theorem once_fetch32_be_unaligned (h : cfg.unaligned ≠ .unable) :
    Once 4 32 .big p (fetch32_be_unaligned cfg p) := by
  unfold fetch32_be_unaligned
  rw [if_neg h]
  exact once_unaligned (once32_be cfg)

end once

theorem Once.race {n W : Nat} {e : Endian} {q k : Nat} {m : M (BitVec W)} (ho : Once n W e q m)
    (g : BitVec W → α)
    (hg : ∀ bs bs' : List Byte, bs.length = n → bs'.length = n →
      (∀ i, i < n → range p k (q + i) → bs[i]? = bs'[i]?) →
      g (BitVec.ofNat W (e.val bs)) = g (BitVec.ofNat W (e.val bs')))
    (h : ∀ a, B a → range p k a → U a) : Race w u B U (m >>= fun x => pure (g x)) Gone := by
  rcases ho with ⟨x, rfl⟩ | ⟨f, hf, hm⟩
  · exact Race.fail
  have key : Race w u B U (load q n >>= fun bs => pure (f bs) >>= fun x => pure (g x)) Gone := by
    refine Race.post (Race.masked (f := fun bs => g (f bs)) (C := range p k) ?_ fun a hb hc _ => h a hb hc)
      fun _ _ _ hv => hv.elim
    intro bs bs' h1 h2 hi
    rw [hf bs h1, hf bs' h2]
    exact hg bs bs' h1 h2 hi
  rcases hm with rfl | ⟨cfg, b, d, rfl⟩
  · rw [bind_assoc]
    exact key
  · rw [bind_assoc]
    refine Race.afterSub fun _ => ?_
    rw [bind_assoc]
    exact key

theorem take_congr {n k : Nat} {bs bs' : List Byte} (hk : k ≤ n)
    (h : ∀ i, i < n → range p k (p + i) → bs[i]? = bs'[i]?) : bs.take k = bs'.take k := by
  refine List.ext_getElem? fun i => ?_
  rw [List.getElem?_take, List.getElem?_take]
  split
  · exact h i (by omega) (by dsimp only [range]; omega)
  · rfl

theorem drop_congr {n k : Nat} {bs bs' : List Byte} (h1 : bs.length = n) (h2 : bs'.length = n) (hk : k ≤ n)
    (hp : n - k ≤ p) (h : ∀ i, i < n → range p k (p - (n - k) + i) → bs[i]? = bs'[i]?) :
    bs.drop (n - k) = bs'.drop (n - k) := by
  refine List.ext_getElem? fun i => ?_
  rw [List.getElem?_drop, List.getElem?_drop]
  by_cases hi : n - k + i < n
  · exact h _ hi (by dsimp only [range]; omega)
  · rw [List.getElem?_eq_none (by omega), List.getElem?_eq_none (by omega)]

section shots
variable {n W k : Nat} {m : M (BitVec W)} (hW : W = 8 * n) (hk : k ≤ n)
  (h : ∀ a, B a → range p k a → U a)
include hW hk h

theorem Once.le_mask (ho : Once n W .little p m) :
    Race w u B U (m >>= fun x => pure (x &&& (~~~0#W >>> ((n - k) <<< 3)))) Gone :=
  ho.race _ (fun bs bs' h1 h2 hi => by
    dsimp only [Endian.val]
    rw [oneshot_le_mask hW h1 hk, oneshot_le_mask hW h2 hk, take_congr hk hi]) h

theorem Once.le_shift (hp : n - k ≤ p) (ho : Once n W .little (p - (n - k)) m) :
    Race w u B U (m >>= fun x => pure (x >>> ((n - k) <<< 3))) Gone :=
  ho.race _ (fun bs bs' h1 h2 hi => by
    dsimp only [Endian.val]
    rw [oneshot_le_shift hW h1, oneshot_le_shift hW h2, drop_congr h1 h2 hk hp hi]) h

theorem Once.be_mask (hp : n - k ≤ p) (ho : Once n W .big (p - (n - k)) m) :
    Race w u B U (m >>= fun x => pure (x &&& (~~~0#W >>> ((n - k) <<< 3)))) Gone :=
  ho.race _ (fun bs bs' h1 h2 hi => by
    dsimp only [Endian.val]
    rw [oneshot_be_mask hW h1 hk, oneshot_be_mask hW h2 hk, drop_congr h1 h2 hk hp hi]) h

theorem Once.be_shift (ho : Once n W .big p m) :
    Race w u B U (m >>= fun x => pure (x >>> ((n - k) <<< 3))) Gone :=
  ho.race _ (fun bs bs' h1 h2 hi => by
    dsimp only [Endian.val]
    rw [oneshot_be_shift hW h1, oneshot_be_shift hW h2, take_congr hk hi]) h

end shots

/-! ## Byte by byte, or word by word -/

theorem Race.optByte {c : Prop} {_ : Decidable c} {i : Nat} {f : Byte → α} {r : α}
    (h : c → ∀ a, B a → range (p + i) 1 a → U a) :
    Race w u B U (if c then do
        let b ← Model.byteAt p i
        Pure.pure (f b)
      else Pure.pure r) (Left U (p + i) 1) :=
  Race.ite (fun hc => Race.bind (Race.byteAt (h hc)) fun _ => Race.pure fun _ _ hv => hv)
    fun _ => Race.pure fun _ _ hv => hv.1

macro_rules | `(tactic| race_leaf) => `(tactic| (with_reducible refine Race.optByte (fun _ => ?_)) <;> race_side)

/-- One step, looking for optional bytes first. -/
macro "race_bytes" : tactic => `(tactic| repeat' (first
  | ((with_reducible refine Race.optByte (fun _ => ?_)) <;> race_side)
  | race_step))

theorem Race.tail64_le_bytes {k : Nat} (hk : 1 ≤ k) (h : ∀ a, B a → range p k a → U a) :
    Race w u B U (tail64_le_bytes p k) Gone := by
  unfold Model.tail64_le_bytes
  race_bytes

theorem Race.tail32_le_bytes {k : Nat} (hk : 1 ≤ k) (h : ∀ a, B a → range p k a → U a) :
    Race w u B U (tail32_le_bytes p k) Gone := by
  unfold Model.tail32_le_bytes
  race_bytes

theorem Race.tail64_be_bytes {k : Nat} (hk : 1 ≤ k) (hk' : k ≤ 8) (h : ∀ a, B a → range p k a → U a) :
    Race w u B U (tail64_be_bytes p (k % 8)) Gone := by
  unfold Model.tail64_be_bytes
  split <;> race_bytes

theorem Race.tail32_be_bytes {k : Nat} (hk : 1 ≤ k) (hk' : k ≤ 4) (h : ∀ a, B a → range p k a → U a) :
    Race w u B U (tail32_be_bytes p (k % 4)) Gone := by
  unfold Model.tail32_be_bytes
  split <;> race_bytes

section tails
variable {k tail : Nat} (h1 : 1 ≤ k) (ht : tail < 2 ^ cfg.bits) (h : ∀ a, B a → range p k a → U a)
include h1 ht h

theorem Race.tail64_le_aligned (h8 : k ≤ 8) (hk : tail % 8 = k % 8) :
    Race w u B U (tail64_le_aligned cfg p tail) Gone := by
  have e7 : tail &&& 7 = k % 8 := by
    rw [show (7 : Nat) = 2 ^ 3 - 1 by rfl, Nat.and_two_pow_sub_one_eq_mod, ← hk]
  unfold Model.tail64_le_aligned
  rw [szSub_and7 ht h1 h8 hk, e7]
  refine Race.ite (fun _ => ?_) fun _ => ?_
  · exact (once_fetch64_le_aligned cfg p).le_mask rfl h8 h
  · dsimp only
    cases cfg.endian
    · dsimp only
      race_bytes
    · dsimp only
      rw [show (if k % 8 = 0 then 8 else k % 8) = k by split <;> omega]
      exact Race.tail64_le_bytes h1 h

theorem Race.tail64_le_unaligned (h8 : k ≤ 8) (hk : tail % 8 = k % 8) :
    Race w u B U (tail64_le_unaligned cfg p tail) Gone := by
  have e7 : tail &&& 7 = k % 8 := by
    rw [show (7 : Nat) = 2 ^ 3 - 1 by rfl, Nat.and_two_pow_sub_one_eq_mod, ← hk]
  unfold Model.tail64_le_unaligned
  rw [szSub_and7 ht h1 h8 hk, e7]
  refine Race.ite (fun hc => ?_) fun hc => ?_
  · have hu : cfg.unaligned ≠ .unable := by
      simp only [Cfg.canReadUnderside, Bool.and_eq_true, decide_eq_true_eq] at hc
      exact hc.1.1.1.2
    dsimp only
    refine Race.ite (fun _ => Race.afterSub fun hp => ?_) fun _ => ?_
    · exact (once_fetch64_le_unaligned cfg _ hu).le_shift rfl h8 h hp
    · exact (once_fetch64_le_unaligned cfg p hu).le_mask rfl h8 h
  · dsimp only
    refine Race.ite (fun _ => ?_) fun _ => ?_
    · race_bytes
    · rw [show (if k % 8 = 0 then 8 else k % 8) = k by split <;> omega]
      exact Race.tail64_le_bytes h1 h

theorem Race.tail64_be_aligned (h8 : k ≤ 8) (hk : tail % 8 = k % 8) :
    Race w u B U (tail64_be_aligned cfg p tail) Gone := by
  have e7 : tail &&& 7 = k % 8 := by
    rw [show (7 : Nat) = 2 ^ 3 - 1 by rfl, Nat.and_two_pow_sub_one_eq_mod, ← hk]
  unfold Model.tail64_be_aligned
  rw [szSub_and7 ht h1 h8 hk, e7]
  refine Race.ite (fun _ => ?_) fun _ => ?_
  · exact (once_fetch64_be_aligned cfg p).be_shift rfl h8 h
  · dsimp only
    cases cfg.endian
    · dsimp only
      exact Race.tail64_be_bytes h1 h8 h
    · dsimp only
      split <;> race_bytes

theorem Race.tail64_be_unaligned (h8 : k ≤ 8) (hk : tail % 8 = k % 8) (hb : cfg.Buildable) :
    Race w u B U (tail64_be_unaligned cfg p tail) Gone := by
  have e7 : tail &&& 7 = k % 8 := by
    rw [show (7 : Nat) = 2 ^ 3 - 1 by rfl, Nat.and_two_pow_sub_one_eq_mod, ← hk]
  unfold Model.tail64_be_unaligned
  rw [szSub_and7 ht h1 h8 hk, e7]
  refine Race.ite (fun hc => ?_) fun hc => ?_
  · have hu : cfg.unaligned ≠ .unable := by
      simp only [Cfg.canReadUnderside, Bool.and_eq_true, decide_eq_true_eq] at hc
      exact hc.1.1.1.2
    dsimp only
    refine Race.ite (fun _ => Race.afterSub fun hp => ?_) fun _ => ?_
    · exact (once_fetch64_be_unaligned cfg _ hu).be_mask rfl h8 h hp
    · exact (once_fetch64_be_unaligned cfg p hu).be_shift rfl h8 h
  · rw [if_neg]
    · exact Race.tail64_be_bytes h1 h8 h
    · rintro ⟨h3, h4⟩
      exact hb ⟨h4, h3, by simpa [Bool.and_eq_true] using hc⟩

theorem Race.tail32_le_aligned (h8 : k ≤ 4) (hk : tail % 4 = k % 4) :
    Race w u B U (tail32_le_aligned cfg p tail) Gone := by
  have e7 : tail &&& 3 = k % 4 := by
    rw [show (3 : Nat) = 2 ^ 2 - 1 by rfl, Nat.and_two_pow_sub_one_eq_mod, ← hk]
  unfold Model.tail32_le_aligned
  rw [szSub_and3 ht h1 h8 hk, e7]
  refine Race.ite (fun _ => ?_) fun _ => ?_
  · exact (once_fetch32_le_aligned cfg p).le_mask rfl h8 h
  · dsimp only
    cases cfg.endian
    · dsimp only
      race_bytes
    · dsimp only
      rw [show (if k % 4 = 0 then 4 else k % 4) = k by split <;> omega]
      exact Race.tail32_le_bytes h1 h

theorem Race.tail32_le_unaligned (h8 : k ≤ 4) (hk : tail % 4 = k % 4) :
    Race w u B U (tail32_le_unaligned cfg p tail) Gone := by
  have e7 : tail &&& 3 = k % 4 := by
    rw [show (3 : Nat) = 2 ^ 2 - 1 by rfl, Nat.and_two_pow_sub_one_eq_mod, ← hk]
  unfold Model.tail32_le_unaligned
  rw [szSub_and3 ht h1 h8 hk, e7]
  refine Race.ite (fun hc => ?_) fun hc => ?_
  · have hu : cfg.unaligned ≠ .unable := by
      simp only [Cfg.canReadUnderside, Bool.and_eq_true, decide_eq_true_eq] at hc
      exact hc.1.1.2
    dsimp only
    refine Race.ite (fun _ => Race.afterSub fun hp => ?_) fun _ => ?_
    · exact (once_fetch32_le_unaligned cfg _ hu).le_shift rfl h8 h hp
    · exact (once_fetch32_le_unaligned cfg p hu).le_mask rfl h8 h
  · dsimp only
    refine Race.ite (fun _ => ?_) fun _ => ?_
    · race_bytes
    · rw [show (if k % 4 = 0 then 4 else k % 4) = k by split <;> omega]
      exact Race.tail32_le_bytes h1 h

theorem Race.tail32_be_aligned (h8 : k ≤ 4) (hk : tail % 4 = k % 4) :
    Race w u B U (tail32_be_aligned cfg p tail) Gone := by
  have e7 : tail &&& 3 = k % 4 := by
    rw [show (3 : Nat) = 2 ^ 2 - 1 by rfl, Nat.and_two_pow_sub_one_eq_mod, ← hk]
  unfold Model.tail32_be_aligned
  rw [szSub_and3 ht h1 h8 hk, e7]
  refine Race.ite (fun _ => ?_) fun _ => ?_
  · exact (once_fetch32_be_aligned cfg p).be_shift rfl h8 h
  · dsimp only
    cases cfg.endian
    · dsimp only
      exact Race.tail32_be_bytes h1 h8 h
    · dsimp only
      split <;> race_bytes

theorem Race.tail32_be_unaligned (h8 : k ≤ 4) (hk : tail % 4 = k % 4) :
    Race w u B U (tail32_be_unaligned cfg p tail) Gone := by
  have e7 : tail &&& 3 = k % 4 := by
    rw [show (3 : Nat) = 2 ^ 2 - 1 by rfl, Nat.and_two_pow_sub_one_eq_mod, ← hk]
  unfold Model.tail32_be_unaligned
  rw [szSub_and3 ht h1 h8 hk, e7]
  refine Race.ite (fun hc => ?_) fun hc => ?_
  · have hu : cfg.unaligned ≠ .unable := by
      simp only [Cfg.canReadUnderside, Bool.and_eq_true, decide_eq_true_eq] at hc
      exact hc.1.1.2
    dsimp only
    refine Race.ite (fun _ => Race.afterSub fun hp => ?_) fun _ => ?_
    · exact (once_fetch32_be_unaligned cfg _ hu).be_mask rfl h8 h hp
    · exact (once_fetch32_be_unaligned cfg p hu).be_shift rfl h8 h
  · dsimp only
    refine Race.ite (fun _ => ?_) fun _ => ?_
    · split <;> race_bytes
    · exact Race.tail32_be_bytes h1 h8 h

theorem Race.tail64 {e : Endian} {al : Aligness} (h8 : k ≤ 8) (hk : tail % 8 = k % 8)
    (hb : e = .big → cfg.Buildable) : Race w u B U (tail64 cfg e al p tail) Gone := by
  cases e <;> cases al
  · exact Race.tail64_le_aligned h1 ht h h8 hk
  · exact Race.tail64_le_unaligned h1 ht h h8 hk
  · exact Race.tail64_be_aligned h1 ht h h8 hk
  · exact Race.tail64_be_unaligned h1 ht h h8 hk (hb rfl)

theorem Race.tail32 {e : Endian} {al : Aligness} (h8 : k ≤ 4) (hk : tail % 4 = k % 4) :
    Race w u B U (tail32 cfg e al p tail) Gone := by
  cases e <;> cases al
  · exact Race.tail32_le_aligned h1 ht h h8 hk
  · exact Race.tail32_le_unaligned h1 ht h h8 hk
  · exact Race.tail32_be_aligned h1 ht h h8 hk
  · exact Race.tail32_be_unaligned h1 ht h h8 hk

end tails

end T1ha.Model
