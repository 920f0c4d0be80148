import Verif.Proofs.Tally

/-!
# How often each byte is read by the one-shot functions and by `t1ha2_update`
-/

namespace T1ha.Model

variable {x : Nat} {α β σ : Type} {cfg : Cfg} {Q : α → Int → Prop} {R : β → Int → Prop}

/-- The bytes from `v` up to `e` are read one after the other, but for the tail in the last word of `m`
bytes, which may be read as a part of a whole word. -/
def Span (cfg : Cfg) (m x v e : Nat) (n : Int) : Prop :=
  (v ≤ e ∧ n = bel x e - bel x v) ∨
    ∃ z n', v ≤ z ∧ z < e ∧ e ≤ z + m ∧ Shot cfg m x z (e - z) n' ∧ n = bel x z - bel x v + n'

theorem Span.cons {m v v' e : Nat} {n c : Int} (h : Span cfg m x v' e n) (hv : v ≤ v')
    (hc : c = bel x v' - bel x v + n) : Span cfg m x v e c := by
  rcases h with ⟨h1, h2⟩ | ⟨z, n', h1, h2, h3, h4, h5⟩
  · exact Or.inl ⟨by omega, by omega⟩
  · exact Or.inr ⟨z, n', by omega, h2, h3, h4, by omega⟩

/-- The values returned do not matter. -/
theorem Tally.map {m : M α} {f : α → β} {P : Int → Prop} (h : Tally x m fun _ => P) :
    Tally x (m >>= fun a => Pure.pure (f a)) fun _ => P :=
  Tally.bind h fun a n hn => Tally.pure (by rwa [Int.add_zero])

theorem tally_steps {k len : Nat} {fetch : Nat → M α} {tail : Nat → Nat → M α} {f : Nat → σ → α → σ}
    (hk : 0 < k) (hfetch : ∀ v, Costs x (fetch v) (inr x v k))
    (htail : ∀ v r, 1 ≤ r → r ≤ k → len % k = r % k → Tally x (tail v len) fun _ => Shot cfg k x v r)
    (n : Nat) (s : σ) (v r : Nat)
    (h1 : r ≤ (n + 1) * k) (h2 : r ≤ len) (h3 : len % k = r % k) (h4 : r = len ∨ n * k < r) :
    Tally x (steps cfg k fetch tail f len n s v) fun _ => Span cfg k x v (v + r) := by
  induction n generalizing s v r with
  | zero =>
    unfold steps
    by_cases hr : 0 < r
    · rw [if_pos (by omega)]
      refine Tally.map ((htail v r (by omega) (by omega) h3).post fun _ n hn => ?_)
      exact Or.inr ⟨v, n, Nat.le_refl _, by omega, by omega, by rwa [Nat.add_sub_cancel_left], by omega⟩
    · rw [if_neg (by omega)]
      obtain rfl : r = 0 := by omega
      exact Tally.pure (Or.inl ⟨by omega, by rw [Nat.add_zero]; omega⟩)
  | succ n ih =>
    unfold steps
    have e1 : (n + 1) * k = n * k + k := Nat.succ_mul n k
    have e2 : (n + 1 + 1) * k = n * k + k + k := by rw [Nat.succ_mul, e1]
    rw [e2] at h1
    by_cases hr : (n + 1) * k < r
    · rw [if_pos (by omega)]
      simp only [bind_assoc, pure_bind]
      refine Tally.after (hfetch v) fun a => Tally.afterAdd ?_
      refine (ih _ (v + k) (r - k) (by omega) (by omega) ?_ (by omega)).post fun _ n hn => ?_
      · rw [h3]; exact Nat.mod_eq_sub_mod (by omega)
      · rw [show v + r = v + k + (r - k) by omega]
        exact hn.cons (v := v) (by omega) rfl
    · rw [if_neg (by omega), pure_bind]
      exact ih s v r (by omega) h2 h3 (Or.inl (by omega))

/-- A whole tail: `r` bytes at `v`, where `len` is `r`. -/
theorem tally_tail {k len : Nat} {fetch : Nat → M α} {tail : Nat → Nat → M α} {f : Nat → σ → α → σ}
    (hk : 0 < k) (hfetch : ∀ v, Costs x (fetch v) (inr x v k))
    (htail : ∀ v r, 1 ≤ r → r ≤ k → len % k = r % k → Tally x (tail v len) fun _ => Shot cfg k x v r)
    (s : σ) (v : Nat) (h : len ≤ 4 * k) :
    Tally x (steps cfg k fetch tail f len 3 s v) fun _ => Span cfg k x v (v + len) :=
  tally_steps hk hfetch htail 3 s v len (by omega) (by omega) rfl (Or.inl rfl)

section
variable {e : Endian} {al : Aligness} {v len : Nat} (hl : len < 2 ^ cfg.bits)
include hl

theorem tally_t1ha1_tail {a b : U64} (h : len ≤ 32) :
    Tally x (t1ha1_tail cfg e al a b v len) fun _ => Span cfg 8 x v (v + len) := by
  rw [t1ha1_tail_eq]
  exact Tally.map (tally_tail (by decide) (fun v => costs_fetch64 _ _ _ _)
    (fun v r h1 h8 hk => tally_tail64 h1 hl h8 hk) _ _ h)

theorem tally_t1ha2_TAIL_AB_mix {s : State256} (h : len ≤ 32) :
    Tally x (t1ha2_TAIL_AB_mix cfg al s v len) fun _ => Span cfg 8 x v (v + len) := by
  rw [t1ha2_TAIL_AB_mix_eq]
  exact tally_tail (by decide) (fun v => costs_fetch64 _ _ _ _)
    (fun v r h1 h8 hk => tally_tail64 h1 hl h8 hk) _ _ h

theorem tally_t1ha2_TAIL_ABCD_mix {s : State256} (h : len ≤ 32) :
    Tally x (t1ha2_TAIL_ABCD_mix cfg al s v len) fun _ => Span cfg 8 x v (v + len) := by
  rw [t1ha2_TAIL_ABCD_mix_eq]
  exact tally_tail (by decide) (fun v => costs_fetch64 _ _ _ _)
    (fun v r h1 h8 hk => tally_tail64 h1 hl h8 hk) _ _ h

theorem tally_t1ha0_tail {a b : U32} (h : len ≤ 16) :
    Tally x (t1ha0_tail cfg e al a b v len) fun _ => Span cfg 4 x v (v + len) := by
  rw [t1ha0_tail_eq]
  exact Tally.map (tally_tail (by decide) (fun v => costs_fetch32 _ _ _ _)
    (fun v r h1 h8 hk => tally_tail32 h1 hl h8 hk) _ _ h)

theorem tally_aes_tail {a b : U64} (h : len ≤ 32) :
    Tally x (aes_tail cfg a b v len) fun _ => Span cfg 8 x v (v + len) := by
  rw [aes_tail_eq]
  exact Tally.map (tally_tail (by decide) (fun v => costs_fetch64 _ _ _ _)
    (fun v r h1 h8 hk => tally_tail64 h1 hl h8 hk) _ _ h)

end

/-! ## Loops -/

/-- A loop over blocks of `b` bytes from `v` up to `v'`, the first one which is not below `detent`. -/
def Looped (b x v detent v' : Nat) (n : Int) : Prop :=
  v ≤ v' ∧ (v' - v) % b = 0 ∧ detent ≤ v' ∧ v' < detent + b ∧ n = bel x v' - bel x v

theorem Looped.cons {b v detent v' : Nat} {n c : Int} (h : Looped b x (v + b) detent v' n)
    (hc : c = bel x (v + b) - bel x v + n) : Looped b x v detent v' c := by
  obtain ⟨h1, h2, h3, h4, h5⟩ := h
  refine ⟨by omega, ?_, h3, h4, by omega⟩
  rw [show v' - v = v' - (v + b) + b by omega, Nat.add_mod_right]
  exact h2

theorem Looped.one {b v detent : Nat} {c : Int} (h : v < detent) (h' : detent ≤ v + b)
    (hc : c = bel x (v + b) - bel x v) : Looped b x v detent (v + b) c :=
  ⟨by omega, by rw [Nat.add_sub_cancel_left, Nat.mod_self], h', by omega, hc⟩

theorem tally_t1ha1_loop {e : Endian} {al : Aligness} {detent fuel : Nat} {s : T1ha1Vars} (h : s.v < detent) :
    Tally x (t1ha1_loop cfg e al detent fuel s) fun s' => Looped 32 x s.v detent s'.v := by
  induction fuel generalizing s with
  | zero => exact Tally.fail
  | succ fuel ih =>
    unfold t1ha1_loop
    tally
    · rename_i h'
      exact (ih h').post fun _ n hn => hn.cons (by tally_sum)
    · exact Looped.one h (by omega) (by tally_sum)

theorem costs_t1ha2_UPDATE {al : Aligness} {s : State256} {v : Nat} :
    Costs x (t1ha2_UPDATE cfg al s v) (inr x v 32) := by
  unfold t1ha2_UPDATE
  tally
  tally_sum

macro_rules | `(tactic| tally_leaf) => `(tactic| with_reducible exact costs_t1ha2_UPDATE)

theorem tally_t1ha2_loop {al : Aligness} {detent fuel v : Nat} {s : State256} (h : v < detent) :
    Tally x (t1ha2_loop cfg al detent fuel s v) fun s' => Looped 32 x v detent s'.2 := by
  induction fuel generalizing s v with
  | zero => exact Tally.fail
  | succ fuel ih =>
    unfold t1ha2_loop
    tally
    · rename_i h'
      exact (ih h').post fun _ n hn => hn.cons (by tally_sum)
    · exact Looped.one h (by omega) (by tally_sum)

theorem tally_t1ha0_loop {e : Endian} {al : Aligness} {detent fuel : Nat} {s : T1ha0Vars} (h : s.v < detent) :
    Tally x (t1ha0_loop cfg e al detent fuel s) fun s' => Looped 16 x s.v detent s'.v := by
  induction fuel generalizing s with
  | zero => exact Tally.fail
  | succ fuel ih =>
    unfold t1ha0_loop
    tally
    · rename_i h'
      exact (ih h').post fun _ n hn => hn.cons (by tally_sum)
    · exact Looped.one h (by omega) (by tally_sum)

/-! ## The functions -/

theorem Looped.stop {b data len v' : Nat} {n : Int} (hb : 0 < b)
    (h : Looped b x data (data + len - (b - 1)) v' n) (hl : b ≤ len) : v' + len % b = data + len := by
  obtain ⟨h1, h2, h3, h4, h5⟩ := h
  obtain ⟨q, hq⟩ := Nat.dvd_of_mod_eq_zero h2
  have := Nat.div_add_mod len b
  have hq' : q = len / b := by
    refine (Nat.div_eq_of_lt_le ?_ ?_).symm
    · rw [Nat.mul_comm]; omega
    · rw [Nat.mul_comm, Nat.mul_succ]; omega
  rw [← hq'] at this
  omega

/-- Blocks, then a tail. -/
theorem Looped.span {b k data len v' : Nat} {n n' c : Int} (hb : 0 < b)
    (h : Looped b x data (data + len - (b - 1)) v' n) (hl : b ≤ len) (ht : Span cfg k x v' (v' + len % b) n')
    (hc : c = n + n') : Span cfg k x data (data + len) c := by
  rw [h.stop hb hl] at ht
  obtain ⟨h1, h2, h3, h4, h5⟩ := h
  exact ht.cons h1 (by omega)

theorem and31 (n : Nat) : n &&& 31 = n % 32 := Nat.and_two_pow_sub_one_eq_mod n 5
theorem and15 (n : Nat) : n &&& 15 = n % 16 := Nat.and_two_pow_sub_one_eq_mod n 4

section
variable {e : Endian} {al : Aligness} {data len : Nat} (hl : len < 2 ^ cfg.bits) {seed : U64}
include hl

theorem tally_t1ha1_body : Tally x (t1ha1_body cfg e al data len seed) fun _ => Span cfg 8 x data (data + len) := by
  unfold t1ha1_body
  refine Tally.ite (fun h32 => Tally.afterAdd (Tally.afterSub fun hd => ?_)) fun h32 =>
    tally_t1ha1_tail hl (by omega)
  refine Tally.bind (tally_t1ha1_loop (by show data < _; omega)) fun s n hn => ?_
  rw [and31]
  exact (tally_t1ha1_tail (by omega) (by omega)).post fun _ n' hn' =>
    hn.span (b := 32) (by decide) (by omega) hn' rfl

theorem tally_t1ha1 : Tally x (t1ha1 cfg e data len seed) fun _ => Span cfg 8 x data (data + len) :=
  Tally.ite (fun _ => tally_t1ha1_body hl) fun _ =>
    Tally.ite (fun _ => tally_t1ha1_body hl) fun _ => tally_t1ha1_body hl

theorem tally_t1ha0_body : Tally x (t1ha0_body cfg e al data len seed) fun _ => Span cfg 4 x data (data + len) := by
  unfold t1ha0_body
  refine Tally.ite (fun h32 => Tally.afterAdd (Tally.afterSub fun hd => ?_)) fun h32 =>
    tally_t1ha0_tail hl (by omega)
  refine Tally.bind (tally_t1ha0_loop (by show data < _; omega)) fun s n hn => ?_
  rw [and15]
  exact (tally_t1ha0_tail (by omega) (by omega)).post fun _ n' hn' =>
    hn.span (b := 16) (by decide) (by omega) hn' rfl

theorem tally_t1ha0_32 : Tally x (t1ha0_32 cfg e data len seed) fun _ => Span cfg 4 x data (data + len) :=
  Tally.ite (fun _ => tally_t1ha0_body hl) fun _ =>
    Tally.ite (fun _ => tally_t1ha0_body hl) fun _ => tally_t1ha0_body hl

theorem tally_t1ha2_atonce_body {g : State256} :
    Tally x (t1ha2_atonce_body cfg al g data len seed) fun _ => Span cfg 8 x data (data + len) := by
  unfold t1ha2_atonce_body t1ha2_LOOP t1ha2_TAIL_AB
  refine Tally.ite (fun h32 => ?_) fun h32 => Tally.map (tally_t1ha2_TAIL_AB_mix hl (by omega))
  simp only [bind_assoc]
  refine Tally.afterAdd (Tally.afterSub fun hd => ?_)
  refine Tally.bind (tally_t1ha2_loop (by omega)) fun s n hn => ?_
  rw [and31]
  exact Tally.map ((tally_t1ha2_TAIL_AB_mix (by omega) (by omega)).post fun _ n' hn' =>
    hn.span (b := 32) (by decide) (by omega) hn' rfl)

theorem tally_t1ha2_atonce {g : State256} :
    Tally x (t1ha2_atonce cfg g data len seed) fun _ => Span cfg 8 x data (data + len) :=
  Tally.ite (fun _ => tally_t1ha2_atonce_body hl) fun _ =>
    Tally.ite (fun _ => tally_t1ha2_atonce_body hl) fun _ => tally_t1ha2_atonce_body hl

theorem tally_t1ha2_TAIL_ABCD {s : State256} {v extra : Nat} (h : len ≤ 32) :
    Tally x (t1ha2_TAIL_ABCD cfg al s v len extra) fun _ => Span cfg 8 x v (v + len) :=
  Tally.bind (tally_t1ha2_TAIL_ABCD_mix hl h) fun _ n hn =>
    Tally.after (costs_writeInt _ _ _) fun _ => Tally.pure (by simpa using hn)

theorem tally_t1ha2_atonce128_body {g : State256} {extra : Nat} :
    Tally x (t1ha2_atonce128_body cfg al g extra data len seed) fun _ => Span cfg 8 x data (data + len) := by
  unfold t1ha2_atonce128_body t1ha2_LOOP
  refine Tally.ite (fun h32 => ?_) fun h32 => tally_t1ha2_TAIL_ABCD hl (by omega)
  simp only [bind_assoc]
  refine Tally.afterAdd (Tally.afterSub fun hd => ?_)
  refine Tally.bind (tally_t1ha2_loop (by omega)) fun s n hn => ?_
  rw [and31]
  exact (tally_t1ha2_TAIL_ABCD (by omega) (by omega)).post fun _ n' hn' =>
    hn.span (b := 32) (by decide) (by omega) hn' rfl

theorem tally_t1ha2_atonce128 {g : State256} {extra : Nat} :
    Tally x (t1ha2_atonce128 cfg g extra data len seed) fun _ => Span cfg 8 x data (data + len) :=
  Tally.ite (fun _ => tally_t1ha2_atonce128_body hl) fun _ =>
    Tally.ite (fun _ => tally_t1ha2_atonce128_body hl) fun _ => tally_t1ha2_atonce128_body hl

end

/-! ## The functions for AES instructions -/

theorem costs_loadu (p : Nat) : Costs x (loadu p) (inr x p 16) :=
  Tally.after (costs_load _ _) fun _ => Tally.pure (Int.add_zero _)

macro_rules | `(tactic| tally_leaf) => `(tactic| with_reducible exact costs_loadu _)

/-- The bytes from `v` up to `v'` are read once. -/
def Run (x v v' : Nat) (n : Int) : Prop := v ≤ v' ∧ n = bel x v' - bel x v

theorem tally_aes_pair {a b : U128} {v : Nat} :
    Tally x (aes_pair cfg a b v) fun r n => r.2.2 = v + 32 ∧ n = inr x v 32 := by
  unfold aes_pair
  tally
  exact ⟨rfl, by tally_sum⟩

theorem tally_aes_a_loop {detent fuel : Nat} {a b : U128} {v : Nat} :
    Tally x (aes_a_loop cfg detent fuel a b v) fun r n => v ≤ r.2.2 ∧ (r.2.2 - v) % 128 = 0 ∧
      detent ≤ r.2.2 ∧ (r.2.2 = v ∨ r.2.2 < detent + 128) ∧ n = bel x r.2.2 - bel x v := by
  induction fuel generalizing a b v with
  | zero => exact Tally.fail
  | succ fuel ih =>
    unfold aes_a_loop
    tally
    · refine ih.post fun r n hn => ?_
      obtain ⟨h1, h2, h3, h4, h5⟩ := hn
      exact ⟨by omega, by omega, by omega, by omega, by tally_sum⟩
    · exact ⟨Nat.le_refl _, by simp, by dsimp only; omega, Or.inl rfl, by simp⟩

theorem tally_aes_a_rest {len : Nat} {a b : U128} {v : Nat} :
    Tally x (aes_a_rest cfg a b v len) fun r n => r.2.2 = v + len % 128 / 16 * 16 ∧
      n = bel x r.2.2 - bel x v := by
  unfold aes_a_rest
  refine Tally.bind (Q := fun r n => r.2.2 = v + len % 128 / 64 * 64 ∧ n = bel x r.2.2 - bel x v) ?_ ?_
  · refine Tally.ite (fun h => ?_) fun h => ?_
    · rw [and_64] at h
      refine Tally.bind tally_aes_pair fun r n hn => ?_
      refine tally_aes_pair.post fun r' n' hn' => ?_
      obtain ⟨h1, h2⟩ := hn
      obtain ⟨h3, h4⟩ := hn'
      rw [h1] at h3 h4
      refine ⟨by omega, ?_⟩
      rw [h2, h4, h3]
      tally_sum
    · rw [and_64] at h
      exact Tally.pure ⟨by dsimp only; omega, by simp⟩
  · rintro ⟨a, b, v1⟩ n ⟨h1, h2⟩
    dsimp only at h1 h2 ⊢
    refine Tally.bind (Q := fun r n' => r.2.2 = v + len % 128 / 32 * 32 ∧ n' = bel x r.2.2 - bel x v1) ?_ ?_
    · refine Tally.ite (fun h => ?_) fun h => ?_
      · rw [and_32] at h
        refine tally_aes_pair.post fun r' n' hn' => ⟨by omega, ?_⟩
        rw [hn'.2, hn'.1]
        rfl
      · rw [and_32] at h
        exact Tally.pure ⟨by dsimp only; omega, by simp⟩
    · rintro ⟨a, b, v2⟩ n' ⟨h3, h4⟩
      dsimp only at h3 h4 ⊢
      refine Tally.ite (fun h => ?_) fun h => ?_
      · rw [and_16] at h
        tally
        exact ⟨by dsimp only; omega, by tally_sum⟩
      · rw [and_16] at h
        exact Tally.pure ⟨by dsimp only; omega, by tally_sum⟩

theorem tally_aes_a {ac : AesCfg} {data len : Nat} {seed : U64} (hl : len < 2 ^ cfg.bits) :
    Tally x (t1ha0_ia32aes_a cfg ac data len seed) fun _ => Span cfg 8 x data (data + len) := by
  unfold t1ha0_ia32aes_a
  refine Tally.ite (fun h32 => Tally.afterAdd (Tally.afterSub fun hd => ?_)) fun h32 =>
    tally_aes_tail hl (by omega)
  refine Tally.bind tally_aes_a_loop ?_
  rintro ⟨a, b, v1⟩ n ⟨h1, h2, h3, h4, h5⟩
  refine Tally.bind tally_aes_a_rest ?_
  rintro ⟨a, b, v2⟩ n' ⟨h6, h7⟩
  dsimp only at *
  rw [and15]
  refine (tally_aes_tail (by omega) (by omega)).post fun _ n'' h8 => ?_
  have e : v2 + len % 16 = data + len := by omega
  rw [e] at h8
  exact h8.cons (by omega) (by omega)

theorem tally_aes_b_dec {t : U128} {v : Nat} :
    Tally x (aes_b_dec cfg t v) fun r n => r.2 = v + 16 ∧ n = inr x v 16 := by
  unfold aes_b_dec
  tally
  exact ⟨rfl, by tally_sum⟩

theorem Tally.afterDec {t : U128} {v : Nat} {k : U128 × Nat → M β}
    (h : ∀ t, Tally x (k (t, v + 16)) fun b n => R b (inr x v 16 + n)) : Tally x (aes_b_dec cfg t v >>= k) R :=
  Tally.bind tally_aes_b_dec fun ⟨t, v'⟩ n hn => by
    obtain ⟨h1, h2⟩ := hn
    dsimp only at h1
    rw [h1, h2]
    exact h t

theorem tally_aes_b_loop {detent fuel : Nat} {a b c : U128} {v : Nat} (h : v + 112 < detent)
    (hd : (detent - v) % 32 = 0) :
    Tally x (aes_b_loop cfg detent fuel a b c v) fun r n => v ≤ r.2.2 ∧ r.2.2 ≤ detent ∧
      (detent - r.2.2) % 32 = 0 ∧ n = bel x r.2.2 - bel x v := by
  induction fuel generalizing a b c v with
  | zero => exact Tally.fail
  | succ fuel ih =>
    unfold aes_b_loop
    refine Tally.after costs_iterate fun _ => Tally.after (costs_loadu _) fun _ => Tally.afterAdd ?_
    refine Tally.afterDec fun _ => Tally.afterDec fun _ => Tally.afterDec fun _ => Tally.afterDec fun _ =>
      Tally.afterDec fun _ => Tally.afterDec fun _ => Tally.afterDec fun _ => Tally.afterAdd ?_
    refine Tally.ite (fun h' => ?_) fun h' => Tally.pure ?_
    · refine (ih h' (by omega)).post fun r n hn => ?_
      obtain ⟨h1, h2, h3, h4⟩ := hn
      exact ⟨by omega, h2, h3, by tally_sum⟩
    · exact ⟨by dsimp only; omega, by dsimp only; omega, by dsimp only; omega, by tally_sum⟩

theorem tally_aes_b_pairs {detent fuel : Nat} {a b : U128} {v : Nat} (h : v ≤ detent)
    (hd : (detent - v) % 32 = 0) :
    Tally x (aes_b_pairs cfg detent fuel a b v) fun _ n => n = bel x detent - bel x v := by
  induction fuel generalizing a b v with
  | zero => exact Tally.fail
  | succ fuel ih =>
    unfold aes_b_pairs
    refine Tally.ite (fun h' => ?_) fun h' => ?_
    · refine Tally.after costs_iterate fun _ => Tally.bind tally_aes_pair ?_
      rintro ⟨a, b, v1⟩ n ⟨h1, h2⟩
      dsimp only at h1
      subst h1
      refine (ih (by omega) (by omega)).post fun r n hn => ?_
      rw [h2]
      tally_sum
    · obtain rfl : v = detent := by omega
      exact Tally.pure (by omega)

theorem tally_aes_b {ac : AesCfg} {data len : Nat} {seed : U64} (hl : len < 2 ^ cfg.bits)
    (hu : len < 2 ^ (if cfg.ulong64 then 64 else 32)) :
    Tally x (t1ha0_ia32aes_avx2 cfg ac data len seed) fun _ => Span cfg 8 x data (data + len) := by
  unfold t1ha0_ia32aes_avx2
  refine Tally.ite (fun h32 => Tally.afterAdd ?_) fun h32 => tally_aes_tail hl (by omega)
  have hm : aes_b_mask cfg len = 16 * (len / 16) := by rw [aes_b_mask_eq, Nat.mod_eq_of_lt hu]
  rw [hm]
  refine Tally.bind (Q := fun r n => r.2.2 = data + len / 16 % 2 * 16 ∧ n = bel x r.2.2 - bel x data) ?_ ?_
  · refine Tally.ite (fun h => ?_) fun h => ?_
    · rw [and_16] at h
      tally
      exact ⟨by dsimp only; omega, by tally_sum⟩
    · rw [and_16] at h
      exact Tally.pure ⟨by dsimp only; omega, by simp⟩
  · rintro ⟨a, b, v1⟩ n ⟨h1, h2⟩
    dsimp only at h1 h2 ⊢
    refine Tally.afterAdd ?_
    refine Tally.bind (Q := fun r n => v1 ≤ r.2.2 ∧ r.2.2 ≤ data + 16 * (len / 16) ∧
      (data + 16 * (len / 16) - r.2.2) % 32 = 0 ∧ n = bel x r.2.2 - bel x v1) ?_ ?_
    · refine Tally.ite (fun h => tally_aes_b_loop h (by omega)) fun h => Tally.pure ?_
      exact ⟨Nat.le_refl _, by dsimp only; omega, by dsimp only; omega, by simp⟩
    · rintro ⟨a, b, v2⟩ n' ⟨h3, h4, h5, h6⟩
      dsimp only at *
      refine Tally.bind (tally_aes_b_pairs h4 h5) ?_
      rintro ⟨a, b, v3⟩ n'' h7
      dsimp only at *
      rw [and15]
      refine (tally_aes_tail (by omega) (by omega)).post fun _ n3 h8 => ?_
      rw [show data + 16 * (len / 16) + len % 16 = data + len by omega] at h8
      exact h8.cons (by omega) (by omega)

theorem OneShot.tally (f : OneShot) {data len : Nat} {seed : U64} (hl : len < 2 ^ cfg.bits)
    (hu : ∀ ac, f = .t1ha0_ia32aes_avx2 ac → len < 2 ^ (if cfg.ulong64 then 64 else 32)) :
    Tally x (f.run cfg data len seed) fun _ => Span cfg f.word x data (data + len) := by
  cases f with
  | t1ha1_le => exact tally_t1ha1 hl
  | t1ha1_be => exact tally_t1ha1 hl
  | t1ha2_atonce _ => exact tally_t1ha2_atonce hl
  | t1ha2_atonce128 _ _ => exact tally_t1ha2_atonce128 hl
  | t1ha0_32le => exact tally_t1ha0_32 hl
  | t1ha0_32be => exact tally_t1ha0_32 hl
  | t1ha0_ia32aes_noavx _ => exact tally_aes_a hl
  | t1ha0_ia32aes_avx _ => exact tally_aes_a hl
  | t1ha0_ia32aes_avx2 ac => exact tally_aes_b hl (hu ac rfl)

end T1ha.Model
