import Verif.Proofs.Oblivious
import Verif.Proofs.Strict
import Verif.Proofs.OneShot

/-!
# Pointers which a call cannot avoid computing
-/

namespace T1ha.Model

open X86 (aesenc aesdec add64)

variable {α β : Type} {cfg : Cfg} {e : Ev}

/-- If `m` succeeds, the event `e` has happened meanwhile. -/
structure Causes (e : Ev) {α : Type} (m : M α) : Prop where
  intro ::
  run : ∀ w s v s', m w s = .ok (v, s') → ∃ t, s'.log = t ++ s.log ∧ e ∈ t

/-- Events are never taken back. -/
abbrev Grows (m : M α) : Prop := Emits (fun _ => True) m

theorem Grows.of {R : α → α → Prop} {m : M α} (h : ∀ w, Same w w anyOv anyOv R m m) : Grows m :=
  ⟨fun w s v s' hr => by
    obtain ⟨⟨t, ht, _⟩, _⟩ := (h w).run s s v s' v s' trivial hr hr
    exact ⟨t, ht, fun _ _ => trivial⟩⟩

theorem Causes.bind {m : M α} {k : α → M β} (h : Causes e m) (hk : ∀ a, Grows (k a)) : Causes e (m >>= k) := by
  refine ⟨fun w s v s' h₁ => ?_⟩
  change M.bind m k w s = _ at h₁
  unfold M.bind at h₁
  split at h₁
  · exact nomatch h₁
  · rename_i a s₁ ha
    obtain ⟨t, e, ht⟩ := h.run _ _ _ _ ha
    obtain ⟨u, f, _⟩ := (hk a).run _ _ _ _ h₁
    exact ⟨u ++ t, by rw [f, e, List.append_assoc], List.mem_append.2 (.inr ht)⟩

theorem Causes.after {m : M α} {k : α → M β} (h : Grows m) (hk : ∀ a, Causes e (k a)) : Causes e (m >>= k) := by
  refine ⟨fun w s v s' h₁ => ?_⟩
  change M.bind m k w s = _ at h₁
  unfold M.bind at h₁
  split at h₁
  · exact nomatch h₁
  · rename_i a s₁ ha
    obtain ⟨t, e, _⟩ := h.run _ _ _ _ ha
    obtain ⟨u, f, hu⟩ := (hk a).run _ _ _ _ h₁
    exact ⟨u ++ t, by rw [f, e, List.append_assoc], List.mem_append.2 (.inl hu)⟩

theorem Causes.pointer (p : Nat) : Causes (.ptr p) (pointer p) := by
  refine ⟨fun w s v s' h => ?_⟩
  cases h
  exact ⟨[.ptr p], rfl, by simp⟩

theorem Causes.fail {x : Err} : Causes e (fail x : M α) := ⟨fun _ _ _ _ h => nomatch h⟩

theorem Causes.ptrAdd (p n : Nat) : Causes (.ptr (p + n)) (ptrAdd cfg p n) := by
  unfold Model.ptrAdd
  split
  · exact Causes.pointer _
  · exact Causes.fail

theorem Causes.ptrSub (p n : Nat) : Causes (.ptr (p - n)) (ptrSub cfg p n) := by
  unfold Model.ptrSub
  split
  · exact Causes.pointer _
  · exact Causes.fail

theorem Grows.ptrAdd (p n : Nat) : Grows (ptrAdd cfg p n) := Grows.of fun _ => Same.ptrAdd cfg p n

theorem Grows.pure (a : α) : Grows (pure a : M α) := Emits.pure

/-- After pointer arithmetic the result is known. -/
theorem Causes.afterAdd {p n : Nat} {k : Nat → M β} (h : Causes e (k (p + n))) :
    Causes e (Model.ptrAdd cfg p n >>= k) := by
  refine ⟨fun w s v s' h₁ => ?_⟩
  change M.bind _ k w s = _ at h₁
  unfold M.bind Model.ptrAdd at h₁
  split at h₁
  · exact nomatch h₁
  · rename_i a s₁ ha
    split at ha
    · cases ha
      obtain ⟨t, e, ht⟩ := h.run _ _ _ _ h₁
      exact ⟨t ++ [.ptr (p + n)], by rw [e, List.append_assoc]; rfl, List.mem_append.2 (.inl ht)⟩
    · exact nomatch ha

theorem causes_tail64 {en : Endian} {p len : Nat} (hu : cfg.canReadUnderside = true) (hw : cfg.word64 = true)
    (hc : can_read_underside cfg p 8 = true) (h0 : 0 < len) (h8 : len < 8) :
    Causes (.ptr (p + len - 8)) (tail64 cfg en .unaligned p len) := by
  have ho : szSub cfg 8 len &&& 7 = 8 - len := szSub_and7
    (Nat.lt_of_lt_of_le h8 (by unfold Cfg.bits; split <;> decide)) h0 (by omega) rfl
  have hp : p + len - 8 = p - (8 - len) := by omega
  rw [hp]
  cases en
  · show Causes _ (tail64_le_unaligned cfg p len)
    unfold tail64_le_unaligned
    simp only [hu, hw, hc, Bool.and_self, if_true, ho]
    exact Causes.bind (Causes.ptrSub _ _) fun _ =>
      Emits.bind (Grows.of fun _ => Same.fetch64_le_unaligned cfg _) fun _ => Emits.pure
  · show Causes _ (tail64_be_unaligned cfg p len)
    unfold tail64_be_unaligned
    simp only [hu, hw, hc, Bool.and_self, if_true, ho]
    exact Causes.bind (Causes.ptrSub _ _) fun _ =>
      Emits.bind (Grows.of fun _ => Same.fetch64_be_unaligned cfg _) fun _ => Emits.pure

theorem causes_tail32 {en : Endian} {p len : Nat} (hu : cfg.canReadUnderside = true)
    (hc : can_read_underside cfg p 4 = true) (h0 : 0 < len) (h4 : len < 4) :
    Causes (.ptr (p + len - 4)) (tail32 cfg en .unaligned p len) := by
  have ho : szSub cfg 4 len &&& 3 = 4 - len := szSub_and3
    (Nat.lt_of_lt_of_le h4 (by unfold Cfg.bits; split <;> decide)) h0 (by omega) rfl
  have hp : p + len - 4 = p - (4 - len) := by omega
  rw [hp]
  cases en
  · show Causes _ (tail32_le_unaligned cfg p len)
    unfold tail32_le_unaligned
    simp only [hu, hc, if_true, ho]
    exact Causes.bind (Causes.ptrSub _ _) fun _ =>
      Emits.bind (Grows.of fun _ => Same.fetch32_le_unaligned cfg _) fun _ => Emits.pure
  · show Causes _ (tail32_be_unaligned cfg p len)
    unfold tail32_be_unaligned
    simp only [hu, hc, if_true, ho]
    exact Causes.bind (Causes.ptrSub _ _) fun _ =>
      Emits.bind (Grows.of fun _ => Same.fetch32_be_unaligned cfg _) fun _ => Emits.pure

theorem causes_steps {σ : Type} {k : Nat} {tail : Nat → Nat → M α} {fetch : Nat → M α}
    {f : Nat → σ → α → σ} {len v : Nat} {s : σ} (h0 : 0 < len) (hk : len < k)
    (h : Causes e (tail v len)) : Causes e (steps cfg k fetch tail f len 3 s v) := by
  simp only [steps]
  rw [if_neg (by omega), pure_bind, if_neg (by omega), pure_bind, if_neg (by omega), pure_bind,
    if_pos h0]
  exact Causes.bind h fun _ => Emits.pure

/-- A short message, the page of which also holds bytes before it. -/
theorem causes_short (f : OneShot) (he : cfg.unaligned = .efficient) (hu : cfg.canReadUnderside = true)
    (hw : f.words64 = true → cfg.word64 = true) {data len g : Nat} (hg : g = if f.words64 then 8 else 4)
    (hc : can_read_underside cfg data g = true) (h0 : 0 < len) (hl : len < g) (seed : U64) :
    Causes (.ptr (data + len - g)) (f.run cfg data len seed) := by
  have h32 : ¬ 32 < len := by split at hg <;> omega
  have k64 : cfg.word64 = true → g = 8 → ∀ en, Causes (.ptr (data + len - g)) (tail64 cfg en .unaligned data len) := by
    rintro hw rfl en
    exact causes_tail64 hu hw hc h0 hl
  have k1 : cfg.word64 = true → g = 8 → ∀ en, Causes (.ptr (data + len - g)) (t1ha1 cfg en data len seed) := by
    intro hw h8 en
    unfold t1ha1
    simp only [if_pos he]
    unfold t1ha1_body
    simp only [if_neg h32, t1ha1_tail_eq]
    subst h8
    exact Causes.bind (causes_steps h0 hl (k64 hw rfl en)) fun _ => Emits.pure
  have k0 : g = 4 → ∀ en, Causes (.ptr (data + len - g)) (t1ha0_32 cfg en data len seed) := by
    rintro rfl en
    unfold t1ha0_32
    simp only [if_pos he]
    unfold t1ha0_body
    simp only [if_neg (show ¬ 16 < len by omega), t1ha0_tail_eq]
    exact Causes.bind (causes_steps h0 hl (causes_tail32 hu hc h0 hl)) fun _ => Emits.pure
  have ka : cfg.word64 = true → g = 8 → ∀ a b, Causes (.ptr (data + len - g)) (aes_tail cfg a b data len) := by
    rintro hw rfl a b
    rw [aes_tail_eq]
    exact Causes.bind (causes_steps h0 hl (k64 hw rfl .little)) fun _ => Emits.pure
  cases f
  case t1ha1_le => exact k1 (hw rfl) hg .little
  case t1ha1_be => exact k1 (hw rfl) hg .big
  case t1ha2_atonce st =>
    show Causes _ (t1ha2_atonce cfg st data len seed)
    unfold t1ha2_atonce
    simp only [if_pos he]
    unfold t1ha2_atonce_body
    simp only [if_neg h32, t1ha2_TAIL_AB, t1ha2_TAIL_AB_mix_eq]
    subst hg
    exact Causes.bind (causes_steps h0 hl (k64 (hw rfl) rfl .little)) fun _ => Emits.pure
  case t1ha2_atonce128 st p =>
    show Causes _ (t1ha2_atonce128 cfg st p data len seed)
    unfold t1ha2_atonce128
    simp only [if_pos he]
    unfold t1ha2_atonce128_body
    simp only [if_neg h32, t1ha2_TAIL_ABCD, t1ha2_TAIL_ABCD_mix_eq]
    subst hg
    refine Causes.bind (causes_steps h0 hl (k64 (hw rfl) rfl .little)) fun _ => ?_
    exact Emits.bind (Grows.of fun _ => Same.writeInt cfg p 8 _ _ (fun _ _ _ => trivial)) fun _ => Emits.pure
  case t1ha0_32le => exact k0 hg .little
  case t1ha0_32be => exact k0 hg .big
  case t1ha0_ia32aes_noavx ac =>
    show Causes _ (t1ha0_ia32aes_a cfg ac data len seed)
    unfold t1ha0_ia32aes_a
    simp only [if_neg h32]
    exact ka (hw rfl) hg _ _
  case t1ha0_ia32aes_avx ac =>
    show Causes _ (t1ha0_ia32aes_a cfg ac data len seed)
    unfold t1ha0_ia32aes_a
    simp only [if_neg h32]
    exact ka (hw rfl) hg _ _
  case t1ha0_ia32aes_avx2 ac =>
    show Causes _ (t1ha0_ia32aes_avx2 cfg ac data len seed)
    unfold t1ha0_ia32aes_avx2
    simp only [if_neg h32]
    exact ka (hw rfl) hg _ _

theorem causes_aes_a (ac : AesCfg) {data len : Nat} (h32 : 32 < len) (seed : U64) :
    Causes (.ptr (data + len - 127)) (t1ha0_ia32aes_a cfg ac data len seed) := by
  unfold t1ha0_ia32aes_a
  simp only [if_pos h32]
  refine Causes.afterAdd (Causes.bind (Causes.ptrSub _ _) fun d => ?_)
  refine Emits.bind (Grows.of fun _ => Same.aes_a_loop cfg d len _ _ _ _ data) fun x => ?_
  refine Emits.bind (Grows.of fun _ => Same.aes_a_rest cfg _ _ _ _ _ len) fun x => ?_
  exact Grows.of fun _ => Same.aes_tail cfg _ _ _ _ _ _

theorem causes_aes_b (ac : AesCfg) {data len : Nat} (h32 : 32 < len) (seed : U64) :
    Causes (.ptr (data + (if len &&& 16 ≠ 0 then 16 else 0) + 112)) (t1ha0_ia32aes_avx2 cfg ac data len seed) := by
  unfold t1ha0_ia32aes_avx2
  simp only [if_pos h32]
  refine Causes.after (Grows.ptrAdd _ _) fun d => ?_
  have rest : ∀ (x y : U128) (v : Nat), Causes (.ptr (v + 112)) (do
      let v7 ← ptrAdd cfg v (7 * 16)
      let (x, y, v) ← (if v7 < d then aes_b_loop cfg d (d - v) x y y v else pure (x, y, v))
      let (x, y, _) ← aes_b_pairs cfg d (d - v + 1) x y v
      let x := add64 (aesdec x (aesenc y x)) y
      let (a, b) := aes_extract ac x
      aes_tail cfg a b d (len &&& 15)) := by
    intro x y v
    refine Causes.bind (Causes.ptrAdd _ _) fun v7 => ?_
    refine Emits.bind (Emits.ite (fun _ => Grows.of fun _ => Same.aes_b_loop cfg _ _ _ _ _ _ _ _ _)
      fun _ => Emits.pure) fun x => ?_
    refine Emits.bind (Grows.of fun _ => Same.aes_b_pairs cfg _ _ _ _ _ _ _) fun x => ?_
    exact Grows.of fun _ => Same.aes_tail cfg _ _ _ _ _ _
  by_cases h16 : len &&& 16 ≠ 0
  · simp only [if_pos h16, bind_assoc]
    refine Causes.after (Grows.of fun _ => Same.loadu _) fun l => ?_
    refine Causes.afterAdd ?_
    simp only [pure_bind]
    exact rest _ _ _
  · simp only [if_neg h16, pure_bind]
    exact rest _ _ _

/-! ## By way of a packed structure -/

theorem causes_read {p n : Nat} (hp : cfg.proxy = true) {g : Nat → M β} (hg : ∀ x, Grows (g x)) :
    Causes (.ptr (p - (n - 1))) (read_unaligned cfg p n >>= g) := by
  unfold read_unaligned
  rw [if_pos hp, bind_assoc]
  refine Causes.bind (Causes.ptrSub _ _) fun q => ?_
  exact Emits.bind (Grows.of fun _ => Same.readInt cfg _ _) hg

theorem causes_fetch64 {en : Endian} {p : Nat} (hp : cfg.proxy = true) :
    Causes (.ptr (p - 7)) (fetch64 cfg en .unaligned p) := by
  have hn : ¬ cfg.unaligned = .unable := by
    intro h; simp [Cfg.proxy, h] at hp
  cases en
  · show Causes _ (fetch64_le_unaligned cfg p)
    unfold fetch64_le_unaligned
    rw [if_neg hn]
    refine causes_read (n := 8) hp fun x => ?_
    split <;> exact Emits.pure
  · show Causes _ (fetch64_be_unaligned cfg p)
    unfold fetch64_be_unaligned
    rw [if_neg hn]
    refine causes_read (n := 8) hp fun x => ?_
    split <;> exact Emits.pure

theorem causes_fetch32 {en : Endian} {p : Nat} (hp : cfg.proxy = true) :
    Causes (.ptr (p - 3)) (fetch32 cfg en .unaligned p) := by
  have hn : ¬ cfg.unaligned = .unable := by
    intro h; simp [Cfg.proxy, h] at hp
  cases en
  · show Causes _ (fetch32_le_unaligned cfg p)
    unfold fetch32_le_unaligned
    rw [if_neg hn]
    refine causes_read (n := 4) hp fun x => ?_
    split <;> exact Emits.pure
  · show Causes _ (fetch32_be_unaligned cfg p)
    unfold fetch32_be_unaligned
    rw [if_neg hn]
    refine causes_read (n := 4) hp fun x => ?_
    split <;> exact Emits.pure

theorem grows_steps {σ : Type} {k : Nat} {tail : Nat → Nat → M α} {fetch : Nat → M α}
    {f : Nat → σ → α → σ} {len n : Nat} {s : σ} {v : Nat} (hf : ∀ v, Grows (fetch v))
    (ht : ∀ v, Grows (tail v len)) : Grows (steps cfg k fetch tail f len n s v) := by
  induction n generalizing s v with
  | zero =>
    unfold steps
    exact Emits.ite (fun _ => Emits.bind (ht v) fun _ => Emits.pure) fun _ => Emits.pure
  | succ n ih =>
    unfold steps
    refine Emits.bind (Emits.ite (fun _ => Emits.bind (hf v) fun _ => Emits.bind (Grows.ptrAdd _ _) fun _ =>
      Emits.pure) fun _ => Emits.pure) fun _ => ih

theorem causes_first {σ : Type} {k : Nat} {tail : Nat → Nat → M α} {fetch : Nat → M α}
    {f : Nat → σ → α → σ} {len n : Nat} {s : σ} {v : Nat} (hf : ∀ v, Grows (fetch v))
    (ht : ∀ v, Grows (tail v len)) (h : Causes e (fetch v)) (hn : 0 < n) (hk : k < len) :
    Causes e (steps cfg k fetch tail f len n s v) := by
  induction n with
  | zero => omega
  | succ n ih =>
    unfold steps
    by_cases hc : (n + 1) * k < len
    · rw [if_pos hc]
      exact Causes.bind (Causes.bind h fun _ => Emits.bind (Grows.ptrAdd _ _) fun _ => Emits.pure)
        fun _ => grows_steps hf ht
    · rw [if_neg hc, pure_bind]
      refine ih (Nat.pos_of_ne_zero ?_)
      rintro rfl
      omega

theorem Causes.start {m : M α} (h : Causes e m) : Causes e (iterate >>= fun _ => m) :=
  Causes.after (Grows.of fun _ => Same.iterate) fun _ => h

/-- Longer than a word, not aligned, in a build where unaligned words are read by way of a packed structure. -/
theorem causes_proxy (f : OneShot) (hf : f.aes = false) (hp : cfg.proxy = true) {data len : Nat}
    (hd : data % (if f.words64 then cfg.alignment64 else 4) ≠ 0) (hl : (if f.words64 then 8 else 4) < len)
    (seed : U64) :
    Causes (.ptr (data - (if f.words64 then 7 else 3))) (f.run cfg data len seed) := by
  have he : ¬ cfg.unaligned = .efficient := by
    intro h; simp [Cfg.proxy, h] at hp
  have g64 : ∀ en v, Grows (fetch64 cfg en .unaligned v) := fun en v => Grows.of fun _ => Same.fetch64 cfg en _ v
  have t64 : ∀ en v l, Grows (tail64 cfg en .unaligned v l) := fun en v l => Grows.of fun _ => Same.tail64 cfg en _ v l
  have g32 : ∀ en v, Grows (fetch32 cfg en .unaligned v) := fun en v => Grows.of fun _ => Same.fetch32 cfg en _ v
  have t32 : ∀ en v l, Grows (tail32 cfg en .unaligned v l) := fun en v l => Grows.of fun _ => Same.tail32 cfg en _ v l
  have a64 : data % cfg.alignment64 ≠ 0 → (data &&& (cfg.alignment64 - 1) != 0) = true := by
    intro h
    have : data &&& (cfg.alignment64 - 1) = data % cfg.alignment64 := by
      unfold Cfg.alignment64
      split
      · exact Nat.and_two_pow_sub_one_eq_mod data 3
      · exact Nat.and_two_pow_sub_one_eq_mod data 2
    simpa [this] using h
  have a32 : data % 4 ≠ 0 → (data &&& (4 - 1) != 0) = true := by
    intro h
    simpa [Nat.and_two_pow_sub_one_eq_mod data 2] using h
  have k1 : data % cfg.alignment64 ≠ 0 → 8 < len → ∀ en, Causes (.ptr (data - 7)) (t1ha1 cfg en data len seed) := by
    intro hd hl en
    unfold t1ha1
    simp only [if_neg he, a64 hd, if_true]
    unfold t1ha1_body
    by_cases h32 : 32 < len
    · simp only [if_pos h32]
      refine Causes.after (Grows.ptrAdd _ _) fun _ => Causes.after (Grows.of fun _ => Same.ptrSub cfg _ _) fun _ => ?_
      refine Causes.bind ?_ fun x => Grows.of fun _ => Same.t1ha1_tail ..
      obtain ⟨n, rfl⟩ : ∃ n, len = n + 1 := ⟨len - 1, by omega⟩
      unfold t1ha1_loop
      refine Causes.start (Causes.bind (causes_fetch64 hp) fun _ => Emits.bind (g64 ..) fun _ =>
        Emits.bind (g64 ..) fun _ => Emits.bind (g64 ..) fun _ => Emits.bind (Grows.ptrAdd _ _) fun _ => ?_)
      exact Emits.ite (fun _ => Grows.of fun _ => Same.t1ha1_loop _ _ _ _ _ rfl) fun _ => Emits.pure
    · simp only [if_neg h32, t1ha1_tail_eq]
      exact Causes.bind (causes_first (g64 en) (fun v => t64 en v _) (causes_fetch64 hp) (by decide) hl) fun _ =>
        Emits.pure
  have k0 : data % 4 ≠ 0 → 4 < len → ∀ en, Causes (.ptr (data - 3)) (t1ha0_32 cfg en data len seed) := by
    intro hd hl en
    unfold t1ha0_32
    simp only [if_neg he, a32 hd, if_true]
    unfold t1ha0_body
    by_cases h32 : 16 < len
    · simp only [if_pos h32]
      refine Causes.after (Grows.ptrAdd _ _) fun _ => Causes.after (Grows.of fun _ => Same.ptrSub cfg _ _) fun _ => ?_
      refine Causes.bind ?_ fun x => Grows.of fun _ => Same.t1ha0_tail ..
      obtain ⟨n, rfl⟩ : ∃ n, len = n + 1 := ⟨len - 1, by omega⟩
      unfold t1ha0_loop
      refine Causes.start (Causes.bind (causes_fetch32 hp) fun _ => Emits.bind (g32 ..) fun _ =>
        Emits.bind (g32 ..) fun _ => Emits.bind (g32 ..) fun _ => Emits.bind (Grows.ptrAdd _ _) fun _ => ?_)
      exact Emits.ite (fun _ => Grows.of fun _ => Same.t1ha0_loop _ _ _ _ _ rfl) fun _ => Emits.pure
    · simp only [if_neg h32, t1ha0_tail_eq]
      exact Causes.bind (causes_first (g32 en) (fun v => t32 en v _) (causes_fetch32 hp) (by decide) hl) fun _ =>
        Emits.pure
  have kl : 8 < len → ∀ st, Causes (.ptr (data - 7)) (t1ha2_LOOP cfg .unaligned st data len) := by
    intro hl st
    unfold t1ha2_LOOP
    refine Causes.after (Grows.ptrAdd _ _) fun _ => Causes.after (Grows.of fun _ => Same.ptrSub cfg _ _) fun _ => ?_
    obtain ⟨n, rfl⟩ : ∃ n, len = n + 1 := ⟨len - 1, by omega⟩
    unfold t1ha2_loop
    refine Causes.start (Causes.after (Grows.ptrAdd _ _) fun _ => Causes.bind ?_ fun _ =>
      Emits.ite (fun _ => Grows.of fun _ => Same.t1ha2_loop ..) fun _ => Emits.pure)
    unfold t1ha2_UPDATE
    exact Causes.bind (causes_fetch64 hp) fun _ => Emits.bind (g64 ..) fun _ => Emits.bind (g64 ..) fun _ =>
      Emits.bind (g64 ..) fun _ => Emits.pure
  cases f
  case t1ha1_le => exact k1 hd hl .little
  case t1ha1_be => exact k1 hd hl .big
  case t1ha0_32le => exact k0 hd hl .little
  case t1ha0_32be => exact k0 hd hl .big
  case t1ha2_atonce st =>
    show Causes (.ptr (data - 7)) (t1ha2_atonce cfg st data len seed)
    unfold t1ha2_atonce
    simp only [if_neg he, a64 hd, if_true]
    unfold t1ha2_atonce_body
    by_cases h32 : 32 < len
    · simp only [if_pos h32]
      exact Causes.bind (kl hl _) fun _ => Grows.of fun _ => Same.t1ha2_TAIL_AB ..
    · simp only [if_neg h32, t1ha2_TAIL_AB, t1ha2_TAIL_AB_mix_eq]
      exact Causes.bind (causes_first (g64 .little) (fun v => t64 .little v _) (causes_fetch64 hp) (by decide) hl)
        fun _ => Emits.pure
  case t1ha2_atonce128 st p =>
    show Causes (.ptr (data - 7)) (t1ha2_atonce128 cfg st p data len seed)
    unfold t1ha2_atonce128
    simp only [if_neg he, a64 hd, if_true]
    unfold t1ha2_atonce128_body
    by_cases h32 : 32 < len
    · simp only [if_pos h32]
      exact Causes.bind (kl hl _) fun _ => Grows.of fun _ => Same.t1ha2_TAIL_ABCD ..
    · simp only [if_neg h32, t1ha2_TAIL_ABCD, t1ha2_TAIL_ABCD_mix_eq]
      refine Causes.bind (causes_first (g64 .little) (fun v => t64 .little v _) (causes_fetch64 hp) (by decide) hl)
        fun _ => ?_
      exact Emits.bind (Grows.of fun _ => Same.writeInt cfg p 8 _ _ (fun _ _ _ => trivial)) fun _ => Emits.pure
  all_goals exact nomatch hf

/-! ## At the ends of the address space -/

theorem aes_a_wraps (ac : AesCfg) {w : World} {s : Sys} {data len : Nat} (h32 : 32 < len)
    (hf : data + len < 2 ^ cfg.bits) (hb : data + len < 127) (seed : U64) :
    t1ha0_ia32aes_a cfg ac data len seed w s = .error .ptrWrap := by
  unfold t1ha0_ia32aes_a
  simp only [if_pos h32, ptrAdd, if_pos hf]
  have e : ptrSub cfg (data + len) 127 = fail .ptrWrap := by unfold ptrSub; rw [if_neg (by omega)]
  show M.bind (pointer (data + len)) _ w s = _
  simp only [M.bind, pointer]
  rw [e]
  rfl

theorem aes_b_wraps (ac : AesCfg) {w : World} {s : Sys} {page data : Nat} {m : List Byte}
    (h : Buf cfg w s.ov page data m) (h32 : 32 < m.length)
    (ht : 2 ^ cfg.bits ≤ data + (if m.length &&& 16 ≠ 0 then 16 else 0) + 112) (seed : U64) :
    t1ha0_ia32aes_avx2 cfg ac data m.length seed w s = .error .ptrWrap := by
  unfold t1ha0_ia32aes_avx2
  have hm : aes_b_mask cfg m.length ≤ m.length := Nat.and_le_left
  have hf := h.fits
  simp only [if_pos h32]
  rw [ptrAdd, if_pos (by omega)]
  show M.bind (pointer _) _ w s = _
  simp only [M.bind, pointer]
  have bad : ∀ {β : Type} (v : Nat) (k : Nat → M β) s, 2 ^ cfg.bits ≤ v + 112 →
      (ptrAdd cfg v (7 * 16) >>= k) w s = .error .ptrWrap := by
    intro β v k s hv
    have e : ptrAdd cfg v (7 * 16) = fail .ptrWrap := by unfold ptrAdd; rw [if_neg (by omega)]
    rw [e]
    rfl
  by_cases h16 : m.length &&& 16 ≠ 0
  · rw [if_pos h16] at ht
    simp only [if_pos h16, bind_assoc]
    have hl : Reads w s.ov (fun _ => True) (range data 16) 0 (load data 16) (m.take 16) :=
      Reads.load (by simpa using h.holds.take 16) (by rw [List.length_take]; omega) trivial
    obtain ⟨v, ov, t, h1, ⟨rfl, rfl⟩, _⟩ := hl (.ptr (data + aes_b_mask cfg m.length) :: s.log)
    show M.bind (loadu data) _ w _ = _
    have hu : ∃ x, loadu data w ⟨.ptr (data + aes_b_mask cfg m.length) :: s.log, s.ov⟩ =
        .ok (x, ⟨t ++ .ptr (data + aes_b_mask cfg m.length) :: s.log, s.ov⟩) := by
      unfold loadu
      refine ⟨BitVec.ofNat 128 (leVal (m.take 16)), ?_⟩
      show M.bind _ _ w _ = _
      simp only [M.bind, h1]
      rfl
    obtain ⟨x, hu⟩ := hu
    simp only [M.bind, hu]
    rw [ptrAdd, if_pos (by omega)]
    show M.bind (pointer _) _ w _ = _
    simp only [M.bind, pointer, pure_bind]
    exact bad _ _ _ ht
  · rw [if_neg h16] at ht
    simp only [if_neg h16, pure_bind]
    exact bad _ _ _ ht

end T1ha.Model
