import Verif.Proofs.Pages
import Verif.Proofs.Steps
import Verif.Proofs.Arith

/-!
# Regions of memory which may be hashed
-/

namespace T1ha.Model

variable {w : World} {ov : Overlay} {cfg : Cfg} {P : Ev → Prop} {al : Aligness} {lo hi : Nat} {σ : Type}

/-- The bytes from `lo` to `hi` may be read by the 64-bit functions: words inside, and the tail. -/
structure Region (cfg : Cfg) (al : Aligness) (w : World) (P : Ev → Prop) (lo hi : Nat) : Prop where
  hi_lt : hi < 2 ^ cfg.bits
  sub : ∀ q k, lo ≤ q → q + k ≤ hi → Sub (cfg.gap al 8) P q k
  iter : P .iter
  ptr : ∀ a, lo ≤ a → a ≤ hi → P (.ptr a)
  tail : ∀ q k, 1 ≤ k → k ≤ 8 → lo ≤ q → q + k = hi → AlOk cfg al q → TailOk cfg al w P q k

/-- Same for the 32-bit functions. -/
structure Region32 (cfg : Cfg) (al : Aligness) (w : World) (P : Ev → Prop) (lo hi : Nat) : Prop where
  hi_lt : hi < 2 ^ cfg.bits
  sub : ∀ q k, lo ≤ q → q + k ≤ hi → Sub (cfg.gap al 4) P q k
  iter : P .iter
  ptr : ∀ a, lo ≤ a → a ≤ hi → P (.ptr a)
  tail : ∀ q k, 1 ≤ k → k ≤ 4 → lo ≤ q → q + k = hi → AlOk32 al q → TailOk32 cfg al w P q k

theorem AlOk.add {p j : Nat} (h : AlOk cfg al p) : AlOk cfg al (p + 8 * j) := by
  intro ha
  have := h ha
  rcases alignment64_cases cfg with hc | hc <;> rw [hc] at this ⊢ <;> omega

theorem AlOk.add32 {p j : Nat} (h : AlOk cfg al p) : AlOk cfg al (p + 32 * j) := by
  intro ha
  have := h ha
  rcases alignment64_cases cfg with hc | hc <;> rw [hc] at this ⊢ <;> omega

theorem AlOk32.add16 {p j : Nat} (h : AlOk32 al p) : AlOk32 al (p + 16 * j) := by
  intro ha
  have := h ha
  omega

theorem AlOk32.add {p j : Nat} (h : AlOk32 al p) : AlOk32 al (p + 4 * j) := by
  intro ha
  have := h ha
  omega

/-- Reading the words of the tail. -/
theorem Region.steps {e : Endian} (hr : Region cfg al w P lo hi) (hb : e = .big → cfg.Buildable)
    {v len : Nat} {r : List Byte} (f : Nat → σ → U64 → σ) (s : σ) (ha : AlOk cfg al v)
    (hh : Holds w ov v r) (hlo : lo ≤ v) (hhi : v + r.length = hi) (hlen : r.length = len)
    (h32 : len ≤ 32) :
    Reads w ov P (range v len) 0
      (Model.steps cfg 8 (fetch64 cfg e al) (tail64 cfg e al) f len 3 s v)
      (tailFold f (Spec.words64 e r) s) := by
  subst hlen
  have hlt := hr.hi_lt
  refine reads_steps (w := w) (ov := ov) (P := P) (k := 8) (v0 := v) (e0 := hi)
    (word := fun x => BitVec.ofNat 64 (e.val x)) (by decide) hr.hi_lt ?_
    (fun a h1 h2 => hr.ptr a (by omega) h2) ?_ 3 s 0 v r (by omega) hh hhi
    (by omega) (Nat.le_refl _) rfl (Or.inl rfl)
  · intro j x hx hx' he
    exact reads_fetch64 hx' hx (hr.sub _ _ (by omega) (by omega)) ha.add
  · intro j x h1 h8 hx he hm
    exact reads_tail64 hx rfl h1 h8 (by omega) hm hb (hr.tail _ _ h1 h8 (by omega) he ha.add)

theorem Region32.steps {e : Endian} (hr : Region32 cfg al w P lo hi)
    {v len : Nat} {r : List Byte} (f : Nat → σ → U32 → σ) (s : σ) (ha : AlOk32 al v)
    (hh : Holds w ov v r) (hlo : lo ≤ v) (hhi : v + r.length = hi) (hlen : r.length = len)
    (h16 : len ≤ 16) :
    Reads w ov P (range v len) 0
      (Model.steps cfg 4 (fetch32 cfg e al) (tail32 cfg e al) f len 3 s v)
      (tailFold f (Spec.words32 e r) s) := by
  subst hlen
  have hlt := hr.hi_lt
  refine reads_steps (w := w) (ov := ov) (P := P) (k := 4) (v0 := v) (e0 := hi)
    (word := fun x => BitVec.ofNat 32 (e.val x)) (by decide) hr.hi_lt ?_
    (fun a h1 h2 => hr.ptr a (by omega) h2) ?_ 3 s 0 v r (by omega) hh hhi
    (by omega) (Nat.le_refl _) rfl (Or.inl rfl)
  · intro j x hx hx' he
    exact reads_fetch32 hx' hx (hr.sub _ _ (by omega) (by omega)) ha.add
  · intro j x h1 h4 hx he hm
    exact reads_tail32 hx rfl h1 h4 (by omega) hm (hr.tail _ _ h1 h4 (by omega) he ha.add)

/-- The `i`-th word of a block in memory. -/
theorem Region.word {e : Endian} (hr : Region cfg al w P lo hi) {v i : Nat} {r : List Byte}
    (ha : AlOk cfg al v) (hh : Holds w ov v r) (hlo : lo ≤ v) (hhi : v + 32 ≤ hi)
    (hl : 32 ≤ r.length) (hi4 : i < 4) :
    Reads w ov P (range (v + 8 * i) 8) 0 (fetch64 cfg e al (v + 8 * i))
      (Spec.word64 e (r.take 32) i) :=
  reads_fetch64 ((hh.take 32).slice (8 * i) 8)
    (by simp only [List.length_take, List.length_drop]; omega) (hr.sub _ _ (by omega) (by omega)) ha.add

theorem Region32.word {e : Endian} (hr : Region32 cfg al w P lo hi) {v i : Nat} {r : List Byte}
    (ha : AlOk32 al v) (hh : Holds w ov v r) (hlo : lo ≤ v) (hhi : v + 16 ≤ hi)
    (hl : 16 ≤ r.length) (hi4 : i < 4) :
    Reads w ov P (range (v + 4 * i) 4) 0 (fetch32 cfg e al (v + 4 * i))
      (Spec.word32 e (r.take 16) i) :=
  reads_fetch32 ((hh.take 16).slice (4 * i) 4)
    (by simp only [List.length_take, List.length_drop]; omega) (hr.sub _ _ (by omega) (by omega)) ha.add

/-- A buffer is a region. -/
theorem Buf.region {page data : Nat} {m : List Byte} (h : Buf cfg w ov page data m)
    (hslack : cfg.SafeTail ∨ Mapped w (data + m.length) 8)
    (hal : al = .aligned → cfg.unaligned ≠ .efficient) :
    Region cfg al w (Foot cfg page data m.length) data (data + m.length) where
  hi_lt := h.fits
  sub := fun _ _ h1 h2 => sub_foot h.above h1 h2
  iter := trivial
  ptr := fun _ h1 h2 => ⟨by omega, h2⟩
  tail := fun _ _ h1 h8 hlo he ha => tailOk h hslack hal h1 h8 hlo he ha

theorem Buf.region32 {page data : Nat} {m : List Byte} (h : Buf cfg w ov page data m) :
    Region32 cfg al w (Foot32 cfg page data m.length) data (data + m.length) where
  hi_lt := h.fits
  sub := fun _ _ h1 h2 => sub_foot32 h.above h1 h2
  iter := trivial
  ptr := fun _ h1 h2 => ⟨by omega, h2⟩
  tail := fun _ _ h1 h4 hlo he ha => tailOk32 h h1 h4 hlo he ha

theorem Region.mono {P' : Ev → Prop} (h : Region cfg al w P lo hi) (hP : ∀ x, P x → P' x) :
    Region cfg al w P' lo hi where
  hi_lt := h.hi_lt
  sub := fun q k h1 h2 => (h.sub q k h1 h2).imp hP
  iter := hP _ h.iter
  ptr := fun a h1 h2 => hP _ (h.ptr a h1 h2)
  tail := by
    intro q k h1 h2 h3 h4 h5
    have := h.tail q k h1 h2 h3 h4 h5
    have hs : ∀ {d} q k, Sub d P q k → Sub d P' q k := fun q k h => h.imp hP
    revert this
    cases al with
    | aligned =>
      simp only [TailOk]
      by_cases c : cfg.alignedOneshot = true
      · simp only [if_pos c]
        exact fun h => ⟨h.1, h.2.1, hs _ _ h.2.2⟩
      · simp only [if_neg c]
        exact fun h => ⟨h.1, hs _ _ h.2⟩
    | unaligned =>
      simp only [TailOk]
      by_cases c : (cfg.canReadUnderside && cfg.word64) = true
      · by_cases d : can_read_underside cfg q 8 = true
        · simp only [if_pos c, if_pos d]
          exact fun h => ⟨h.1, hP _ h.2.1, h.2.2.1, hs _ _ h.2.2.2⟩
        · simp only [if_pos c, if_neg d]
          exact fun h => ⟨h.1, hs _ _ h.2⟩
      · simp only [if_neg c]
        exact fun h => hs _ _ h

/-- The test for misalignment. -/
theorem misaligned_false {p : Nat} (h : ¬ ((p &&& (cfg.alignment64 - 1) != 0) = true)) :
    AlOk cfg .aligned p := by
  intro _
  simp only [bne_iff_ne, ne_eq, Decidable.not_not] at h
  rcases alignment64_cases cfg with hc | hc
  · rw [hc] at h ⊢
    rwa [show 8 - 1 = 2 ^ 3 - 1 from rfl, Nat.and_two_pow_sub_one_eq_mod] at h
  · rw [hc] at h ⊢
    rwa [show 4 - 1 = 2 ^ 2 - 1 from rfl, Nat.and_two_pow_sub_one_eq_mod] at h

theorem misaligned_false32 {p : Nat} (h : ¬ ((p &&& (4 - 1) != 0) = true)) :
    AlOk32 .aligned p := by
  intro _
  simp only [bne_iff_ne, ne_eq, Decidable.not_not] at h
  rwa [show 4 - 1 = 2 ^ 2 - 1 from rfl, Nat.and_two_pow_sub_one_eq_mod] at h

theorem AlOk.unaligned {p : Nat} : AlOk cfg .unaligned p := fun h => nomatch h

theorem AlOk32.unaligned {p : Nat} : AlOk32 .unaligned p := fun h => nomatch h

/-- Number of iterations of the block loop. -/
def loops (block len : Nat) : Nat := if block < len then len / block else 0

theorem and_31 (n : Nat) : n &&& 31 = n % 32 := Nat.and_two_pow_sub_one_eq_mod n 5

theorem and_15 (n : Nat) : n &&& 15 = n % 16 := Nat.and_two_pow_sub_one_eq_mod n 4

theorem length_rest (k : Nat) (m : List Byte) : (Spec.rest k m).length = m.length % k := by
  rw [Spec.rest, List.length_drop, Nat.mod_eq_sub]

end T1ha.Model
