import Verif.Proofs.Empty
import Verif.Props.Examples

/-!
# Builds for processors with efficient unaligned access: words are read where the message begins
-/

namespace T1ha.Model

variable {w : World} {ov : Overlay} {cfg : Cfg} {data : Nat}

/-- An event which reads the byte at `data` reads eight bytes, beginning with that one. -/
def Word (data : Nat) (x : Ev) : Prop := x.covers data → x = .rd data 8

theorem word_after {a n : Nat} (h : data < a) : Word data (.rd a n) := by
  intro hc
  have : a ≤ data := hc.1
  omega

theorem sub_word0 {a n : Nat} (h : data < a) : Sub 0 (Word data) a n :=
  ⟨fun _ _ h1 _ => word_after (by omega), fun h => absurd h (Nat.lt_irrefl _)⟩

theorem sub_word (he : cfg.unaligned = .efficient) {a n : Nat} (h : data < a) {al : Aligness} {k : Nat} :
    Sub (cfg.gap al k) (Word data) a n :=
  (sub_word0 h).noGap (Nat.le_refl _) (Nat.le_refl _) (by rw [he]; decide)

theorem reads_word {e : Endian} {p : Nat} {m : List Byte} (he : cfg.unaligned = .efficient)
    (hh : Holds w ov p m) (hl : m.length = 8) (hp : data ≤ p) :
    Reads w ov (Word data) (range p 8) 0 (fetch64 cfg e .unaligned p) (BitVec.ofNat 64 (e.val m)) := by
  by_cases h : data < p
  · exact reads_fetch64 hh hl (sub_word he h) (fun h => nomatch h)
  · obtain rfl : p = data := by omega
    have hm := hh.mapped
    rw [hl] at hm
    have hn : ¬ cfg.unaligned = .unable := by rw [he]; decide
    have hx : ¬ cfg.proxy = true := by simp [Cfg.proxy, he]
    have key := exec_readInt (cfg := cfg) (ov := ov) (P := Word p) hm (fun _ => rfl)
    refine Fetched.reads ?_ hh hl
    cases e
    · show Exec _ _ _ _ _ (fetch64_le_unaligned cfg p) _
      unfold fetch64_le_unaligned read_unaligned
      rw [if_neg hn, if_neg hx]
      refine Exec.bindL key ?_
      rintro x _ ⟨rfl, bs, hl, hs, rfl⟩
      split
      · rename_i he
        exact Exec.pure _ ⟨rfl, bs, hl, hs, by rw [he]⟩
      · rename_i he
        refine Exec.pure _ ⟨rfl, bs, hl, hs, ?_⟩
        rw [bswap64_eq, toNat_ofNat_val (k := 8) _ _ hl (by decide), bswap_val _ _ hl, he]
        rfl
    · show Exec _ _ _ _ _ (fetch64_be_unaligned cfg p) _
      unfold fetch64_be_unaligned read_unaligned
      rw [if_neg hn, if_neg hx]
      refine Exec.bindL key ?_
      rintro x _ ⟨rfl, bs, hl, hs, rfl⟩
      split
      · rename_i he
        exact Exec.pure _ ⟨rfl, bs, hl, hs, by rw [he]⟩
      · rename_i he
        refine Exec.pure _ ⟨rfl, bs, hl, hs, ?_⟩
        rw [bswap64_eq, toNat_ofNat_val (k := 8) _ _ hl (by decide), bswap_val _ _ hl, he]
        rfl

theorem tailOk_word (he : cfg.unaligned = .efficient) {P : Ev → Prop} {p k : Nat} (h : TailOk cfg .unaligned w P p k) (h1 : 1 ≤ k)
    (hp : data + 8 ≤ p) : TailOk cfg .unaligned w (Word data) p k := by
  simp only [TailOk] at h ⊢
  split <;> rename_i g
  · rw [if_pos g] at h
    split <;> rename_i g'
    · rw [if_pos g'] at h
      exact ⟨h.1, fun hc => hc.elim, h.2.2.1, sub_word he (by omega)⟩
    · rw [if_neg g'] at h
      exact ⟨h.1, sub_word he (by omega)⟩
  · exact sub_word0 (by omega)

theorem reads_word_steps {e : Endian} {σ : Type} {page : Nat} {m : List Byte}
    (he : cfg.unaligned = .efficient) (hb : e = .big → cfg.Buildable) (h : Buf cfg w ov page data m)
    (h8 : 8 < m.length) (h32 : m.length ≤ 32) (f : Nat → σ → U64 → σ) (s : σ) :
    Reads w ov (Word data) (range data m.length) 0
      (steps cfg 8 (fetch64 cfg e .unaligned) (tail64 cfg e .unaligned) f m.length 3 s data)
      (tailFold f (Spec.words64 e m) s) := by
  have hr := h.region (al := .unaligned) (Or.inl (Or.inr (Or.inl he))) (fun h => nomatch h)
  have hlt := h.fits
  refine reads_steps (w := w) (ov := ov) (k := 8) (v0 := data) (e0 := data + m.length)
    (word := fun x => BitVec.ofNat 64 (e.val x)) (by decide) hlt ?_ (fun _ _ _ hc => hc.elim)
    ?_ 3 s 0 data m (by omega) h.holds rfl
    (by omega) (Nat.le_refl _) rfl (Or.inl rfl)
  · intro j x hx hx' he'
    exact reads_word he hx' hx (by omega)
  · intro j x h1 h8 hx he' hm
    exact reads_tail64 hx rfl h1 h8 (by omega) hm hb
      (tailOk_word he (hr.tail _ _ h1 h8 (by omega) he' (fun h => nomatch h)) h1 (by omega))

/-- Functions which fetch 64-bit words. -/
theorem exec_word (f : OneShot) (hf : f = .t1ha1_le ∨ f = .t1ha1_be ∨ (∃ g, f = .t1ha2_atonce g) ∨
      ∃ g p, f = .t1ha2_atonce128 g p)
    {page : Nat} {m : List Byte} (he : cfg.unaligned = .efficient) (h : Buf cfg w ov page data m)
    (hr : f.Ready cfg w data m.length) (h8 : 8 < m.length) (h32 : m.length ≤ 32) (seed : U64) :
    Exec w ov (Word data) (range data m.length) 0 (f.run cfg data m.length seed) (fun _ _ => True) := by
  have h32' : ¬ 32 < m.length := by omega
  have k1 : ∀ e, (e = .big → cfg.Buildable) →
      Exec w ov (Word data) (range data m.length) 0 (t1ha1 cfg e data m.length seed) (fun _ _ => True) := by
    intro e hb
    unfold t1ha1
    rw [if_pos he]
    unfold t1ha1_body
    simp only [if_neg h32', t1ha1_tail_eq]
    exact Exec.bindL (reads_word_steps he hb h h8 h32 _ _) (fun _ _ _ => Exec.pure _ trivial)
  rcases hf with rfl | rfl | ⟨g, rfl⟩ | ⟨g, p, rfl⟩
  · exact k1 .little (fun h => nomatch h)
  · exact k1 .big (fun _ => hr.builds rfl)
  · show Exec w ov _ _ _ (t1ha2_atonce cfg g data m.length seed) _
    unfold t1ha2_atonce
    rw [if_pos he]
    unfold t1ha2_atonce_body
    simp only [if_neg h32', t1ha2_TAIL_AB, t1ha2_TAIL_AB_mix_eq]
    exact Exec.bindL (reads_word_steps (e := .little) he (fun h => nomatch h) h h8 h32 _ _)
      (fun _ _ _ => Exec.pure _ trivial)
  · show Exec w ov _ _ _ (t1ha2_atonce128 cfg g p data m.length seed) _
    unfold t1ha2_atonce128
    rw [if_pos he]
    unfold t1ha2_atonce128_body
    simp only [if_neg h32', t1ha2_TAIL_ABCD, t1ha2_TAIL_ABCD_mix_eq]
    refine Exec.bindL (reads_word_steps (e := .little) he (fun h => nomatch h) h h8 h32 _ _) (fun _ _ _ => ?_)
    exact Exec.bindL (Exec.writeInt (hr.output p rfl) (fun h => nomatch h)) (fun _ _ _ => Exec.pure _ trivial)

end T1ha.Model
