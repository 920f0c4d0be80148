import Verif.Proofs.Empty
import Verif.Props.Examples

/-!
# 32-bit builds: reading past the page
-/

namespace T1ha.Model

variable {w : World} {ov : Overlay} {cfg : Cfg}

/-- The computation faults. -/
def Faults (w : World) (ov : Overlay) {α : Type} (m : M α) : Prop :=
  ∀ log, m w ⟨log, ov⟩ = .error .fault

theorem Faults.bind {α β : Type} {m : M α} {f : α → M β} (h : Faults w ov m) :
    Faults w ov (m >>= f) := by
  intro log
  show M.bind m f w ⟨log, ov⟩ = _
  simp only [M.bind, h log]

theorem faults_load {p n : Nat} (h : ∀ t, ∃ i, i < n ∧ w.cell t (p + i) = none) :
    Faults w ov (load p n) := by
  intro log
  have : ∀ t p n, (∃ i, i < n ∧ w.cell t (p + i) = none) → seeBytes w ov t p n = none := by
    intro t p n
    induction n generalizing p with
    | zero => rintro ⟨i, hi, _⟩; omega
    | succ n ih =>
      rintro ⟨i, hi, hc⟩
      unfold seeBytes
      cases i with
      | zero =>
        have : see w ov t p = none := by
          unfold see
          rw [show p = p + 0 from rfl, hc]; rfl
        rw [this]
      | succ i =>
        rw [ih (p + 1) ⟨i, by omega, by rw [show p + 1 + i = p + (i + 1) by omega, hc]⟩]
        split <;> first | rfl | simp_all
  simp only [load, this _ p n (h log.length)]

theorem faults_fetch64 {e : Endian} {p : Nat} (ha : p % cfg.alignment64 = 0)
    (h : ∀ t, ∃ i, i < 8 ∧ w.cell t (p + i) = none) : Faults w ov (fetch64 cfg e .aligned p) := by
  have hl := faults_load (ov := ov) h
  have key : ∀ {α : Type} (k : Nat → M α), Faults w ov (do
      cassert cfg (p % cfg.alignment64 == 0)
      let x ← read_aligned cfg p 8
      k x) := by
    intro α k
    have hc : cassert cfg (p % cfg.alignment64 == 0) = pure () := by
      unfold cassert
      rw [ha]
      split <;> rfl
    rw [hc, pure_bind]
    refine Faults.bind ?_
    unfold read_aligned
    rw [if_pos (Or.inr (by simpa using ha)), readInt]
    exact hl.bind
  cases e
  · exact key _
  · show Faults w ov (fetch64_be_aligned cfg p)
    unfold fetch64_be_aligned
    split
    · exact hl.bind
    · exact key _

theorem faults_tail64 {e : Endian} {p n : Nat} (ho : cfg.alignedOneshot = true)
    (ha : p % cfg.alignment64 = 0)
    (h : ∀ t, ∃ i, i < 8 ∧ w.cell t (p + i) = none) : Faults w ov (tail64 cfg e .aligned p n) := by
  have := faults_fetch64 (cfg := cfg) (ov := ov) (e := e) ha h
  cases e
  · show Faults w ov (tail64_le_aligned cfg p n)
    unfold tail64_le_aligned
    rw [if_pos ho]
    exact this.bind
  · show Faults w ov (tail64_be_aligned cfg p n)
    unfold tail64_be_aligned
    rw [if_pos ho]
    exact this.bind

theorem faults_steps {σ : Type} {tail : Nat → Nat → M U64} {fetch : Nat → M U64}
    {f : Nat → σ → U64 → σ} {len v : Nat} {s : σ} (h0 : 0 < len) (h8 : len ≤ 8)
    (h : Faults w ov (tail v len)) : Faults w ov (steps cfg 8 fetch tail f len 3 s v) := by
  simp only [steps]
  rw [if_neg (by omega), pure_bind, if_neg (by omega), pure_bind, if_neg (by omega), pure_bind,
    if_pos h0]
  exact h.bind

/-- Few bytes at an address which is a multiple of 4, before an unmapped byte. -/
theorem faults_short (f : OneShot) (hf : f = .t1ha1_le ∨ f = .t1ha1_be ∨ (∃ g, f = .t1ha2_atonce g) ∨
      ∃ g p, f = .t1ha2_atonce128 g p)
    (hs : ¬ cfg.SafeTail) {data len : Nat} (ha : data % 4 = 0) (h0 : 0 < len) (h8 : len ≤ 8)
    (h : ∀ t, ∃ i, i < 8 ∧ w.cell t (data + i) = none) (seed : U64) :
    Faults w ov (f.run cfg data len seed) := by
  simp only [Cfg.SafeTail, not_or, Bool.not_eq_false] at hs
  obtain ⟨hw, he, ho⟩ := hs
  have h4 : cfg.alignment64 = 4 := by unfold Cfg.alignment64; rw [if_neg hw]
  have hm : ¬ ((data &&& (cfg.alignment64 - 1) != 0) = true) := by
    rw [h4, show data &&& (4 - 1) = data % 4 from Nat.and_two_pow_sub_one_eq_mod data 2, ha]
    decide
  have ht : ∀ e, Faults w ov (tail64 cfg e .aligned data len) :=
    fun e => faults_tail64 ho (by rw [h4]; exact ha) h
  have h32 : ¬ 32 < len := by omega
  have k1 : ∀ e, Faults w ov (t1ha1 cfg e data len seed) := by
    intro e
    unfold t1ha1
    simp only [if_neg he, if_neg hm]
    unfold t1ha1_body
    simp only [if_neg h32, t1ha1_tail_eq]
    exact (faults_steps h0 h8 (ht e)).bind
  rcases hf with rfl | rfl | ⟨g, rfl⟩ | ⟨g, p, rfl⟩
  · exact k1 .little
  · exact k1 .big
  · show Faults w ov (t1ha2_atonce cfg g data len seed)
    unfold t1ha2_atonce
    simp only [if_neg he, if_neg hm]
    unfold t1ha2_atonce_body
    simp only [if_neg h32, t1ha2_TAIL_AB, t1ha2_TAIL_AB_mix_eq]
    exact (faults_steps h0 h8 (ht .little)).bind
  · show Faults w ov (t1ha2_atonce128 cfg g p data len seed)
    unfold t1ha2_atonce128
    simp only [if_neg he, if_neg hm]
    unfold t1ha2_atonce128_body
    simp only [if_neg h32, t1ha2_TAIL_ABCD, t1ha2_TAIL_ABCD_mix_eq]
    exact (faults_steps h0 h8 (ht .little)).bind

end T1ha.Model
