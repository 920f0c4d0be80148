import Verif.Props.Api
import Verif.Proofs.Mem
import Verif.Proofs.T1ha0
import Verif.Proofs.T1ha1
import Verif.Proofs.Aes

/-!
# All one-shot functions at once
-/

namespace T1ha.Model

variable {w : World} {ov : Overlay} {cfg : Cfg}

/-- Which events a call may cause. -/
def OneShot.foot (f : OneShot) (cfg : Cfg) (page data len : Nat) (x : Ev) : Prop :=
  (if f.words64 then Foot cfg page data len x else Foot32 cfg page data len x) ∨
    (∃ p, f.output = some p ∧ x = .wr p 8) ∨
    (f.aes = true ∧ ∃ a, x = .ptr a ∧ data ≤ a + 94 ∧ a ≤ data + len + 112)

/-- Overlay after a call. -/
def OneShot.after (f : OneShot) (cfg : Cfg) (m : List Byte) (seed : U64) (ov : Overlay) : Overlay :=
  match f.output with
  | none => ov
  | some p => put ov p (cfg.endian.bytes 8 (Spec.t1ha2_atonce128 m seed).2.toNat)

theorem OneShot.exec (f : OneShot) {page data : Nat} {m : List Byte} (h : Buf cfg w ov page data m)
    (r : f.Ready cfg w data m.length) (seed : U64) :
    Exec w ov (f.foot cfg page data m.length) (range data m.length) (f.blocks m.length)
      (f.run cfg data m.length seed)
      (fun x o => x = f.hash m seed ∧ o = f.after cfg m seed ov) := by
  have hf : f.words64 = true → ∀ x, Foot cfg page data m.length x → f.foot cfg page data m.length x :=
    fun h x hx => Or.inl (by rw [h]; exact hx)
  have hf32 : f.words64 = false → ∀ x, Foot32 cfg page data m.length x →
      f.foot cfg page data m.length x :=
    fun h x hx => Or.inl (by rw [h]; exact hx)
  have hfa : f.words64 = true → f.aes = true → ∀ x, FootAes cfg page data m.length x →
      f.foot cfg page data m.length x :=
    fun h ha x hx => hx.elim (fun hx => hf h x hx) (fun hx => Or.inr (Or.inr ⟨ha, hx⟩))
  cases f with
  | t1ha1_le =>
    exact (reads_t1ha1 (e := .little) h (r.slack rfl) (fun h => nomatch h) seed).mono (fun _ _ h => h) (hf rfl)
      (fun _ h => h) rfl
  | t1ha1_be =>
    exact (reads_t1ha1 (e := .big) h (r.slack rfl) (fun _ => r.builds rfl) seed).mono (fun _ _ h => h) (hf rfl)
      (fun _ h => h) rfl
  | t1ha2_atonce g =>
    exact (reads_atonce h (r.slack rfl) g seed).mono (fun _ _ h => h) (hf rfl) (fun _ h => h) rfl
  | t1ha2_atonce128 g extra =>
    refine (exec_atonce128 h (r.slack rfl) (r.output extra rfl) g seed).mono (fun _ _ h => h) ?_
      (fun _ h => h) rfl
    rintro x (hx | hx)
    · exact hf rfl x hx
    · exact Or.inr (Or.inl ⟨extra, rfl, hx⟩)
  | t1ha0_32le =>
    exact (reads_t1ha0_32 h seed).mono (fun _ _ h => h) (hf32 rfl) (fun _ h => h) rfl
  | t1ha0_32be =>
    exact (reads_t1ha0_32 h seed).mono (fun _ _ h => h) (hf32 rfl) (fun _ h => h) rfl
  | t1ha0_ia32aes_noavx ac =>
    exact (reads_aes_a h (r.slack rfl) ac seed (r.bottom ac (Or.inl rfl))).mono (fun _ _ h => h)
      (hfa rfl rfl) (fun _ h => h) rfl
  | t1ha0_ia32aes_avx ac =>
    exact (reads_aes_a h (r.slack rfl) ac seed (r.bottom ac (Or.inr rfl))).mono (fun _ _ h => h)
      (hfa rfl rfl) (fun _ h => h) rfl
  | t1ha0_ia32aes_avx2 ac =>
    exact (reads_aes_b h (r.slack rfl) ac seed (r.top ac rfl) (r.ulong ac rfl)).mono (fun _ _ h => h)
      (hfa rfl rfl) (fun _ h => h) rfl

/-- The same, unfolded. -/
theorem OneShot.returns (f : OneShot) {page data : Nat} {m : List Byte} {s : Sys}
    (h : Buf cfg w s.ov page data m) (r : f.Ready cfg w data m.length) (seed : U64) :
    ∃ t, Returns (f.run cfg data m.length seed) w s (f.hash m seed)
        ⟨t ++ s.log, f.after cfg m seed s.ov⟩ t ∧
      (∀ x ∈ t, f.foot cfg page data m.length x) ∧
      (∀ a, range data m.length a → ∃ x ∈ t, x.covers a) ∧
      t.count .iter = f.blocks m.length := by
  obtain ⟨v, ov', t, h1, ⟨h2, h3⟩, h4, h5, h6⟩ := f.exec h r seed s.log
  subst h2 h3
  exact ⟨t, ⟨h1, rfl⟩, h4, h5, h6⟩

end T1ha.Model
