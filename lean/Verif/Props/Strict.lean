import Verif.Proofs.Strict
import Verif.Proofs.Misaligned
import Verif.Proofs.OneShot

/-!
# Misaligned accesses: C44

A processor which requires alignment traps if a word is read at an address which is not a multiple of its
size. (In builds for 32-bit processors the library takes 4 for the alignment of 64-bit integers.)
-/

namespace T1ha.Props

open Model Examples

variable {cfg : Cfg} {w : World} {s : Sys} {page data : Nat} {m : List Byte}

/-- C44: in builds with `T1HA_SYS_UNALIGNED_ACCESS` = `T1HA_UNALIGNED_ACCESS__UNABLE`, wherever the message
lies, the portable functions read single bytes, or integers of 2, 4, 8 bytes at aligned addresses. -/
theorem strict_alignment (f : OneShot) (hf : f = .t1ha1_le ∨ f = .t1ha1_be ∨ (∃ g, f = .t1ha2_atonce g) ∨
      (∃ g p, f = .t1ha2_atonce128 g p) ∨ f = .t1ha0_32le ∨ f = .t1ha0_32be)
    (hu : cfg.unaligned = .unable) (h : Buf cfg w s.ov page data m)
    (r : f.Ready cfg w data m.length) (seed : U64) :
    ∃ v s' t, Returns (f.run cfg data m.length seed) w s v s' t ∧
      ∀ p n, Ev.rd p n ∈ t → n = 1 ∨ (n = 2 ∧ p % 2 = 0) ∨ (n = 4 ∧ p % 4 = 0) ∨
        (n = 8 ∧ p % (if cfg.ptr64 = true ∨ cfg.ulong64 = true then 8 else 4) = 0) := by
  obtain ⟨t, h1, _⟩ := f.returns h r seed
  have hem : Emits (Natural cfg) (f.run cfg data m.length seed) := by
    rcases hf with rfl | rfl | ⟨g, rfl⟩ | ⟨g, p, rfl⟩ | rfl | rfl
    · exact Emits.t1ha1 hu ..
    · exact Emits.t1ha1 hu ..
    · exact Emits.t1ha2_atonce hu ..
    · exact Emits.t1ha2_atonce128 hu ..
    · exact Emits.t1ha0_32 hu ..
    · exact Emits.t1ha0_32 hu ..
  obtain ⟨u, e, hu'⟩ := hem.run _ _ _ _ h1.1
  have : t = u := List.append_cancel_right (h1.2.symm.trans e)
  subst this
  refine ⟨_, _, t, h1, fun p n hp => ?_⟩
  have := hu' _ hp
  simp only [Natural, Cfg.alignment64, Cfg.word64, Bool.or_eq_true] at this
  exact this

/-- A message of any length up to a page, at any address (of either parity), on a big-endian 64-bit machine
with one-shot reads. -/
example (n : Nat) (hn : n ≤ 4096) (seed : U64) : ∃ v s' t,
    Returns (OneShot.t1ha1_be.run { mips32 with ptr64 := true } (8192 - n) (msg n).length seed) (atEnd n)
      start v s' t ∧
    ∀ p n, Ev.rd p n ∈ t → n = 1 ∨ (n = 2 ∧ p % 2 = 0) ∨ (n = 4 ∧ p % 4 = 0) ∨ (n = 8 ∧ p % 8 = 0) :=
  strict_alignment .t1ha1_be (Or.inr (Or.inl rfl)) rfl (buf_atEnd _ rfl n hn)
    (ready_atEnd _ _ n hn (by decide) (by decide) fun _ h => nomatch h) seed

/-- C44, builds for processors with efficient unaligned accesses are different: a message of 9 to 32 bytes
is read with a load of 8 bytes at its first byte, wherever it lies; here the load is made through a plain
pointer to `uint64_t` (src/t1ha_bits.h:410), so for a misaligned message the behaviour of the C program is
not defined, and instructions for which the processor insists on alignment would trap. -/
theorem efficient_is_misaligned (f : OneShot) (hf : f = .t1ha1_le ∨ f = .t1ha1_be ∨
      (∃ g, f = .t1ha2_atonce g) ∨ ∃ g p, f = .t1ha2_atonce128 g p)
    (he : cfg.unaligned = .efficient) (h : Buf cfg w s.ov page data m)
    (r : f.Ready cfg w data m.length) (h8 : 8 < m.length) (h32 : m.length ≤ 32) (seed : U64) :
    ∃ v s' t, Returns (f.run cfg data m.length seed) w s v s' t ∧ Ev.rd data 8 ∈ t := by
  obtain ⟨v, o, t, h1, _, h3, h4, _⟩ := exec_word f hf he h r h8 h32 seed s.log
  obtain ⟨x, hx, hc⟩ := h4 data ⟨Nat.le_refl _, by omega⟩
  have := h3 x hx hc
  subst this
  exact ⟨v, _, t, ⟨h1, rfl⟩, hx⟩

/-- 21 bytes at an odd address. -/
example (seed : U64) : ∃ v s' t,
    Returns (OneShot.t1ha1_le.run amd64 8171 21 seed) (atEnd 21) start v s' t ∧ Ev.rd 8171 8 ∈ t := by
  have := efficient_is_misaligned .t1ha1_le (Or.inl rfl) rfl (buf_atEnd amd64 rfl 21 (by decide))
    (ready_atEnd _ _ 21 (by decide) (by decide) (by decide) fun _ h => nomatch h)
    (by rw [length_msg]; decide) (by rw [length_msg]; decide) seed
  rw [length_msg] at this
  exact this

end T1ha.Props
