import Verif.Props.Xxh3Inj

/-!
# One XXH3 hash of a known very short message reveals the seed: C104
-/

namespace T1ha.Props

open Model Examples

variable {cfg : Cfg} {x : Xxh3} {w : World} {s : Sys} {data : Nat} {m : List Byte}

theorem sub_undo {a b c : U64} (h : a - b = a - c) : b = c := by
  have h1 : a - b + b + c = a - c + b + c := by rw [h]
  rw [BitVec.sub_add_cancel, BitVec.add_assoc, BitVec.add_comm b c, ← BitVec.add_assoc, BitVec.sub_add_cancel] at h1
  exact (add_left_cancel' h1).symm

theorem xxh3Seed_inj : Function.Injective Spec.xxh3Seed := by
  intro a b h
  have hlow : ∀ (z : U64) (y : U64), (z ^^^ (y <<< 32)).setWidth 32 = z.setWidth 32 := fun z y => by
    refine BitVec.eq_of_getLsbD_eq fun i hi => ?_
    rw [BitVec.getLsbD_setWidth, BitVec.getLsbD_setWidth, BitVec.getLsbD_xor, BitVec.getLsbD_shiftLeft, decide_eq_true hi]
    simp
  unfold Spec.xxh3Seed at h
  have h1 := congrArg (BitVec.setWidth 32) h
  rw [hlow, hlow] at h1
  rw [h1] at h
  exact xor_right_undo h

theorem xxh3_seed_inj (hm : m.length ≤ 8) : Function.Injective fun seed => Spec.xxh3WithSeed m seed := by
  intro a b h
  simp only at h
  unfold Spec.xxh3WithSeed Spec.xxh3 at h
  rw [if_pos (by omega), if_pos (by omega)] at h
  unfold Spec.xxh3Short Spec.len64 at h
  by_cases h0 : m.length = 0
  · rw [if_pos h0, if_pos h0] at h
    exact xor_right_undo (avalanche64_inj h)
  · rw [if_neg h0, if_neg h0] at h
    by_cases h3 : m.length ≤ 3
    · rw [if_pos h3, if_pos h3] at h
      exact add_left_cancel' (xor_left_cancel (avalanche64_inj h))
    · rw [if_neg h3, if_neg h3, if_pos hm, if_pos hm] at h
      exact xxh3Seed_inj (sub_undo (xor_left_cancel (rrmxmx_inj hm h)))

/-- C104: a message of up to 8 bytes has every 64-bit number as its XXH3 hash, each under exactly one seed. -/
theorem xxh3_seed_revealed (h : Message cfg w s.ov data m) (hm : m.length ≤ 8)
    (hx : x.access = .direct → x.lenient32 = true ∧ x.lenient64 = true) (hf : data + m.length < 2 ^ cfg.bits)
    (hd : x.debug = true → (m.length ≠ 0 → data ≠ 0) ∧ m.length ≠ 8) (v : U64) :
    ∃! seed, ∃ r t, Returns (XXH3_64bits_withSeed cfg x (.memory data) m.length seed) w s v r t := by
  obtain ⟨seed, hs⟩ := bitVec_surjective (xxh3_seed_inj hm) v
  have run : ∀ sd, ∃ r t, Returns (XXH3_64bits_withSeed cfg x (.memory data) m.length sd) w s (Spec.xxh3WithSeed m sd) r t :=
    fun sd => by
      obtain ⟨⟨r, t, h, _⟩, _⟩ := xxh3_correct_partial h hx
        (by unfold Xxh3.reach; rw [if_pos (by omega)]; exact hf) hd sd
      exact ⟨r, t, h⟩
  refine ⟨seed, hs ▸ run seed, fun sd ⟨r, t, h1⟩ => xxh3_seed_inj hm ?_⟩
  obtain ⟨r', t', h2⟩ := run sd
  have := h1.1.symm.trans h2.1
  cases this
  exact hs.symm

/-- 8 bytes, without assertions -/
example (v : U64) : ∃! seed, ∃ r t, Returns (XXH3_64bits_withSeed amd64 xxh3Gcc (.memory 5001) (msg 8).length seed)
    (memory 4096 8192 5001 (msg 8)) start v r t :=
  xxh3_seed_revealed (message amd64 (by decide) (by rw [length_msg]; decide) (by decide)) (by rw [length_msg])
    (fun h => absurd h (by decide)) (by rw [length_msg]; decide) (fun h => absurd h (by decide)) v

/-- 2 bytes, with assertions -/
example (v : U64) : ∃! seed, ∃ r t, Returns (XXH3_64bits_withSeed mips32 xxh3Mips (.memory 5001) (msg 2).length seed)
    (memory 4096 8192 5001 (msg 2)) start v r t :=
  xxh3_seed_revealed (message mips32 (by decide) (by rw [length_msg]; decide) (by decide)) (by rw [length_msg]; decide)
    (fun h => absurd h (by decide)) (by rw [length_msg]; decide) (fun _ => ⟨fun _ => by decide, by rw [length_msg]; decide⟩) v

end T1ha.Props
