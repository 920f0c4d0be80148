import Verif.Proofs.HighwayRun
import Verif.Proofs.XxhashCat64

/-!
# xxHash: words which are not aligned, and pointers which are not in the address space
-/

namespace T1ha.Model

variable {w : World} {ov : Overlay} {cfg : Cfg} {x : Xxh} {P : Ev → Prop}

theorem fails_fail {α : Type} (e : Err) : Fails w ov (fail e : M α) e := fun _ => rfl

theorem fails_deref64 {data : Nat} (hl : x.lenient64 = false) (ha : data % 8 ≠ 0) :
    Fails w ov (deref64 cfg x (.memory data) 0) .misaligned := by
  unfold deref64
  rw [if_neg (by simpa [hl, Bytes.isAligned] using ha)]
  exact fails_fail _

theorem fails_readLE64 {data : Nat} (hd : x.access = .direct) (hl : x.lenient64 = false) (ha : data % 8 ≠ 0) :
    Fails w ov (XXH_readLE64_align cfg x false (.memory data) 0) .misaligned := by
  unfold XXH_readLE64_align
  rw [if_neg (by simp)]
  unfold XXH_readLE64 XXH_read64
  simp only [hd]
  exact Fails.now (fails_deref64 hl ha) _

theorem fails_process8 {data : Nat} (hd : x.access = .direct) (hl : x.lenient64 = false) (ha : data % 8 ≠ 0) (h : U64) :
    Fails w ov (XXH_PROCESS8_64 cfg x false (.memory data) ⟨h, 0⟩) .misaligned := by
  unfold XXH_PROCESS8_64
  exact Fails.now (fails_readLE64 hd hl ha) _

theorem fails_finalize64 {data len : Nat} (hd : x.access = .direct) (hl : x.lenient64 = false) (ha : data % 8 ≠ 0)
    (h8 : 8 ≤ len) (h32 : len < 32) (h : U64) :
    Fails w ov (XXH64_finalize cfg x false h (.memory data) 0 len) .misaligned := by
  have he : len &&& 31 = len := by
    rw [show (31 : Nat) = 2 ^ 5 - 1 by rfl, Nat.and_two_pow_sub_one_eq_mod]; omega
  unfold XXH64_finalize
  rw [he]
  split
  · refine Fails.now ?_ _
    unfold finalize64_words
    rw [if_pos h8]
    exact Fails.after (P := fun _ => True) (Reads.iterate trivial) (Fails.now (fails_process8 hd hl ha h) _)
  · have key : ∀ ks, Fails w ov (do
        let s ← finalize64_steps cfg x false (.memory data) (8 :: ks) ⟨h, 0⟩
        pure (XXH64_avalanche s.h)) .misaligned := by
      intro ks
      refine Fails.now ?_ _
      unfold finalize64_steps
      rw [if_pos rfl]
      exact Fails.now (fails_process8 hd hl ha h) _
    interval_cases len <;> exact key _

theorem fails_xxh64 {data len : Nat} (hd : x.access = .direct) (hl : x.lenient64 = false) (ha : data % 8 ≠ 0)
    (h8 : 8 ≤ len) (hb : data + len < 2 ^ cfg.bits) (seed : U64) :
    Fails w ov (XXH64 cfg x data len seed) .misaligned := by
  unfold XXH64
  rw [if_neg (by simp [ha])]
  unfold XXH64_endian_align
  simp only []
  refine Fails.after (P := fun _ => True) (Reads.ptrAdd hb trivial) ?_
  split
  · refine Fails.after (P := fun _ => True) (Reads.ptrSub (by omega) trivial) <| Fails.now ?_ _
    unfold XXH64_loop
    refine Fails.after (P := fun _ => True) (Reads.iterate trivial) <| Fails.now ?_ _
    unfold XXH64_stripe
    exact Fails.now (fails_readLE64 hd hl ha) _
  · exact fails_finalize64 hd hl ha h8 (by omega) _

theorem Fails.afterExec {α β : Type} {m : M α} {C : Nat → Prop} {n : Nat} {Q : α → Overlay → Prop} {f : α → M β}
    {e : Err} (h : Exec w ov P C n m Q) (h2 : ∀ v o, Q v o → Fails w o (f v) e) : Fails w ov (m >>= f) e := by
  intro log
  obtain ⟨v', ov', t, h1, h3, -⟩ := h log
  show M.bind m f w _ = _
  simp only [M.bind, h1]
  exact h2 _ _ h3 _

theorem fails_ptrSub {p n : Nat} (h : p < n) : Fails w ov (ptrSub cfg p n) .ptrWrap := by
  unfold ptrSub
  rw [if_neg (by omega)]
  exact fails_fail _

theorem fails_ptrAdd {p n : Nat} (h : 2 ^ cfg.bits ≤ p + n) : Fails w ov (ptrAdd cfg p n) .ptrWrap := by
  unfold ptrAdd
  rw [if_neg (by omega)]
  exact fails_fail _

theorem space_any {lo hi : Nat} (h : hi < 2 ^ cfg.bits) : Space cfg 0 (fun _ => True) lo hi :=
  ⟨h, fun _ _ _ _ => trivial, trivial, fun _ _ _ => trivial⟩

theorem fails_update32 {data : Nat} {m y : List Byte} {seed : U32} {st : XXH32_state} (hh : Holds w ov data y)
    (hfit : data + y.length < 2 ^ cfg.bits) (h0 : data ≠ 0) (hroom : y.length + 32 < 2 ^ cfg.bits)
    (h : Fed32 seed m st) (hfull : 16 ≤ m.length % 16 + y.length) (hlow : data + y.length < 16) :
    Fails w ov (XXH32_update cfg x st data y.length) .ptrWrap := by
  have hs := space_any (lo := data) hfit
  have hsz := h.held.size_lt (by decide)
  have hc := h.held.count
  unfold XXH32_update
  rw [if_neg h0]
  refine Fails.after (P := fun _ => True) (Reads.ptrAdd hfit trivial) ?_
  simp only []
  rw [szAdd, Nat.mod_eq_of_lt (by omega), if_neg (by omega)]
  have ht : topUp 16 st.memsize.toNat ≤ y.length := by unfold topUp; split <;> omega
  refine Fails.afterExec (exec_update_fill32 (x := x) (m := m) (seed := seed) hs hh (Nat.le_refl _) (Nat.le_refl _) h0
    h.held ht) ?_
  rintro ⟨st1, i⟩ o -
  exact Fails.now (fails_ptrSub hlow) _

theorem fails_update64 {data : Nat} {m y : List Byte} {seed : U64} {st : XXH64_state} (hh : Holds w ov data y)
    (hfit : data + y.length < 2 ^ cfg.bits) (h0 : data ≠ 0) (hroom : y.length + 32 < 2 ^ cfg.bits)
    (h : Fed64 seed m st) (hfull : 32 ≤ m.length % 32 + y.length)
    (hhigh : 2 ^ cfg.bits ≤ data + (32 - m.length % 32) % 32 + 32) :
    Fails w ov (XXH64_update cfg x st data y.length) .ptrWrap := by
  have hs := space_any (lo := data) hfit
  have hsz := h.held.size_lt (by decide)
  have hc := h.held.count
  unfold XXH64_update
  rw [if_neg h0]
  refine Fails.after (P := fun _ => True) (Reads.ptrAdd hfit trivial) ?_
  simp only []
  rw [szAdd, Nat.mod_eq_of_lt (by omega), if_neg (by omega)]
  have ht : topUp 32 st.memsize.toNat ≤ y.length := by unfold topUp; split <;> omega
  refine Fails.afterExec (exec_update_fill64 (x := x) (m := m) (seed := seed) hs hh (Nat.le_refl _) (Nat.le_refl _) h0
    h.held ht) ?_
  rintro ⟨st1, i⟩ o ⟨-, r1, -⟩
  simp only [] at r1 ⊢
  refine Fails.now (fails_ptrAdd ?_) _
  have : i = (32 - m.length % 32) % 32 := by rw [r1, ← hc]; unfold topUp; split <;> omega
  omega

end T1ha.Model
