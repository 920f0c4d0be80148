import Verif.Model.Xxh3Alloc
import Verif.Props.Xxh3Secret

/-!
# Allocating states of XXH3: C85
-/

namespace T1ha.Props

open Model Examples

variable {cfg : Cfg} {x : Xxh3} {w : World} {s : Sys}

theorem and_pred_two_pow (b k : Nat) : b &&& (2 ^ k - 1) = b % 2 ^ k := Nat.and_two_pow_sub_one_eq_mod b k

/-- The alignments which the code allows. -/
def AllowedAlign (align : Nat) : Prop := align = 8 ∨ align = 16 ∨ align = 32 ∨ align = 64 ∨ align = 128

theorem AllowedAlign.pow {align : Nat} (h : AllowedAlign align) : ∃ k, align = 2 ^ k ∧ 3 ≤ k ∧ k ≤ 7 := by
  rcases h with h | h | h | h | h
  · exact ⟨3, h, by decide, by decide⟩
  · exact ⟨4, h, by decide, by decide⟩
  · exact ⟨5, h, by decide, by decide⟩
  · exact ⟨6, h, by decide, by decide⟩
  · exact ⟨7, h, by decide, by decide⟩

theorem AllowedAlign.mask {align : Nat} (h : AllowedAlign align) (b : Nat) : b &&& (align - 1) = b % align := by
  obtain ⟨k, rfl, -⟩ := h.pow
  exact and_pred_two_pow b k

theorem assert_true {c : Bool} (h : c = true) : Returns (XXH_ASSERT x c) w s () s [] := by
  subst h
  unfold XXH_ASSERT
  rw [if_neg (by simp)]
  exact Returns.pure _

theorem pointer_returns (p : Nat) : Returns (pointer p) w s p ⟨.ptr p :: s.log, s.ov⟩ [.ptr p] := ⟨rfl, rfl⟩

/-- The three assertions at the beginning of `XXH_alignedMalloc`. -/
theorem alignedMalloc_asserts {size align : Nat} (ha : AllowedAlign align) (hs : size ≠ 0)
    (hadd : szAdd cfg size align = size + align) :
    (decide (align ≤ 128) && decide (8 ≤ align)) = true ∧ (align &&& (align - 1) == 0) = true ∧
      (size != 0 && decide (size < szAdd cfg size align)) = true := by
  refine ⟨?_, ?_, ?_⟩
  · rcases ha with h | h | h | h | h <;> subst h <;> rfl
  · rcases ha with h | h | h | h | h <;> subst h <;> rfl
  · rw [hadd, Bool.and_eq_true, bne_iff_ne, decide_eq_true_eq]
    refine ⟨hs, ?_⟩
    unfold AllowedAlign at ha
    omega

/-- C85: the pointer which `XXH_alignedMalloc` returns has the alignment asked for, whatever that of `malloc` is; the
bytes asked for are within the block which `malloc` has returned; one byte of the block is written, which is before
them. And `XXH_alignedFree`, at any later moment (`s₂`) at which this byte still has the value written, gives `free` the
pointer which `malloc` has returned. -/
theorem xxh_aligned_malloc_correct {malloc : Nat → Nat} {size align : Nat} (ha : AllowedAlign align) (hs : size ≠ 0)
    (small : size + align < 2 ^ cfg.bits) (hm : malloc (size + align) ≠ 0)
    (fits : malloc (size + align) + (size + align) < 2 ^ cfg.bits)
    (room : Writable w (malloc (size + align)) (size + align)) :
    ∃ p s' t, Returns (XXH_alignedMalloc cfg x malloc size align) w s p s' t ∧ p % align = 0 ∧
      malloc (size + align) < p ∧ p + size ≤ malloc (size + align) + (size + align) ∧
      (∀ a, a ≠ p - 1 → s'.ov a = s.ov a) ∧
      ∀ s₂ : Sys, s₂.ov (p - 1) = s'.ov (p - 1) →
        ∃ s₃ t₂, Returns (XXH_alignedFree cfg p) w s₂ (some (malloc (size + align))) s₃ t₂ ∧ s₃.ov = s₂.ov := by
  have hadd : szAdd cfg size align = size + align := Nat.mod_eq_of_lt small
  generalize hb : malloc (size + align) = base at *
  have hal : 8 ≤ align ∧ align ≤ 128 := by unfold AllowedAlign at ha; omega
  have hmod : base % align < align := Nat.mod_lt _ (by omega)
  have hoff : szSub cfg align (base &&& (align - 1)) = align - base % align := by
    unfold szSub
    rw [ha.mask, show 2 ^ cfg.bits + align - base % align = align - base % align + 2 ^ cfg.bits by omega,
      Nat.add_mod_right, Nat.mod_eq_of_lt (by omega)]
  generalize ho : align - base % align = offset at *
  have h0 : 1 ≤ offset ∧ offset ≤ align := by omega
  have hdiv : (base + offset) % align = 0 := by
    have e := Nat.div_add_mod base align
    rw [show base + offset = align * (base / align + 1) by rw [Nat.mul_add]; omega]
    exact Nat.mul_mod_right _ _
  let last := base + offset - 1
  have hcell : ∀ t, (w.cell t last).isSome := fun t => by
    have := room.1 t (offset - 1) (by omega)
    rwa [show base + (offset - 1) = last by show _ = base + offset - 1; omega] at this
  have hwr : w.writable last = true := by
    have := room.2 (offset - 1) (by omega)
    rwa [show base + (offset - 1) = last by show _ = base + offset - 1; omega] at this
  have hst : ∀ s1 : Sys, Returns (store last [BitVec.ofNat 8 offset]) w s1 ()
      ⟨.wr last 1 :: s1.log, put s1.ov last [BitVec.ofNat 8 offset]⟩ [.wr last 1] := fun s1 => by
    refine ⟨?_, rfl⟩
    unfold store
    rw [if_pos (by simp [canWrite, hcell, hwr])]
    rfl
  have hret : ∃ s' t, Returns (XXH_alignedMalloc cfg x malloc size align) w s (base + offset) s' t ∧
      s'.ov = put s.ov last [BitVec.ofNat 8 offset] := by
    refine ⟨⟨.wr last 1 :: .ptr last :: .ptr (base + offset) :: s.log, put s.ov last [BitVec.ofNat 8 offset]⟩,
      [.wr last 1, .ptr last, .ptr (base + offset)], ?_, rfl⟩
    · unfold XXH_alignedMalloc
      obtain ⟨a1, a2, a3⟩ := alignedMalloc_asserts ha hs hadd
      refine Returns.bind (t₂ := [.wr last 1, .ptr last, .ptr (base + offset)]) (assert_true a1) ?_
      refine Returns.bind (t₂ := [.wr last 1, .ptr last, .ptr (base + offset)]) (assert_true a2) ?_
      refine Returns.bind (t₂ := [.wr last 1, .ptr last, .ptr (base + offset)]) (assert_true a3) ?_
      dsimp only
      rw [hadd, hb, if_pos hm, hoff]
      unfold ptrAdd ptrSub
      rw [if_pos (by omega)]
      refine Returns.bind (t₁ := [.ptr (base + offset)]) (t₂ := [.wr last 1, .ptr last]) (pointer_returns (base + offset)) ?_
      refine Returns.bind (t₂ := [.wr last 1, .ptr last]) (assert_true (beq_iff_eq.2 hdiv)) ?_
      rw [if_pos (by omega)]
      refine Returns.bind (t₁ := [.ptr last]) (t₂ := [.wr last 1]) (pointer_returns last) ?_
      exact Returns.done (g := fun _ => base + offset) (hst _)
  obtain ⟨s', t, h1, h2⟩ := hret
  refine ⟨base + offset, s', t, h1, hdiv, by omega, by omega, fun a ha => ?_, fun s₂ hs₂ => ?_⟩
  · rw [h2]
    exact put_other (by simp only [List.length_singleton]; omega)
  · have hsee : see w s₂.ov (Ev.ptr last :: s₂.log).length last = some (BitVec.ofNat 8 offset) := by
      unfold see
      obtain ⟨b, hb'⟩ := Option.isSome_iff_exists.1 (hcell (Ev.ptr last :: s₂.log).length)
      rw [hb', show s₂.ov last = some (BitVec.ofNat 8 offset) from hs₂.trans (by
        rw [h2]; unfold put; rw [if_pos (Nat.le_refl _), Nat.sub_self]; rfl)]
      rfl
    have hld : Returns (load last 1) w ⟨.ptr last :: s₂.log, s₂.ov⟩ [BitVec.ofNat 8 offset]
        ⟨.rd last 1 :: .ptr last :: s₂.log, s₂.ov⟩ [.rd last 1] := by
      refine ⟨?_, rfl⟩
      unfold load seeBytes seeBytes
      rw [hsee]
    have hto : (BitVec.ofNat 8 offset).toNat = offset := by
      rw [BitVec.toNat_ofNat]
      exact Nat.mod_eq_of_lt (by omega)
    refine ⟨⟨.ptr base :: .rd last 1 :: .ptr last :: s₂.log, s₂.ov⟩, [.ptr base, .rd last 1, .ptr last], ?_, rfl⟩
    unfold XXH_alignedFree ptrSub
    rw [if_pos (by omega), if_pos (by omega)]
    refine Returns.bind (t₁ := [.ptr last]) (t₂ := [.ptr base, .rd last 1]) (pointer_returns last) ?_
    refine Returns.bind (t₁ := [.rd last 1]) (t₂ := [.ptr base]) hld ?_
    dsimp only
    rw [show [BitVec.ofNat 8 offset].getD 0 0 = BitVec.ofNat 8 offset from rfl, hto, if_pos (by omega), Nat.add_sub_cancel]
    exact Returns.done (g := some) (pointer_returns base)

/-- C85: if there is no memory, `XXH_alignedMalloc` returns a null pointer and touches nothing; freeing a null pointer
does nothing. -/
theorem xxh_aligned_malloc_null {malloc : Nat → Nat} {size align : Nat} (ha : AllowedAlign align) (hs : size ≠ 0)
    (small : size + align < 2 ^ cfg.bits) (hm : malloc (size + align) = 0) :
    Returns (XXH_alignedMalloc cfg x malloc size align) w s 0 s [] ∧
      ∀ s₂, Returns (XXH_alignedFree cfg 0) w s₂ none s₂ [] := by
  have hadd : szAdd cfg size align = size + align := Nat.mod_eq_of_lt small
  refine ⟨?_, fun s₂ => Returns.pure _⟩
  unfold XXH_alignedMalloc
  obtain ⟨a1, a2, a3⟩ := alignedMalloc_asserts ha hs hadd
  refine Returns.bind (t₂ := []) (assert_true a1) (Returns.bind (t₂ := []) (assert_true a2) (Returns.bind (t₂ := []) (assert_true a3) ?_))
  dsimp only
  rw [hadd, hm, if_neg (by simp)]
  exact Returns.pure _

/-- The sizes and alignments of integers of real ABIs. -/
structure UsualAbi (abi : Abi) : Prop where
  u32 : abi.u32 = 1 ∨ abi.u32 = 2 ∨ abi.u32 = 4
  u64 : abi.u64 = 1 ∨ abi.u64 = 2 ∨ abi.u64 = 4 ∨ abi.u64 = 8
  size : abi.size = 1 ∨ abi.size = 2 ∨ abi.size = 4 ∨ abi.size = 8

/-- The arrays of a structure (the members of at least 64 bytes; all others of `XXH3_state_t` are numbers and pointers):
where they begin, and their sizes. -/
def arrays (members : List Ty) : List (Nat × Nat) :=
  (((offsets 0 members).1.zip members).filter fun x => 64 ≤ x.2.size).map fun x => (x.1, x.2.size)

/-- C85: the arrays of the state are at multiples of 64 bytes from its beginning, and it is not larger than 640 bytes,
whether the compiler knows how to align them or not. -/
theorem xxh3_state_layout {abi : Abi} (h : UsualAbi abi) {attr : Nat} (hattr : attr = 1 ∨ attr = 64) :
    arrays (xxh3StateMembers cfg abi attr) = [(0, 64), (64, 192), (256, 256)] ∧
      512 < (structTy (xxh3StateMembers cfg abi attr)).size ∧ (structTy (xxh3StateMembers cfg abi attr)).size ≤ 640 ∧
      (attr = 64 → (structTy (xxh3StateMembers cfg abi attr)).size = 576) := by
  obtain ⟨a, b, c⟩ := abi
  obtain ⟨h1, h2, h3⟩ := h
  have hb : cfg.bits / 8 = 4 ∨ cfg.bits / 8 = 8 := by unfold Cfg.bits; split <;> simp
  unfold xxh3StateMembers
  generalize cfg.bits / 8 = n at *
  simp only at h1 h2 h3
  rcases hattr with rfl | rfl <;> rcases hb with rfl | rfl <;> rcases h1 with rfl | rfl | rfl <;>
    rcases h2 with rfl | rfl | rfl | rfl <;> rcases h3 with rfl | rfl | rfl | rfl <;> decide

/-- C85: `XXH3_createState` returns a pointer at which the three arrays of the state are aligned to 64 bytes, with room
for the state in the block of `malloc`; `XXH3_freeState` gives this block back, unless the byte before the state has been
overwritten. -/
theorem xxh3_createState_correct {abi : Abi} (h : UsualAbi abi) {attr : Nat} (hattr : attr = 1 ∨ attr = 64)
    {malloc : Nat → Nat} {size : Nat} (hsize : size = (structTy (xxh3StateMembers cfg abi attr)).size)
    (hm : malloc (size + 64) ≠ 0) (fits : malloc (size + 64) + (size + 64) < 2 ^ cfg.bits)
    (room : Writable w (malloc (size + 64)) (size + 64)) :
    ∃ p s' t, Returns (XXH3_createState cfg abi attr x malloc) w s p s' t ∧
      (arrays (xxh3StateMembers cfg abi attr)).map Prod.snd = [64, 192, 256] ∧
      (∀ a ∈ arrays (xxh3StateMembers cfg abi attr), (p + a.1) % 64 = 0) ∧ Writable w p size ∧
      malloc (size + 64) < p ∧ p + size ≤ malloc (size + 64) + (size + 64) ∧
      ∀ s₂ : Sys, s₂.ov (p - 1) = s'.ov (p - 1) →
        ∃ s₃ t₂, Returns (XXH3_freeState cfg p) w s₂ (XXH_errorcode.ok, some (malloc (size + 64))) s₃ t₂ := by
  obtain ⟨h1, h2, h3, -⟩ := xxh3_state_layout (cfg := cfg) h hattr
  rw [← hsize] at h2 h3
  obtain ⟨p, s', t, r1, r2, r3, r4, -, r5⟩ := xxh_aligned_malloc_correct (cfg := cfg) (x := x) (w := w) (s := s)
    (malloc := malloc) (size := size) (align := 64) (by unfold AllowedAlign; omega) (by omega) (by omega) hm fits room
  refine ⟨p, s', t, ?_, by rw [h1]; rfl, ?_, room.sub (by omega) (by omega), r3, r4, fun s₂ hs₂ => ?_⟩
  · unfold XXH3_createState
    rw [← hsize]
    exact r1
  · rw [h1]
    intro a ha
    simp only [List.mem_cons, List.not_mem_nil, or_false] at ha
    rcases ha with rfl | rfl | rfl <;> simp only <;> omega
  · obtain ⟨s₃, t₂, h5, -⟩ := r5 s₂ hs₂
    exact ⟨s₃, t₂, Returns.done (g := fun f => (XXH_errorcode.ok, f)) h5⟩

/-- C85: but whoever overwrites that byte makes `XXH3_freeState` free something else. -/
theorem xxh3_freeState_overwritten {p : Nat} {b : Byte} (hp : b.toNat ≤ p) (h1 : 1 ≤ p) (hc : Mapped w (p - 1) 1)
    {s₂ : Sys} (hb : s₂.ov (p - 1) = some b) :
    ∃ s₃ t₂, Returns (XXH3_freeState cfg p) w s₂ (XXH_errorcode.ok, some (p - b.toNat)) s₃ t₂ := by
  have hsee : see w s₂.ov (Ev.ptr (p - 1) :: s₂.log).length (p - 1) = some b := by
    unfold see
    obtain ⟨c, hc'⟩ := Option.isSome_iff_exists.1 (hc (Ev.ptr (p - 1) :: s₂.log).length 0 (by decide))
    rw [Nat.add_zero] at hc'
    rw [hc', hb]
    rfl
  have hld : Returns (load (p - 1) 1) w ⟨.ptr (p - 1) :: s₂.log, s₂.ov⟩ [b]
      ⟨.rd (p - 1) 1 :: .ptr (p - 1) :: s₂.log, s₂.ov⟩ [.rd (p - 1) 1] := by
    refine ⟨?_, rfl⟩
    unfold load seeBytes seeBytes
    rw [hsee]
  refine ⟨⟨.ptr (p - b.toNat) :: .rd (p - 1) 1 :: .ptr (p - 1) :: s₂.log, s₂.ov⟩,
    [.ptr (p - b.toNat), .rd (p - 1) 1, .ptr (p - 1)], ?_⟩
  unfold XXH3_freeState XXH_alignedFree ptrSub
  rw [if_pos (by omega), if_pos h1]
  refine Returns.done (g := fun f => (XXH_errorcode.ok, f)) ?_
  refine Returns.bind (t₁ := [.ptr (p - 1)]) (t₂ := [.ptr (p - b.toNat), .rd (p - 1) 1]) (pointer_returns (p - 1)) ?_
  refine Returns.bind (t₁ := [.rd (p - 1) 1]) (t₂ := [.ptr (p - b.toNat)]) hld ?_
  dsimp only
  rw [show [b].getD 0 0 = b from rfl, if_pos hp]
  exact Returns.done (g := some) (pointer_returns _)

/-- 64-bit x86: `malloc` returns an address which is a multiple of 16 only, and then one which is a multiple of 64
already; and a machine with 32 bits whose `malloc` aligns nothing. -/
example (base : Nat) (hb : base = 9008 ∨ base = 9024) := xxh3_createState_correct (cfg := amd64) (x := xxh3Gcc) (w := quiet)
  (s := start) (abi := ⟨4, 8, 8⟩) ⟨by decide, by decide, by decide⟩ (attr := 64) (Or.inr rfl) (malloc := fun _ => base)
  (size := 576) (by decide) (by omega) (by rcases hb with rfl | rfl <;> decide)
  (quiet_writable (by omega) (by omega))

example := xxh3_createState_correct (cfg := mips32) (x := xxh3Mips) (w := quiet)
  (s := start) (abi := ⟨4, 8, 4⟩) ⟨by decide, by decide, by decide⟩ (attr := 1) (Or.inl rfl) (malloc := fun _ => 9001)
  (size := 568) (by decide) (by decide) (by decide) (quiet_writable (by decide) (by decide))

example := xxh_aligned_malloc_null (cfg := mips32) (x := xxh3Mips) (w := quiet) (s := start) (malloc := fun _ => 0)
  (size := 576) (align := 64) (by unfold AllowedAlign; decide) (by decide) (by decide) rfl

/-- A state at 9024 before which a 1 has been written: 9023 is given to `free`. -/
example := xxh3_freeState_overwritten (cfg := amd64) (w := quiet) (p := 9024) (b := 1#8) (by decide) (by decide)
  (quiet_writable (p := 9023) (n := 1) (by decide) (by decide)).1 (s₂ := ⟨[], put (fun _ => none) 9023 [1#8]⟩) rfl

end T1ha.Props
