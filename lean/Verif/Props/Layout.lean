import Verif.Model.Layout
import Verif.Props.Stream

/-!
# Where a context can be: C53

How the members of `t1ha_context_t` lie, and whether memory which is good enough for the type is good enough for the
functions.
-/

namespace T1ha.Props

open Model Examples

variable {b b' : Build} {abi : Abi} {w : World} {s : Sys} {ov : Overlay} {ctx slot : Nat} {extra : Option Nat}
  {img : List Byte}

/-- The ABI is one for the target of the build: integers are aligned to their size or to a divisor of it. -/
structure Suits (b : Build) (abi : Abi) : Prop where
  u32 : abi.u32 ∣ 4
  u64 : abi.u64 ∣ 8
  size : abi.size ∣ if b.cfg.ptr64 then 8 else 4
  u64Align4 : b.cfg.u64Align4 = true ↔ abi.u64 ≠ 8

/-- The compiler follows the wish of the header to align contexts to 32 bytes. -/
def Aligns32 (b : Build) : Prop := b.arch = .ia32 ∧ b.compiler ≠ .other

instance (b : Build) : Decidable (Aligns32 b) := by unfold Aligns32; infer_instance

theorem attrAlign_eq (b : Build) : b.attrAlign = if Aligns32 b then 32 else 1 := by
  obtain ⟨_, arch, compiler⟩ := b
  unfold Build.attrAlign
  simp only [Aligns32]
  cases arch <;> cases compiler <;> rfl

theorem dvd_four {n : Nat} (h : n ∣ 4) : n = 1 ∨ n = 2 ∨ n = 4 := by
  have := Nat.le_of_dvd (by decide) h
  interval_cases n <;> revert h <;> decide

theorem dvd_eight {n : Nat} (h : n ∣ 8) : n = 1 ∨ n = 2 ∨ n = 4 ∨ n = 8 := by
  have := Nat.le_of_dvd (by decide) h
  interval_cases n <;> revert h <;> decide

theorem state_ty (h : Suits b abi) :
    state256Ty b abi = ⟨32, if Aligns32 b then 32 else max abi.u32 abi.u64⟩ := by
  unfold state256Ty
  rw [attrAlign_eq]
  by_cases ha : Aligns32 b <;> simp only [ha, if_true, if_false] <;>
    rcases dvd_four h.u32 with e | e | e <;> rcases dvd_eight h.u64 with e' | e' | e' | e' <;> rw [e, e'] <;>
    decide

/-- C53: the members are where the streaming functions (of the model) access them, in all builds. -/
theorem context_layout (h : Suits b abi) :
    offsets 0 (contextMembers b abi) = ([offState, offBuffer, offPartial, offTotal b.cfg], ctxSize b.cfg) := by
  have hs := h.size
  have hu := h.u64Align4
  unfold contextMembers
  rw [state_ty h]
  unfold ctxSize offTotal szBytes Cfg.bits
  by_cases hp : b.cfg.ptr64 = true
  · simp only [hp, if_true] at hs ⊢
    have hc : ¬ (true = false ∧ b.cfg.u64Align4 = true) := by simp
    rw [show (if true = false ∧ b.cfg.u64Align4 = true then 68 else 72) = 72 from if_neg hc]
    by_cases ha : Aligns32 b <;>
      rcases dvd_four h.u32 with e | e | e <;> rcases dvd_eight h.u64 with e' | e' | e' | e' <;>
      rcases dvd_eight hs with e'' | e'' | e'' | e'' <;> simp only [ha, e, e', e'', if_true, if_false] <;> decide
  · simp only [hp] at hs ⊢
    rcases Bool.eq_false_or_eq_true b.cfg.u64Align4 with h4 | h4 <;>
      by_cases ha : Aligns32 b <;>
      rcases dvd_four h.u32 with e | e | e <;> rcases dvd_eight h.u64 with e' | e' | e' | e' <;>
      rcases dvd_four hs with e'' | e'' | e'' <;> rw [e', h4] at hu <;>
      simp only [ha, h4, e, e', e'', if_true, if_false] <;>
      first | decide | (exfalso; revert hu; decide)

/-- C53: all compilers which follow the same ABI put the members at the same places, whether or not they align
contexts to 32 bytes. (So a program and a library which different compilers have built can share contexts.) -/
theorem context_layout_agrees (h : Suits b abi) (h' : Suits b' abi) (hp : b.cfg.ptr64 = b'.cfg.ptr64) :
    offsets 0 (contextMembers b abi) = offsets 0 (contextMembers b' abi) := by
  have hz : b.cfg.u64Align4 = b'.cfg.u64Align4 := by
    have := h.u64Align4.trans h'.u64Align4.symm
    revert this
    cases b.cfg.u64Align4 <;> cases b'.cfg.u64Align4 <;> decide
  rw [context_layout h, context_layout h']
  simp only [ctxSize, offTotal, hp, hz]

/-- C53: contexts take 96 bytes and have to be aligned to 32 bytes on x86 (gcc, clang, MSVC). Elsewhere they take 76
to 80 bytes, and need no stricter alignment than integers do. -/
theorem context_size (h : Suits b abi) :
    (Aligns32 b → contextTy b abi = ⟨96, 32⟩) ∧
    (¬ Aligns32 b → (contextTy b abi).align = max abi.u32 (max abi.u64 abi.size) ∧
      76 ≤ (contextTy b abi).size ∧ (contextTy b abi).size ≤ 80) := by
  have hs := h.size
  have hu := h.u64Align4
  have ho := congrArg Prod.snd (context_layout h)
  unfold contextTy structTy
  rw [ho]
  unfold contextMembers
  rw [state_ty h]
  unfold ctxSize offTotal
  generalize b.cfg.u64Align4 = z at hu
  generalize b.cfg.ptr64 = q at hs
  generalize szBytes b.cfg = n
  revert hs hu
  rcases dvd_four h.u32 with e | e | e <;> rcases dvd_eight h.u64 with e' | e' | e' | e' <;> rw [e, e'] <;>
    cases z <;> cases q <;> intro hu hs <;>
    (first
      | (rcases dvd_four hs with (e'' | e'' | e''))
      | (rcases dvd_eight hs with (e'' | e'' | e'' | e''))) <;>
    rw [e''] <;>
    first
      | (exfalso; revert hu; decide)
      | (refine ⟨fun ha => ?_, fun ha => ?_⟩ <;> simp only [ha, if_true, if_false, maxAlign, List.foldr] <;> decide)

/-- C53: the elements of an array of contexts do not overlap, and all are aligned if the array is. -/
theorem context_array (h : Suits b abi) (ha : ctx % (contextTy b abi).align = 0) (i : Nat) :
    (ctx + i * (contextTy b abi).size) % (contextTy b abi).align = 0 ∧
    ctx + i * (contextTy b abi).size + ctxSize b.cfg ≤ ctx + (i + 1) * (contextTy b abi).size := by
  have ho := congrArg Prod.snd (context_layout h)
  have hpos : 0 < (contextTy b abi).align := by
    show 0 < maxAlign _
    simp only [contextMembers, maxAlign, List.foldr]
    omega
  have hle : ctxSize b.cfg ≤ (contextTy b abi).size := by
    show _ ≤ roundUp _ _
    rw [ho]
    unfold roundUp
    have := Nat.div_add_mod (ctxSize b.cfg + (contextTy b abi).align - 1) (contextTy b abi).align
    have := Nat.mod_lt (ctxSize b.cfg + (contextTy b abi).align - 1) hpos
    show _ ≤ (ctxSize b.cfg + (contextTy b abi).align - 1) / (contextTy b abi).align * (contextTy b abi).align
    rw [Nat.mul_comm]
    omega
  refine ⟨?_, ?_⟩
  · have hd : (contextTy b abi).align ∣ (contextTy b abi).size := Nat.dvd_mul_left _ _
    exact Nat.mod_eq_zero_of_dvd (Nat.dvd_add (Nat.dvd_of_mod_eq_zero ha) (hd.mul_left i))
  · rw [Nat.succ_mul]
    omega

/-- An object of the type `t1ha_context_t` with contents `img` is at `ctx`, as C demands it: as many bytes as
`sizeof` says, which can be written and which nobody else changes, at a multiple of what `alignof` says. -/
structure Object (b : Build) (abi : Abi) (w : World) (ov : Overlay) (ctx : Nat) (img : List Byte) : Prop where
  size : img.length = (contextTy b abi).size
  holds : Holds w ov ctx img
  writable : Writable w ctx (contextTy b abi).size
  fits : ctx + (contextTy b abi).size < 2 ^ b.cfg.bits
  aligned : ctx % (contextTy b abi).align = 0
  notNull : ctx ≠ 0

theorem object_ctx (h : Suits b abi) (strict : Aligns32 b ∨ b.cfg.alignment64 ∣ abi.u64)
    (here : Object b abi w ov ctx img) : Ctx b.cfg w ov ctx (img.take (ctxSize b.cfg)) := by
  have hle := (context_array h here.aligned 0).2
  have hsz := here.size
  have hfit := here.fits
  have hle : ctxSize b.cfg ≤ (contextTy b abi).size := by simpa using hle
  refine ⟨by rw [List.length_take]; omega, fun t i x hx => ?_, here.writable.sub (by omega) (by omega), by omega,
    ?_, here.notNull⟩
  · refine here.holds t i x ?_
    rw [List.getElem?_take] at hx
    split at hx
    · exact hx
    · exact nomatch hx
  · refine Nat.mod_eq_zero_of_dvd (dvd_trans ?_ (Nat.dvd_of_mod_eq_zero here.aligned))
    obtain ⟨h1, h2⟩ := context_size h
    by_cases ha : Aligns32 b
    · rw [h1 ha]
      unfold Cfg.alignment64
      split <;> decide
    · refine dvd_trans (strict.resolve_left ha) ?_
      rw [(h2 ha).1]
      have hs := h.size
      rcases dvd_four h.u32 with e | e | e <;> rcases dvd_eight h.u64 with e' | e' | e' | e' <;> rw [e, e'] <;>
        split at hs <;>
        (first
          | (rcases dvd_four hs with (e'' | e'' | e''))
          | (rcases dvd_eight hs with (e'' | e'' | e'' | e''))) <;>
        rw [e''] <;> decide

/-- C53, for targets which align `uint64_t` at least to `ALIGNMENT_64` (8, or 4 on 32-bit targets), or with the
attribute: streaming works with every object of the type `t1ha_context_t`. (Missing: other targets, see
`context_misplaced`.) -/
theorem context_placed_partial (h : Suits b abi) (strict : Aligns32 b ∨ b.cfg.alignment64 ∣ abi.u64)
    (here : Object b abi w s.ov ctx img) (ps : List (Nat × List Byte))
    (pieces : Pieces b.cfg w s.ov ctx ps) (out : Out b.cfg w ctx extra slot) (x y : U64) :
    ∃ s' t, Returns (stream b.cfg ctx x y (spans ps) extra slot) w s (streamHash (joined ps) x y extra) s' t ∧
      HighAt b.cfg w s'.ov (joined ps) x y extra :=
  stream_correct ps (object_ctx h strict here) pieces out x y

/-- C53: memory from `malloc`, which is aligned for the types of the language only (here: to 8 or 16 bytes), is
aligned for contexts except where the header asks for more. -/
theorem malloc_suits_iff (h : Suits b abi) {n : Nat} (hn : n = 8 ∨ n = 16) :
    (∀ p, p % n = 0 → p % (contextTy b abi).align = 0) ↔ ¬ Aligns32 b := by
  obtain ⟨h1, h2⟩ := context_size h
  constructor
  · intro hp ha
    rw [h1 ha] at hp
    have := hp 16 (by rcases hn with rfl | rfl <;> decide)
    exact absurd this (by decide)
  · intro ha p hp
    refine Nat.mod_eq_zero_of_dvd (dvd_trans ?_ (Nat.dvd_of_mod_eq_zero hp))
    rw [(h2 ha).1]
    have hs := h.size
    rcases dvd_four h.u32 with e | e | e <;> rcases dvd_eight h.u64 with e' | e' | e' | e' <;> rw [e, e'] <;>
      split at hs <;>
      (first
        | (rcases dvd_four hs with (e'' | e'' | e''))
        | (rcases dvd_eight hs with (e'' | e'' | e'' | e''))) <;>
      rw [e''] <;> rcases hn with rfl | rfl <;> decide

/-! ## The hypotheses can be met -/

/-- gcc on x86-64 -/
def linux_x86_64 : Build := ⟨amd64, .ia32, .gnuc, false, none, none, false, false, false, false⟩

/-- gcc for the Motorola 68000 family (t1ha.h:304), which aligns integers to 2 bytes only -/
def m68k : Build :=
  ⟨{ mips32 with u64Align4 := true }, .other, .gnuc, false, none, none, false, false, false, false⟩

theorem suits_linux_x86_64 : Suits linux_x86_64 ⟨4, 8, 8⟩ := ⟨by decide, by decide, by decide, by decide⟩
theorem suits_m68k : Suits m68k ⟨2, 2, 2⟩ := ⟨by decide, by decide, by decide, by decide⟩

example : offsets 0 (contextMembers linux_x86_64 ⟨4, 8, 8⟩) = ([0, 32, 64, 72], 80) := context_layout suits_linux_x86_64
example : offsets 0 (contextMembers m68k ⟨2, 2, 2⟩) = ([0, 32, 64, 68], 76) := context_layout suits_m68k

/-- `context_layout_agrees`: i386, with gcc and with a compiler which does not know the attribute -/
example : offsets 0 (contextMembers { linux_x86_64 with cfg := { mips32 with u64Align4 := true } } ⟨4, 4, 4⟩) =
    offsets 0 (contextMembers { linux_x86_64 with cfg := { mips32 with u64Align4 := true }, compiler := .other }
      ⟨4, 4, 4⟩) :=
  context_layout_agrees ⟨by decide, by decide, by decide, by decide⟩ ⟨by decide, by decide, by decide, by decide⟩ rfl

example : contextTy linux_x86_64 ⟨4, 8, 8⟩ = ⟨96, 32⟩ ∧ contextTy m68k ⟨2, 2, 2⟩ = ⟨76, 2⟩ := by decide

/-- `context_array`: the third context of an array at 4128. -/
example : (4128 + 3 * 96) % 32 = 0 ∧ 4128 + 3 * 96 + 80 ≤ 4128 + 4 * 96 :=
  context_array (ctx := 4128) suits_linux_x86_64 (by decide) 3

/-- A local variable at 4096. -/
theorem object_quiet : Object linux_x86_64 ⟨4, 8, 8⟩ quiet start.ov 4096 (quietBytes 4096 96) :=
  ⟨length_quietBytes _ _, quiet_holds (by decide) (by decide), quiet_writable (by decide) (by decide), by decide,
    by decide, by decide⟩

/-- `context_placed_partial`: 43 bytes and 100 bytes -/
example : ∃ s' t, Returns (stream amd64 4096 5 6 [(5001, 43), (6003, 100)] none 4300) quiet start
    (Spec.t1ha2_stream (quietBytes 5001 43 ++ quietBytes 6003 100) 5 6) s' t := by
  obtain ⟨s', t, h, _⟩ := context_placed_partial suits_linux_x86_64 (Or.inl (by decide)) object_quiet
    [(5001, quietBytes 5001 43), (6003, quietBytes 6003 100)] (extra := none) (slot := 4300)
    (by
      intro p hp
      simp only [List.mem_cons, List.not_mem_nil, or_false] at hp
      rcases hp with rfl | rfl
      · exact piece_quiet amd64 (by decide) (by decide) fun _ _ => rfl
      · exact piece_quiet amd64 (by decide) (by decide) fun _ _ => rfl)
    (out_quiet amd64 none fun _ hp => nomatch hp) 5 6
  rw [joined, List.map_cons, List.map_cons, List.map_nil, List.flatten_cons, List.flatten_cons, List.flatten_nil,
    List.append_nil] at h
  simp only [spans, List.map_cons, List.map_nil, length_quietBytes] at h
  exact ⟨s', t, h⟩

/-- `malloc_suits_iff`: not on x86-64 with gcc, but so with a compiler which does not know the attribute. -/
example : ¬ (∀ p, p % 16 = 0 → p % (contextTy linux_x86_64 ⟨4, 8, 8⟩).align = 0) ∧
    ∀ p, p % 16 = 0 → p % (contextTy { linux_x86_64 with compiler := .other } ⟨4, 8, 8⟩).align = 0 :=
  ⟨fun h => (malloc_suits_iff suits_linux_x86_64 (Or.inr rfl)).1 h (by decide),
    (malloc_suits_iff ⟨by decide, by decide, by decide, by decide⟩ (Or.inr rfl)).2 (by decide)⟩

/-! ## Objects which the functions do not accept -/

/-- C53 is false for targets which align integers to 2 bytes: there a context may be at 4098, and an assertion
fails (src/t1ha_bits.h:581). Without assertions, a word is read which is not aligned as the compiler is told. -/
theorem context_misplaced : Object m68k ⟨2, 2, 2⟩ quiet start.ov 4098 (quietBytes 4098 76) ∧
    stream m68k.cfg 4098 5 6 [(5001, 43)] none 4300 quiet start = .error .assertFail ∧
    stream { m68k.cfg with ndebug := true } 4098 5 6 [(5001, 43)] none 4300 quiet start = .error .misaligned := by
  refine ⟨⟨length_quietBytes _ _, quiet_holds (by decide) (by decide), quiet_writable (by decide) (by decide),
    by decide, by decide, by decide⟩, ?_, ?_⟩
  · have key : (match stream m68k.cfg 4098 5 6 [(5001, 43)] none 4300 quiet start with
      | .error e => decide (e = .assertFail)
      | .ok _ => false) = true := by decide +kernel
    split at key
    · rename_i h
      rw [h, of_decide_eq_true key]
    · exact nomatch key
  · have key : (match stream { m68k.cfg with ndebug := true } 4098 5 6 [(5001, 43)] none 4300 quiet start with
      | .error e => decide (e = .misaligned)
      | .ok _ => false) = true := by decide +kernel
    split at key
    · rename_i h
      rw [h, of_decide_eq_true key]
    · exact nomatch key

end T1ha.Props
