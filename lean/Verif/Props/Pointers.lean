import Verif.Props.Examples
import Verif.Proofs.Pointers

/-!
# Pointer arithmetic

C allows a program to compute pointers into an object and just past its end; computing any other pointer is
undefined behaviour, even if nothing is read through it. The model records each pointer which a call computes
(`Ev.ptr`). For streaming, `t1ha2_update_returns` and `t1ha2_final_correct` say that all of them point into
(or just past) the context, the data, or the place for the result, except for pointers up to 7 bytes before
the data in builds which read unaligned words by way of a packed structure: see `UpdateEv`, `FinalEv`.
-/

namespace T1ha.Props

open Model Examples

variable {w : World} {s : Sys} {cfg : Cfg} {page data : Nat} {m : List Byte}

/-- C50: a call of a function without AES instructions, in a build which does not read before the message
(with the address sanitizer, with `T1HA_USE_FAST_ONESHOT_READ=0`, or for a processor which cannot read
misaligned words) and which does not read unaligned words by way of a packed structure, computes only
pointers into the message and just past its end. (The full statement, for all functions and builds, is
false: `tail_pointer_before`, `proxy_pointer_before`, `aes_pointer_before`, `aes_pointer_after`.) -/
theorem pointers_stay_inside_partial (f : OneShot) (hf : f.aes = false)
    (hb : cfg.asan = true ∨ cfg.oneshot = false ∨ cfg.unaligned = .unable)
    (hp : cfg.packed = false ∨ cfg.unaligned ≠ .slow) (h : Buf cfg w s.ov page data m)
    (r : f.Ready cfg w data m.length) (seed : U64) :
    ∃ v s' t, Returns (f.run cfg data m.length seed) w s v s' t ∧
      ∀ a, Ev.ptr a ∈ t → data ≤ a ∧ a ≤ data + m.length := by
  have hu : cfg.canReadUnderside = false := by
    unfold Cfg.canReadUnderside
    rcases hb with h | h | h <;> simp [h]
  have hq : cfg.proxy = false := by
    unfold Cfg.proxy
    rcases hp with h | h <;> simp [h]
  obtain ⟨t, h1, h2, _⟩ := f.returns h r seed
  refine ⟨_, _, t, h1, fun a ha => ?_⟩
  rcases h2 _ ha with h3 | ⟨_, _, h3⟩ | ⟨h3, _⟩
  · split at h3 <;> simpa [Foot, Foot32, Cfg.below, hu, hq] using h3
  · exact nomatch h3
  · rw [hf] at h3; exact nomatch h3

/-- A message of any length up to a page, with the address sanitizer. -/
example (n : Nat) (hn : n ≤ 4096) (g : State256) (seed : U64) : ∃ v s' t,
    Returns ((OneShot.t1ha2_atonce g).run { amd64 with asan := true } (8192 - n) (msg n).length seed) (atEnd n)
      start v s' t ∧
    ∀ a, Ev.ptr a ∈ t → 8192 - n ≤ a ∧ a ≤ 8192 - n + (msg n).length :=
  pointers_stay_inside_partial (.t1ha2_atonce g) rfl (Or.inl rfl) (Or.inl rfl) (buf_atEnd _ rfl n hn)
    (ready_atEnd _ _ n hn (by decide) (by decide) fun _ h => nomatch h) seed

/-- C50, in every build: the pointers which a call computes are at most 7 bytes before the message (14 bytes, if
unaligned words are read by way of a packed structure), and not beyond the byte after it; those of the functions with AES instructions are at most 94 bytes before the
message, and at most 112 bytes past its end. -/
theorem pointers_stay_near (f : OneShot) (h : Buf cfg w s.ov page data m) (r : f.Ready cfg w data m.length)
    (seed : U64) :
    ∃ v s' t, Returns (f.run cfg data m.length seed) w s v s' t ∧
      ∀ a, Ev.ptr a ∈ t →
        (data ≤ a + (if cfg.packed ∧ cfg.unaligned = .slow then 14 else 7) ∧ a ≤ data + m.length) ∨
        (f.aes = true ∧ data ≤ a + 94 ∧ a ≤ data + m.length + 112) := by
  obtain ⟨t, h1, h2, _⟩ := f.returns h r seed
  refine ⟨_, _, t, h1, fun a ha => ?_⟩
  rcases h2 _ ha with h3 | ⟨_, _, h3⟩ | ⟨h3, _, h4, h5⟩
  · left
    have hb : cfg.below 8 ≤ (if cfg.packed ∧ cfg.unaligned = .slow then 14 else 7) ∧ cfg.below 4 ≤ cfg.below 8 := by
      unfold Cfg.below Cfg.proxy
      by_cases h1 : cfg.packed = true <;> by_cases h2 : cfg.unaligned = .slow <;> by_cases h3 : cfg.canReadUnderside <;>
        simp [h1, h2, h3]
    split at h3 <;> (simp only [Foot, Foot32] at h3; omega)
  · exact nomatch h3
  · cases h4
    exact Or.inr ⟨h3, h5⟩

/-- A message of any length up to a page, on amd64. -/
example (n : Nat) (hn : n ≤ 4096) (ac : AesCfg) (seed : U64) : ∃ v s' t,
    Returns ((OneShot.t1ha0_ia32aes_avx2 ac).run amd64 (8192 - n) (msg n).length seed) (atEnd n) start v s' t ∧
    ∀ a, Ev.ptr a ∈ t → (8192 - n ≤ a + (if amd64.packed ∧ amd64.unaligned = .slow then 14 else 7) ∧ a ≤ 8192 - n + (msg n).length) ∨
      (true = true ∧ 8192 - n ≤ a + 94 ∧ a ≤ 8192 - n + (msg n).length + 112) :=
  pointers_stay_near (.t1ha0_ia32aes_avx2 ac) (buf_atEnd _ rfl n hn)
    (ready_atEnd _ _ n hn (by decide) (by decide) fun _ h => nomatch h) seed

/-- C50, the negation for builds which read before the message (src/t1ha_bits.h:676-694, 907-919,
src/t1ha0.c:93-105, 186-198): for a message shorter than a word, unless it is at the start of a page, every
function computes a pointer to before the message. -/
theorem tail_pointer_before (f : OneShot) (he : cfg.unaligned = .efficient) (hu : cfg.canReadUnderside = true)
    (hw : f.words64 = true → cfg.word64 = true) (h : Buf cfg w s.ov page data m)
    (r : f.Ready cfg w data m.length) (h0 : 0 < m.length) (hl : m.length < if f.words64 then 8 else 4)
    (hp : (if f.words64 then 8 else 4) ≤ data % cfg.pageSize) (seed : U64) :
    ∃ v s' t, Returns (f.run cfg data m.length seed) w s v s' t ∧ ∃ a, Ev.ptr a ∈ t ∧ a < data := by
  obtain ⟨t, h1, _⟩ := f.returns h r seed
  refine ⟨_, _, t, h1, data + m.length - (if f.words64 then 8 else 4), ?_, ?_⟩
  · have hc : can_read_underside cfg data (if f.words64 then 8 else 4) = true := by
      obtain ⟨j, hj⟩ := h.pageOk.macro_pow hu
      rw [hj] at hp
      have hlt := Nat.mod_lt data (Nat.two_pow_pos j)
      unfold can_read_underside
      rw [hj]
      have h3 : ∀ g k, g = 2 ^ k → g ≤ data % 2 ^ j → ((2 ^ j - g) &&& data != 0) = true := by
        rintro g k rfl hg
        have hk : k ≤ j := by
          by_contra hc
          have := Nat.pow_lt_pow_right (show 1 < 2 by decide) (Nat.lt_of_not_le hc)
          omega
        simpa using (mod_pageSize_of_and hk).2 hg
      exact h3 _ (if f.words64 then 3 else 2) (by split <;> rfl) hp
    obtain ⟨u, h2, h3⟩ := (causes_short f he hu hw rfl hc h0 hl seed).run _ _ _ _ h1.1
    have : t = u := List.append_cancel_right (h1.2.symm.trans h2)
    exact this ▸ h3
  · have := Nat.mod_le data cfg.pageSize
    split at hl <;> simp_all <;> omega

/-- Five bytes at the end of a page, on amd64. -/
example (seed : U64) : ∃ v s' t, Returns (OneShot.t1ha1_le.run amd64 8187 5 seed) (atEnd 5) start v s' t ∧
    ∃ a, Ev.ptr a ∈ t ∧ a < 8187 := by
  have := tail_pointer_before .t1ha1_le rfl (by decide) (by decide) (buf_atEnd amd64 rfl 5 (by decide))
    (ready_atEnd _ _ 5 (by decide) (by decide) (by decide) fun _ h => nomatch h)
    (by rw [length_msg]; decide) (by rw [length_msg]; decide) (by decide) seed
  rw [length_msg] at this
  exact this

/-- C50, the negation for builds which read unaligned words by way of a packed structure (src/t1ha_bits.h:414-445,
gcc and similar compilers for processors with slow unaligned access): for a misaligned message longer than a
word, every function computes a pointer to 7 bytes (3 bytes, for the functions of 32 bits) before the message. -/
theorem proxy_pointer_before (f : OneShot) (hf : f.aes = false) (hp : cfg.packed = true)
    (hs : cfg.unaligned = .slow) (h : Buf cfg w s.ov page data m) (r : f.Ready cfg w data m.length)
    (hd : data % (if f.words64 then cfg.alignment64 else 4) ≠ 0)
    (hl : (if f.words64 then 8 else 4) < m.length) (seed : U64) :
    ∃ v s' t, Returns (f.run cfg data m.length seed) w s v s' t ∧
      ∃ a, Ev.ptr a ∈ t ∧ a + (if f.words64 then 7 else 3) = data := by
  have hq : cfg.proxy = true := by simp [Cfg.proxy, hp, hs]
  obtain ⟨t, h1, _⟩ := f.returns h r seed
  obtain ⟨u, h2, h3⟩ := (causes_proxy f hf hq hd hl seed).run _ _ _ _ h1.1
  have : t = u := List.append_cancel_right (h1.2.symm.trans h2)
  refine ⟨_, _, t, h1, _, this ▸ h3, ?_⟩
  have h8 : 7 ≤ data := by
    refine Nat.le_trans ?_ (h.above hq (by omega))
    simp [Cfg.below, hq]
  split <;> omega

/-- 43 bytes at the end of a page, on a big-endian 64-bit machine. -/
example (seed : U64) : ∃ v s' t,
    Returns (OneShot.t1ha1_be.run { mips32 with unaligned := .slow, ptr64 := true, ulong64 := true } 8149 43 seed)
      (atEnd 43) start v s' t ∧ ∃ a, Ev.ptr a ∈ t ∧ a + 7 = 8149 := by
  have := proxy_pointer_before (cfg := { mips32 with unaligned := .slow, ptr64 := true, ulong64 := true })
    .t1ha1_be rfl rfl rfl (buf_atEnd _ rfl 43 (by decide))
    (ready_atEnd _ _ 43 (by decide) (by decide) (by decide) fun _ h => nomatch h)
    (by decide) (by rw [length_msg]; decide) seed
  rw [length_msg] at this
  exact this

/-- C50, the negation for two of the functions with AES instructions (src/t1ha0_ia32aes_a.h:58-59): they
compute `data + len - 127`, which is before a message of 33 to 126 bytes. -/
theorem aes_pointer_before (f : OneShot) (ac : AesCfg)
    (hf : f = .t1ha0_ia32aes_noavx ac ∨ f = .t1ha0_ia32aes_avx ac) (h : Buf cfg w s.ov page data m)
    (r : f.Ready cfg w data m.length) (h32 : 32 < m.length) (h127 : m.length < 127) (seed : U64) :
    ∃ v s' t, Returns (f.run cfg data m.length seed) w s v s' t ∧ ∃ a, Ev.ptr a ∈ t ∧ a < data := by
  obtain ⟨t, h1, _⟩ := f.returns h r seed
  have hb := r.bottom ac hf h32
  refine ⟨_, _, t, h1, data + m.length - 127, ?_, by omega⟩
  have hc : Causes (.ptr (data + m.length - 127)) (f.run cfg data m.length seed) := by
    rcases hf with rfl | rfl <;> exact causes_aes_a ac h32 seed
  obtain ⟨u, h2, h3⟩ := hc.run _ _ _ _ h1.1
  have : t = u := List.append_cancel_right (h1.2.symm.trans h2)
  exact this ▸ h3

/-- 100 bytes. -/
example (ac : AesCfg) (seed : U64) : ∃ v s' t,
    Returns ((OneShot.t1ha0_ia32aes_avx ac).run amd64 8092 100 seed) (atEnd 100) start v s' t ∧
    ∃ a, Ev.ptr a ∈ t ∧ a < 8092 := by
  have := aes_pointer_before (.t1ha0_ia32aes_avx ac) ac (Or.inr rfl) (buf_atEnd amd64 rfl 100 (by decide))
    (ready_atEnd _ _ 100 (by decide) (by decide) (by decide) fun _ h => nomatch h)
    (by rw [length_msg]; decide) (by rw [length_msg]; decide) seed
  rw [length_msg] at this
  exact this

/-- C50, the negation for the third function with AES instructions (src/t1ha0_ia32aes_b.h:68-69): it computes
`v + 7`, for a pointer `v` to vectors of 16 bytes; that is past the end of a message of 33 to 111 bytes, by
more than one byte. -/
theorem aes_pointer_after (ac : AesCfg) (h : Buf cfg w s.ov page data m)
    (r : (OneShot.t1ha0_ia32aes_avx2 ac).Ready cfg w data m.length) (h32 : 32 < m.length)
    (h112 : m.length < 112) (seed : U64) :
    ∃ v s' t, Returns ((OneShot.t1ha0_ia32aes_avx2 ac).run cfg data m.length seed) w s v s' t ∧
      ∃ a, Ev.ptr a ∈ t ∧ data + m.length < a := by
  obtain ⟨t, h1, _⟩ := (OneShot.t1ha0_ia32aes_avx2 ac).returns h r seed
  obtain ⟨u, h2, h3⟩ := (causes_aes_b (cfg := cfg) (data := data) ac h32 seed).run _ _ _ _ h1.1
  have : t = u := List.append_cancel_right (h1.2.symm.trans h2)
  exact ⟨_, _, t, h1, _, this ▸ h3, by omega⟩

/-- 100 bytes. -/
example (ac : AesCfg) (seed : U64) : ∃ v s' t,
    Returns ((OneShot.t1ha0_ia32aes_avx2 ac).run amd64 8092 100 seed) (atEnd 100) start v s' t ∧
    ∃ a, Ev.ptr a ∈ t ∧ 8192 < a := by
  have := aes_pointer_after ac (buf_atEnd amd64 rfl 100 (by decide))
    (ready_atEnd _ _ 100 (by decide) (by decide) (by decide) fun _ h => nomatch h)
    (by rw [length_msg]; decide) (by rw [length_msg]; decide) seed
  rw [length_msg] at this
  exact this

/-- C50, where the pointers leave the address space. The functions with AES instructions fail for messages of
more than 32 bytes near the ends of the address space, though all bytes of the message can be read: this is
why `OneShot.Ready` has the fields `bottom` and `top`. -/
theorem aes_pointer_wraps (f : OneShot) (ac : AesCfg) (h : Buf cfg w s.ov page data m) (h32 : 32 < m.length)
    (hf : (f = .t1ha0_ia32aes_noavx ac ∨ f = .t1ha0_ia32aes_avx ac) ∧ data + m.length < 127 ∨
      f = .t1ha0_ia32aes_avx2 ac ∧ 2 ^ cfg.bits ≤ data + 112) (seed : U64) :
    f.run cfg data m.length seed w s = .error .ptrWrap := by
  rcases hf with ⟨rfl | rfl, hb⟩ | ⟨rfl, ht⟩
  · exact aes_a_wraps ac h32 h.fits hb seed
  · exact aes_a_wraps ac h32 h.fits hb seed
  · exact aes_b_wraps ac h h32 (by omega) seed

/-- 60 bytes which end 10 bytes before the end of the address space of a 32-bit machine. -/
example (m : List Byte) (hm : m.length = 60) (ac : AesCfg) (seed : U64) :
    (OneShot.t1ha0_ia32aes_avx2 ac).run { amd64 with ptr64 := false, ulong64 := false } 4294967226 m.length seed
      (memory 4294963200 4294967296 4294967226 m) start = .error .ptrWrap :=
  aes_pointer_wraps (.t1ha0_ia32aes_avx2 ac) ac
    (buf_top _ rfl (by decide) (by decide) (by decide) (by omega) (by omega)) (by omega)
    (Or.inr ⟨rfl, by decide⟩) seed

end T1ha.Props
