import Verif.Proofs.Overread
import Verif.Props.Examples

/-!
# Properties of the one-shot functions: C01-C04, C06, C08-C14, C19, C28

`Buf cfg w ov page data m` (in `Verif/Contract.lean`) says that the bytes at `data` are `m` during the
call. All other bytes may be anything and may change during the call; pages without a byte of the buffer
need not be mapped. `OneShot.Ready` (in `Verif/Props/Api.lean`) lists what else a call needs.
-/

namespace T1ha.Props

open Model Examples

variable {cfg cfg' : Cfg} {w w' : World} {s s' : Sys} {page page' data data' : Nat} {m : List Byte}

/-! ## C01 -/

/-- C01: `t1ha1_le` returns `Spec.t1ha1 .little` of the bytes, for every build configuration, address
and memory. -/
theorem t1ha1_le_correct (h : Buf cfg w s.ov page data m)
    (hslack : cfg.SafeTail ∨ Mapped w (data + m.length) 8) (seed : U64) :
    ∃ log, t1ha1_le cfg data m.length seed w s = .ok (Spec.t1ha1 .little m seed, ⟨log, s.ov⟩) := by
  obtain ⟨v, ov', t, h1, ⟨h2, h3⟩, _⟩ :=
    reads_t1ha1 (e := .little) h hslack (fun h => nomatch h) seed s.log
  subst h2 h3
  exact ⟨_, h1⟩

/-- C01: two builds of the library, on two machines, return the same value for equal messages. -/
theorem t1ha1_le_portable (h : Buf cfg w s.ov page data m) (h' : Buf cfg' w' s'.ov page' data' m)
    (hslack : cfg.SafeTail ∨ Mapped w (data + m.length) 8)
    (hslack' : cfg'.SafeTail ∨ Mapped w' (data' + m.length) 8) (seed : U64) :
    ∃ v log log', t1ha1_le cfg data m.length seed w s = .ok (v, ⟨log, s.ov⟩) ∧
      t1ha1_le cfg' data' m.length seed w' s' = .ok (v, ⟨log', s'.ov⟩) := by
  obtain ⟨l, h1⟩ := t1ha1_le_correct h hslack seed
  obtain ⟨l', h2⟩ := t1ha1_le_correct h' hslack' seed
  exact ⟨_, l, l', h1, h2⟩

/-- 43 bytes at the end of the only mapped page, on x86-64; the same in the middle of memory on a
32-bit big-endian machine. -/
example : ∃ v log log', t1ha1_le amd64 (8192 - 43) (msg 43).length 7 (atEnd 43) start = .ok (v, ⟨log, start.ov⟩) ∧
    t1ha1_le mips32 5001 (msg 43).length 7 (memory 4096 8192 5001 (msg 43)) start
      = .ok (v, ⟨log', start.ov⟩) :=
  t1ha1_le_portable (buf_atEnd amd64 rfl 43 (by decide))
    (buf mips32 rfl (by decide) (by decide) (by decide) (by rw [length_msg]; decide) (by decide))
    (Or.inl (by decide)) (Or.inr (mapped (by decide) (by rw [length_msg]; decide))) 7

/-! ## C02 -/

/-- C02: `t1ha1_be` returns `Spec.t1ha1 .big` of the bytes, for every build configuration which
compiles, every address and memory. -/
theorem t1ha1_be_correct (h : Buf cfg w s.ov page data m) (hb : cfg.Buildable)
    (hslack : cfg.SafeTail ∨ Mapped w (data + m.length) 8) (seed : U64) :
    ∃ log, t1ha1_be cfg data m.length seed w s = .ok (Spec.t1ha1 .big m seed, ⟨log, s.ov⟩) := by
  obtain ⟨v, ov', t, h1, ⟨h2, h3⟩, _⟩ := reads_t1ha1 (e := .big) h hslack (fun _ => hb) seed s.log
  subst h2 h3
  exact ⟨_, h1⟩

/-- C02: two builds of the library, on two machines, return the same value for equal messages. -/
theorem t1ha1_be_portable (h : Buf cfg w s.ov page data m) (h' : Buf cfg' w' s'.ov page' data' m)
    (hb : cfg.Buildable) (hb' : cfg'.Buildable)
    (hslack : cfg.SafeTail ∨ Mapped w (data + m.length) 8)
    (hslack' : cfg'.SafeTail ∨ Mapped w' (data' + m.length) 8) (seed : U64) :
    ∃ v log log', t1ha1_be cfg data m.length seed w s = .ok (v, ⟨log, s.ov⟩) ∧
      t1ha1_be cfg' data' m.length seed w' s' = .ok (v, ⟨log', s'.ov⟩) := by
  obtain ⟨l, h1⟩ := t1ha1_be_correct h hb hslack seed
  obtain ⟨l', h2⟩ := t1ha1_be_correct h' hb' hslack' seed
  exact ⟨_, l, l', h1, h2⟩

example : ∃ v log log', t1ha1_be amd64 (8192 - 43) (msg 43).length 7 (atEnd 43) start = .ok (v, ⟨log, start.ov⟩) ∧
    t1ha1_be mips32 5001 (msg 43).length 7 (memory 4096 8192 5001 (msg 43)) start
      = .ok (v, ⟨log', start.ov⟩) :=
  t1ha1_be_portable (buf_atEnd amd64 rfl 43 (by decide))
    (buf mips32 rfl (by decide) (by decide) (by decide) (by rw [length_msg]; decide) (by decide))
    (by decide) (by decide)
    (Or.inl (by decide)) (Or.inr (mapped (by decide) (by rw [length_msg]; decide))) 7

/-! ## C03 -/

/-- C03: `t1ha2_atonce` returns `Spec.t1ha2_atonce` of the bytes, for every build configuration, address
and memory, and for every initial contents `g` of its local variable. -/
theorem t1ha2_atonce_correct (h : Buf cfg w s.ov page data m)
    (hslack : cfg.SafeTail ∨ Mapped w (data + m.length) 8) (g : State256) (seed : U64) :
    ∃ log, t1ha2_atonce cfg g data m.length seed w s = .ok (Spec.t1ha2_atonce m seed, ⟨log, s.ov⟩) := by
  obtain ⟨v, ov', t, h1, ⟨h2, h3⟩, _⟩ := reads_atonce h hslack g seed s.log
  subst h2 h3
  exact ⟨_, h1⟩

/-- C03: two builds of the library, on two machines, return the same value for equal messages. -/
theorem t1ha2_atonce_portable (h : Buf cfg w s.ov page data m) (h' : Buf cfg' w' s'.ov page' data' m)
    (hslack : cfg.SafeTail ∨ Mapped w (data + m.length) 8)
    (hslack' : cfg'.SafeTail ∨ Mapped w' (data' + m.length) 8) (g g' : State256) (seed : U64) :
    ∃ v log log', t1ha2_atonce cfg g data m.length seed w s = .ok (v, ⟨log, s.ov⟩) ∧
      t1ha2_atonce cfg' g' data' m.length seed w' s' = .ok (v, ⟨log', s'.ov⟩) := by
  obtain ⟨l, h1⟩ := t1ha2_atonce_correct h hslack g seed
  obtain ⟨l', h2⟩ := t1ha2_atonce_correct h' hslack' g' seed
  exact ⟨_, l, l', h1, h2⟩

example (g g' : State256) : ∃ v log log',
    t1ha2_atonce amd64 g (8192 - 43) (msg 43).length 7 (atEnd 43) start = .ok (v, ⟨log, start.ov⟩) ∧
    t1ha2_atonce mips32 g' 5001 (msg 43).length 7 (memory 4096 8192 5001 (msg 43)) start
      = .ok (v, ⟨log', start.ov⟩) :=
  t1ha2_atonce_portable (buf_atEnd amd64 rfl 43 (by decide))
    (buf mips32 rfl (by decide) (by decide) (by decide) (by rw [length_msg]; decide) (by decide))
    (Or.inl (by decide)) (Or.inr (mapped (by decide) (by rw [length_msg]; decide))) g g' 7

/-! ## C04 -/

/-- C04: `t1ha2_atonce128` returns the low half of `Spec.t1ha2_atonce128`, and afterwards the 8 bytes at
`extra` are the high half in the byte order of the machine; no other byte of memory is changed. (`extra`
may point into the buffer: the store comes last.) -/
theorem t1ha2_atonce128_correct {extra : Nat} (h : Buf cfg w s.ov page data m)
    (hslack : cfg.SafeTail ∨ Mapped w (data + m.length) 8) (hw : Writable w extra 8) (g : State256)
    (seed : U64) :
    ∃ log ov, t1ha2_atonce128 cfg g extra data m.length seed w s
        = .ok ((Spec.t1ha2_atonce128 m seed).1, ⟨log, ov⟩) ∧
      Holds w ov extra (cfg.endian.bytes 8 (Spec.t1ha2_atonce128 m seed).2.toNat) ∧
      ∀ a, a < extra ∨ extra + 8 ≤ a → ov a = s.ov a := by
  obtain ⟨v, ov', t, h1, ⟨h2, h3⟩, _⟩ := exec_atonce128 h hslack hw g seed s.log
  subst h2 h3
  refine ⟨_, _, h1, holds_put (by rw [length_bytes]; exact hw.1), fun a ha => put_other ?_⟩
  rwa [length_bytes]

/-- C04: two builds of the library, on two machines, return and store the same values for equal
messages. -/
theorem t1ha2_atonce128_portable {extra extra' : Nat} (h : Buf cfg w s.ov page data m)
    (h' : Buf cfg' w' s'.ov page' data' m)
    (hslack : cfg.SafeTail ∨ Mapped w (data + m.length) 8)
    (hslack' : cfg'.SafeTail ∨ Mapped w' (data' + m.length) 8)
    (hw : Writable w extra 8) (hw' : Writable w' extra' 8) (g g' : State256) (seed : U64) :
    ∃ lo hi log ov log' ov',
      t1ha2_atonce128 cfg g extra data m.length seed w s = .ok (lo, ⟨log, ov⟩) ∧
      Holds w ov extra (cfg.endian.bytes 8 hi) ∧
      t1ha2_atonce128 cfg' g' extra' data' m.length seed w' s' = .ok (lo, ⟨log', ov'⟩) ∧
      Holds w' ov' extra' (cfg'.endian.bytes 8 hi) := by
  obtain ⟨l, o, h1, h2, _⟩ := t1ha2_atonce128_correct h hslack hw g seed
  obtain ⟨l', o', h3, h4, _⟩ := t1ha2_atonce128_correct h' hslack' hw' g' seed
  exact ⟨_, _, l, o, l', o', h1, h2, h3, h4⟩

example (g g' : State256) : ∃ lo hi log ov log' ov',
    t1ha2_atonce128 amd64 g 4099 (8192 - 43) (msg 43).length 7 (atEnd 43) start
      = .ok (lo, ⟨log, ov⟩) ∧
    Holds (atEnd 43) ov 4099 (amd64.endian.bytes 8 hi) ∧
    t1ha2_atonce128 mips32 g' 4096 5001 (msg 43).length 7 (memory 4096 8192 5001 (msg 43)) start
      = .ok (lo, ⟨log', ov'⟩) ∧
    Holds (memory 4096 8192 5001 (msg 43)) ov' 4096 (mips32.endian.bytes 8 hi) :=
  t1ha2_atonce128_portable (buf_atEnd amd64 rfl 43 (by decide))
    (buf mips32 rfl (by decide) (by decide) (by decide) (by rw [length_msg]; decide) (by decide))
    (Or.inl (by decide)) (Or.inr (mapped (by decide) (by rw [length_msg]; decide)))
    (writable (by decide) (by decide)) (writable (by decide) (by decide)) g g' 7

/-! ## C06 -/

/-- C06: `t1ha0_32le` returns `Spec.t1ha0_32 .little` of the bytes, for every build configuration,
address and memory. -/
theorem t1ha0_32le_correct (h : Buf cfg w s.ov page data m) (seed : U64) :
    ∃ log, t1ha0_32le cfg data m.length seed w s = .ok (Spec.t1ha0_32 .little m seed, ⟨log, s.ov⟩) := by
  obtain ⟨v, ov', t, h1, ⟨h2, h3⟩, _⟩ := reads_t1ha0_32 (e := .little) h seed s.log
  subst h2 h3
  exact ⟨_, h1⟩

/-- C06: `t1ha0_32be` returns `Spec.t1ha0_32 .big` of the bytes, for every build configuration,
address and memory. -/
theorem t1ha0_32be_correct (h : Buf cfg w s.ov page data m) (seed : U64) :
    ∃ log, t1ha0_32be cfg data m.length seed w s = .ok (Spec.t1ha0_32 .big m seed, ⟨log, s.ov⟩) := by
  obtain ⟨v, ov', t, h1, ⟨h2, h3⟩, _⟩ := reads_t1ha0_32 (e := .big) h seed s.log
  subst h2 h3
  exact ⟨_, h1⟩

/-- C06: two builds of the library, on two machines, return the same values for equal messages. -/
theorem t1ha0_32_portable (h : Buf cfg w s.ov page data m) (h' : Buf cfg' w' s'.ov page' data' m)
    (seed : U64) :
    (∃ v log log', t1ha0_32le cfg data m.length seed w s = .ok (v, ⟨log, s.ov⟩) ∧
      t1ha0_32le cfg' data' m.length seed w' s' = .ok (v, ⟨log', s'.ov⟩)) ∧
    (∃ v log log', t1ha0_32be cfg data m.length seed w s = .ok (v, ⟨log, s.ov⟩) ∧
      t1ha0_32be cfg' data' m.length seed w' s' = .ok (v, ⟨log', s'.ov⟩)) := by
  obtain ⟨l1, h1⟩ := t1ha0_32le_correct h seed
  obtain ⟨l2, h2⟩ := t1ha0_32le_correct h' seed
  obtain ⟨l3, h3⟩ := t1ha0_32be_correct h seed
  obtain ⟨l4, h4⟩ := t1ha0_32be_correct h' seed
  exact ⟨⟨_, l1, l2, h1, h2⟩, ⟨_, l3, l4, h3, h4⟩⟩

example : (∃ v log log',
    t1ha0_32le amd64 (8192 - 43) (msg 43).length 7 (atEnd 43) start = .ok (v, ⟨log, start.ov⟩) ∧
    t1ha0_32le mips32 (8192 - 43) (msg 43).length 7 (atEnd 43) start = .ok (v, ⟨log', start.ov⟩)) ∧
    (∃ v log log',
    t1ha0_32be amd64 (8192 - 43) (msg 43).length 7 (atEnd 43) start = .ok (v, ⟨log, start.ov⟩) ∧
    t1ha0_32be mips32 (8192 - 43) (msg 43).length 7 (atEnd 43) start = .ok (v, ⟨log', start.ov⟩)) :=
  t1ha0_32_portable (buf_atEnd amd64 rfl 43 (by decide)) (buf_atEnd mips32 rfl 43 (by decide)) 7

/-! ## C28 -/

/-- C28: `t1ha0_ia32aes_noavx` and `t1ha0_ia32aes_avx` return `Spec.t1ha0_aesA` of the bytes, for all
x86 builds (`ac`: 32 or 64 bits, with or without SSE4.1), addresses and memories. -/
theorem t1ha0_ia32aes_avx_correct (ac : AesCfg) (h : Buf cfg w s.ov page data m)
    (hslack : cfg.SafeTail ∨ Mapped w (data + m.length) 8) (hbot : 127 ≤ data + m.length) (seed : U64) :
    (∃ log, t1ha0_ia32aes_noavx cfg ac data m.length seed w s
      = .ok (Spec.t1ha0_aesA m seed, ⟨log, s.ov⟩)) ∧
    (∃ log, t1ha0_ia32aes_avx cfg ac data m.length seed w s
      = .ok (Spec.t1ha0_aesA m seed, ⟨log, s.ov⟩)) := by
  obtain ⟨v, ov', t, h1, ⟨h2, h3⟩, _⟩ := reads_aes_a h hslack ac seed (fun _ => hbot) s.log
  subst h2 h3
  exact ⟨⟨_, h1⟩, ⟨_, h1⟩⟩

example (ac : AesCfg) :
    (∃ log, t1ha0_ia32aes_noavx amd64 ac (8192 - 333) (msg 333).length 7 (atEnd 333) start
      = .ok (Spec.t1ha0_aesA (msg 333) 7, ⟨log, start.ov⟩)) ∧
    (∃ log, t1ha0_ia32aes_avx amd64 ac (8192 - 333) (msg 333).length 7 (atEnd 333) start
      = .ok (Spec.t1ha0_aesA (msg 333) 7, ⟨log, start.ov⟩)) :=
  t1ha0_ia32aes_avx_correct ac (buf_atEnd amd64 rfl 333 (by decide)) (Or.inl (by decide))
    (by rw [length_msg]; decide) 7

/-- C28: `t1ha0_ia32aes_avx2` returns `Spec.t1ha0_aesB` of the bytes, for all x86 builds, addresses and
memories, if the length fits in `unsigned long`. What is missing: the claim is false for longer messages
on 64-bit Windows, see `t1ha0_ia32aes_avx2_ignores_data`. -/
theorem t1ha0_ia32aes_avx2_correct_partial (ac : AesCfg) (h : Buf cfg w s.ov page data m)
    (hslack : cfg.SafeTail ∨ Mapped w (data + m.length) 8)
    (htop : data + m.length + 112 < 2 ^ cfg.bits)
    (hul : m.length < 2 ^ (if cfg.ulong64 then 64 else 32)) (seed : U64) :
    ∃ log, t1ha0_ia32aes_avx2 cfg ac data m.length seed w s
      = .ok (Spec.t1ha0_aesB m seed, ⟨log, s.ov⟩) := by
  obtain ⟨v, ov', t, h1, ⟨h2, h3⟩, _⟩ := reads_aes_b h hslack ac seed (fun _ => htop) hul s.log
  subst h2 h3
  exact ⟨_, h1⟩

example (ac : AesCfg) :
    ∃ log, t1ha0_ia32aes_avx2 win64 ac (8192 - 333) (msg 333).length 7 (atEnd 333) start
      = .ok (Spec.t1ha0_aesB (msg 333) 7, ⟨log, start.ov⟩) :=
  t1ha0_ia32aes_avx2_correct_partial ac (buf_atEnd win64 rfl 333 (by decide)) (Or.inl (by decide))
    (by rw [length_msg]; decide) (by rw [length_msg]; decide) 7

/-- C28, the exception: where `unsigned long` has 32 bits and `size_t` has 64 (64-bit Windows), for a
length of 4 GiB or more only the first `len % 2^32` bytes are looked at: two messages which agree there
get the same hash, whatever their other bytes are. In particular all messages of exactly 4 GiB
collide. -/
theorem t1ha0_ia32aes_avx2_ignores_data (ac : AesCfg) {m m' : List Byte} {len : Nat}
    (hul : cfg.ulong64 = false) (hul' : cfg'.ulong64 = false) (hlen : 2 ^ 32 ≤ len)
    (h : Buf cfg w s.ov page data m) (h' : Buf cfg' w' s'.ov page' data' m')
    (hm : m.length = len) (hm' : m'.length = len)
    (hagree : m.take (len % 2 ^ 32) = m'.take (len % 2 ^ 32))
    (hslack : cfg.SafeTail) (hslack' : cfg'.SafeTail)
    (htop : data + m.length + 112 < 2 ^ cfg.bits) (htop' : data' + m'.length + 112 < 2 ^ cfg'.bits)
    (seed : U64) :
    ∃ v log log', t1ha0_ia32aes_avx2 cfg ac data len seed w s = .ok (v, ⟨log, s.ov⟩) ∧
      t1ha0_ia32aes_avx2 cfg' ac data' len seed w' s' = .ok (v, ⟨log', s'.ov⟩) := by
  have key : ∀ {cfg : Cfg} {w : World} {s : Sys} {page data : Nat} {m : List Byte},
      cfg.ulong64 = false → Buf cfg w s.ov page data m → m.length = len → cfg.SafeTail →
      data + m.length + 112 < 2 ^ cfg.bits →
      ∃ log, t1ha0_ia32aes_avx2 cfg ac data len seed w s
        = .ok (aesB len (m.take (len % 2 ^ 32)) seed, ⟨log, s.ov⟩) := by
    intro cfg w s page data m hul h hm hs htop
    have hlt : len % 2 ^ 32 ≤ len := Nat.mod_le _ _
    have hl : (m.take (len % 2 ^ 32)).length = len % 2 ^ 32 := by
      rw [List.length_take, hm]; omega
    have hb : Buf cfg w s.ov page data (m.take (len % 2 ^ 32)) :=
      ⟨h.holds.take _, by have := h.fits; omega, h.paged, h.pageOk,
        fun hp hn => h.above hp (by omega)⟩
    obtain ⟨v, ov', t, h1, ⟨h2, h3⟩, _⟩ := reads_aes_b_long hb (Or.inl hs) ac seed
      (by omega) (len := len) (by omega) (by rw [hl, hul]; rfl) s.log
    subst h2 h3
    exact ⟨_, h1⟩
  obtain ⟨l, h1⟩ := key hul h hm hslack htop
  obtain ⟨l', h2⟩ := key hul' h' hm' hslack' htop'
  rw [hagree] at h1
  exact ⟨_, l, l', h1, h2⟩

/-- C28: the claim "the value depends on every byte that the reference function depends on" is false for
`t1ha0_ia32aes_avx2` on 64-bit Windows: it returns the same value for 4 GiB of zeros and for 4 GiB of
ones. -/
theorem t1ha0_ia32aes_avx2_windows_collision (ac : AesCfg) (seed : U64) (b b' : Byte) :
    ∃ v log log',
      t1ha0_ia32aes_avx2 win64 ac 4096 (2 ^ 32) seed
        ⟨fun _ _ => some b, fun _ => true⟩ start = .ok (v, ⟨log, start.ov⟩) ∧
      t1ha0_ia32aes_avx2 win64 ac 4096 (2 ^ 32) seed
        ⟨fun _ _ => some b', fun _ => true⟩ start = .ok (v, ⟨log', start.ov⟩) := by
  obtain ⟨n, hn⟩ : ∃ n : Nat, n = 2 ^ 32 := ⟨_, rfl⟩
  have hb : ∀ b : Byte, Buf win64 ⟨fun _ _ => some b, fun _ => true⟩ start.ov 4096 4096
      (List.replicate n b) := by
    intro b
    refine ⟨?_, ?_, fun _ _ _ _ => rfl, pageOk win64 rfl, fun h => absurd h (by decide)⟩
    · intro t i c hc
      rw [List.getElem?_replicate] at hc
      split at hc
      · exact hc
      · exact absurd hc (by simp)
    · rw [List.length_replicate, hn]; decide
  have ht : ∀ b : Byte, 4096 + (List.replicate n b).length + 112 < 2 ^ win64.bits := by
    intro b
    rw [List.length_replicate, hn]; decide
  have ha : (List.replicate n b).take (n % 2 ^ 32) = (List.replicate n b').take (n % 2 ^ 32) := by
    rw [show n % 2 ^ 32 = 0 by rw [hn]; rfl, List.take_zero, List.take_zero]
  rw [← hn]
  exact t1ha0_ia32aes_avx2_ignores_data ac rfl rfl (Nat.le_of_eq hn.symm) (hb b) (hb b')
    List.length_replicate List.length_replicate ha (Or.inl rfl) (Or.inl rfl) (ht b) (ht b') seed

/-! ## C08 -/

/-- C08: the value returned by each hash function depends only on the bytes of the message: two calls in
two memories which agree on the buffer only (all other bytes being arbitrary and changing at any moment)
return the same value. -/
theorem outside_bytes_do_not_matter (f : OneShot) (h : Buf cfg w s.ov page data m)
    (h' : Buf cfg w' s'.ov page' data' m) (r : f.Ready cfg w data m.length)
    (r' : f.Ready cfg w' data' m.length) (seed : U64) :
    ∃ v s1 s1', f.run cfg data m.length seed w s = .ok (v, s1) ∧
      f.run cfg data' m.length seed w' s' = .ok (v, s1') := by
  obtain ⟨t, h1, _⟩ := f.returns h r seed
  obtain ⟨t', h2, _⟩ := f.returns h' r' seed
  exact ⟨_, _, _, h1.1, h2.1⟩

/-- Two memories which differ outside of the buffer at every moment. -/
example (f : OneShot) (ho : f.output = none) (hf : ∀ ac, f ≠ .t1ha0_ia32aes_avx2 ac) :
    ∃ v s1 s1', f.run amd64 (8192 - 43) (msg 43).length 7 (atEnd 43) start = .ok (v, s1) ∧
      f.run amd64 (8192 - 43) (msg 43).length 7
        ⟨fun t a => some (if 8192 - 43 ≤ a ∧ a < 8192 then ((msg 43)[a - (8192 - 43)]?).getD 0
          else BitVec.ofNat 8 (t * a + 1)), fun _ => false⟩ start = .ok (v, s1') := by
  refine outside_bytes_do_not_matter f (page' := 4096) (buf_atEnd amd64 rfl 43 (by decide)) ?_
    (ready_atEnd f amd64 43 (by decide) (by decide) (by decide) (by simp [ho])) ?_ 7
  · refine ⟨?_, by rw [length_msg]; decide, fun _ _ _ _ => rfl, pageOk amd64 rfl,
      fun h => absurd h (by decide)⟩
    intro t i b hb
    have hi : i < 43 := by
      rcases Nat.lt_or_ge i 43 with h | h
      · exact h
      · rw [List.getElem?_eq_none (by rw [length_msg]; exact h)] at hb; exact absurd hb (by simp)
    simp only [see, start]
    rw [if_pos (by omega), show 8192 - 43 + i - (8192 - 43) = i by omega, hb]
    rfl
  · exact ⟨fun _ => Or.inl (by decide), fun _ => by decide, by simp [ho],
      fun _ _ _ => by rw [length_msg]; decide, fun ac h => absurd h (hf ac), fun ac h => absurd h (hf ac)⟩

/-! ## C09 -/

/-- C09: a call with a readable buffer returns (no fault), and every byte which it reads lies on a page
that holds a byte of the buffer. Exception: the 64-bit functions in configurations without
`Cfg.SafeTail`. -/
theorem reads_stay_on_pages (f : OneShot) (h : Buf cfg w s.ov page data m)
    (r : f.Ready cfg w data m.length) (hsafe : f.words64 = true → cfg.SafeTail) (seed : U64) :
    ∃ v s' t, Returns (f.run cfg data m.length seed) w s v s' t ∧
      ∀ p n, Ev.rd p n ∈ t → ∀ i, i < n → OnPage page data m.length (p + i) := by
  obtain ⟨t, h1, h2, _⟩ := f.returns h r seed
  refine ⟨_, _, t, h1, ?_⟩
  intro p n hp i hi
  rcases h2 _ hp with hx | ⟨q, _, hx⟩ | ⟨_, a, hx, _⟩
  · by_cases hw : f.words64 = true
    · rw [if_pos hw] at hx
      rcases hx.1 (p + i) (by omega) (by omega) with h | ⟨h, _⟩
      · exact h
      · exact absurd (hsafe hw) h
    · rw [if_neg hw] at hx
      exact hx.1 (p + i) (by omega) (by omega)
  · exact absurd hx (by simp)
  · exact absurd hx (by simp)

/-- 3 bytes at the end of the only mapped page. -/
example (f : OneShot) (ho : f.output = none) :
    ∃ v s' t, Returns (f.run amd64 (8192 - 3) (msg 3).length 7) (atEnd 3) start v s' t ∧
      ∀ p n, Ev.rd p n ∈ t → ∀ i, i < n → OnPage 4096 (8192 - 3) (msg 3).length (p + i) :=
  reads_stay_on_pages f (buf_atEnd amd64 rfl 3 (by decide))
    (ready_atEnd f amd64 3 (by decide) (by decide) (by decide) (by simp [ho])) (fun _ => by decide) 7

/-- C09, the exception in general: without `Cfg.SafeTail`, what the 64-bit functions read beyond the
pages of the buffer is within the 8 bytes after its end. -/
theorem reads_stay_near (f : OneShot) (h : Buf cfg w s.ov page data m)
    (r : f.Ready cfg w data m.length) (seed : U64) :
    ∃ v s' t, Returns (f.run cfg data m.length seed) w s v s' t ∧
      ∀ p n, Ev.rd p n ∈ t → ∀ i, i < n → OnPage page data m.length (p + i) ∨
        (data + m.length ≤ p + i ∧ p + i < data + m.length + 8) := by
  obtain ⟨t, h1, h2, _⟩ := f.returns h r seed
  refine ⟨_, _, t, h1, ?_⟩
  intro p n hp i hi
  rcases h2 _ hp with hx | ⟨q, _, hx⟩ | ⟨_, a, hx, _⟩
  · by_cases hw : f.words64 = true
    · rw [if_pos hw] at hx
      rcases hx.1 (p + i) (by omega) (by omega) with h | ⟨_, h⟩
      · exact Or.inl h
      · exact Or.inr h
    · rw [if_neg hw] at hx
      exact Or.inl (hx.1 (p + i) (by omega) (by omega))
  · exact absurd hx (by simp)
  · exact absurd hx (by simp)

example : ∃ v s' t, Returns (OneShot.t1ha1_le.run mips32 8188 (msg 3).length 7)
      (memory 4096 12288 8188 (msg 3)) start v s' t ∧
      ∀ p n, Ev.rd p n ∈ t → ∀ i, i < n → OnPage 4096 8188 (msg 3).length (p + i) ∨
        (8188 + (msg 3).length ≤ p + i ∧ p + i < 8188 + (msg 3).length + 8) :=
  reads_stay_near .t1ha1_le
    (buf mips32 rfl (by decide) (by decide) (by decide) (by rw [length_msg]; decide) (by decide))
    ⟨fun _ => Or.inr (mapped (by decide) (by rw [length_msg]; decide)), fun h => (nomatch h),
      fun _ h => (nomatch h), fun _ h => absurd h (by simp), fun _ h => absurd h (by simp),
      fun _ h => absurd h (by simp)⟩ 7

/-- C09, the exception is real: in every configuration without `Cfg.SafeTail`, the call of any of
`t1ha1_le`, `t1ha1_be`, `t1ha2_atonce`, `t1ha2_atonce128` with a readable buffer of 1 to 3 bytes, 4 bytes
before the end of the last mapped page, faults. (A page size of 4096 is only for definiteness.) -/
theorem page_overread (f : OneShot) (hf : f = .t1ha1_le ∨ f = .t1ha1_be ∨
      (∃ g, f = .t1ha2_atonce g) ∨ ∃ g p, f = .t1ha2_atonce128 g p)
    (hs : ¬ cfg.SafeTail) (hp : cfg.pageSize = 4096) (m : List Byte) (h0 : 0 < m.length)
    (h3 : m.length ≤ 3) (seed : U64) :
    Buf cfg (memory 4096 8192 8188 m) start.ov 4096 8188 m ∧
      f.run cfg 8188 m.length seed (memory 4096 8192 8188 m) start = .error .fault := by
  refine ⟨buf cfg hp (by decide) (by decide) (by decide) (by omega) (by decide), ?_⟩
  refine faults_short f hf hs (by decide) h0 (by omega) (fun t => ⟨4, by decide, ?_⟩) seed []
  simp only [memory]
  rw [if_neg (by decide)]

example : Buf mips32 (memory 4096 8192 8188 [1, 2, 3]) start.ov 4096 8188 [1, 2, 3] ∧
    OneShot.t1ha1_le.run mips32 8188 3 7 (memory 4096 8192 8188 [1, 2, 3]) start = .error .fault :=
  page_overread .t1ha1_le (Or.inl rfl) (by decide) rfl [1, 2, 3] (by decide) (by decide) 7

/-! ## C10 -/

/-- C10: with `T1HA_USE_FAST_ONESHOT_READ` = 0 or under AddressSanitizer, every byte read lies in the
buffer. -/
theorem sanitizer_safe (f : OneShot) (h : Buf cfg w s.ov page data m)
    (r : f.Ready cfg w data m.length) (hsan : cfg.oneshot = false ∨ cfg.asan = true) (seed : U64) :
    ∃ v s' t, Returns (f.run cfg data m.length seed) w s v s' t ∧
      ∀ p n, Ev.rd p n ∈ t → data ≤ p ∧ p + n ≤ data + m.length := by
  obtain ⟨t, h1, h2, _⟩ := f.returns h r seed
  refine ⟨_, _, t, h1, ?_⟩
  have ha : cfg.alignedOneshot = false := by
    unfold Cfg.alignedOneshot
    rcases hsan with h | h <;> simp [h]
  intro p n hp
  rcases h2 _ hp with hx | ⟨q, _, hx⟩ | ⟨_, a, hx, _⟩
  · by_cases hw : f.words64 = true
    · rw [if_pos hw] at hx
      exact hx.2 ha
    · rw [if_neg hw] at hx
      exact hx.2 ha
  · exact absurd hx (by simp)
  · exact absurd hx (by simp)

example (f : OneShot) (ho : f.output = none) :
    ∃ v s' t, Returns (f.run arm32 (8192 - 43) (msg 43).length 7) (atEnd 43) start v s' t ∧
      ∀ p n, Ev.rd p n ∈ t → 8192 - 43 ≤ p ∧ p + n ≤ 8192 - 43 + (msg 43).length :=
  sanitizer_safe f (buf_atEnd arm32 rfl 43 (by decide))
    (ready_atEnd f arm32 43 (by decide) (by decide) (by decide) (by simp [ho])) (Or.inl rfl) 7

/-! ## C11 -/

/-- C11: every byte of the message is read. -/
theorem every_byte_is_read (f : OneShot) (h : Buf cfg w s.ov page data m)
    (r : f.Ready cfg w data m.length) (seed : U64) :
    ∃ v s' t, Returns (f.run cfg data m.length seed) w s v s' t ∧
      ∀ i, i < m.length → ∃ p n, Ev.rd p n ∈ t ∧ p ≤ data + i ∧ data + i < p + n := by
  obtain ⟨t, h1, _, h3, _⟩ := f.returns h r seed
  refine ⟨_, _, t, h1, ?_⟩
  intro i hi
  obtain ⟨x, hx, hc⟩ := h3 (data + i) ⟨by omega, by omega⟩
  cases x with
  | rd p n => exact ⟨p, n, hx, hc.1, hc.2⟩
  | wr p n => exact absurd hc (by simp [Ev.covers])
  | iter => exact absurd hc (by simp [Ev.covers])
  | ptr p => exact absurd hc (by simp [Ev.covers])

example (f : OneShot) (ho : f.output = none) :
    ∃ v s' t, Returns (f.run amd64 (8192 - 43) (msg 43).length 7) (atEnd 43) start v s' t ∧
      ∀ i, i < (msg 43).length → ∃ p n, Ev.rd p n ∈ t ∧ p ≤ 8192 - 43 + i ∧ 8192 - 43 + i < p + n :=
  every_byte_is_read f (buf_atEnd amd64 rfl 43 (by decide))
    (ready_atEnd f amd64 43 (by decide) (by decide) (by decide) (by simp [ho])) 7

/-! ## C12 -/

/-- C12: no misaligned load and no failing assertion, whatever the address is; more: no misbehaviour of
any kind. -/
theorem no_misbehaviour (f : OneShot) (h : Buf cfg w s.ov page data m)
    (r : f.Ready cfg w data m.length) (seed : U64) :
    ∀ e, f.run cfg data m.length seed w s ≠ .error e := by
  obtain ⟨t, h1, _⟩ := f.returns h r seed
  intro e he
  rw [h1.1] at he
  exact nomatch he

/-- Odd address on a machine without unaligned access, assertions on. -/
example (f : OneShot) (h64 : f = .t1ha1_le ∨ f = .t1ha1_be ∨ f = .t1ha0_32be) :
    ∀ e, f.run mips32 5001 (msg 43).length 7 (memory 4096 8192 5001 (msg 43)) start ≠ .error e :=
  no_misbehaviour f
    (buf mips32 rfl (by decide) (by decide) (by decide) (by rw [length_msg]; decide) (by decide))
    ⟨fun _ => Or.inr (mapped (by decide) (by rw [length_msg]; decide)), fun _ => by decide,
      fun p h => by rcases h64 with rfl | rfl | rfl <;> simp [OneShot.output] at h,
      fun _ h => by rcases h64 with rfl | rfl | rfl <;> simp at h,
      fun _ h => by rcases h64 with rfl | rfl | rfl <;> simp at h,
      fun _ h => by rcases h64 with rfl | rfl | rfl <;> simp at h⟩ 7

/-! ## C13 -/

/-- C13: every call returns, after as many loop iterations as there are whole blocks. -/
theorem terminates (f : OneShot) (h : Buf cfg w s.ov page data m)
    (r : f.Ready cfg w data m.length) (seed : U64) :
    ∃ v s' t, Returns (f.run cfg data m.length seed) w s v s' t ∧
      t.count .iter = f.blocks m.length := by
  obtain ⟨t, h1, _, _, h4⟩ := f.returns h r seed
  exact ⟨_, _, t, h1, h4⟩

/-- Ten blocks of 32 bytes. -/
example : ∃ v s' t, Returns (OneShot.t1ha1_le.run amd64 (8192 - 333) (msg 333).length 7) (atEnd 333)
      start v s' t ∧ t.count .iter = 10 := by
  have := terminates .t1ha1_le (buf_atEnd amd64 rfl 333 (by decide))
    (ready_atEnd _ amd64 333 (by decide) (by decide) (by decide) (by simp [OneShot.output])) 7
  rwa [length_msg] at this ⊢

/-! ## C14 -/

/-- C14: a call changes no byte of memory and writes nothing, except the 8 bytes at the place given for
the second result of `t1ha2_atonce128`. -/
theorem writes_confined (f : OneShot) (h : Buf cfg w s.ov page data m)
    (r : f.Ready cfg w data m.length) (seed : U64) :
    ∃ v s' t, Returns (f.run cfg data m.length seed) w s v s' t ∧
      (∀ p n, Ev.wr p n ∈ t → f.output = some p ∧ n = 8) ∧
      ∀ a, (∀ p, f.output = some p → a < p ∨ p + 8 ≤ a) → s'.ov a = s.ov a := by
  obtain ⟨t, h1, h2, _⟩ := f.returns h r seed
  refine ⟨_, _, t, h1, ?_, ?_⟩
  · intro p n hp
    rcases h2 _ hp with hx | ⟨q, hq, hx⟩ | ⟨_, a, hx, _⟩
    · by_cases hw : f.words64 = true
      · rw [if_pos hw] at hx
        exact absurd hx (by simp [Foot])
      · rw [if_neg hw] at hx
        exact absurd hx (by simp [Foot32])
    · simp only [Ev.wr.injEq] at hx
      exact ⟨by rw [hq, hx.1], hx.2⟩
    · exact absurd hx (by simp)
  · intro a ha
    show f.after cfg m seed s.ov a = s.ov a
    unfold OneShot.after
    cases ho : f.output with
    | none => rfl
    | some p =>
      have := ha p ho
      exact put_other (by rwa [length_bytes])

example (g : State256) :
    ∃ v s' t, Returns ((OneShot.t1ha2_atonce128 g 4099).run amd64 (8192 - 43) (msg 43).length 7)
      (atEnd 43) start v s' t ∧
      (∀ p n, Ev.wr p n ∈ t → some 4099 = some p ∧ n = 8) ∧
      ∀ a, (∀ p, some 4099 = some p → a < p ∨ p + 8 ≤ a) → s'.ov a = start.ov a :=
  writes_confined (.t1ha2_atonce128 g 4099) (buf_atEnd amd64 rfl 43 (by decide))
    (ready_atEnd _ amd64 43 (by decide) (by decide) (by decide)
      (by intro p hp; simp [OneShot.output] at hp; omega)) 7

/-! ## C19 -/

/-- C19: a call with length 0 touches no memory whatever the pointer is (nothing needs to be mapped),
except that `t1ha2_atonce128` stores its second result; the value depends only on the seed. -/
theorem empty_message (f : OneShot) (cfg : Cfg) (w : World) (s : Sys) (data : Nat) (seed : U64)
    (ho : ∀ p, f.output = some p → Writable w p 8) :
    ∃ s' t, Returns (f.run cfg data 0 seed) w s (f.hash [] seed) s' t ∧
      (∀ x ∈ t, ∃ p, f.output = some p ∧ x = .wr p 8) ∧
      ∀ a, (∀ p, f.output = some p → a < p ∨ p + 8 ≤ a) → s'.ov a = s.ov a := by
  obtain ⟨t, h1, h2⟩ := returns_empty f (cfg := cfg) (w := w) (s := s) data seed ho
  exact ⟨_, t, h1, h2, fun a ha => after_other f ha⟩

/-- A null pointer, nothing is mapped. -/
example (f : OneShot) (ho : f.output = none) :
    ∃ s' t, Returns (f.run mips32 0 0 7) ⟨fun _ _ => none, fun _ => false⟩ start (f.hash [] 7) s' t ∧
      (∀ x ∈ t, ∃ p, f.output = some p ∧ x = .wr p 8) ∧
      ∀ a, (∀ p, f.output = some p → a < p ∨ p + 8 ≤ a) → s'.ov a = start.ov a :=
  empty_message f mips32 _ start 0 7 (by simp [ho])

end T1ha.Props
