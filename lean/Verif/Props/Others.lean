import Verif.Props.OthersApi
import Verif.Props.Examples
import Verif.Proofs.Session
import Verif.Proofs.Stadtx
import Verif.Proofs.Wyhash
import Verif.Proofs.HighwayRun

/-!
# The hash functions of other authors: C72, C75

StadtX, wyhash and HighwayHash, with which the test program compares t1ha. `Message cfg w ov data m` (in
`Verif/ContractOthers.lean`) says that the bytes at `data` are `m` during the call. `Hashes` (in
`Verif/Props/OthersApi.lean`) is the result.
-/

namespace T1ha.Examples

open Model

theorem message (cfg : Cfg) {lo hi data : Nat} {m : List Byte} (h1 : lo ≤ data) (h2 : data + m.length ≤ hi)
    (h3 : hi + 32 < 2 ^ 32) : Message cfg (memory lo hi data m) start.ov data m where
  holds := by
    intro t i b hb
    have hi : i < m.length := by
      rcases Nat.lt_or_ge i m.length with h | h
      · exact h
      · rw [List.getElem?_eq_none h] at hb; exact absurd hb (by simp)
    simp only [memory, see, start]
    rw [if_pos (by omega), if_pos (by omega), show data + i - data = i by omega, hb]
    rfl
  fits := by
    unfold Cfg.bits
    split
    · exact Nat.lt_trans (by omega : data + m.length < 2 ^ 32) (by decide)
    · omega
  room := by
    unfold Cfg.bits
    split
    · exact Nat.lt_trans (by omega : m.length + 32 < 2 ^ 32) (by decide)
    · omega

/-- 43 bytes at the end of the only mapped page. -/
theorem message43 (cfg : Cfg) : Message cfg (atEnd 43) start.ov (8192 - 43) (msg 43) :=
  message cfg (by decide) (by rw [length_msg]) (by decide)

/-- 50 bytes in the middle of a page. -/
theorem message50 (cfg : Cfg) : Message cfg (memory 4096 8192 5001 (msg 50)) start.ov 5001 (msg 50) :=
  message cfg (by decide) (by rw [length_msg]; decide) (by decide)

end T1ha.Examples

namespace T1ha.Props

open Model Examples

variable {cfg cfg' : Cfg} {w w' : World} {s s' : Sys} {data data' : Nat} {m : List Byte}

theorem hashes_of_reads {α : Type} {f : M α} {v : α} {below len n steps : Nat}
    (h : Reads w s.ov (Looks below data len) (range data len) n f v) (hn : n ≤ steps) :
    Hashes w s f v below data len steps := by
  obtain ⟨v', s', t, h1, ⟨h2, h3⟩, h4, h5, h6⟩ := returns_of_exec h
  subst h2
  refine ⟨s', t, h1, h3, h4, fun i hi => ?_, h6 ▸ hn⟩
  obtain ⟨x, hx, hc⟩ := h5 (data + i) ⟨by omega, by omega⟩
  cases x with
  | rd p n => exact ⟨p, n, hx, hc.1, hc.2⟩
  | wr p n => exact absurd hc (by simp [Ev.covers])
  | iter => exact absurd hc (by simp [Ev.covers])
  | ptr p => exact absurd hc (by simp [Ev.covers])

/-! ## C72: StadtX -/

/-- C72: StadtX, as the test program calls it, returns a function of the bytes and of the seed, for every build
configuration, address and memory; it reads every byte of the message and nothing else. (If the code uses a
packed structure for unaligned words, it computes pointers up to 7 bytes before the message.) -/
theorem stadtx_correct (h : Message cfg w s.ov data m) (above : cfg.proxy = true → m ≠ [] → 7 ≤ data) (seed : U64) :
    Hashes w s (thunk_StadtX cfg data m.length seed) (Spec.stadtx ⟨seed, seed, seed, seed⟩ m)
      (if cfg.proxy then 7 else 0) data m.length (m.length / 32) := by
  refine hashes_of_reads (reads_stadtx (h.space _) ?_ _ h.holds (Nat.le_refl _) (Nat.le_refl _) ?_) (Nat.le_refl _)
  · intro hp hlt
    rw [if_pos hp]
    refine ⟨Nat.le_refl _, above hp ?_⟩
    rintro rfl
    simp at hlt
  · have := h.room; omega

theorem seed_state_eq (seed0 seed1 : U64) : stadtx_seed_state seed0 seed1 = Spec.stadtxState seed0 seed1 := rfl

/-- C72: the same with a state made from two seeds. -/
theorem stadtx_seeds_correct (h : Message cfg w s.ov data m) (above : cfg.proxy = true → m ≠ [] → 7 ≤ data)
    (seed0 seed1 : U64) :
    Hashes w s (stadtx_hash cfg seed0 seed1 data m.length) (Spec.stadtx (Spec.stadtxState seed0 seed1) m)
      (if cfg.proxy then 7 else 0) data m.length (m.length / 32) := by
  rw [← seed_state_eq]
  refine hashes_of_reads (reads_stadtx (h.space _) ?_ _ h.holds (Nat.le_refl _) (Nat.le_refl _) ?_) (Nat.le_refl _)
  · intro hp hlt
    rw [if_pos hp]
    refine ⟨Nat.le_refl _, above hp ?_⟩
    rintro rfl
    simp at hlt
  · have := h.room; omega

/-- C72: two builds of StadtX, on two machines, return the same value for equal messages. -/
theorem stadtx_portable (h : Message cfg w s.ov data m) (h' : Message cfg' w' s'.ov data' m)
    (above : cfg.proxy = true → m ≠ [] → 7 ≤ data) (above' : cfg'.proxy = true → m ≠ [] → 7 ≤ data') (seed : U64) :
    ∃ v r t r' t', Returns (thunk_StadtX cfg data m.length seed) w s v r t ∧
      Returns (thunk_StadtX cfg' data' m.length seed) w' s' v r' t' := by
  obtain ⟨r, t, h1, -⟩ := stadtx_correct h above seed
  obtain ⟨r', t', h2, -⟩ := stadtx_correct h' above' seed
  exact ⟨_, r, t, r', t', h1, h2⟩

example : ∃ v r t r' t', Returns (thunk_StadtX amd64 (8192 - 43) (msg 43).length 7) (atEnd 43) start v r t ∧
    Returns (thunk_StadtX mips32 5001 (msg 43).length 7) (memory 4096 8192 5001 (msg 43)) start v r' t' :=
  stadtx_portable (message43 amd64) (message mips32 (by decide) (by rw [length_msg]; decide) (by decide))
    (fun _ _ => by decide) (fun _ _ => by decide) 7

example (seed0 seed1 : U64) : Hashes (memory 4096 8192 5001 (msg 50)) start
    (stadtx_hash arm32 seed0 seed1 5001 (msg 50).length) (Spec.stadtx (Spec.stadtxState seed0 seed1) (msg 50))
    (if arm32.proxy then 7 else 0) 5001 (msg 50).length ((msg 50).length / 32) :=
  stadtx_seeds_correct (message50 arm32) (fun _ _ => by decide) seed0 seed1

/-! ## C72: wyhash -/

/-- C72: wyhash returns a function of the bytes, of the seed and of the secret numbers, for every machine, compiler
(`mum`: how it multiplies), address and memory; it reads every byte of the message and nothing else. -/
theorem wyhash_correct (h : Message cfg w s.ov data m) (mum : WyMum) (seed : U64) (secret : Fin 5 → U64) :
    Hashes w s (wyhash cfg mum data m.length seed secret)
      (Spec.wyhash ⟨secret 0, secret 1, secret 2, secret 3, secret 4⟩ m seed) 0 data m.length (m.length / 16) := by
  refine hashes_of_reads (reads_wyhash (h.space 0) h.holds (Nat.le_refl _) (Nat.le_refl _) seed secret) ?_
  unfold wyLoops
  omega

/-- C72: the same for the function which the test program measures, with the default secret numbers. -/
theorem wyhash_v7_correct (h : Message cfg w s.ov data m) (mum : WyMum) (seed : U64) :
    Hashes w s (thunk_wyhash_v7 cfg mum data m.length seed) (Spec.wyhash Spec.wyp m seed) 0 data m.length
      (m.length / 16) :=
  wyhash_correct h mum seed _wyp

/-- C72: two builds of wyhash, on two machines, return the same value for equal messages. -/
theorem wyhash_portable (h : Message cfg w s.ov data m) (h' : Message cfg' w' s'.ov data' m) (mum mum' : WyMum)
    (seed : U64) (secret : Fin 5 → U64) :
    ∃ v r t r' t', Returns (wyhash cfg mum data m.length seed secret) w s v r t ∧
      Returns (wyhash cfg' mum' data' m.length seed secret) w' s' v r' t' := by
  obtain ⟨r, t, h1, -⟩ := wyhash_correct h mum seed secret
  obtain ⟨r', t', h2, -⟩ := wyhash_correct h' mum' seed secret
  exact ⟨_, r, t, r', t', h1, h2⟩

example : ∃ v r t r' t', Returns (wyhash amd64 .int128 (8192 - 43) (msg 43).length 7 _wyp) (atEnd 43) start v r t ∧
    Returns (wyhash mips32 .portable 5001 (msg 43).length 7 _wyp) (memory 4096 8192 5001 (msg 43)) start v r' t' :=
  wyhash_portable (message43 amd64) (message mips32 (by decide) (by rw [length_msg]; decide) (by decide))
    .int128 .portable 7 _wyp

/-! ## C72: HighwayHash in C -/

/-- C72: HighwayHash in C (64 bits) returns a function of the bytes and of the key, for every machine, address
and memory; it reads every byte of the message and nothing else. `strict` is an implementation of C on which it is an
error that the address of an element leaves the address space: then the last bytes (after the last complete packet of
32) must be less than 16. -/
theorem highway_c_correct_partial (h : Message cfg w s.ov data m) (strict : Bool)
    (hst : strict = false ∨ m.length % 32 < 16) (key : Quad) :
    Hashes w s (HighwayC.HighwayHash64_pure_c cfg strict key data m.length) (Spec.highway64 key m) 0 data m.length
        m.length ∧
      Hashes w s (HighwayC.HighwayHash128_pure_c cfg strict key data m.length) (Spec.highway128 key m) 0 data m.length
        m.length ∧
      Hashes w s (HighwayC.HighwayHash256_pure_c cfg strict key data m.length) (Spec.highway256 key m) 0 data m.length
        m.length := by
  have hr := reads_ProcessAll (h.space 0) h.holds (Nat.le_refl _) (Nat.le_refl _) h.room hst key
  have hn : m.length / 32 + m.length % 32 / 4 * 4 + 0 ≤ m.length := by omega
  have fin : ∀ {α : Type} (g : Spec.Highway → α),
      Hashes w s (HighwayC.ProcessAll cfg strict data m.length key >>= fun x => pure (g x))
        (g (Spec.highwayAll key m)) 0 data m.length m.length := fun g =>
    hashes_of_reads (Exec.cov (Reads.bind hr (Reads.pure (g _))) (fun a h => Or.inl h) rfl) hn
  refine ⟨?_, ?_, ?_⟩
  · rw [Spec.highway64, ← finalize64C]; exact fin _
  · rw [Spec.highway128, ← finalize128C]; exact fin _
  · rw [Spec.highway256, ← finalize256C]; exact fin _

/-- C72: on an implementation on which it is an error that the address of an element leaves the address space, there
is such an error for every message whose last bytes are 16 or more. -/
theorem highway_c_overflow (h : Message cfg w s.ov data m) (h16 : 16 ≤ m.length % 32) (key : Quad) :
    HighwayC.HighwayHash64_pure_c cfg true key data m.length w s = .error .ptrWrap := by
  have fails := fails_ProcessAll (h.space 0) h.holds (Nat.le_refl _) (Nat.le_refl _) h.room h16 key
  exact (Fails.now fails _) s.log

/-- C72: two builds of HighwayHash in C, on two machines, return the same value for equal messages. -/
theorem highway_c_portable (h : Message cfg w s.ov data m) (h' : Message cfg' w' s'.ov data' m) (key : Quad) :
    ∃ v r t r' t', Returns (HighwayC.HighwayHash64_pure_c cfg false key data m.length) w s v r t ∧
      Returns (HighwayC.HighwayHash64_pure_c cfg' false key data' m.length) w' s' v r' t' := by
  obtain ⟨r, t, h1, -⟩ := (highway_c_correct_partial h false (Or.inl rfl) key).1
  obtain ⟨r', t', h2, -⟩ := (highway_c_correct_partial h' false (Or.inl rfl) key).1
  exact ⟨_, r, t, r', t', h1, h2⟩

example (key : Quad) : ∃ v r t r' t',
    Returns (HighwayC.HighwayHash64_pure_c amd64 false key (8192 - 43) (msg 43).length) (atEnd 43) start v r t ∧
    Returns (HighwayC.HighwayHash64_pure_c mips32 false key 5001 (msg 43).length) (memory 4096 8192 5001 (msg 43)) start
      v r' t' :=
  highway_c_portable (message43 amd64) (message mips32 (by decide) (by rw [length_msg]; decide) (by decide)) key

/-- 50 bytes: 18 after the last complete packet. -/
example (key : Quad) : HighwayC.HighwayHash64_pure_c amd64 true key 5001 (msg 50).length
    (memory 4096 8192 5001 (msg 50)) start = .error .ptrWrap :=
  highway_c_overflow (message50 amd64) (by rw [length_msg]; decide) key

/-! ## C72: HighwayHash in C++ -/

/-- C72: what portable HighwayHash in C++ returns, on a machine of any byte order: the last bytes of the message are
made a packet in a way which depends on the byte order of the machine (`Spec.highwayStored`). It reads every byte of
the message and nothing else. -/
theorem highway_cxx_value (h : Message cfg w s.ov data m) (strict : Bool) (key : Quad) :
    Hashes w s (HighwayPortable.HighwayHash64_Portable cfg strict key data m.length)
        (Spec.highwayResult64 (Spec.highwayAbsorb (Spec.highwayStored cfg.endian) key m)) 0 data m.length
        (2 * m.length + 40) ∧
      Hashes w s (HighwayPortable.HighwayHash128_Portable cfg strict key data m.length)
        (Spec.highwayResult128 (Spec.highwayAbsorb (Spec.highwayStored cfg.endian) key m)) 0 data m.length
        (2 * m.length + 40) ∧
      Hashes w s (HighwayPortable.HighwayHash256_Portable cfg strict key data m.length)
        (Spec.highwayResult256 (Spec.highwayAbsorb (Spec.highwayStored cfg.endian) key m)) 0 data m.length
        (2 * m.length + 40) := by
  have hr := reads_HighwayHashT (strict := strict) (h.space 0) h.holds (Nat.le_refl _) (Nat.le_refl _) h.room key
  have hn : portableLoops m.length + 0 ≤ 2 * m.length + 40 := by
    unfold portableLoops storedLoops
    split
    · omega
    · split <;> omega
  have fin : ∀ {α : Type} (g : Spec.Highway → α),
      Hashes w s (HighwayPortable.HighwayHashT cfg strict (HighwayPortable.Reset key) data m.length >>=
          fun x => pure (g x))
        (g (Spec.highwayAbsorb (Spec.highwayStored cfg.endian) key m)) 0 data m.length (2 * m.length + 40) := fun g =>
    hashes_of_reads (Exec.cov (Reads.bind hr (Reads.pure (g _))) (fun a h => Or.inl h) rfl) hn
  refine ⟨?_, ?_, ?_⟩
  · rw [← finalize64Portable]; exact fin _
  · rw [← finalize128Portable]; exact fin _
  · rw [← finalize256Portable]; exact fin _

/-- C72: portable HighwayHash in C++ is HighwayHash on little-endian machines; on others for messages of complete
packets of 32 bytes. (For other messages it is not: `highway_cxx_wrong`.) -/
theorem highway_cxx_correct_partial (h : Message cfg w s.ov data m) (hm : cfg.endian = .little ∨ m.length % 32 = 0)
    (strict : Bool) (key : Quad) :
    Hashes w s (HighwayPortable.HighwayHash64_Portable cfg strict key data m.length) (Spec.highway64 key m) 0 data
        m.length (2 * m.length + 40) ∧
      Hashes w s (HighwayPortable.HighwayHash128_Portable cfg strict key data m.length) (Spec.highway128 key m) 0 data
        m.length (2 * m.length + 40) ∧
      Hashes w s (HighwayPortable.HighwayHash256_Portable cfg strict key data m.length) (Spec.highway256 key m) 0 data
        m.length (2 * m.length + 40) := by
  have e : Spec.highwayAbsorb (Spec.highwayStored cfg.endian) key m = Spec.highwayAll key m := by
    unfold Spec.highwayAll Spec.highwayAbsorb
    rcases hm with hm | hm
    · rw [hm]
      simp only [Spec.highwayRemainder, highwayStored_little]
    · rw [if_pos ((rest_eq_nil m).2 hm), if_pos ((rest_eq_nil m).2 hm)]
  have := highway_cxx_value h strict key
  rw [e] at this
  exact this

/-- C72: on a big-endian machine, the portable C++ code returns another value than HighwayHash: for the two bytes
0, 1 and the first key of the verification. -/
theorem highway_cxx_wrong (hb : cfg.endian = .big) (h : Message cfg w s.ov data [0, 1]) (strict : Bool) :
    ∃ v r t, Returns (HighwayPortable.HighwayHash64_Portable cfg strict
        ⟨0x0706050403020100, 0x0F0E0D0C0B0A0908, 0x1716151413121110, 0x1F1E1D1C1B1A1918⟩ data 2) w s v r t ∧
      v ≠ Spec.highway64 ⟨0x0706050403020100, 0x0F0E0D0C0B0A0908, 0x1716151413121110, 0x1F1E1D1C1B1A1918⟩ [0, 1] := by
  obtain ⟨r, t, h1, -⟩ := (highway_cxx_value h strict _).1
  refine ⟨_, r, t, h1, ?_⟩
  rw [hb]
  decide +kernel

example (key : Quad) : Hashes (memory 4096 8192 5001 (msg 50)) start
    (HighwayPortable.HighwayHash64_Portable arm32 false key 5001 (msg 50).length) (Spec.highway64 key (msg 50)) 0 5001
    (msg 50).length (2 * (msg 50).length + 40) :=
  (highway_cxx_correct_partial (message50 arm32) (Or.inl rfl) false key).1

example : ∃ v r t, Returns (HighwayPortable.HighwayHash64_Portable mips32 false
      ⟨0x0706050403020100, 0x0F0E0D0C0B0A0908, 0x1716151413121110, 0x1F1E1D1C1B1A1918⟩ 5001 2)
      (memory 4096 8192 5001 [0, 1]) start v r t ∧
    v ≠ Spec.highway64 ⟨0x0706050403020100, 0x0F0E0D0C0B0A0908, 0x1716151413121110, 0x1F1E1D1C1B1A1918⟩ [0, 1] :=
  highway_cxx_wrong rfl (message mips32 (by decide) (by decide) (by decide)) false

/-! ## C75 -/

theorem mux_zero_left (x : U64) : Spec.mux 0 x = 0 := by
  unfold Spec.mux Spec.product; simp

theorem mux_zero_right (x : U64) : Spec.mux x 0 = 0 := by
  unfold Spec.mux Spec.product; simp

theorem wyhash_zero (k : Spec.WySecret) (p t : List Byte) (hp : p.length % 16 = 0) (h1 : 1 ≤ t.length)
    (h8 : t.length ≤ 8) (seed : U64) : Spec.wyhash k (p ++ leBytes 8 k.s1.toNat ++ t) seed = 0 := by
  have hlen : (p ++ leBytes 8 k.s1.toNat ++ t).length = p.length + 8 + t.length := by
    simp only [List.length_append, length_leBytes]
  unfold Spec.wyhash
  simp only []
  generalize hm : p ++ leBytes 8 k.s1.toNat ++ t = m at *
  have hd : (m.drop (64 * ((m.length - 1) / 64))).length = m.length - 64 * ((m.length - 1) / 64) := List.length_drop
  rw [List.drop_drop, hd,
    show 64 * ((m.length - 1) / 64) + 16 * ((m.length - 64 * ((m.length - 1) / 64) - 1) / 16) = p.length by omega]
  have hw : (Spec.wyLast (m.drop p.length)).1 = k.s1 := by
    rw [← hm, List.append_assoc, List.drop_left' rfl]
    unfold Spec.wyLast
    rw [if_pos (by rw [List.length_append, length_leBytes]; omega)]
    simp only [List.take_left' (length_leBytes 8 k.s1.toNat), Spec.num]
    rw [leVal_leBytes, Nat.mod_eq_of_lt (by have := k.s1.isLt; omega), BitVec.ofNat_toNat, BitVec.setWidth_eq]
  rw [hw, BitVec.xor_self]
  show Spec.mux _ (Spec.mux 0 _) = 0
  rw [mux_zero_left, mux_zero_right]

/-- C75: wyhash of a message is 0 under every seed, if the message consists of anything (of a multiple of 16 bytes),
the 8 bytes of the second secret number, and 1 to 8 arbitrary bytes. -/
theorem wyhash_seed_ignored (secret : Fin 5 → U64) {p t : List Byte} (hp : p.length % 16 = 0) (h1 : 1 ≤ t.length)
    (h8 : t.length ≤ 8) (hm : m = p ++ leBytes 8 (secret 1).toNat ++ t) (h : Message cfg w s.ov data m) (mum : WyMum)
    (seed : U64) : ∃ r t, Returns (wyhash cfg mum data m.length seed secret) w s 0 r t := by
  obtain ⟨r, t', h2, -⟩ := wyhash_correct h mum seed secret
  rw [show Spec.wyhash ⟨secret 0, secret 1, secret 2, secret 3, secret 4⟩ m seed = 0 by
    rw [hm]; exact wyhash_zero _ p t hp h1 h8 seed] at h2
  exact ⟨r, t', h2⟩

/-- C75: with the default secret numbers: two different messages, of 9 to 16 bytes, collide under every seed. -/
theorem wyhash_collision {m' t u : List Byte} {data' : Nat} (h1 : 1 ≤ t.length) (h8 : t.length ≤ 8)
    (h1' : 1 ≤ u.length) (h8' : u.length ≤ 8)
    (hm : m = [0xdb, 0x28, 0xb4, 0xa0, 0xd1, 0x7e, 0x03, 0xe7] ++ t)
    (hm' : m' = [0xdb, 0x28, 0xb4, 0xa0, 0xd1, 0x7e, 0x03, 0xe7] ++ u)
    (h : Message cfg w s.ov data m) (h' : Message cfg' w' s'.ov data' m') (mum mum' : WyMum) (seed : U64) :
    ∃ v r t r' t', Returns (thunk_wyhash_v7 cfg mum data m.length seed) w s v r t ∧
      Returns (thunk_wyhash_v7 cfg' mum' data' m'.length seed) w' s' v r' t' := by
  obtain ⟨r, t1, g1⟩ := wyhash_seed_ignored _wyp (p := []) rfl h1 h8 hm h mum seed
  obtain ⟨r', t2, g2⟩ := wyhash_seed_ignored _wyp (p := []) rfl h1' h8' hm' h' mum' seed
  exact ⟨0, r, t1, r', t2, g1, g2⟩

/-- Messages of 9 and of 12 bytes. -/
example (seed : U64) : ∃ v r t r' t',
    Returns (thunk_wyhash_v7 amd64 .int128 5001 9 seed)
      (memory 4096 8192 5001 [0xdb, 0x28, 0xb4, 0xa0, 0xd1, 0x7e, 0x03, 0xe7, 1]) start v r t ∧
    Returns (thunk_wyhash_v7 amd64 .int128 6000 12 seed)
      (memory 4096 8192 6000 [0xdb, 0x28, 0xb4, 0xa0, 0xd1, 0x7e, 0x03, 0xe7, 1, 2, 3, 4]) start v r' t' :=
  wyhash_collision (t := [1]) (u := [1, 2, 3, 4]) (by decide) (by decide) (by decide) (by decide) rfl rfl
    (message amd64 (by decide) (by decide) (by decide)) (message amd64 (by decide) (by decide) (by decide)) _ _ seed

/-- A message of 48 bytes and 12 bytes. -/
example (seed : U64) : ∃ r t, Returns (wyhash mips32 .portable 5001 (msg 48 ++ leBytes 8 (_wyp 1).toNat ++ msg 4).length
    seed _wyp) (memory 4096 8192 5001 (msg 48 ++ leBytes 8 (_wyp 1).toNat ++ msg 4)) start 0 r t :=
  wyhash_seed_ignored _wyp (p := msg 48) (t := msg 4) (by rw [length_msg]) (by rw [length_msg]; decide)
    (by rw [length_msg]; decide) rfl
    (message mips32 (by decide) (by simp only [List.length_append, length_msg, length_leBytes]; decide) (by decide)) _ seed

end T1ha.Props
