import Verif.Proofs.Xxh3Cat
import Verif.Proofs.Xxh3Fail

/-!
# XXH3 computes its specification: the hash of a message in pieces
-/

namespace T1ha

namespace Model

variable {cfg : Cfg} {x : Xxh3} {w : World} {ov : Overlay} {P : Ev → Prop} {secret : Bytes} {m k : List Byte}
  {seed : U64} {st : XXH3_state}

theorem chunks_split {c r : List Byte} (hc : c.length % 256 = 0) (n : Nat) (hn : 64 * n ≤ r.length) :
    chunks 64 ((c ++ r.take (64 * n)).length / 64) (c ++ r.take (64 * n)) = chunks 64 (c.length / 64 + n) (c ++ r) := by
  have hl : (c ++ r.take (64 * n)).length = c.length + 64 * n := by
    rw [List.length_append, List.length_take]; omega
  rw [hl, show (c.length + 64 * n) / 64 = c.length / 64 + n by omega]
  conv => rhs; rw [← List.take_append_drop (64 * n) r, ← List.append_assoc]
  rw [chunks_take 64 (c.length / 64 + n) (c ++ r.take (64 * n)) _ (by rw [hl]; omega)]

theorem chunks_whole (r : List Byte) (n : Nat) (hn : 64 * n ≤ r.length) : chunks 64 n r = chunks 64 n (r.take (64 * n)) := by
  conv => lhs; rw [← List.take_append_drop (64 * n) r]
  exact chunks_take 64 n _ _ (by rw [List.length_take]; omega)

section
variable (hP : P .iter) (g : ByteSource w ov cfg P secret k) (hk136 : 136 ≤ k.length) (hkb : k.length < 2 ^ cfg.bits)
  (fine : x.access = .direct → x.lenient32 = true ∧ x.lenient64 = true) (f : Fed3 secret k seed m st)
include hP g hk136 hkb fine f

theorem reads_digest_long (h240 : 240 < m.length) :
    ∃ n, Reads w ov P nowhere n (XXH3_digest_long cfg x st st.secret) (Spec.xxh3Long m k) := by
  obtain ⟨c, r, rfl, hb⟩ := f.parts
  have hk := f.kept
  have hshort := hb.short
  have hwhole := hb.consumed.whole
  have hlast := hb.last
  have hpb : 9 ≤ Spec.xxh3PerBlock k := by unfold Spec.xxh3PerBlock; omega
  have hsf : st.nbStripesSoFar < Spec.xxh3PerBlock k := by rw [hb.consumed.soFar]; exact Nat.mod_lt _ (by omega)
  have hpre : r <+: st.buffer := ⟨st.buffer.drop r.length, by
    conv => lhs; lhs; rw [← hb.held]
    exact List.take_append_drop _ _⟩
  have hlen : (c ++ r).length = c.length + r.length := List.length_append
  rw [hlen] at h240
  unfold XXH3_digest_long Spec.xxh3Long
  rw [hb.count, hk.sec, hk.limit, hk.perBlock, hlen]
  by_cases h64 : 64 ≤ r.length
  · rw [if_pos h64]
    have hg : Hashing w ov cfg x P (.array st.buffer) r secret k := ⟨source_array hP hpre, g, fine⟩
    have hcons := hg.consume (ahead_array _ _) hk136 hkb st.acc hsf 0 ((r.length - 1) / 64) (by omega) (by omega) rfl
    have hq : (r.take (64 * ((r.length - 1) / 64))).length = 64 * ((r.length - 1) / 64) := by
      rw [List.length_take]; omega
    have hmore := (hb.consumed.more hq).1
    rw [chunks_split hwhole _ (by omega)] at hmore
    rw [List.drop_zero, chunks_whole r _ (by omega), hmore] at hcons
    have hacc := hg.accumulate_512 (Spec.xxh3Absorb k 0 Spec.xxh3Start (chunks 64 (c.length / 64 + (r.length - 1) / 64) (c ++ r)))
      (r.length - 64) (k.length - 64 - 7) (by omega) (by omega)
    refine ⟨_, Exec.cov (Reads.bind hcons (Exec.post hacc ?_)) (fun a h => h.elim) rfl⟩
    intro v o hv
    refine ⟨hv.1.trans ?_, hv.2⟩
    rw [show (c.length + r.length - 1) / 64 = c.length / 64 + (r.length - 1) / 64 by omega,
      show c.length + r.length - 64 = c.length + (r.length - 64) by omega, ← List.drop_drop, List.drop_left,
      List.take_of_length_le (by rw [List.length_drop]; omega), show k.length - 64 - 7 = k.length - 71 by omega]
  · rw [if_neg h64]
    have hc0 : c ≠ [] := by rintro rfl; simp only [List.length_nil] at h240; omega
    have hr0 : 0 < r.length := List.length_pos_iff.2 fun h => hc0 (hlast h)
    have htail := hb.tail (by omega) hc0
    have g1 := source_array (w := w) (ov := ov) (cfg := cfg) (P := P) hP (List.prefix_refl st.buffer)
    have g2 := source_array (w := w) (ov := ov) (cfg := cfg) (P := P) hP hpre
    have hl1 := g1.load (256 - (64 - r.length)) (64 - r.length) (by rw [hk.size]; omega)
    have hl2 := g2.load 0 r.length (by omega)
    rw [show 256 - (64 - r.length) = 192 + r.length by omega, ← List.drop_drop, htail, List.drop_drop,
      List.take_of_length_le (by rw [List.length_drop]; omega)] at hl1
    rw [List.drop_zero, List.take_length] at hl2
    have hq : c.drop (c.length - 64 + r.length) ++ r = (c ++ r).drop (c.length + r.length - 64) := by
      rw [List.drop_append_of_le_length (by omega)]
      congr 2
      omega
    have hql : (c.drop (c.length - 64 + r.length) ++ r).length = 64 := by
      rw [List.length_append, List.length_drop]; omega
    have hg : Hashing w ov cfg x P (.array (c.drop (c.length - 64 + r.length) ++ r))
      (c.drop (c.length - 64 + r.length) ++ r) secret k := ⟨source_array hP (List.prefix_refl _), g, fine⟩
    have hacc := hg.accumulate_512 st.acc 0 (k.length - 64 - 7) (by omega) (by omega)
    refine ⟨0, ?_⟩
    dsimp only
    rw [show 256 - (64 - r.length) = 192 + r.length by omega]
    refine Exec.cov (assert_ok (fun _ => by simpa using hr0) (Reads.bind hl1 <| Reads.bind hl2 <| Exec.post hacc ?_))
      (fun a h => h.elim) rfl
    intro v o hv
    refine ⟨hv.1.trans ?_, hv.2⟩
    rw [List.drop_zero, List.take_of_length_le (by omega), hq, hb.consumed.acc,
      show (c.length + r.length - 1) / 64 = c.length / 64 by omega, chunks_take 64 (c.length / 64) c r (by omega),
      show k.length - 64 - 7 = k.length - 71 by omega]

variable (hkn : x.debug = true → secret.isNull = false) (hseed : seed ≠ 0 → k = Spec.xxh3Seeded seed)
  (hlen : m.length < 2 ^ 64)
include hkn hseed hlen

omit hseed g hk136 hkb fine hkn hP in
theorem total3 : st.totalLen.toNat = m.length := by
  rw [f.total, BitVec.toNat_ofNat, Nat.mod_eq_of_lt hlen]

omit hseed hkn hk136 hkb hP fine g hlen in
theorem short3 (h240 : m.length ≤ 240) : m <+: st.buffer := by
  obtain ⟨c, r, rfl, hb⟩ := f.parts
  have := hb.consumed.whole
  rw [List.length_append] at h240
  have hc : c = [] := List.eq_nil_of_length_eq_zero (by omega)
  subst hc
  exact ⟨st.buffer.drop r.length, by
    conv => lhs; lhs; rw [List.nil_append, ← hb.held]
    exact List.take_append_drop _ _⟩

theorem reads_digest3_64 (h8 : x.debug = true → m.length ≠ 8) :
    ∃ n, Reads w ov P nowhere n (XXH3_64bits_digest cfg x st)
      (if seed = 0 then Spec.xxh3WithSecret m k else Spec.xxh3WithSeed m seed) := by
  have ht := total3 f hlen
  have hk := f.kept
  have h256 : 256 < 2 ^ cfg.bits := by unfold Cfg.bits; split <;> decide
  unfold XXH3_64bits_digest
  rw [ht]
  by_cases h240 : 240 < m.length
  · obtain ⟨n, hd⟩ := reads_digest_long hP g hk136 hkb fine f h240
    have hg : Hashing w ov cfg x P secret k secret k := ⟨g, g, fine⟩
    have hm := hg.merge (Spec.xxh3Long m k) 11 (st.totalLen * XXH_PRIME64_1) (by omega)
    rw [if_pos h240]
    refine ⟨n, Exec.cov (Reads.bind hd (n₂ := 0) (C₂ := nowhere) ?_) (fun a h => h.elim) rfl⟩
    rw [hk.sec]
    refine Exec.post hm ?_
    intro v o hv
    refine ⟨hv.1.trans ?_, hv.2⟩
    have hv' : st.totalLen * XXH_PRIME64_1 = Spec.len64 m * Spec.xxhQ1 := by rw [f.total]; rfl
    rw [hv']
    unfold Spec.xxh3WithSecret Spec.xxh3WithSeed Spec.xxh3
    simp only [if_neg (show ¬ m.length ≤ 16 by omega), if_neg (show ¬ m.length ≤ 128 by omega),
      if_neg (show ¬ m.length ≤ 240 by omega)]
    split
    · rfl
    · rename_i h; rw [← hseed h]
  · have hpre := short3 f (by omega)
    rw [if_neg h240, Nat.mod_eq_of_lt (by omega), hk.seed, hk.sec, hk.limit]
    by_cases hz : seed = 0
    · rw [if_neg (not_not.2 hz), if_pos hz]
      have hsz : szAdd cfg (k.length - 64) 64 = k.length := by
        rw [szAdd, Nat.mod_eq_of_lt (by omega)]; omega
      rw [hsz]
      have hg : Hashing w ov cfg x P (.array st.buffer) m secret k := ⟨source_array hP hpre, g, fine⟩
      exact ⟨_, Exec.cov (hg.bits64 (long := k) hk136 (fun _ _ => rfl) hkn h8 fun h => absurd h h240) (fun a h => h.elim) rfl⟩
    · rw [if_pos hz, if_neg hz]
      exact ⟨_, Exec.cov (withSeed64 (source_array hP hpre) fine (fun _ _ => rfl) (fun h => absurd h h240) h8 seed)
        (fun a h => h.elim) rfl⟩

theorem reads_digest3_128 :
    ∃ n, Reads w ov P nowhere n (XXH3_128bits_digest cfg x st)
      (if seed = 0 then Spec.xxh3_128WithSecret m k else Spec.xxh3_128WithSeed m seed) := by
  have ht := total3 f hlen
  have hk := f.kept
  have h256 : 256 < 2 ^ cfg.bits := by unfold Cfg.bits; split <;> decide
  have hsz : szAdd cfg (k.length - 64) 64 = k.length := by
    rw [szAdd, Nat.mod_eq_of_lt (by omega)]; omega
  unfold XXH3_128bits_digest
  rw [ht]
  by_cases h240 : 240 < m.length
  · obtain ⟨n, hd⟩ := reads_digest_long hP g hk136 hkb fine f h240
    have hg : Hashing w ov cfg x P secret k secret k := ⟨g, g, fine⟩
    have hm := hg.merge (Spec.xxh3Long m k) 11 (st.totalLen * XXH_PRIME64_1) (by omega)
    have hm2 := hg.merge (Spec.xxh3Long m k) (k.length - 64 + 64 - 64 - 11) (~~~(st.totalLen * XXH_PRIME64_2)) (by omega)
    rw [if_pos h240]
    refine ⟨n, Exec.cov (Reads.bind hd (n₂ := 0) (C₂ := nowhere) ?_) (fun a h => h.elim) rfl⟩
    rw [hk.sec, hk.limit, hsz]
    refine assert_ok (fun _ => decide_eq_true (by omega)) ?_
    refine Exec.bindR hm (Exec.bindR hm2 (reads_pure ?_))
    have hv1 : st.totalLen * XXH_PRIME64_1 = Spec.len64 m * Spec.xxhQ1 := by rw [f.total]; rfl
    have hv2 : st.totalLen * XXH_PRIME64_2 = Spec.len64 m * Spec.xxhQ2 := by rw [f.total]; rfl
    rw [hv1, hv2, show k.length - 64 + 64 - 64 - 11 = k.length - 75 by omega]
    unfold Spec.xxh3_128WithSecret Spec.xxh3_128WithSeed Spec.xxh3_128
    simp only [if_neg (show ¬ m.length ≤ 16 by omega), if_neg (show ¬ m.length ≤ 128 by omega),
      if_neg (show ¬ m.length ≤ 240 by omega)]
    split
    · rfl
    · rename_i h; rw [← hseed h]
  · have hpre := short3 f (by omega)
    rw [if_neg h240, Nat.mod_eq_of_lt (by omega), hk.seed, hk.sec, hk.limit]
    by_cases hz : seed = 0
    · rw [if_neg (not_not.2 hz), if_pos hz, hsz]
      have hg : Hashing w ov cfg x P (.array st.buffer) m secret k := ⟨source_array hP hpre, g, fine⟩
      exact ⟨_, Exec.cov (hg.bits128 (long := k) hk136 (fun _ _ => rfl) hkn fun h => absurd h h240) (fun a h => h.elim) rfl⟩
    · rw [if_pos hz, if_neg hz]
      exact ⟨_, Exec.cov (withSeed128 (source_array hP hpre) fine (fun _ _ => rfl) (fun h => absurd h h240) seed)
        (fun a h => h.elim) rfl⟩

end

/-! ## Beginning -/

/-- (The kernel would compare the fields, if they were not variables.) -/
theorem begun3 (hk : st.secret = secret) (h1 : st.secretLimit = k.length - 64)
    (h2 : st.nbStripesPerBlock = Spec.xxh3PerBlock k) (h3 : st.seed = seed) (h4 : st.buffer.length = 256)
    (h5 : st.totalLen = 0) (h6 : st.acc = XXH3_INIT_ACC) (h7 : st.nbStripesSoFar = 0) (h8 : st.bufferedSize = 0) :
    Fed3 secret k seed [] st where
  kept := ⟨hk, h1, h2, h3, h4⟩
  total := by rw [h5]; rfl
  parts := ⟨[], [], rfl, ⟨by rw [h6]; exact start3_eq, by rw [h7]; exact (Nat.zero_mod _).symm, rfl⟩, by decide, fun _ => rfl,
    by rw [h8]; rfl, rfl, fun _ h => absurd rfl h⟩

theorem szSub_le {a b : Nat} (h : b ≤ a) (ha : a < 2 ^ cfg.bits) : szSub cfg a b = a - b := by
  unfold szSub
  rw [show 2 ^ cfg.bits + a - b = a - b + 2 ^ cfg.bits by omega, Nat.add_mod_right, Nat.mod_eq_of_lt (by omega)]

theorem exec_reset3 {n : Nat} (hn : 136 ≤ n) (hb : n < 2 ^ cfg.bits) (hnull : secret.isNull = false) (hk : k.length = n) :
    Exec w ov P nowhere 0 (XXH3_reset_internal cfg x seed secret n) (fun st o => o = ov ∧ Fed3 secret k seed [] st) := by
  unfold XXH3_reset_internal
  refine assert_ok (fun _ => by rw [hnull]; rfl) (assert_ok (fun _ => decide_eq_true hn) ?_)
  refine Exec.pure _ ⟨rfl, begun3 ?_ ?_ ?_ rfl (by rw [List.length_replicate]) rfl rfl rfl rfl⟩
  · unfold XXH3_state.secret
    rw [if_neg (by rw [hnull]; decide)]
    rfl
  · rw [szSub_le (by omega) hb, hk]
  · unfold Spec.xxh3PerBlock
    rw [szSub_le (by omega) hb, hk]

theorem small192 : 192 < 2 ^ cfg.bits := by unfold Cfg.bits; split <;> decide

theorem exec_reset3_default : Exec w ov P nowhere 0 (XXH3_reset cfg x)
    (fun st o => o = ov ∧ Fed3 (.array Spec.xxh3Secret) Spec.xxh3Secret 0 [] st) := by
  unfold XXH3_reset
  rw [kSecret_eq]
  exact exec_reset3 (by decide) small192 rfl length_xxh3Secret

theorem exec_reset3_seed (hP : P .iter) (fine : x.access = .direct → x.lenient32 = true ∧ x.lenient64 = true) (seed : U64) :
    Exec w ov P nowhere 0 (XXH3_reset_withSeed cfg x seed)
      (fun st o => o = ov ∧ Fed3 (.array (Spec.xxh3Seeded seed)) (Spec.xxh3Seeded seed) seed [] st) := by
  unfold XXH3_reset_withSeed
  refine Exec.bindL (exec_reset3 (k := Spec.xxh3Seeded seed) (by decide) small192 rfl (length_xxh3Seeded seed)) ?_
  rintro st o ⟨rfl, f⟩
  refine Exec.bindR (reads_initCustomSecret hP fine seed) (Exec.pure _ ⟨rfl, ?_⟩)
  obtain ⟨c, r, hm, hb⟩ := f.parts
  exact ⟨⟨rfl, f.kept.limit, f.kept.perBlock, f.kept.seed, f.kept.size⟩, f.total, c, r, hm,
    ⟨hb.consumed, hb.short, hb.last, hb.count, hb.held, hb.tail⟩⟩

theorem exec_reset3_secret {p : Nat} (hp : p ≠ 0) (h136 : 136 ≤ k.length) (hb : k.length < 2 ^ cfg.bits) :
    Exec w ov P nowhere 0 (XXH3_reset_withSecret cfg x p k.length)
      (fun r o => o = ov ∧ r.2 = .ok ∧ Fed3 (.memory p) k 0 [] r.1) := by
  unfold XXH3_reset_withSecret
  refine Exec.bindL (exec_reset3 (k := k) h136 hb (by simpa [Bytes.isNull] using hp) rfl) ?_
  rintro st o ⟨rfl, f⟩
  rw [if_neg hp, if_neg (by omega)]
  exact Exec.pure _ ⟨rfl, rfl, f⟩

/-! ## Failures -/

theorem buffered3 (f : Fed3 secret k seed m st) : ∃ c r, m = c ++ r ∧ Buffered3 k c r st ∧
    r.length = m.length - 256 * ((m.length - 1) / 256) := by
  obtain ⟨c, r, hm, hb⟩ := f.parts
  refine ⟨c, r, hm, hb, ?_⟩
  have h1 := hb.consumed.whole
  have h2 := hb.short
  have h3 : r.length = 0 → c.length = 0 := fun h => by rw [hb.last (List.eq_nil_of_length_eq_zero h)]; rfl
  rw [hm, List.length_append]
  omega

set_option maxRecDepth 4000 in
theorem fails_update3 {data : Nat} {y : List Byte} (hh : Holds w ov data y) (hfit : data + y.length < 2 ^ cfg.bits)
    (h0 : data ≠ 0) (g : ByteSource w ov cfg (fun _ => True) secret k) (hk136 : 136 ≤ k.length) (hkb : k.length < 2 ^ cfg.bits)
    (fine : x.access = .direct → x.lenient32 = true ∧ x.lenient64 = true) (hroom : y.length + 256 < 2 ^ cfg.bits)
    (f : Fed3 secret k seed m st)
    (hfull : 256 < m.length - 256 * ((m.length - 1) / 256) + y.length)
    (hhigh : 2 ^ cfg.bits ≤ data + (256 - (m.length - 256 * ((m.length - 1) / 256))) % 256 + 256) :
    Fails w ov (XXH3_update cfg x st data y.length) .ptrWrap := by
  obtain ⟨c, r, hm, hb, hr⟩ := buffered3 f
  rw [← hr] at hfull hhigh
  clear hr
  have hk := f.kept
  have hshort := hb.short
  rw [update3_eq st _ _ h0]
  refine Fails.after (P := fun _ => True) (Reads.ptrAdd hfit trivial) ?_
  generalize hst : ({ st with totalLen := st.totalLen + BitVec.ofNat 64 y.length } : XXH3_state) = st1
  have hk1 : Kept3 secret k seed st1 := by subst hst; exact ⟨hk.sec, hk.limit, hk.perBlock, hk.seed, hk.size⟩
  have hb1 : Buffered3 k c r st1 := by
    subst hst; exact ⟨hb.consumed, hb.short, hb.last, hb.count, hb.held, hb.tail⟩
  unfold update3Rest
  rw [szAdd, hb1.count, Nat.mod_eq_of_lt (by omega), if_neg (by omega)]
  obtain ⟨n, hfill⟩ := exec_fill3 (above := 0) (x := x) (fun _ h => h) hh h0 (space_any hfit) hfit g hk136 hkb fine (by omega)
    hk1 hb1 hfull
  refine Fails.afterExec hfill ?_
  rintro ⟨st2, i⟩ o ⟨-, h2, -⟩
  dsimp only at h2 ⊢
  have hi : i = (256 - r.length) % 256 ∧ i < y.length := by
    rw [h2]
    split
    · rename_i h; subst h; simp only [List.length_nil] at *; omega
    · rename_i h; have := List.length_pos_iff.2 h; omega
  refine Fails.asserted (by simpa using hi.2) ?_
  refine Fails.now (Fails.now (fails_ptrAdd ?_) _) _
  rw [hi.1]
  omega

theorem fails_eight_internal {f_hashLong : Bytes → Nat → U64 → Bytes → Nat → M U64} {b secret : Bytes} {n : Nat} {seed : U64}
    (hx : x.debug = true) (h0 : b.isNull = false) (h1 : secret.isNull = false) (hn : 136 ≤ n) :
    Fails w ov (XXH3_64bits_internal cfg x b 8 seed secret n f_hashLong) .assertFail := by
  unfold XXH3_64bits_internal
  refine Fails.asserted (by simpa using hn) ?_
  rw [if_pos (by decide)]
  unfold XXH3_len_0to16_64b
  refine Fails.asserted (by decide) ?_
  rw [if_neg (by decide), if_pos (by decide)]
  unfold XXH3_len_4to8_64b
  refine Fails.asserted (by rw [h0]; rfl) <| Fails.asserted (by rw [h1]; rfl) <| Fails.now ?_ _
  unfold XXH_ASSERT
  rw [if_pos (by simp [hx])]
  exact fails_fail _

theorem fails_digest3_eight (hx : x.debug = true) (f : Fed3 secret k seed m st) (hm : m.length = 8)
    (hk136 : 136 ≤ k.length) (hkb : k.length < 2 ^ cfg.bits) (hkn : secret.isNull = false) :
    Fails w ov (XXH3_64bits_digest cfg x st) .assertFail := by
  have ht : st.totalLen.toNat = 8 := (total3 f (by rw [hm]; decide)).trans hm
  have hk := f.kept
  have h8 : 8 % 2 ^ cfg.bits = 8 := Nat.mod_eq_of_lt (by unfold Cfg.bits; split <;> decide)
  unfold XXH3_64bits_digest
  rw [ht, if_neg (by decide), h8]
  split
  · exact fails_eight_internal hx rfl rfl (by decide)
  · rw [hk.sec, hk.limit]
    have hsz : szAdd cfg (k.length - 64) 64 = k.length := by
      rw [szAdd, Nat.mod_eq_of_lt (by omega)]; omega
    rw [hsz]
    exact fails_eight_internal hx rfl hkn hk136

end Model

end T1ha
