import Verif.Proofs.Mirror
import Mathlib.Tactic.IntervalCases

/-!
# `t1ha0_32le`, `t1ha0_32be`: keys of up to 4 bytes, of different lengths
-/

namespace T1ha

open Model

/-- The state before the final scrambling, for a key of 1 to 4 bytes whose value is `v`. -/
def tinyState (n : Nat) (lo hi v : U32) : U32 × U32 :=
  let a := (BitVec.ofNat 32 n).rotateRight 17 + lo
  let b := BitVec.ofNat 32 n ^^^ hi
  (a + BitVec.ofNat 32 ((a + v).toNat * Spec.prime32_1.toNat / 2 ^ 32),
    b ^^^ BitVec.ofNat 32 ((a + v).toNat * Spec.prime32_1.toNat))

theorem t1ha0_32_tiny (e : Endian) (m : List Byte) (seed : U64) (h1 : 1 ≤ m.length) (h4 : m.length ≤ 4) :
    Spec.t1ha0_32 e m seed = Spec.final32 (tinyState m.length (BitVec.ofNat 32 seed.toNat)
      (BitVec.ofNat 32 (seed.toNat / 2 ^ 32)) (BitVec.ofNat 32 (e.val m))) := by
  unfold Spec.t1ha0_32
  have hw : Spec.words32 e m = [BitVec.ofNat 32 (e.val m)] := by
    have := words32_last e [] m rfl (by omega) h4
    simpa [Spec.words32, chunks] using this
  simp only
  rw [if_neg (by omega), hw]
  rfl

theorem xor_small {x y c : U32} (h : x = y ^^^ c) (hc : c >>> 3 = 0) : x.toNat / 8 = y.toNat / 8 := by
  have h2 : x >>> 3 = y >>> 3 := by
    rw [h, BitVec.ushiftRight_xor_distrib, hc]; exact BitVec.xor_zero
  have := congrArg BitVec.toNat h2
  simpa [BitVec.toNat_ushiftRight, Nat.shiftRight_eq_div_pow] using this

/-- A multiple of the prime cannot be this close to these multiples of `2 ^ 47`. -/
theorem no_multiple (D k j r : Int) (hk : -4 ≤ k ∧ k ≤ 4) (h0 : k ≠ 0) (hj : -1 ≤ j ∧ j ≤ 1)
    (hr : -7 ≤ r ∧ r ≤ 7) : 3399173941 * D ≠ 4294967296 * (32768 * k + 4294967296 * j) + r := by
  intro h
  have h1 : j = -1 ∨ j = 0 ∨ j = 1 := by omega
  have h2 : k = -4 ∨ k = -3 ∨ k = -2 ∨ k = -1 ∨ k = 1 ∨ k = 2 ∨ k = 3 ∨ k = 4 := by omega
  rcases h1 with rfl | rfl | rfl <;> rcases h2 with rfl | rfl | rfl | rfl | rfl | rfl | rfl | rfl <;> omega

theorem no_match {n n' x y p q r t : Nat} (hn : 1 ≤ n ∧ n ≤ 4) (hn' : 1 ≤ n' ∧ n' ≤ 4) (hx : x < 4294967296)
    (hy : y < 4294967296) (dx : 4294967296 * p + q = x * 3399173941) (hq : q < 4294967296)
    (dy : 4294967296 * r + t = y * 3399173941) (ht : t < 4294967296)
    (h1 : (32768 * n + p % 4294967296) % 4294967296 = (32768 * n' + r % 4294967296) % 4294967296)
    (h2 : q / 8 = t / 8) : n = n' := by
  by_contra hne
  have hp : p < 4294967296 := by omega
  have hr : r < 4294967296 := by omega
  rw [Nat.mod_eq_of_lt hp, Nat.mod_eq_of_lt hr] at h1
  have hj : ∃ j : Int, -1 ≤ j ∧ j ≤ 1 ∧ (p : Int) - r = 32768 * ((n' : Int) - n) + 4294967296 * j := by
    rcases Nat.lt_or_ge (32768 * n + p) 4294967296 with c1 | c1 <;>
      rcases Nat.lt_or_ge (32768 * n' + r) 4294967296 with c2 | c2
    · exact ⟨0, by omega⟩
    · exact ⟨1, by omega⟩
    · exact ⟨-1, by omega⟩
    · exact ⟨0, by omega⟩
  obtain ⟨j, j1, j2, hj⟩ := hj
  exact no_multiple ((x : Int) - y) ((n' : Int) - n) j ((q : Int) - t) (by omega) (by omega) ⟨j1, j2⟩ (by omega)
    (by omega)

theorem same_length {n n' : Nat} {lo hi v v' : U32} (hn : 1 ≤ n ∧ n ≤ 4) (hn' : 1 ≤ n' ∧ n' ≤ 4)
    (h : tinyState n lo hi v = tinyState n' lo hi v') : n = n' := by
  unfold tinyState at h
  simp only [Prod.mk.injEq] at h
  obtain ⟨h1, h2⟩ := h
  generalize ((BitVec.ofNat 32 n).rotateRight 17 + lo + v) = u at h1 h2
  generalize ((BitVec.ofNat 32 n').rotateRight 17 + lo + v') = u' at h1 h2
  have e1 : (BitVec.ofNat 32 n).rotateRight 17 + BitVec.ofNat 32 (u.toNat * Spec.prime32_1.toNat / 2 ^ 32) =
      (BitVec.ofNat 32 n').rotateRight 17 + BitVec.ofNat 32 (u'.toNat * Spec.prime32_1.toNat / 2 ^ 32) := by
    have key : ∀ x y z : U32, x + y + z = x + z + y := by
      intro x y z; rw [BitVec.add_assoc, BitVec.add_comm y, ← BitVec.add_assoc]
    rw [key, key _ lo] at h1
    exact add_right_cancel' h1
  have e2 : BitVec.ofNat 32 (u.toNat * Spec.prime32_1.toNat) =
      BitVec.ofNat 32 (u'.toNat * Spec.prime32_1.toNat) ^^^ (BitVec.ofNat 32 n ^^^ BitVec.ofNat 32 n') := by
    have := congrArg (fun z => z ^^^ (BitVec.ofNat 32 n ^^^ hi)) h2
    rw [BitVec.xor_comm (BitVec.ofNat 32 n ^^^ hi), BitVec.xor_assoc, BitVec.xor_self, BitVec.xor_zero] at this
    rw [this]
    generalize BitVec.ofNat 32 (u'.toNat * Spec.prime32_1.toNat) = z
    generalize BitVec.ofNat 32 n = p
    generalize BitVec.ofNat 32 n' = q
    apply BitVec.eq_of_getLsbD_eq
    intro i _
    simp only [BitVec.getLsbD_xor]
    cases p.getLsbD i <;> cases q.getLsbD i <;> cases z.getLsbD i <;> cases hi.getLsbD i <;> rfl
  have e3 := xor_small e2 (by
    obtain ⟨a, b⟩ := hn
    obtain ⟨c, d⟩ := hn'
    clear * - a b c d
    interval_cases n <;> interval_cases n' <;> decide)
  have e4 := congrArg BitVec.toNat e1
  rw [BitVec.toNat_add, BitVec.toNat_add, BitVec.toNat_ofNat, BitVec.toNat_ofNat] at e4
  rw [BitVec.toNat_ofNat, BitVec.toNat_ofNat] at e3
  have hp : Spec.prime32_1.toNat = 3399173941 := rfl
  rw [hp] at e3 e4
  have hu := u.isLt
  have hu' := u'.isLt
  have hr : ∀ k, 1 ≤ k ∧ k ≤ 4 → ((BitVec.ofNat 32 k).rotateRight 17).toNat = 32768 * k := by
    rintro k ⟨a, b⟩
    interval_cases k <;> rfl
  rw [hr n hn, hr n' hn'] at e4
  exact no_match hn hn' hu hu' (Nat.div_add_mod _ _) (Nat.mod_lt _ (by decide)) (Nat.div_add_mod _ _)
    (Nat.mod_lt _ (by decide)) e4 e3

theorem no_zero {n x p q : Nat} (hn : 1 ≤ n ∧ n ≤ 4) (hx : x < 4294967296)
    (dx : 4294967296 * p + q = x * 3399173941) (_ : q < 4294967296) (h2 : q = n % 4294967296)
    (h1 : (32768 * n + p % 4294967296) % 4294967296 = 0) : False := by
  have hp : p < 4294967296 := by omega
  rw [Nat.mod_eq_of_lt hp] at h1
  have hp2 : p + 32768 * n = 4294967296 := by omega
  exact no_multiple x (-n) 1 n (by omega) (by omega) (by omega) (by omega) (by omega)

theorem empty_tiny {n : Nat} {lo hi v : U32} (hn : 1 ≤ n ∧ n ≤ 4) : tinyState n lo hi v ≠ (lo, hi) := by
  intro h
  unfold tinyState at h
  simp only [Prod.mk.injEq] at h
  obtain ⟨h1, h2⟩ := h
  generalize ((BitVec.ofNat 32 n).rotateRight 17 + lo + v) = u at h1 h2
  have e1 : (BitVec.ofNat 32 n).rotateRight 17 + BitVec.ofNat 32 (u.toNat * Spec.prime32_1.toNat / 2 ^ 32) = 0#32 := by
    rw [BitVec.add_assoc, BitVec.add_comm lo, ← BitVec.add_assoc] at h1
    exact add_right_cancel' (h1.trans (BitVec.zero_add lo).symm)
  have e2 : BitVec.ofNat 32 (u.toNat * Spec.prime32_1.toNat) = BitVec.ofNat 32 n := by
    have h3 : BitVec.ofNat 32 n ^^^ BitVec.ofNat 32 (u.toNat * Spec.prime32_1.toNat) = 0#32 := by
      rw [BitVec.xor_assoc, BitVec.xor_comm hi, ← BitVec.xor_assoc] at h2
      have := congrArg (· ^^^ hi) h2
      simpa only [BitVec.xor_assoc, BitVec.xor_self, BitVec.xor_zero] using this
    have := congrArg (BitVec.ofNat 32 n ^^^ ·) h3
    simpa only [← BitVec.xor_assoc, BitVec.xor_self, BitVec.zero_xor, BitVec.xor_zero] using this
  have e3 := congrArg BitVec.toNat e2
  have e4 := congrArg BitVec.toNat e1
  rw [BitVec.toNat_add, BitVec.toNat_ofNat, BitVec.toNat_ofNat] at e4
  rw [BitVec.toNat_ofNat, BitVec.toNat_ofNat] at e3
  have hp : Spec.prime32_1.toNat = 3399173941 := rfl
  rw [hp] at e3 e4
  have hu := u.isLt
  have hr : ∀ k, 1 ≤ k ∧ k ≤ 4 → ((BitVec.ofNat 32 k).rotateRight 17).toNat = 32768 * k := by
    rintro k ⟨a, b⟩
    interval_cases k <;> rfl
  rw [hr n hn] at e4
  exact no_zero hn hu (Nat.div_add_mod _ _) (Nat.mod_lt _ (by decide)) e3 e4

/-- Keys of up to 4 bytes never collide, whatever their lengths. -/
theorem t1ha0_32_tiny_inj (e : Endian) {m m' : List Byte} (seed : U64) (h4 : m.length ≤ 4) (h4' : m'.length ≤ 4)
    (h : Spec.t1ha0_32 e m seed = Spec.t1ha0_32 e m' seed) : m = m' := by
  have h0 : Spec.t1ha0_32 e [] seed = Spec.final32 (BitVec.ofNat 32 seed.toNat, BitVec.ofNat 32 (seed.toNat / 2 ^ 32)) := by
    show Spec.final32 (0#32 + BitVec.ofNat 32 seed.toNat, 0#32 ^^^ BitVec.ofNat 32 (seed.toNat / 2 ^ 32)) = _
    rw [BitVec.zero_add, BitVec.zero_xor]
  rcases Nat.eq_zero_or_pos m.length with hm | hm <;> rcases Nat.eq_zero_or_pos m'.length with hm' | hm'
  · rw [List.length_eq_zero_iff.1 hm, List.length_eq_zero_iff.1 hm']
  · rw [List.length_eq_zero_iff.1 hm, h0, t1ha0_32_tiny e m' seed hm' h4'] at h
    exact absurd (final32_inj h).symm (empty_tiny ⟨hm', h4'⟩)
  · rw [List.length_eq_zero_iff.1 hm', h0, t1ha0_32_tiny e m seed hm h4] at h
    exact absurd (final32_inj h) (empty_tiny ⟨hm, h4⟩)
  · have hl : m.length = m'.length := by
      rw [t1ha0_32_tiny e m seed hm h4, t1ha0_32_tiny e m' seed hm' h4'] at h
      exact same_length ⟨hm, h4⟩ ⟨hm', h4'⟩ (final32_inj h)
    exact t1ha0_32_last_word e [] m m' seed rfl hl hm h4 (Or.inl (by simpa using by omega)) h

end T1ha
