import Mathlib.Data.Nat.Prime.Basic
import Verif.Proofs.Popcount
import Verif.Proofs.Wyhash

/-!
# The generator of random numbers and the secrets of wyhash
-/

namespace T1ha.Model

variable {mum : WyMum}

theorem wyrand_eq (seed : U64) : wyrand mum seed = (seed + 0xa0761d6478bd642f, Spec.wyRandom seed 0) := by
  unfold wyrand Spec.wyRandom
  simp only [wymix_eq]
  rw [show BitVec.ofNat 64 (0 + 1) * 0xa0761d6478bd642f = (0xa0761d6478bd642f : U64) from rfl]
  rfl

/-- The seed after `k` calls. -/
def wyState (seed : U64) (k : Nat) : U64 := seed + BitVec.ofNat 64 k * 0xa0761d6478bd642f

theorem wyState_add (seed : U64) (k l : Nat) : wyState (wyState seed k) l = wyState seed (k + l) := by
  unfold wyState
  rw [BitVec.add_assoc, ← BitVec.add_mul, ← BitVec.ofNat_add]

theorem wyRandom_state (seed : U64) (k l : Nat) : Spec.wyRandom (wyState seed k) l = Spec.wyRandom seed (k + l) := by
  have h := wyState_add seed k (l + 1)
  unfold wyState at h
  unfold Spec.wyRandom wyState
  rw [h, Nat.add_assoc]

theorem wyrand_state (seed : U64) (k : Nat) :
    wyrand mum (wyState seed k) = (wyState seed (k + 1), Spec.wyRandom seed k) := by
  rw [wyrand_eq, wyRandom_state, ← wyState_add seed k 1]
  rfl

theorem secretBytes_eq : secretBytes.map BitVec.toNat = Spec.fourOnes := by decide +kernel

theorem fourOnes_byte : ∀ i < 70, Spec.fourOnes.getD i 0 < 256 ∧ 15 ≤ Spec.fourOnes.getD i 0 ∧
    Spec.ones (BitVec.ofNat 8 (Spec.fourOnes.getD i 0)) = 4 := by decide +kernel

/-- The `k`-th byte. -/
def randomByte (seed : U64) (k : Nat) : Nat := Spec.fourOnes.getD ((Spec.wyRandom seed k).toNat % 70) 0

theorem secretByte (r : U64) :
    (secretBytes.getD (r.toNat % secretBytes.length) 0).toNat = Spec.fourOnes.getD (r.toNat % 70) 0 := by
  rw [← secretBytes_eq, show secretBytes.length = 70 from rfl]
  have h : r.toNat % 70 < 70 := Nat.mod_lt _ (by decide)
  generalize r.toNat % 70 = i at *
  have h1 : i < secretBytes.length := h
  rw [List.getD_eq_getElem?_getD, List.getD_eq_getElem?_getD, List.getElem?_map, List.getElem?_eq_getElem h1]
  rfl

theorem randomByte_lt (seed : U64) (k : Nat) : randomByte seed k < 256 ∧ 15 ≤ randomByte seed k :=
  have h := fourOnes_byte _ (Nat.mod_lt (Spec.wyRandom seed k).toNat (show 0 < 70 by decide))
  ⟨h.1, h.2.1⟩

theorem mul_sum (a : Nat) (f : Nat → Nat) (l : List Nat) : a * (l.map f).sum = (l.map fun i => a * f i).sum := by
  induction l with
  | nil => rfl
  | cons x l ih => rw [List.map_cons, List.map_cons, List.sum_cons, List.sum_cons, Nat.mul_add, ih]

theorem secretWord_eq (seed : U64) : ∀ (n j k : Nat) (word : U64), word.toNat < 2 ^ j → j + 8 * n ≤ 64 →
    ∃ v : U64, secretWord mum n j (wyState seed k) word = (wyState seed (k + n), v) ∧
      v.toNat = word.toNat + 2 ^ j * ((List.range n).map fun i => randomByte seed (k + i) * 256 ^ i).sum
  | 0, j, k, word, _, _ => ⟨word, rfl, by simp⟩
  | n + 1, j, k, word, hw, hj => by
    have hb := (randomByte_lt seed k).1
    unfold secretWord
    simp only [wyrand_state]
    have hc : (secretBytes.getD ((Spec.wyRandom seed k).toNat % secretBytes.length) 0).toNat = randomByte seed k :=
      secretByte _
    generalize secretBytes.getD ((Spec.wyRandom seed k).toNat % secretBytes.length) 0 = c at *
    have hp : 2 ^ (j + 8) = 2 ^ j * 256 := by rw [Nat.pow_add]
    have hle : 2 ^ (j + 8) ≤ 2 ^ 64 := Nat.pow_le_pow_right (by decide) (by omega)
    have hpos : 0 < 2 ^ j := Nat.two_pow_pos j
    have hlt : c.toNat * 2 ^ j + 2 ^ j ≤ 2 ^ (j + 8) := by
      rw [hp, Nat.mul_comm (c.toNat), ← Nat.mul_succ]
      exact Nat.mul_le_mul_left _ (by omega)
    have hv : (word ||| c.setWidth 64 <<< j).toNat = word.toNat + 2 ^ j * c.toNat := by
      rw [BitVec.toNat_or, BitVec.toNat_shiftLeft, BitVec.toNat_setWidth, Nat.mod_eq_of_lt (show c.toNat < 2 ^ 64 by omega),
        Nat.mod_eq_of_lt (by rw [Nat.shiftLeft_eq]; omega), Nat.or_comm, ← Nat.shiftLeft_add_eq_or_of_lt hw,
        Nat.shiftLeft_eq, Nat.mul_comm, Nat.add_comm]
    obtain ⟨v, h1, h2⟩ := secretWord_eq seed n (j + 8) (k + 1) (word ||| c.setWidth 64 <<< j)
      (by rw [hv, Nat.mul_comm]; omega) (by omega)
    refine ⟨v, by rw [h1, Nat.add_right_comm, Nat.add_assoc], ?_⟩
    rw [h2, hv, List.range_succ_eq_map, List.map_cons, List.map_map, List.sum_cons, hc, hp, Nat.add_assoc, Nat.mul_add]
    congr 1
    rw [Nat.pow_zero, Nat.mul_one, Nat.add_zero]
    congr 1
    rw [Nat.mul_assoc, mul_sum]
    congr 3
    funext i
    show _ = randomByte seed (k + (i + 1)) * 256 ^ (i + 1)
    rw [Nat.pow_succ, show k + 1 + i = k + (i + 1) by omega, Nat.mul_comm (256 ^ i), ← Nat.mul_assoc, ← Nat.mul_assoc,
      Nat.mul_comm 256]

theorem wyCandidate_eq (seed : U64) (k : Nat) :
    Spec.wyCandidate seed k = ((List.range 8).map fun i => randomByte seed (8 * k + i) * 256 ^ i).sum := by
  unfold Spec.wyCandidate randomByte
  rfl

theorem range_sum_succ (f : Nat → Nat) (n : Nat) :
    ((List.range (n + 1)).map f).sum = ((List.range n).map f).sum + f n := by
  rw [List.range_succ, List.map_append, List.sum_append, List.map_cons, List.map_nil, List.sum_cons, List.sum_nil,
    Nat.add_zero]

theorem bytes_lt (f : Nat → Nat) (h : ∀ i, f i < 256) (n : Nat) :
    ((List.range n).map fun i => f i * 256 ^ i).sum < 256 ^ n := by
  induction n with
  | zero => exact Nat.one_pos
  | succ n ih =>
    rw [range_sum_succ, Nat.pow_succ]
    have : f n * 256 ^ n ≤ 255 * 256 ^ n := Nat.mul_le_mul_right _ (Nat.le_of_lt_succ (h n))
    omega

theorem bytes_ge (f : Nat → Nat) (h : ∀ i, 15 ≤ f i) (n : Nat) :
    15 * 256 ^ n ≤ ((List.range (n + 1)).map fun i => f i * 256 ^ i).sum := by
  rw [range_sum_succ]
  exact Nat.le_trans (Nat.mul_le_mul_right _ (h n)) (Nat.le_add_left _ _)

/-- The bounds of a candidate. -/
theorem wyCandidate_bounds (seed : U64) (k : Nat) :
    Spec.wyCandidate seed k < 2 ^ 64 ∧ 2 ^ 32 < Spec.wyCandidate seed k := by
  have h1 := bytes_lt (fun i => randomByte seed (8 * k + i)) (fun i => (randomByte_lt seed _).1) 8
  have h2 := bytes_ge (fun i => randomByte seed (8 * k + i)) (fun i => (randomByte_lt seed _).2) 7
  have e := wyCandidate_eq seed k
  generalize Spec.wyCandidate seed k = n at *
  generalize ((List.range 8).map fun i => randomByte seed (8 * k + i) * 256 ^ i).sum = m at *
  subst e
  have h3 : (256 : Nat) ^ 8 = 2 ^ 64 := by decide
  have h4 : 2 ^ 32 < 15 * (256 : Nat) ^ 7 := by decide
  exact ⟨Nat.lt_of_lt_of_eq h1 h3, Nat.lt_of_lt_of_le h4 h2⟩

theorem secretWord8 (seed : U64) (k : Nat) : secretWord mum 8 0 (wyState seed (8 * k)) 0 =
    (wyState seed (8 * (k + 1)), BitVec.ofNat 64 (Spec.wyCandidate seed k)) := by
  obtain ⟨v, h1, h2⟩ := secretWord_eq (mum := mum) seed 8 0 (8 * k) 0 (by decide) (by decide)
  have hz : (0 : U64).toNat + 2 ^ 0 * ((List.range 8).map fun i => randomByte seed (8 * k + i) * 256 ^ i).sum =
      Spec.wyCandidate seed k := by
    rw [wyCandidate_eq]
    generalize ((List.range 8).map fun i => randomByte seed (8 * k + i) * 256 ^ i).sum = n
    rw [show (0 : U64).toNat = 0 from rfl, Nat.pow_zero, Nat.one_mul, Nat.zero_add]
  have hv : v = BitVec.ofNat 64 (Spec.wyCandidate seed k) := by
    rw [hz] at h2
    have hb := (wyCandidate_bounds seed k).1
    generalize Spec.wyCandidate seed k = n at *
    rw [← h2, BitVec.ofNat_toNat, BitVec.setWidth_eq]
  rw [h1, hv, show 8 * k + 8 = 8 * (k + 1) by omega]

theorem secretDistance_iff (word : U64) (earlier : List U64) :
    secretDistance word earlier = true ↔ ∀ u ∈ earlier, Spec.ones (u ^^^ word) = 32 := by
  induction earlier with
  | nil => simp [secretDistance]
  | cons u us ih =>
    unfold secretDistance
    have h : portable_popcount (u ^^^ word) = 32 ↔ Spec.ones (u ^^^ word) = 32 := by
      rw [← portable_popcount_toNat]
      generalize portable_popcount (u ^^^ word) = n
      exact ⟨fun h => by rw [h]; rfl, fun h => BitVec.eq_of_toNat_eq (h.trans (show 32 = (32 : BitVec 32).toNat from rfl))⟩
    rw [List.forall_mem_cons, ← ih, ← h]
    by_cases e : portable_popcount (u ^^^ word) = 32
    · rw [if_neg (by simpa using e)]
      simp [e]
    · rw [if_pos e]
      exact ⟨fun h => absurd h (by simp), fun h => absurd h.1 e⟩

theorem secretPrime_iff (word : U64) : ∀ (m j : Nat), 0x100000000 - j ≤ m → j % 2 = 1 →
    (secretPrime word j = true ↔ ∀ d, j ≤ d → d < 0x100000000 → d % 2 = 1 → word.toNat % d ≠ 0)
  | m, j, hm, hj => by
    rw [secretPrime]
    split
    · rename_i hlt
      split
      · rename_i h0
        exact ⟨fun h => absurd h (by simp), fun h => absurd h0 (h j (Nat.le_refl _) hlt hj)⟩
      · rename_i h0
        match m, hm with
        | 0, hm => omega
        | m + 1, hm =>
          rw [secretPrime_iff word m (j + 2) (by omega) (by omega)]
          refine ⟨fun h d h1 h2 h3 => ?_, fun h d h1 h2 h3 => h d (by omega) h2 h3⟩
          by_cases e : d = j
          · subst e
            exact h0
          · exact h d (by omega) h2 h3
    · rename_i hlt
      exact ⟨fun _ d h1 h2 => absurd h2 (by omega), fun _ => rfl⟩

theorem prime_iff {n : Nat} (h64 : n < 2 ^ 64) (h32 : 2 ^ 32 < n) :
    n.Prime ↔ n % 2 ≠ 0 ∧ ∀ d, 3 ≤ d → d < 0x100000000 → d % 2 = 1 → n % d ≠ 0 := by
  constructor
  · intro hp
    refine ⟨fun h => ?_, fun d h1 h2 _ h => ?_⟩
    · have := (Nat.Prime.eq_one_or_self_of_dvd hp 2 (Nat.dvd_of_mod_eq_zero h))
      omega
    · have := (Nat.Prime.eq_one_or_self_of_dvd hp d (Nat.dvd_of_mod_eq_zero h))
      omega
  · rintro ⟨h2, h⟩
    by_contra hp
    have hsq := Nat.minFac_sq_le_self (by omega) hp
    have hd := Nat.minFac_dvd n
    have hmp := Nat.minFac_prime (show n ≠ 1 by omega)
    generalize n.minFac = d at *
    have hlt : d < 2 ^ 32 := by
      by_contra hge
      have : (2 ^ 32) ^ 2 ≤ d ^ 2 := Nat.pow_le_pow_left (by omega) 2
      omega
    rcases hmp.eq_two_or_odd with e | e
    · subst e
      exact h2 (Nat.mod_eq_zero_of_dvd hd)
    · have := hmp.two_le
      exact h d (by omega) hlt e (Nat.mod_eq_zero_of_dvd hd)

/-- One round takes one candidate, and is the last if and only if it is suitable. -/
theorem secretRound_eq (seed : U64) (earlier : List U64) (k : Nat) :
    ∃ ok : Bool, secretRound mum earlier (wyState seed (8 * k)) =
      (wyState seed (8 * (k + 1)), BitVec.ofNat 64 (Spec.wyCandidate seed k), ok) ∧
      (ok = true ↔ Spec.Suitable earlier (BitVec.ofNat 64 (Spec.wyCandidate seed k))) := by
  unfold secretRound
  simp only [secretWord8]
  refine ⟨_, rfl, ?_⟩
  obtain ⟨b1, b2⟩ := wyCandidate_bounds seed k
  have ht : (BitVec.ofNat 64 (Spec.wyCandidate seed k)).toNat = Spec.wyCandidate seed k := by
    rw [BitVec.toNat_ofNat, Nat.mod_eq_of_lt b1]
  generalize Spec.wyCandidate seed k = n at *
  have h2 : BitVec.ofNat 64 n % 2 = 0 ↔ n % 2 = 0 := by
    rw [← BitVec.toNat_inj, BitVec.toNat_umod, ht]
    rfl
  unfold Spec.Suitable
  rw [ht, prime_iff b1 b2, ← secretDistance_iff]
  have hp := secretPrime_iff (BitVec.ofNat 64 n) _ 3 (Nat.le_refl _) rfl
  rw [ht] at hp
  rw [← hp]
  by_cases e : n % 2 = 0
  · rw [if_pos (h2.2 e)]
    simp [e]
  · rw [if_neg (fun h => e (h2.1 h))]
    cases secretDistance (BitVec.ofNat 64 n) earlier <;> simp [e]

theorem secretLoop_iff (seed : U64) (earlier : List U64) : ∀ (fuel lo : Nat) (r : U64 × U64),
    secretLoop mum earlier fuel (wyState seed (8 * lo)) = some r ↔
      ∃ k, k < lo + fuel ∧ Spec.FirstSuitable seed earlier lo k r.2 ∧ r.1 = wyState seed (8 * (k + 1))
  | 0, lo, r => by
    refine ⟨fun h => by simp [secretLoop] at h, ?_⟩
    rintro ⟨k, h1, h2, -⟩
    have := h2.1
    omega
  | fuel + 1, lo, r => by
    obtain ⟨ok, h1, h2⟩ := secretRound_eq (mum := mum) seed earlier lo
    have ht : (BitVec.ofNat 64 (Spec.wyCandidate seed lo)).toNat = Spec.wyCandidate seed lo := by
      rw [BitVec.toNat_ofNat, Nat.mod_eq_of_lt (wyCandidate_bounds seed lo).1]
    unfold secretLoop
    simp only [h1]
    by_cases hs : Spec.Suitable earlier (BitVec.ofNat 64 (Spec.wyCandidate seed lo))
    · rw [if_pos (h2.2 hs)]
      constructor
      · intro h
        cases h
        exact ⟨lo, by omega, ⟨Nat.le_refl _, ht, hs, fun i h1 h2 => absurd h2 (by omega)⟩, rfl⟩
      · rintro ⟨k, -, ⟨hk, hv, -, hmin⟩, hr⟩
        have e : k = lo := by
          by_contra hne
          exact hmin lo (Nat.le_refl _) (by omega) hs
        subst e
        have hv' : r.2 = BitVec.ofNat 64 (Spec.wyCandidate seed k) := BitVec.eq_of_toNat_eq (hv.trans ht.symm)
        rw [← hr, ← hv']
    · rw [if_neg (fun h => hs (h2.1 h)), secretLoop_iff seed earlier fuel (lo + 1) r]
      constructor
      · rintro ⟨k, h1, ⟨h3, h4, h5, h6⟩, h7⟩
        refine ⟨k, by omega, ⟨by omega, h4, h5, fun i hi hik => ?_⟩, h7⟩
        by_cases e : i = lo
        · subst e
          exact hs
        · exact h6 i (by omega) hik
      · rintro ⟨k, h1, ⟨h3, h4, h5, h6⟩, h7⟩
        have hne : k ≠ lo := by
          rintro rfl
          rw [← h4, BitVec.ofNat_toNat, BitVec.setWidth_eq] at hs
          exact hs h5
        exact ⟨k, by omega, ⟨by omega, h4, h5, fun i hi hik => h6 i (by omega) hik⟩, h7⟩

theorem secretWords_succ (seed : U64) (fuel n lo : Nat) (earlier l : List U64) :
    secretWords mum fuel (n + 1) earlier (wyState seed (8 * lo)) = some l ↔
      ∃ k v, k < lo + fuel ∧ Spec.FirstSuitable seed earlier lo k v ∧
        secretWords mum fuel n (earlier ++ [v]) (wyState seed (8 * (k + 1))) = some l := by
  rw [secretWords]
  constructor
  · intro h
    split at h
    · exact absurd h (by simp)
    · rename_i s word e
      obtain ⟨k, h1, h2, h3⟩ := (secretLoop_iff seed earlier fuel lo (s, word)).1 e
      simp only at h3
      subst h3
      exact ⟨k, word, h1, h2, h⟩
  · rintro ⟨k, v, h1, h2, h3⟩
    have e := (secretLoop_iff (mum := mum) seed earlier fuel lo (wyState seed (8 * (k + 1)), v)).2 ⟨k, h1, h2, rfl⟩
    rw [e]
    exact h3

end T1ha.Model
