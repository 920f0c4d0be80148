import Mathlib.NumberTheory.LucasPrimality
import Mathlib.Tactic.NormNum.Prime
import Verif.Proofs.WySecret

/-!
# A secret of wyhash

The secret which `make_secret` makes from the seed 2472663, for which it needs 167 rounds. That its words are primes is
shown with certificates (prime factors of `p - 1`, and a number whose order modulo `p` is `p - 1`).
-/

namespace T1ha.Examples

open Model

/-- `a ^ e % m` by squaring. -/
def powMod (m : Nat) : (fuel e a : Nat) → Nat
  | 0, _, _ => 1 % m
  | fuel + 1, e, a => (if e % 2 = 1 then a else 1) * powMod m fuel (e / 2) (a * a % m) % m

theorem powMod_eq (m : Nat) : ∀ fuel e a : Nat, e < 2 ^ fuel → powMod m fuel e a = a ^ e % m
  | 0, e, a, h => by
    have : e = 0 := by omega
    subst this
    rfl
  | fuel + 1, e, a, h => by
    rw [powMod, powMod_eq m fuel _ _ (by omega)]
    have h1 := Nat.div_add_mod e 2
    rw [← Nat.pow_mod, Nat.mul_mod, Nat.mod_mod, ← Nat.mul_mod]
    congr 1
    rw [← Nat.pow_two, ← Nat.pow_mul]
    rcases Nat.mod_two_eq_zero_or_one e with h2 | h2
    · rw [if_neg (by omega), Nat.one_mul]
      congr 1
      omega
    · rw [if_pos h2, ← Nat.pow_succ']
      congr 1
      omega

theorem pow_mod_ne {p a e : Nat} (h1 : 1 < p) : ((a : ZMod p) ^ e = 1) ↔ a ^ e % p = 1 := by
  rw [show (a : ZMod p) ^ e = ((a ^ e : Nat) : ZMod p) by push_cast; rfl, show (1 : ZMod p) = ((1 : Nat) : ZMod p) by simp,
    ZMod.natCast_eq_natCast_iff']
  rw [Nat.mod_eq_of_lt h1]

theorem pratt {p : Nat} (a : Nat) (l : List (Nat × Nat))
    (hl : 1 < p ∧ p < 2 ^ 64 ∧ p - 1 = (l.map fun x => x.1 ^ x.2).prod) (hp : ∀ x ∈ l, x.1.Prime)
    (h : powMod p 64 (p - 1) a = 1 ∧ ∀ x ∈ l, powMod p 64 ((p - 1) / x.1) a ≠ 1) : p.Prime := by
  obtain ⟨h1, h2, h3⟩ := hl
  obtain ⟨h4, h5⟩ := h
  have hlt : p - 1 < 2 ^ 64 := by omega
  rw [powMod_eq _ _ _ _ hlt] at h4
  refine lucas_primality p (a : ZMod p) ((pow_mod_ne h1).2 h4) fun q hq hd => ?_
  rw [h3] at hd
  obtain ⟨y, hy, hqy⟩ := (Prime.dvd_prod_iff hq.prime).1 hd
  obtain ⟨x, hx, rfl⟩ := List.mem_map.1 hy
  have e := (Nat.prime_dvd_prime_iff_eq hq (hp x hx)).1 (hq.dvd_of_dvd_pow hqy)
  have h6 := h5 x hx
  rw [powMod_eq _ _ _ _ (Nat.lt_of_le_of_lt (Nat.div_le_self _ _) hlt)] at h6
  rw [e]
  exact fun h7 => h6 ((pow_mod_ne h1).1 h7)

theorem prime_2 : Nat.Prime 2 := by norm_num

theorem prime_3 : Nat.Prime 3 := by norm_num

theorem prime_7 : Nat.Prime 7 := by norm_num

theorem prime_13 : Nat.Prime 13 := by norm_num

theorem prime_11273 : Nat.Prime 11273 := by norm_num

theorem prime_92893 : Nat.Prime 92893 := by norm_num

theorem prime_113 : Nat.Prime 113 := by norm_num

theorem prime_7607 : Nat.Prime 7607 := by norm_num

theorem prime_5157547 : Nat.Prime 5157547 :=
  pratt 2 [(2, 1), (3, 1), (113, 1), (7607, 1)] (by decide +kernel)
    (by simp only [List.forall_mem_cons]; exact ⟨prime_2, prime_3, prime_113, prime_7607, by simp⟩) (by decide +kernel)

theorem prime_11795553482859145273 : Nat.Prime 11795553482859145273 :=
  pratt 11 [(2, 3), (3, 1), (7, 1), (13, 1), (11273, 1), (92893, 1), (5157547, 1)] (by decide +kernel)
    (by simp only [List.forall_mem_cons]; exact ⟨prime_2, prime_3, prime_7, prime_13, prime_11273, prime_92893, prime_5157547, by simp⟩) (by decide +kernel)

theorem prime_61 : Nat.Prime 61 := by norm_num

theorem prime_211 : Nat.Prime 211 := by norm_num

theorem prime_2251 : Nat.Prime 2251 := by norm_num

theorem prime_19 : Nat.Prime 19 := by norm_num

theorem prime_5 : Nat.Prime 5 := by norm_num

theorem prime_13249 : Nat.Prime 13249 := by norm_num

theorem prime_132491 : Nat.Prime 132491 :=
  pratt 2 [(2, 1), (5, 1), (13249, 1)] (by decide +kernel)
    (by simp only [List.forall_mem_cons]; exact ⟨prime_2, prime_5, prime_13249, by simp⟩) (by decide +kernel)

theorem prime_2649821 : Nat.Prime 2649821 :=
  pratt 2 [(2, 2), (5, 1), (132491, 1)] (by decide +kernel)
    (by simp only [List.forall_mem_cons]; exact ⟨prime_2, prime_5, prime_132491, by simp⟩) (by decide +kernel)

theorem prime_1611091169 : Nat.Prime 1611091169 :=
  pratt 3 [(2, 5), (19, 1), (2649821, 1)] (by decide +kernel)
    (by simp only [List.forall_mem_cons]; exact ⟨prime_2, prime_19, prime_2649821, by simp⟩) (by decide +kernel)

theorem prime_3920912842214251717 : Nat.Prime 3920912842214251717 :=
  pratt 2 [(2, 2), (3, 1), (7, 1), (61, 1), (211, 1), (2251, 1), (1611091169, 1)] (by decide +kernel)
    (by simp only [List.forall_mem_cons]; exact ⟨prime_2, prime_3, prime_7, prime_61, prime_211, prime_2251, prime_1611091169, by simp⟩) (by decide +kernel)

theorem prime_71 : Nat.Prime 71 := by norm_num

theorem prime_47 : Nat.Prime 47 := by norm_num

theorem prime_83 : Nat.Prime 83 := by norm_num

theorem prime_109229 : Nat.Prime 109229 :=
  pratt 2 [(2, 2), (7, 1), (47, 1), (83, 1)] (by decide +kernel)
    (by simp only [List.forall_mem_cons]; exact ⟨prime_2, prime_7, prime_47, prime_83, by simp⟩) (by decide +kernel)

theorem prime_809 : Nat.Prime 809 := by norm_num

theorem prime_12435949 : Nat.Prime 12435949 :=
  pratt 2 [(2, 2), (3, 2), (7, 1), (61, 1), (809, 1)] (by decide +kernel)
    (by simp only [List.forall_mem_cons]; exact ⟨prime_2, prime_3, prime_7, prime_61, prime_809, by simp⟩) (by decide +kernel)

theorem prime_124359491 : Nat.Prime 124359491 :=
  pratt 6 [(2, 1), (5, 1), (12435949, 1)] (by decide +kernel)
    (by simp only [List.forall_mem_cons]; exact ⟨prime_2, prime_5, prime_12435949, by simp⟩) (by decide +kernel)

theorem prime_7146500858035582291 : Nat.Prime 7146500858035582291 :=
  pratt 3 [(2, 1), (3, 1), (5, 1), (13, 1), (19, 1), (71, 1), (109229, 1), (124359491, 1)] (by decide +kernel)
    (by simp only [List.forall_mem_cons]; exact ⟨prime_2, prime_3, prime_5, prime_13, prime_19, prime_71, prime_109229, prime_124359491, by simp⟩) (by decide +kernel)

theorem prime_1361 : Nat.Prime 1361 := by norm_num

theorem prime_479 : Nat.Prime 479 := by norm_num

theorem prime_120709 : Nat.Prime 120709 :=
  pratt 2 [(2, 2), (3, 2), (7, 1), (479, 1)] (by decide +kernel)
    (by simp only [List.forall_mem_cons]; exact ⟨prime_2, prime_3, prime_7, prime_479, by simp⟩) (by decide +kernel)

theorem prime_482837 : Nat.Prime 482837 :=
  pratt 2 [(2, 2), (120709, 1)] (by decide +kernel)
    (by simp only [List.forall_mem_cons]; exact ⟨prime_2, prime_120709, by simp⟩) (by decide +kernel)

theorem prime_29 : Nat.Prime 29 := by norm_num

theorem prime_571 : Nat.Prime 571 := by norm_num

theorem prime_5281 : Nat.Prime 5281 := by norm_num

theorem prime_3323027003 : Nat.Prime 3323027003 :=
  pratt 2 [(2, 1), (19, 1), (29, 1), (571, 1), (5281, 1)] (by decide +kernel)
    (by simp only [List.forall_mem_cons]; exact ⟨prime_2, prime_19, prime_29, prime_571, prime_5281, by simp⟩) (by decide +kernel)

theorem prime_4367395618987324943 : Nat.Prime 4367395618987324943 :=
  pratt 5 [(2, 1), (1361, 1), (482837, 1), (3323027003, 1)] (by decide +kernel)
    (by simp only [List.forall_mem_cons]; exact ⟨prime_2, prime_1361, prime_482837, prime_3323027003, by simp⟩) (by decide +kernel)

theorem prime_23 : Nat.Prime 23 := by norm_num

theorem prime_1051 : Nat.Prime 1051 := by norm_num

theorem prime_431 : Nat.Prime 431 := by norm_num

theorem prime_102599551 : Nat.Prime 102599551 :=
  pratt 13 [(2, 1), (3, 2), (5, 2), (23, 2), (431, 1)] (by decide +kernel)
    (by simp only [List.forall_mem_cons]; exact ⟨prime_2, prime_3, prime_5, prime_23, prime_431, by simp⟩) (by decide +kernel)

theorem prime_10351884297697 : Nat.Prime 10351884297697 :=
  pratt 10 [(2, 5), (3, 1), (1051, 1), (102599551, 1)] (by decide +kernel)
    (by simp only [List.forall_mem_cons]; exact ⟨prime_2, prime_3, prime_1051, prime_102599551, by simp⟩) (by decide +kernel)

theorem prime_36086668661771743 : Nat.Prime 36086668661771743 :=
  pratt 7 [(2, 1), (3, 1), (7, 1), (83, 1), (10351884297697, 1)] (by decide +kernel)
    (by simp only [List.forall_mem_cons]; exact ⟨prime_2, prime_3, prime_7, prime_83, prime_10351884297697, by simp⟩) (by decide +kernel)

theorem prime_1659986758441500179 : Nat.Prime 1659986758441500179 :=
  pratt 2 [(2, 1), (23, 1), (36086668661771743, 1)] (by decide +kernel)
    (by simp only [List.forall_mem_cons]; exact ⟨prime_2, prime_23, prime_36086668661771743, by simp⟩) (by decide +kernel)

theorem prime_13279894067532001433 : Nat.Prime 13279894067532001433 :=
  pratt 3 [(2, 3), (1659986758441500179, 1)] (by decide +kernel)
    (by simp only [List.forall_mem_cons]; exact ⟨prime_2, prime_1659986758441500179, by simp⟩) (by decide +kernel)

theorem fourOnes_table : Spec.fourOnes = [15, 23, 27, 29, 30, 39, 43, 45, 46, 51, 53, 54, 57, 58, 60, 71, 75, 77, 78, 83, 85, 86, 89, 90, 92, 99, 101, 102, 105, 106, 108, 113, 114, 116, 120, 135, 139, 141, 142, 147, 149, 150, 153, 154, 156, 163, 165, 166, 169, 170, 172, 177, 178, 180, 184, 195, 197, 198, 201, 202, 204, 209, 210, 212, 216, 225, 226, 228, 232, 240] := by decide +kernel

/-- The words. -/
def secretExample : List U64 := [11795553482859145273#64, 3920912842214251717#64, 7146500858035582291#64, 4367395618987324943#64, 13279894067532001433#64]

/-- Divisors of the candidates which are neither even nor at the wrong distance from the earlier words. -/
def divisors : List Nat := [17137, 257, 0, 7, 0, 0, 0, 0, 0, 0, 0, 0, 0, 0, 0, 0, 0, 0, 0, 0, 0, 0, 0, 0, 0, 0, 0, 0, 0, 0, 0, 0, 0, 0, 0, 0, 0, 0, 0, 0, 0, 0, 0, 0, 0, 0, 0, 0, 0, 0, 0, 0, 0, 0, 0, 0, 0, 0, 0, 0, 0, 0, 0, 0, 0, 0, 0, 0, 0, 0, 0, 0, 0, 0, 0, 0, 0, 0, 0, 0, 0, 0, 0, 0, 0, 0, 0, 0, 0, 0, 0, 0, 0, 0, 0, 0, 0, 0, 0, 0, 0, 0, 0, 0, 0, 0, 0, 0, 0, 0, 0, 0, 0, 0, 0, 0, 0, 0, 0, 0, 0, 0, 0, 0, 0, 0, 0, 0, 0, 0, 0, 0, 0, 0, 0, 0, 0, 0, 0, 0, 0, 0, 0, 0, 0, 0, 0, 0, 0, 0, 0, 0, 0, 0, 0, 0, 0, 0, 0, 0, 0, 0, 0, 0, 0, 0, 0]

/-- A reason why `v` is not suitable: it is even, or has the wrong distance from an earlier word, or a divisor. -/
def refuted (earlier : List U64) (v : U64) (d : Nat) : Bool :=
  (v.toNat % 2 == 0 && v.toNat != 2) || earlier.any (fun u => Spec.ones (u ^^^ v) != 32) ||
    (d != 1 && d != v.toNat && v.toNat % d == 0)

theorem not_suitable {earlier : List U64} {v : U64} {d : Nat} (h : refuted earlier v d = true) :
    ¬ Spec.Suitable earlier v := by
  rintro ⟨h1, h2⟩
  unfold refuted at h
  simp only [Bool.or_eq_true, Bool.and_eq_true, beq_iff_eq, bne_iff_ne, List.any_eq_true] at h
  rcases h with (⟨h3, h4⟩ | ⟨u, hu, h3⟩) | ⟨⟨h3, h4⟩, h5⟩
  · rcases h1.eq_one_or_self_of_dvd 2 (Nat.dvd_of_mod_eq_zero h3) with h | h
    · exact absurd h (by decide)
    · exact h4 h.symm
  · exact h3 (h2 u hu)
  · rcases h1.eq_one_or_self_of_dvd d (Nat.dvd_of_mod_eq_zero h5) with h | h
    · exact h3 h
    · exact h4 h

/-- The words found before the `i`-th candidate. -/
def earlierWords (i : Nat) : List U64 :=
  secretExample.take (([4, 22, 60, 99, 166].filter (· < i)).length)

theorem prime_of {v : U64} {n : Nat} (h : v.toNat = n) (hn : n.Prime) : v.toNat.Prime := by
  subst h
  exact hn

theorem first_of {seed v : U64} {earlier : List U64} {lo k n : Nat} (h0 : lo ≤ k) (ht : v.toNat = n)
    (hc : Spec.wyCandidate seed k = n) (hp : n.Prime) (hd : earlier.all (fun u => Spec.ones (u ^^^ v) == 32) = true) (chosen : List Nat)
    (hr : ∀ i < k, i ∈ chosen ∨
      refuted (earlierWords i) (BitVec.ofNat 64 (Spec.wyCandidate seed i)) (divisors.getD i 0) = true)
    (he : ∀ i < k, lo ≤ i → i ∉ chosen ∧ earlierWords i = earlier) : Spec.FirstSuitable seed earlier lo k v := by
  refine ⟨h0, ht.trans hc.symm, ⟨prime_of ht hp, fun u hu => beq_iff_eq.1 (List.all_eq_true.1 hd u hu)⟩, fun i h1 h2 => ?_⟩
  rcases hr i h2 with h | h
  · exact absurd h (he i h2 h1).1
  · rw [(he i h2 h1).2] at h
    exact not_suitable h

theorem rejected : ∀ i < 166, i ∈ [4, 22, 60, 99, 166] ∨
    refuted (earlierWords i) (BitVec.ofNat 64 (Spec.wyCandidate 2472663 i)) (divisors.getD i 0) = true := by
  unfold Spec.wyCandidate
  rw [fourOnes_table]
  decide +kernel

theorem chosen : Spec.wyCandidate 2472663 4 = 11795553482859145273 ∧ Spec.wyCandidate 2472663 22 = 3920912842214251717 ∧ Spec.wyCandidate 2472663 60 = 7146500858035582291 ∧ Spec.wyCandidate 2472663 99 = 4367395618987324943 ∧ Spec.wyCandidate 2472663 166 = 13279894067532001433 := by
  unfold Spec.wyCandidate
  rw [fourOnes_table]
  decide +kernel

theorem first_0 : Spec.FirstSuitable 2472663 [] 0 4 11795553482859145273#64 :=
  first_of (by decide) (by decide +kernel) chosen.1 prime_11795553482859145273 (by decide +kernel) [4, 22, 60, 99, 166]
    (fun i h => rejected i (Nat.lt_of_lt_of_le h (by decide))) (by decide +kernel)

theorem first_1 : Spec.FirstSuitable 2472663 [11795553482859145273#64] 5 22 3920912842214251717#64 :=
  first_of (by decide) (by decide +kernel) chosen.2.1 prime_3920912842214251717 (by decide +kernel) [4, 22, 60, 99, 166]
    (fun i h => rejected i (Nat.lt_of_lt_of_le h (by decide))) (by decide +kernel)

theorem first_2 : Spec.FirstSuitable 2472663 [11795553482859145273#64, 3920912842214251717#64] 23 60 7146500858035582291#64 :=
  first_of (by decide) (by decide +kernel) chosen.2.2.1 prime_7146500858035582291 (by decide +kernel) [4, 22, 60, 99, 166]
    (fun i h => rejected i (Nat.lt_of_lt_of_le h (by decide))) (by decide +kernel)

theorem first_3 : Spec.FirstSuitable 2472663 [11795553482859145273#64, 3920912842214251717#64, 7146500858035582291#64] 61 99 4367395618987324943#64 :=
  first_of (by decide) (by decide +kernel) chosen.2.2.2.1 prime_4367395618987324943 (by decide +kernel) [4, 22, 60, 99, 166]
    (fun i h => rejected i (Nat.lt_of_lt_of_le h (by decide))) (by decide +kernel)

theorem first_4 : Spec.FirstSuitable 2472663 [11795553482859145273#64, 3920912842214251717#64, 7146500858035582291#64, 4367395618987324943#64] 100 166 13279894067532001433#64 :=
  first_of (by decide) (by decide +kernel) chosen.2.2.2.2 prime_13279894067532001433 (by decide +kernel) [4, 22, 60, 99, 166]
    (fun i h => rejected i (Nat.lt_of_lt_of_le h (by decide))) (by decide +kernel)

end T1ha.Examples
