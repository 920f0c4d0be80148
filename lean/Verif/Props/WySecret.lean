import Mathlib.Data.Fintype.Card
import Mathlib.Data.BitVec
import Verif.Proofs.WySecretExample
import Verif.Proofs.Inj

/-!
# The secrets and the generator of random numbers of wyhash: C86, C87
-/

namespace T1ha.Props

open Model Examples

variable {mum : WyMum}

/-! ## Secrets: C86 -/

/-- C86: `portable_popcount` counts the ones. -/
theorem portable_popcount_correct (x : U64) : (portable_popcount x).toNat = Spec.ones x := portable_popcount_toNat x

/-- C86: which secret `make_secret` makes: each word is the first suitable one of the candidates after that of the word
before it. With `fuel` rounds for each word it is made if and only if such candidates are among those which the rounds
reach. -/
theorem make_secret_iff (fuel : Nat) (seed : U64) (l : List U64) :
    make_secret mum fuel seed = some l ↔
      ∃ k₀ k₁ k₂ k₃ k₄ v₀ v₁ v₂ v₃ v₄,
        (k₀ < fuel ∧ Spec.FirstSuitable seed [] 0 k₀ v₀) ∧
        (k₁ ≤ k₀ + fuel ∧ Spec.FirstSuitable seed [v₀] (k₀ + 1) k₁ v₁) ∧
        (k₂ ≤ k₁ + fuel ∧ Spec.FirstSuitable seed [v₀, v₁] (k₁ + 1) k₂ v₂) ∧
        (k₃ ≤ k₂ + fuel ∧ Spec.FirstSuitable seed [v₀, v₁, v₂] (k₂ + 1) k₃ v₃) ∧
        (k₄ ≤ k₃ + fuel ∧ Spec.FirstSuitable seed [v₀, v₁, v₂, v₃] (k₃ + 1) k₄ v₄) ∧ l = [v₀, v₁, v₂, v₃, v₄] := by
  have h0 : seed = wyState seed (8 * 0) := by
    unfold wyState
    rw [show BitVec.ofNat 64 (8 * 0) * 0xa0761d6478bd642f = 0#64 from rfl, BitVec.add_zero]
  unfold make_secret
  conv_lhs => rw [h0]
  constructor
  · intro h
    obtain ⟨k₀, v₀, a0, b0, h⟩ := (secretWords_succ seed fuel 4 0 [] l).1 h
    obtain ⟨k₁, v₁, a1, b1, h⟩ := (secretWords_succ seed fuel 3 _ _ l).1 h
    obtain ⟨k₂, v₂, a2, b2, h⟩ := (secretWords_succ seed fuel 2 _ _ l).1 h
    obtain ⟨k₃, v₃, a3, b3, h⟩ := (secretWords_succ seed fuel 1 _ _ l).1 h
    obtain ⟨k₄, v₄, a4, b4, h⟩ := (secretWords_succ seed fuel 0 _ _ l).1 h
    rw [secretWords] at h
    cases h
    exact ⟨k₀, k₁, k₂, k₃, k₄, v₀, v₁, v₂, v₃, v₄, ⟨by omega, b0⟩, ⟨by omega, b1⟩, ⟨by omega, b2⟩, ⟨by omega, b3⟩,
      ⟨by omega, b4⟩, rfl⟩
  · rintro ⟨k₀, k₁, k₂, k₃, k₄, v₀, v₁, v₂, v₃, v₄, ⟨a0, b0⟩, ⟨a1, b1⟩, ⟨a2, b2⟩, ⟨a3, b3⟩, ⟨a4, b4⟩, rfl⟩
    refine (secretWords_succ seed fuel 4 0 [] _).2 ⟨k₀, v₀, by omega, b0, ?_⟩
    refine (secretWords_succ seed fuel 3 _ _ _).2 ⟨k₁, v₁, by omega, b1, ?_⟩
    refine (secretWords_succ seed fuel 2 _ _ _).2 ⟨k₂, v₂, by omega, b2, ?_⟩
    refine (secretWords_succ seed fuel 1 _ _ _).2 ⟨k₃, v₃, by omega, b3, ?_⟩
    refine (secretWords_succ seed fuel 0 _ _ _).2 ⟨k₄, v₄, by omega, b4, ?_⟩
    rw [secretWords]
    rfl

/-- The secret of the seed 2472663. -/
theorem make_secret_example : make_secret mum 100 2472663 = some
    [11795553482859145273#64, 3920912842214251717#64, 7146500858035582291#64, 4367395618987324943#64,
      13279894067532001433#64] :=
  (make_secret_iff _ _ _).2 ⟨_, _, _, _, _, _, _, _, _, _, ⟨by decide, first_0⟩, ⟨by decide, first_1⟩,
    ⟨by decide, first_2⟩, ⟨by decide, first_3⟩, ⟨by decide, first_4⟩, rfl⟩

theorem sum_split (f : Nat → Nat) (j n : Nat) : ∃ q, ((List.range (j + 1 + n)).map fun i => f i * 256 ^ i).sum =
    ((List.range j).map fun i => f i * 256 ^ i).sum + 256 ^ j * (f j + 256 * q) := by
  induction n with
  | zero =>
    refine ⟨0, ?_⟩
    rw [Nat.add_zero, range_sum_succ, Nat.mul_zero, Nat.add_zero, Nat.mul_comm]
  | succ n ih =>
    obtain ⟨q, h⟩ := ih
    refine ⟨q + f (j + 1 + n) * 256 ^ n, ?_⟩
    rw [← Nat.add_assoc, range_sum_succ, h, Nat.add_assoc, show 256 ^ (j + 1 + n) = 256 ^ j * (256 * 256 ^ n) by
      rw [Nat.pow_add, Nat.pow_succ, Nat.mul_assoc], Nat.mul_add 256 q, ← Nat.add_assoc (f j), Nat.mul_add (256 ^ j) (f j + 256 * q)]
    congr 2
    rw [Nat.mul_left_comm, Nat.mul_left_comm (f _)]

/-- Every byte of a candidate has four ones. -/
theorem candidate_bytes (seed : U64) (k i : Nat) (hi : i < 8) :
    Spec.ones (BitVec.ofNat 8 (Spec.wyCandidate seed k / 256 ^ i)) = 4 := by
  obtain ⟨q, h⟩ := sum_split (fun i => randomByte seed (8 * k + i)) i (7 - i)
  rw [show i + 1 + (7 - i) = 8 by omega, ← wyCandidate_eq] at h
  have hlt := bytes_lt (fun i => randomByte seed (8 * k + i)) (fun i => (randomByte_lt seed _).1) i
  have hd : Spec.wyCandidate seed k / 256 ^ i = randomByte seed (8 * k + i) + 256 * q := by
    rw [h, Nat.add_mul_div_left _ _ (Nat.pow_pos (by decide)), Nat.div_eq_of_lt hlt, Nat.zero_add]
  rw [hd]
  have hf := (fourOnes_byte _ (Nat.mod_lt (Spec.wyRandom seed (8 * k + i)).toNat (show 0 < 70 by decide))).2.2
  have e : BitVec.ofNat 8 (randomByte seed (8 * k + i) + 256 * q) = BitVec.ofNat 8 (randomByte seed (8 * k + i)) := by
    apply BitVec.eq_of_toNat_eq
    rw [BitVec.toNat_ofNat, BitVec.toNat_ofNat]
    omega
  rw [e]
  exact hf

/-- C86: what `make_secret` promises: five words, which are primes, of which every byte has four ones, and any two of
which differ in 32 bits. -/
theorem make_secret_correct {fuel : Nat} {seed : U64} {l : List U64} (h : make_secret mum fuel seed = some l) :
    l.length = 5 ∧ (∀ v ∈ l, v.toNat.Prime ∧ ∀ i < 8, Spec.ones (BitVec.ofNat 8 (v.toNat / 256 ^ i)) = 4) ∧
      l.Pairwise fun u v => Spec.ones (u ^^^ v) = 32 := by
  obtain ⟨k₀, k₁, k₂, k₃, k₄, v₀, v₁, v₂, v₃, v₄, ⟨-, b0⟩, ⟨-, b1⟩, ⟨-, b2⟩, ⟨-, b3⟩, ⟨-, b4⟩, rfl⟩ :=
    (make_secret_iff _ _ _).1 h
  have hb : ∀ {earlier lo k v}, Spec.FirstSuitable seed earlier lo k v →
      v.toNat.Prime ∧ ∀ i < 8, Spec.ones (BitVec.ofNat 8 (v.toNat / 256 ^ i)) = 4 :=
    fun h => ⟨h.2.2.1.1, fun i hi => by rw [h.2.1]; exact candidate_bytes _ _ i hi⟩
  refine ⟨rfl, ?_, ?_⟩
  · simp only [List.forall_mem_cons]
    exact ⟨hb b0, hb b1, hb b2, hb b3, hb b4, fun _ h => absurd h List.not_mem_nil⟩
  · have c1 := b1.2.2.1.2
    have c2 := b2.2.2.1.2
    have c3 := b3.2.2.1.2
    have c4 := b4.2.2.1.2
    simp only [List.forall_mem_cons] at c1 c2 c3 c4
    simp only [List.pairwise_cons, List.forall_mem_cons]
    exact ⟨⟨c1.1, c2.1, c3.1, c4.1, fun _ h => absurd h List.not_mem_nil⟩,
      ⟨c2.2.1, c3.2.1, c4.2.1, fun _ h => absurd h List.not_mem_nil⟩,
      ⟨c3.2.2.1, c4.2.2.1, fun _ h => absurd h List.not_mem_nil⟩,
      ⟨c4.2.2.2.1, fun _ h => absurd h List.not_mem_nil⟩, fun _ h => absurd h List.not_mem_nil, List.Pairwise.nil⟩

example := make_secret_correct (mum := .portable) make_secret_example

/-- C86: the secret does not depend on how the machine multiplies, so that it can be made where it is needed. -/
theorem make_secret_portable (mum mum' : WyMum) (fuel : Nat) (seed : U64) :
    make_secret mum fuel seed = make_secret mum' fuel seed := by
  apply Option.ext
  intro l
  exact (make_secret_iff fuel seed l).trans (make_secret_iff fuel seed l).symm

/-! ## The generator of random numbers: C87 -/

/-- The seed after `k` calls of `wyrand`. -/
def wyrandSeed (mum : WyMum) (seed : U64) (k : Nat) : U64 := (fun s => (wyrand mum s).1)^[k] seed

theorem wyrandSeed_eq (seed : U64) (k : Nat) : wyrandSeed mum seed k = wyState seed k := by
  unfold wyrandSeed
  induction k with
  | zero =>
    unfold wyState
    rw [show BitVec.ofNat 64 0 * 0xa0761d6478bd642f = 0#64 from rfl, BitVec.add_zero]
    rfl
  | succ k ih =>
    rw [Function.iterate_succ_apply', ih, wyrand_state]

/-- C87: what the `k`-th call returns. -/
theorem wyrand_value (seed : U64) (k : Nat) : (wyrand mum (wyrandSeed mum seed k)).2 = Spec.wyRandom seed k := by
  rw [wyrandSeed_eq, wyrand_state]

/-- C87: after `k` calls the seed is the same as after `l` calls if and only if `k` and `l` differ by a multiple of
`2 ^ 64`: the period is `2 ^ 64`, whatever the seed. -/
theorem wyrand_period (seed : U64) (k l : Nat) :
    wyrandSeed mum seed k = wyrandSeed mum seed l ↔ k % 2 ^ 64 = l % 2 ^ 64 := by
  rw [wyrandSeed_eq, wyrandSeed_eq]
  unfold wyState
  constructor
  · intro h
    have h1 := (BitVec.add_right_inj seed).1 h
    have h2 := congrArg BitVec.toNat (mul_right_cancel_of_inv (q := 0x939c72e4af1e62cf#64) (by decide +kernel) h1)
    rwa [BitVec.toNat_ofNat, BitVec.toNat_ofNat] at h2
  · intro h
    rw [show BitVec.ofNat 64 k = BitVec.ofNat 64 l from BitVec.eq_of_toNat_eq (by rw [BitVec.toNat_ofNat, BitVec.toNat_ofNat, h])]

theorem mux_zero (x : U64) : Spec.mux 0 x = 0 ∧ Spec.mux x 0 = 0 := by
  unfold Spec.mux Spec.product
  rw [show (0 : U64).toNat = 0 from rfl, Nat.zero_mul, Nat.mul_zero]
  exact ⟨rfl, rfl⟩

/-- C87: but not all numbers are returned: there is one which no seed gives (two different seeds give 0). -/
theorem wyrand_incomplete : ∃ v, ∀ (mum : WyMum) (seed : U64), (wyrand mum seed).2 ≠ v := by
  by_contra hc
  have hs : Function.Surjective fun seed : U64 => Spec.wyRandom seed 0 := fun v => by
    by_contra hv
    refine hc ⟨v, fun mum seed h => hv ⟨seed, ?_⟩⟩
    rw [wyrand_eq] at h
    exact h
  have : Finite (BitVec 64) := Finite.of_equiv _ BitVec.equivFin.toEquiv.symm
  have hi : Function.Injective fun seed : BitVec 64 => Spec.wyRandom seed 0 := Finite.injective_iff_surjective.2 hs
  have e : Spec.wyRandom (0#64 - 0xa0761d6478bd642f#64) 0 = Spec.wyRandom (0xe7037ed1a0b428db#64 - 0xa0761d6478bd642f#64) 0 := by
    unfold Spec.wyRandom
    dsimp only
    rw [show (0#64 - 0xa0761d6478bd642f#64) + BitVec.ofNat 64 (0 + 1) * 0xa0761d6478bd642f = 0 by decide +kernel,
      show (0xe7037ed1a0b428db#64 - 0xa0761d6478bd642f#64) + BitVec.ofNat 64 (0 + 1) * 0xa0761d6478bd642f = 0xe7037ed1a0b428db by
        decide +kernel, BitVec.xor_self, (mux_zero _).1, show (0#64 : U64) = 0 from rfl, (mux_zero _).2]
  exact absurd (hi e) (by decide +kernel)

/-- C87: `wyhash64` of a pair of numbers is the same for all pairs of which one is a certain constant. -/
theorem wyhash64_collides (A B : U64) :
    wyhash64 mum A 0xe7037ed1a0b428db = wyhash64 mum 0xa0761d6478bd642f B := by
  unfold wyhash64
  dsimp only
  rw [show (0xe7037ed1a0b428db : U64) ^^^ _wyp 1 = 0 by decide +kernel, show (0xa0761d6478bd642f : U64) ^^^ _wyp 0 = 0 by decide +kernel,
    wymum_eq, wymum_eq]
  unfold Spec.product
  rw [show (0 : U64).toNat = 0 from rfl, Nat.zero_mul, Nat.mul_zero]

end T1ha.Props
