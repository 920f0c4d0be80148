import Verif.Proofs.Xxh3Middle
import Verif.Proofs.HighwaySimdPure

/-!
# XXH3: the functions with vector instructions do what the specification says
-/

namespace T1ha.Model

open X86

variable {cfg : Cfg} {x : Xxh3} {w : World} {ov : Overlay} {P : Ev → Prop} {input secret b : Bytes}
  {m s r : List Byte} {seed : U64}

/-! ## Two numbers -/

theorem ofList_at (r : List Byte) (a : Nat) (h : a + 16 ≤ r.length) :
    ofList ((r.drop a).take 16) = set64x (Spec.at64 r (a + 8)) (Spec.at64 r a) := by
  rw [show (16 : Nat) = 8 + 8 from rfl, List.take_add, List.drop_drop]
  exact ofList_set _ _ (by rw [List.length_take, List.length_drop]; omega)
    (by rw [List.length_take, List.length_drop]; omega)

theorem halves_nat (k : U64) : BitVec.ofNat 64 (k.toNat % 2 ^ 32 * (k.toNat / 2 ^ 32)) = Spec.xxh3Halves k := by
  unfold Spec.xxh3Halves
  rw [and_low_half]
  apply BitVec.eq_of_toNat_eq
  rw [BitVec.toNat_ofNat, BitVec.toNat_mul, toNat_low_half, toNat_high_half]

/-- Two products of 32 bits by 32 bits are one of 64 bits by 32 bits. -/
theorem prime_nat (k : U64) (p : U32) :
    BitVec.ofNat 64 (k.toNat % 2 ^ 32 * p.toNat) + BitVec.ofNat 64 (k.toNat / 2 ^ 32 * p.toNat) <<< 32 =
      k * p.setWidth 64 := by
  apply BitVec.eq_of_toNat_eq
  rw [BitVec.toNat_add, BitVec.toNat_shiftLeft, BitVec.toNat_ofNat, BitVec.toNat_ofNat, BitVec.toNat_mul,
    BitVec.toNat_setWidth, Nat.shiftLeft_eq, Nat.mod_eq_of_lt (a := p.toNat) (by have := p.isLt; omega)]
  have e : k.toNat * p.toNat = k.toNat % 2 ^ 32 * p.toNat + k.toNat / 2 ^ 32 * p.toNat * 2 ^ 32 := by
    conv => lhs; rw [← Nat.div_add_mod k.toNat (2 ^ 32), Nat.add_mul, Nat.mul_comm (2 ^ 32), Nat.mul_right_comm]
    rw [Nat.add_comm]
  rw [e]
  generalize k.toNat % 2 ^ 32 * p.toNat = u
  generalize k.toNat / 2 ^ 32 * p.toNat = v
  omega

theorem toNat_low (a : U64) : (low a).toNat = a.toNat % 2 ^ 32 := by rw [low, BitVec.toNat_setWidth]

theorem toNat_high (a : U64) : (high a).toNat = a.toNat / 2 ^ 32 := by
  rw [high, BitVec.toNat_setWidth, BitVec.toNat_ushiftRight, Nat.shiftRight_eq_div_pow, Nat.mod_eq_of_lt]
  have := a.isLt
  omega

theorem words_mod (a b : U32) : (a ++ b : U64).toNat % 2 ^ 32 = b.toNat := by
  have := congrArg BitVec.toNat (low_append a b)
  rwa [toNat_low] at this

theorem shuffle_high (a b : U64) : shuffle32 (set64x a b) (MM_SHUFFLE 0 3 0 1) =
    set64x (low b ++ high a) (low b ++ high b) := by
  have : shuffle32 (set64x a b) (MM_SHUFFLE 0 3 0 1) = set32 (lane32 (set64x a b) 0) (lane32 (set64x a b) 3)
      (lane32 (set64x a b) 0) (lane32 (set64x a b) 1) := rfl
  rw [this, set32_eq, lane32_0, lane32_1, lane32_3]

theorem shuffle_swap (a b : U64) : shuffle32 (set64x a b) (MM_SHUFFLE 1 0 3 2) = set64x b a := by
  have : shuffle32 (set64x a b) (MM_SHUFFLE 1 0 3 2) = set32 (lane32 (set64x a b) 1) (lane32 (set64x a b) 0)
      (lane32 (set64x a b) 3) (lane32 (set64x a b) 2) := rfl
  rw [this, set32_eq, lane32_0, lane32_1, lane32_2, lane32_3, append_halves, append_halves]

theorem add_other (a b c : U64) : a + (b + c) = b + c + a := BitVec.add_comm _ _

theorem accumulateSse2_eq (d1 d0 k1 k0 a1 a0 : U64) :
    accumulateSse2 (set64x d1 d0) (set64x k1 k0) (set64x a1 a0) =
      set64x (a1 + d0 + Spec.xxh3Halves (d1 ^^^ k1)) (a0 + d1 + Spec.xxh3Halves (d0 ^^^ k0)) := by
  unfold accumulateSse2
  simp only [xor_set, shuffle_high, shuffle_swap, mulEpu32, lane0_set, lane1_set, words_mod, toNat_high, halves_nat,
    add64_set, add_other]

theorem set1_set (p : U32) : set1_32 p = set64x (p ++ p) (p ++ p) := set32_eq p p p p

theorem scrambleSse2_eq (k1 k0 a1 a0 : U64) :
    scrambleSse2 (set64x k1 k0) (set64x a1 a0) =
      set64x ((a1 ^^^ a1 >>> 47 ^^^ k1) * Spec.xxhP1.setWidth 64) ((a0 ^^^ a0 >>> 47 ^^^ k0) * Spec.xxhP1.setWidth 64) := by
  unfold scrambleSse2
  simp only [set1_set, srli_set, xor_set, shuffle_high, mulEpu32, lane0_set, lane1_set, words_mod, toNat_high, slli_set,
    add64_set, prime_nat]
  rfl

theorem split_eq (vzip : Bool) (a b : U64) :
    XXH_SPLIT_IN_PLACE vzip (set64x a b) = (⟨low b, low a⟩, ⟨high b, high a⟩) := by
  unfold XXH_SPLIT_IN_PLACE
  cases vzip with
  | true =>
    simp only [if_true, Arm.vzip32, lane32_0, lane32_1, lane32_2, lane32_3, set32_eq, Arm.vget_low_u32,
      Arm.vget_high_u32, low_append, high_append]
  | false =>
    simp only [Bool.false_eq_true, if_false, Arm.vmovn_u64, Arm.vshrn_n_u64, lane0_set, lane1_set]
    rfl

theorem accumulateNeon_eq (vzip : Bool) (d1 d0 k1 k0 a1 a0 : U64) :
    accumulateNeon vzip (set64x d1 d0) (set64x k1 k0) (set64x a1 a0) =
      set64x (a1 + d0 + Spec.xxh3Halves (d1 ^^^ k1)) (a0 + d1 + Spec.xxh3Halves (d0 ^^^ k0)) := by
  have hx : Arm.veorq (set64x d1 d0) (set64x k1 k0) = set64x (d1 ^^^ k1) (d0 ^^^ k0) := xor_set _ _ _ _
  unfold accumulateNeon
  simp only [hx, split_eq, Arm.vextq_u64_1, Arm.vaddq_u64, Arm.vmlal_u32, Arm.vmull_u32, lane0_set, lane1_set, toNat_low,
    toNat_high, halves_nat]

theorem scrambleNeon_eq (vzip : Bool) (k1 k0 a1 a0 : U64) :
    scrambleNeon vzip (set64x k1 k0) (set64x a1 a0) =
      set64x ((a1 ^^^ a1 >>> 47 ^^^ k1) * Spec.xxhP1.setWidth 64) ((a0 ^^^ a0 >>> 47 ^^^ k0) * Spec.xxhP1.setWidth 64) := by
  have hx : ∀ a b c d : U64, Arm.veorq (set64x a b) (set64x c d) = set64x (a ^^^ c) (b ^^^ d) := xor_set
  have hs : Arm.vshrq_n_u64 (set64x a1 a0) 47 = set64x (a1 >>> 47) (a0 >>> 47) := srli_set a1 a0 47
  unfold scrambleNeon
  simp only [hs, hx, split_eq, Arm.vdup_n_u32, Arm.vaddq_u64, Arm.vmlal_u32, Arm.vmull_u32, Arm.vshlq_n_u64, lane0_set,
    lane1_set, toNat_low, toNat_high]
  have swap : ∀ a b : U64, a <<< 32 + b = b + a <<< 32 := fun a b => BitVec.add_comm _ _
  simp only [swap, prime_nat]
  rfl

theorem rotate_high (a : U64) : (a.rotateLeft 32).toNat % 2 ^ 32 = a.toNat / 2 ^ 32 := by
  have e : a.rotateLeft 32 = low a ++ high a := by
    rw [swap_halves]
    refine BitVec.eq_of_getLsbD_eq fun i hi => ?_
    simp only [Spec.swap32, BitVec.getLsbD_rotateLeft, BitVec.getLsbD_rotateRight]
  rw [e, words_mod, toNat_high]

theorem accumulateVsx_eq (d1 d0 k1 k0 a1 a0 : U64) :
    accumulateVsx (set64x d1 d0) (set64x k1 k0) (set64x a1 a0) =
      set64x (a1 + d0 + Spec.xxh3Halves (d1 ^^^ k1)) (a0 + d1 + Spec.xxh3Halves (d0 ^^^ k0)) := by
  have hx : set64x d1 d0 ^^^ set64x k1 k0 = set64x (d1 ^^^ k1) (d0 ^^^ k0) := xor_set _ _ _ _
  have swap : ∀ a b c : U64, a + b + c = a + c + b := fun a b c => by
    rw [BitVec.add_assoc, BitVec.add_comm b, ← BitVec.add_assoc]
  unfold accumulateVsx
  simp only [hx, Ppc.rl64, Ppc.vec64, Ppc.vmulouw, Ppc.add, vec_permi_2, lane0_set, lane1_set, rotate_high, halves_nat]
  rw [swap a1, swap a0]

theorem ppc_prime (e : Endian) (p : U32) : (Ppc.vec32 e fun _ => p) = set64x (p ++ p) (p ++ p) := set32_eq p p p p

theorem words_div (a b : U32) : (a ++ b : U64).toNat / 2 ^ 32 = a.toNat := by
  have := congrArg BitVec.toNat (high_append a b)
  rwa [toNat_high] at this

theorem scrambleVsx_eq (e : Endian) (k1 k0 a1 a0 : U64) :
    scrambleVsx e (set64x k1 k0) (set64x a1 a0) =
      set64x ((a1 ^^^ a1 >>> 47 ^^^ k1) * Spec.xxhP1.setWidth 64) ((a0 ^^^ a0 >>> 47 ^^^ k0) * Spec.xxhP1.setWidth 64) := by
  have hx : ∀ a b c d : U64, set64x a b ^^^ set64x c d = set64x (a ^^^ c) (b ^^^ d) := xor_set
  unfold scrambleVsx
  simp only [ppc_prime, Ppc.shiftRight, Ppc.vec64, lane0_set, lane1_set, hx, Ppc.vmuleuw, Ppc.vmulouw, words_mod,
    words_div, Ppc.add, prime_nat]
  rfl

/-! ## Eight numbers -/

/-- What is done with two numbers, for all eight. -/
theorem four_vecs (F : Fin 8 → U64 → U64) (f : Fin 4 → U128 → U128) (acc : Lanes)
    (h : ∀ k : Fin 4, ∀ a1 a0, f k (set64x a1 a0) = set64x (F ⟨2 * k + 1, by omega⟩ a1) (F ⟨2 * k, by omega⟩ a0)) :
    [0, 1, 2, 3].foldl (fun (acc : Lanes) (k : Fin 4) => setAccVec acc k (f k (accVec acc k))) acc =
      fun i => F i (acc i) := by
  funext i
  have e3 : (((3 : Fin 4) : Nat) = 3) := rfl
  simp only [List.foldl_cons, List.foldl_nil, accVec, setAccVec, h, lane0_set, lane1_set, e3]
  have hc : i = 0 ∨ i = 1 ∨ i = 2 ∨ i = 3 ∨ i = 4 ∨ i = 5 ∨ i = 6 ∨ i = 7 := by omega
  rcases hc with rfl | rfl | rfl | rfl | rfl | rfl | rfl | rfl <;> simp [setLane]

theorem two_vecs (F : Fin 8 → U64 → U64) (f : Fin 2 → U256 → U256) (acc : Lanes)
    (h : ∀ k : Fin 2, ∀ a3 a2 a1 a0, f k ⟨set64x a1 a0, set64x a3 a2⟩ =
      ⟨set64x (F ⟨4 * k + 1, by omega⟩ a1) (F ⟨4 * k, by omega⟩ a0),
        set64x (F ⟨4 * k + 3, by omega⟩ a3) (F ⟨4 * k + 2, by omega⟩ a2)⟩) :
    [0, 1].foldl (fun (acc : Lanes) (k : Fin 2) => setAccVec256 acc k (f k (accVec256 acc k))) acc =
      fun i => F i (acc i) := by
  funext i
  simp only [List.foldl_cons, List.foldl_nil, accVec256, setAccVec256, accVec, setAccVec, h, lane0_set, lane1_set]
  have hc : i = 0 ∨ i = 1 ∨ i = 2 ∨ i = 3 ∨ i = 4 ∨ i = 5 ∨ i = 6 ∨ i = 7 := by omega
  rcases hc with rfl | rfl | rfl | rfl | rfl | rfl | rfl | rfl <;> simp [setLane]

theorem one_vec (F : Fin 8 → U64 → U64) (acc : Lanes) :
    setAccVec512 acc ⟨⟨set64x (F 1 (acc 1)) (F 0 (acc 0)), set64x (F 3 (acc 3)) (F 2 (acc 2))⟩,
      ⟨set64x (F 5 (acc 5)) (F 4 (acc 4)), set64x (F 7 (acc 7)) (F 6 (acc 6))⟩⟩ = fun i => F i (acc i) := by
  funext i
  simp only [setAccVec512, setAccVec256, setAccVec, lane0_set, lane1_set]
  have hc : i = 0 ∨ i = 1 ∨ i = 2 ∨ i = 3 ∨ i = 4 ∨ i = 5 ∨ i = 6 ∨ i = 7 := by omega
  rcases hc with rfl | rfl | rfl | rfl | rfl | rfl | rfl | rfl <;> simp [setLane]

theorem other_lane : ((0 : Fin 8) ^^^ 1 = 1) ∧ ((1 : Fin 8) ^^^ 1 = 0) ∧ ((2 : Fin 8) ^^^ 1 = 3) ∧ ((3 : Fin 8) ^^^ 1 = 2) ∧
    ((4 : Fin 8) ^^^ 1 = 5) ∧ ((5 : Fin 8) ^^^ 1 = 4) ∧ ((6 : Fin 8) ^^^ 1 = 7) ∧ ((7 : Fin 8) ^^^ 1 = 6) := by decide

theorem other_even (k : Fin 4) : ((⟨2 * k, by omega⟩ : Fin 8) ^^^ 1) = ⟨2 * k + 1, by omega⟩ := by
  revert k; decide

theorem other_odd (k : Fin 4) : ((⟨2 * k + 1, by omega⟩ : Fin 8) ^^^ 1) = ⟨2 * k, by omega⟩ := by
  revert k; decide

theorem other_0 (k : Fin 2) : ((⟨4 * k, by omega⟩ : Fin 8) ^^^ 1) = ⟨4 * k + 1, by omega⟩ := by
  revert k; decide

theorem other_1 (k : Fin 2) : ((⟨4 * k + 1, by omega⟩ : Fin 8) ^^^ 1) = ⟨4 * k, by omega⟩ := by
  revert k; decide

theorem other_2 (k : Fin 2) : ((⟨4 * k + 2, by omega⟩ : Fin 8) ^^^ 1) = ⟨4 * k + 3, by omega⟩ := by
  revert k; decide

theorem other_3 (k : Fin 2) : ((⟨4 * k + 3, by omega⟩ : Fin 8) ^^^ 1) = ⟨4 * k + 2, by omega⟩ := by
  revert k; decide

/-! ## More than two numbers -/

theorem accumulateAvx2_eq (d k a : U256) :
    accumulateAvx2 d k a = ⟨accumulateSse2 d.lo k.lo a.lo, accumulateSse2 d.hi k.hi a.hi⟩ := rfl

theorem scrambleAvx2_eq (k a : U256) : scrambleAvx2 k a = ⟨scrambleSse2 k.lo a.lo, scrambleSse2 k.hi a.hi⟩ := rfl

/-- One vector of eight numbers. -/
theorem accumulate512_eq (d k : Nat → U64) (acc : Lanes) :
    let data_vec : U512 := ⟨⟨set64x (d 1) (d 0), set64x (d 3) (d 2)⟩, ⟨set64x (d 5) (d 4), set64x (d 7) (d 6)⟩⟩
    let key_vec : U512 := ⟨⟨set64x (k 1) (k 0), set64x (k 3) (k 2)⟩, ⟨set64x (k 5) (k 4), set64x (k 7) (k 6)⟩⟩
    let data_key := U512.zip X86.xor data_vec key_vec
    U512.zip add64 (U512.zip mulEpu32 data_key (U512.map (shuffle32 · (MM_SHUFFLE 0 3 0 1)) data_key))
        (U512.zip add64 (accVec512 acc) (U512.map (shuffle32 · (MM_SHUFFLE 1 0 3 2)) data_vec)) =
      ⟨⟨set64x (acc 1 + d 0 + Spec.xxh3Halves (d 1 ^^^ k 1)) (acc 0 + d 1 + Spec.xxh3Halves (d 0 ^^^ k 0)),
        set64x (acc 3 + d 2 + Spec.xxh3Halves (d 3 ^^^ k 3)) (acc 2 + d 3 + Spec.xxh3Halves (d 2 ^^^ k 2))⟩,
      ⟨set64x (acc 5 + d 4 + Spec.xxh3Halves (d 5 ^^^ k 5)) (acc 4 + d 5 + Spec.xxh3Halves (d 4 ^^^ k 4)),
        set64x (acc 7 + d 6 + Spec.xxh3Halves (d 7 ^^^ k 7)) (acc 6 + d 7 + Spec.xxh3Halves (d 6 ^^^ k 6))⟩⟩ := by
  rw [← accumulateSse2_eq, ← accumulateSse2_eq, ← accumulateSse2_eq, ← accumulateSse2_eq]
  rfl

theorem scramble512_eq (k : Nat → U64) (acc : Lanes) :
    let key_vec : U512 := ⟨⟨set64x (k 1) (k 0), set64x (k 3) (k 2)⟩, ⟨set64x (k 5) (k 4), set64x (k 7) (k 6)⟩⟩
    let prime256 : U256 := ⟨set1_32 XXH_PRIME32_1, set1_32 XXH_PRIME32_1⟩
    let prime32 : U512 := ⟨prime256, prime256⟩
    let acc_vec := accVec512 acc
    let shifted := U512.map (srli64 · 47) acc_vec
    let data_vec := U512.zip X86.xor acc_vec shifted
    let data_key := U512.zip X86.xor data_vec key_vec
    let data_key_hi := U512.map (shuffle32 · (MM_SHUFFLE 0 3 0 1)) data_key
    let prod_lo := U512.zip mulEpu32 data_key prime32
    let prod_hi := U512.zip mulEpu32 data_key_hi prime32
    let g := fun (a k : U64) => (a ^^^ a >>> 47 ^^^ k) * Spec.xxhP1.setWidth 64
    U512.zip add64 prod_lo (U512.map (slli64 · 32) prod_hi) =
      ⟨⟨set64x (g (acc 1) (k 1)) (g (acc 0) (k 0)), set64x (g (acc 3) (k 3)) (g (acc 2) (k 2))⟩,
        ⟨set64x (g (acc 5) (k 5)) (g (acc 4) (k 4)), set64x (g (acc 7) (k 7)) (g (acc 6) (k 6))⟩⟩ := by
  intro key_vec prime256 prime32 acc_vec shifted data_vec data_key data_key_hi prod_lo prod_hi g
  show _ = (⟨⟨set64x ((acc 1 ^^^ acc 1 >>> 47 ^^^ k 1) * _) ((acc 0 ^^^ acc 0 >>> 47 ^^^ k 0) * _),
    set64x ((acc 3 ^^^ acc 3 >>> 47 ^^^ k 3) * _) ((acc 2 ^^^ acc 2 >>> 47 ^^^ k 2) * _)⟩,
    ⟨set64x ((acc 5 ^^^ acc 5 >>> 47 ^^^ k 5) * _) ((acc 4 ^^^ acc 4 >>> 47 ^^^ k 4) * _),
    set64x ((acc 7 ^^^ acc 7 >>> 47 ^^^ k 7) * _) ((acc 6 ^^^ acc 6 >>> 47 ^^^ k 6) * _)⟩⟩ : U512)
  rw [← scrambleSse2_eq, ← scrambleSse2_eq, ← scrambleSse2_eq, ← scrambleSse2_eq]
  rfl

/-! ## Reading -/

theorem reads_128 (g : ByteSource w ov cfg P b r) (i : Nat) (h : i + 16 ≤ r.length) :
    Reads w ov P (b.here i 16) 0 (load128 b i) (set64x (Spec.at64 r (i + 8)) (Spec.at64 r i)) := by
  unfold load128
  rw [← ofList_at r i h]
  exact Exec.cov (Reads.bind (g.load i 16 h) (Reads.pure _)) (fun a h => Or.inl h) rfl

theorem reads_256 (g : ByteSource w ov cfg P b r) (i : Nat) (h : i + 32 ≤ r.length) :
    Reads w ov P (b.here i 32) 0 (load256 b i) ⟨set64x (Spec.at64 r (i + 8)) (Spec.at64 r i),
      set64x (Spec.at64 r (i + 24)) (Spec.at64 r (i + 16))⟩ := by
  unfold load256
  have h0 := ofList_at r i (by omega)
  have h1 := ofList_at r (i + 16) (by omega)
  rw [← h0, show i + 24 = i + 16 + 8 by omega, ← h1]
  refine Exec.cov (Reads.bind (g.load i 32 h) (Exec.post (Reads.pure _) ?_)) (fun a h => Or.inl h) rfl
  rintro _ _ ⟨rfl, rfl⟩
  refine ⟨?_, rfl⟩
  rw [List.take_take, List.drop_take, List.drop_drop]
  rfl

theorem reads_512 (g : ByteSource w ov cfg P b r) (i : Nat) (h : i + 64 ≤ r.length) :
    Reads w ov P (b.here i 64) 0 (load512 b i) ⟨⟨set64x (Spec.at64 r (i + 8)) (Spec.at64 r i),
      set64x (Spec.at64 r (i + 24)) (Spec.at64 r (i + 16))⟩, ⟨set64x (Spec.at64 r (i + 40)) (Spec.at64 r (i + 32)),
      set64x (Spec.at64 r (i + 56)) (Spec.at64 r (i + 48))⟩⟩ := by
  unfold load512
  have h0 := ofList_at r i (by omega)
  have h1 := ofList_at r (i + 16) (by omega)
  have h2 := ofList_at r (i + 32) (by omega)
  have h3 := ofList_at r (i + 48) (by omega)
  rw [← h0, show i + 24 = i + 16 + 8 by omega, ← h1, show i + 40 = i + 32 + 8 by omega, ← h2,
    show i + 56 = i + 48 + 8 by omega, ← h3]
  refine Exec.cov (Reads.bind (g.load i 64 h) (Exec.post (Reads.pure _) ?_)) (fun a h => Or.inl h) rfl
  rintro _ _ ⟨rfl, rfl⟩
  refine ⟨?_, rfl⟩
  simp only [List.take_take, List.drop_take, List.drop_drop]
  rfl

theorem mask_byte : ∀ i < 16,
    Ppc.place8 .big ((X86.byteAt (Ppc.vec64 0x0706050403020100 0x0F0E0D0C0B0A0908) i).toNat % 32 % 16) = i ^^^ 7 := by
  decide +kernel

theorem revb_list (l : List Byte) (h : l.length = 16) :
    XXH_vec_revb (ofList l) = ofList ((List.range 16).map fun i => l.getD (i ^^^ 7) 0#8) := by
  unfold XXH_vec_revb Ppc.vperm
  rw [ofBytes_eq]
  refine congrArg ofList (List.map_congr_left fun i hi => ?_)
  rw [List.mem_range] at hi
  have hx : i ^^^ 7 < 16 := Nat.xor_lt_two_pow (n := 4) hi (by omega)
  rw [mask_byte i hi, byteAt_eq _ _ hx, toList_ofList _ h]

theorem reversed_twice (l : List Byte) (h : l.length = 16) :
    ((List.range 16).map fun i => ((l.take 8).reverse ++ (l.drop 8).reverse).getD (i ^^^ 7) 0#8) = l := by
  match l, h with
  | [a0, a1, a2, a3, a4, a5, a6, a7, a8, a9, aa, ab, ac, ad, ae, af], _ => rfl

theorem revb_eq (l : List Byte) (h : l.length = 16) :
    XXH_vec_revb (Ppc.vec64 (BitVec.ofNat 64 (beVal (l.take 8))) (BitVec.ofNat 64 (beVal (l.drop 8)))) = ofList l := by
  have e : Ppc.vec64 (BitVec.ofNat 64 (beVal (l.take 8))) (BitVec.ofNat 64 (beVal (l.drop 8))) =
      ofList ((l.take 8).reverse ++ (l.drop 8).reverse) := by
    rw [beVal_eq, beVal_eq]
    exact (ofList_set _ _ (by simp; omega) (by simp; omega)).symm
  rw [e, revb_list _ (by simp; omega), reversed_twice l h]

theorem reads_vecLoadu (g : ByteSource w ov cfg P b r) (e : Endian) (i : Nat) (h : i + 16 ≤ r.length) :
    Reads w ov P (b.here i 16) 0 (XXH_vec_loadu e b i) (set64x (Spec.at64 r (i + 8)) (Spec.at64 r i)) := by
  have hl : ((r.drop i).take 16).length = 16 := by rw [List.length_take, List.length_drop]; omega
  unfold XXH_vec_loadu
  rw [← ofList_at r i h]
  refine Exec.cov (Reads.bind (g.load i 16 h) (Exec.post (Reads.pure _) ?_)) (fun a h => Or.inl h) rfl
  rintro _ _ ⟨rfl, rfl⟩
  refine ⟨?_, rfl⟩
  cases e with
  | big => exact revb_eq _ hl
  | little =>
    refine Eq.trans ?_ (ofList_set (((r.drop i).take 16).take 8) (((r.drop i).take 16).drop 8) (by simp; omega)
      (by simp; omega)).symm |>.trans (by rw [List.take_append_drop])
    rfl

end T1ha.Model
