import Verif.Proofs.Xxh3Middle
import Verif.Proofs.Xxh3Vector
import Verif.Proofs.Steps
import Verif.Proofs.XxhashCanonical

/-!
# XXH3: messages of more than 240 bytes
-/

namespace T1ha.Model

variable {cfg : Cfg} {x : Xxh3} {w : World} {ov : Overlay} {P : Ev → Prop} {input secret : Bytes}
  {m s : List Byte} {seed : U64} {α β : Type}

/-! ## Stripes -/

/-- Stripes of a block, from number `n` on, without what is done at the end of the block. -/
def absorbed (s : List Byte) : Nat → Lanes → List (List Byte) → Lanes
  | _, acc, [] => acc
  | n, acc, a :: l => absorbed s (n + 1) (Spec.xxh3Accumulate s (8 * n) acc a) l

theorem absorb_app (i : Nat) (acc : Lanes) (a b : List (List Byte)) :
    Spec.xxh3Absorb s i acc (a ++ b) = Spec.xxh3Absorb s (i + a.length) (Spec.xxh3Absorb s i acc a) b := by
  induction a generalizing i acc with
  | nil => rfl
  | cons c a ih =>
    rw [List.cons_append, Spec.xxh3Absorb, ih, Spec.xxh3Absorb, List.length_cons]
    congr 1
    omega

theorem absorb_mod (i j : Nat) (hij : i % Spec.xxh3PerBlock s = j % Spec.xxh3PerBlock s) (acc : Lanes)
    (l : List (List Byte)) : Spec.xxh3Absorb s i acc l = Spec.xxh3Absorb s j acc l := by
  induction l generalizing i j acc with
  | nil => rfl
  | cons c l ih =>
    have h1 : (i + 1) % Spec.xxh3PerBlock s = (j + 1) % Spec.xxh3PerBlock s := by
      rw [Nat.add_mod, hij, ← Nat.add_mod]
    rw [Spec.xxh3Absorb, Spec.xxh3Absorb, ih _ _ h1]
    unfold Spec.xxh3Stripe
    rw [hij, h1]

/-- Some stripes of a block. -/
theorem absorb_inside (n : Nat) (acc : Lanes) (l : List (List Byte)) (h : n + l.length < Spec.xxh3PerBlock s) :
    Spec.xxh3Absorb s n acc l = absorbed s n acc l := by
  induction l generalizing n acc with
  | nil => rfl
  | cons c l ih =>
    rw [List.length_cons] at h
    rw [Spec.xxh3Absorb, absorbed, ih _ _ (by omega)]
    unfold Spec.xxh3Stripe
    rw [Nat.mod_eq_of_lt (show n < Spec.xxh3PerBlock s by omega),
      Nat.mod_eq_of_lt (show n + 1 < Spec.xxh3PerBlock s by omega), if_neg (by omega)]

/-- The last stripes of a block. -/
theorem absorb_end (n : Nat) (acc : Lanes) (l : List (List Byte)) (h : n + l.length = Spec.xxh3PerBlock s)
    (hl : l ≠ []) : Spec.xxh3Absorb s n acc l = Spec.xxh3Scramble s (absorbed s n acc l) := by
  induction l generalizing n acc with
  | nil => exact absurd rfl hl
  | cons c l ih =>
    rw [List.length_cons] at h
    rw [Spec.xxh3Absorb, absorbed]
    unfold Spec.xxh3Stripe
    rw [Nat.mod_eq_of_lt (show n < Spec.xxh3PerBlock s by omega)]
    by_cases hl : l = []
    · subst hl
      rw [List.length_nil] at h
      rw [if_pos (by rw [show n + 1 = Spec.xxh3PerBlock s by omega, Nat.mod_self])]
      rfl
    · have := List.length_pos_iff.mpr hl
      rw [Nat.mod_eq_of_lt (show n + 1 < Spec.xxh3PerBlock s by omega), if_neg (by omega)]
      exact ih _ _ (by omega) hl

/-! ## Programs which go through a list -/

theorem reads_foldlM {f : α → β → M α} {g : α → β → α} {C : β → Nat → Prop} (l : List β)
    (hf : ∀ a, ∀ k ∈ l, Reads w ov P (C k) 0 (f a k) (g a k)) (a : α) :
    Reads w ov P (fun q => ∃ k ∈ l, C k q) 0 (l.foldlM f a) (l.foldl g a) := by
  induction l generalizing a with
  | nil => exact Exec.cov (Reads.pure a) (fun q hq => by obtain ⟨k, hk, _⟩ := hq; cases hk) rfl
  | cons b l ih =>
    rw [List.foldlM_cons, List.foldl_cons]
    refine Exec.cov (Reads.bind (hf a b (List.mem_cons_self ..)) (ih (fun a k hk => hf a k (List.mem_cons_of_mem _ hk))
      (g a b))) ?_ rfl
    rintro q ⟨k, hk, hq⟩
    rcases List.mem_cons.mp hk with rfl | hk
    · exact Or.inl hq
    · exact Or.inr ⟨k, hk, hq⟩

theorem at64_slice (i k n : Nat) (h : k + 8 ≤ n) : Spec.at64 ((m.drop i).take n) k = Spec.at64 m (i + k) := by
  unfold Spec.at64
  rw [List.drop_take, List.take_take, List.drop_drop, Nat.min_eq_left (by omega)]

/-- Eight steps of the code are one of the specification. -/
theorem eight_lanes (d p : Fin 8 → U64) (acc : Lanes) :
    [0, 1, 2, 3, 4, 5, 6, 7].foldl (fun (acc : Lanes) (k : Fin 8) =>
      setLane (setLane acc (k ^^^ 1) (acc (k ^^^ 1) + d k)) k
        ((setLane acc (k ^^^ 1) (acc (k ^^^ 1) + d k)) k + p k)) acc =
    fun i => acc i + d (i ^^^ 1) + p i := by
  funext i
  simp only [List.foldl_cons, List.foldl_nil]
  have e : ((0 : Fin 8) ^^^ 1 = 1) ∧ ((1 : Fin 8) ^^^ 1 = 0) ∧ ((2 : Fin 8) ^^^ 1 = 3) ∧ ((3 : Fin 8) ^^^ 1 = 2) ∧
    ((4 : Fin 8) ^^^ 1 = 5) ∧ ((5 : Fin 8) ^^^ 1 = 4) ∧ ((6 : Fin 8) ^^^ 1 = 7) ∧ ((7 : Fin 8) ^^^ 1 = 6) := by decide
  obtain ⟨e0, e1, e2, e3, e4, e5, e6, e7⟩ := e
  have swap : ∀ a b c : U64, a + b + c = a + c + b := fun a b c => by
    rw [BitVec.add_assoc, BitVec.add_comm b, ← BitVec.add_assoc]
  simp only [e0, e1, e2, e3, e4, e5, e6, e7]
  have hc : i = 0 ∨ i = 1 ∨ i = 2 ∨ i = 3 ∨ i = 4 ∨ i = 5 ∨ i = 6 ∨ i = 7 := by omega
  rcases hc with rfl | rfl | rfl | rfl | rfl | rfl | rfl | rfl <;>
    simp [setLane, e0, e1, e2, e3, e4, e5, e6, e7] <;> exact swap _ _ _

theorem eight_set (f : Fin 8 → U64 → U64) (acc : Lanes) :
    [0, 1, 2, 3, 4, 5, 6, 7].foldl (fun (acc : Lanes) (k : Fin 8) => setLane acc k (f k (acc k))) acc =
    fun i => f i (acc i) := by
  funext i
  simp only [List.foldl_cons, List.foldl_nil]
  have hc : i = 0 ∨ i = 1 ∨ i = 2 ∨ i = 3 ∨ i = 4 ∨ i = 5 ∨ i = 6 ∨ i = 7 := by omega
  rcases hc with rfl | rfl | rfl | rfl | rfl | rfl | rfl | rfl <;> simp [setLane]

theorem start3_eq : XXH3_INIT_ACC = Spec.xxh3Start := rfl

/-- What is fetched ahead can be pointed to. -/
def Ahead (w : World) (ov : Overlay) (cfg : Cfg) (x : Xxh3) (P : Ev → Prop) (input : Bytes) (n : Nat) : Prop :=
  ∀ i, i + 64 ≤ n → Reads w ov P nowhere 0 (XXH_PREFETCH cfg x input i) ()

theorem ahead_array (l : List Byte) (n : Nat) : Ahead w ov cfg x P (.array l) n := fun _ _ => Reads.pure ()

section
variable (h : Hashing w ov cfg x P input m secret s)
include h

theorem Hashing.accumulate_scalar (acc : Lanes) (i j : Nat) (hi : i + 64 ≤ m.length) (hj : j + 64 ≤ s.length) :
    Reads w ov P (input.here i 64) 0 (XXH3_accumulate_512_scalar cfg x acc input i secret j)
      (Spec.xxh3Accumulate s j acc ((m.drop i).take 64)) := by
  unfold XXH3_accumulate_512_scalar
  refine Exec.cov (Exec.post (reads_foldlM (C := fun k => input.here (i + 8 * k) 8)
    (g := fun (acc : Lanes) (k : Fin 8) =>
      setLane (setLane acc (k ^^^ 1) (acc (k ^^^ 1) + Spec.at64 m (i + 8 * k))) k
        ((setLane acc (k ^^^ 1) (acc (k ^^^ 1) + Spec.at64 m (i + 8 * k))) k +
          Spec.xxh3Halves (Spec.at64 m (i + 8 * k) ^^^ Spec.at64 s (j + 8 * k))))
    [0, 1, 2, 3, 4, 5, 6, 7] ?_ acc) ?_) ?_ rfl
  · intro a k _
    unfold XXH3_accumulate_lane
    refine Exec.bindL (h.in64 (i + 8 * k) (by omega)) ?_
    rintro _ _ ⟨rfl, rfl⟩
    refine Exec.bindR (h.key64 (j + k * 8) (by omega)) (reads_pure ?_)
    rw [mult_halves, Nat.mul_comm (k : Nat) 8]
  · rintro _ _ ⟨rfl, rfl⟩
    refine ⟨?_, rfl⟩
    rw [eight_lanes (fun k => Spec.at64 m (i + 8 * k))
      (fun k => Spec.xxh3Halves (Spec.at64 m (i + 8 * k) ^^^ Spec.at64 s (j + 8 * k)))]
    funext q
    unfold Spec.xxh3Accumulate
    rw [at64_slice _ _ _ (by omega), at64_slice _ _ _ (by omega)]
  · intro a ha
    refine here_parts input ha ?_
    rintro p rfl _ _
    refine ⟨⟨(a - (p + i)) / 8, by omega⟩, ?_, ?_⟩
    · have all : ∀ q : Fin 8, q ∈ [0, 1, 2, 3, 4, 5, 6, 7] := by decide
      exact all _
    · simp only [Bytes.here, range]
      omega

theorem Hashing.scramble_scalar (acc : Lanes) (hs : 64 ≤ s.length) :
    Reads w ov P nowhere 0 (XXH3_scrambleAcc_scalar cfg x acc secret (s.length - 64)) (Spec.xxh3Scramble s acc) := by
  unfold XXH3_scrambleAcc_scalar
  refine Exec.cov (Exec.post (reads_foldlM (C := fun _ => nowhere)
    (g := fun (acc : Lanes) (k : Fin 8) => setLane acc k ((fun (k : Fin 8) (v : U64) =>
      (v ^^^ (v >>> 47) ^^^ Spec.at64 s (s.length - 64 + 8 * k)) * Spec.xxhP1.setWidth 64) k (acc k)))
    [0, 1, 2, 3, 4, 5, 6, 7] ?_ acc) ?_) (fun _ h => h.elim) rfl
  · intro a k _
    exact Exec.bindR (h.key64 (s.length - 64 + 8 * k) (by omega)) (reads_pure rfl)
  · rintro _ _ ⟨rfl, rfl⟩
    refine ⟨?_, rfl⟩
    rw [eight_set (fun (k : Fin 8) (v : U64) =>
      (v ^^^ (v >>> 47) ^^^ Spec.at64 s (s.length - 64 + 8 * k)) * Spec.xxhP1.setWidth 64) acc]
    rfl

/-- Four vectors of two numbers. -/
theorem Hashing.accumulate_vec {ld : Bytes → Nat → M U128} {body : U128 → U128 → U128 → U128}
    (hl : ∀ {b r}, ByteSource w ov cfg P b r → ∀ i, i + 16 ≤ r.length →
      Reads w ov P (b.here i 16) 0 (ld b i) (X86.set64x (Spec.at64 r (i + 8)) (Spec.at64 r i)))
    (hb : ∀ d1 d0 k1 k0 a1 a0, body (X86.set64x d1 d0) (X86.set64x k1 k0) (X86.set64x a1 a0) =
      X86.set64x (a1 + d0 + Spec.xxh3Halves (d1 ^^^ k1)) (a0 + d1 + Spec.xxh3Halves (d0 ^^^ k0)))
    (acc : Lanes) (i j : Nat) (hi : i + 64 ≤ m.length) (hj : j + 64 ≤ s.length) :
    Reads w ov P (input.here i 64) 0 ([0, 1, 2, 3].foldlM (fun (acc : Lanes) (k : Fin 4) => do
        let data_vec ← ld input (i + 16 * k)
        let key_vec ← ld secret (j + 16 * k)
        pure (setAccVec acc k (body data_vec key_vec (accVec acc k)))) acc)
      (Spec.xxh3Accumulate s j acc ((m.drop i).take 64)) := by
  refine Exec.cov (Exec.post (reads_foldlM (C := fun k => input.here (i + 16 * k) 16)
    (g := fun (acc : Lanes) (k : Fin 4) => setAccVec acc k ((fun k v =>
      body (X86.set64x (Spec.at64 m (i + 16 * k + 8)) (Spec.at64 m (i + 16 * k)))
        (X86.set64x (Spec.at64 s (j + 16 * k + 8)) (Spec.at64 s (j + 16 * k))) v) k (accVec acc k)))
    [0, 1, 2, 3] ?_ acc) ?_) ?_ rfl
  · intro a k _
    refine Exec.bindL (hl h.msg (i + 16 * k) (by omega)) ?_
    rintro _ _ ⟨rfl, rfl⟩
    exact Exec.bindR (hl h.sec (j + 16 * k) (by omega)).uncovered (reads_pure rfl)
  · rintro _ _ ⟨rfl, rfl⟩
    refine ⟨?_, rfl⟩
    rw [four_vecs (fun (q : Fin 8) v => v + Spec.at64 m (i + 8 * (q ^^^ 1 : Fin 8)) +
      Spec.xxh3Halves (Spec.at64 m (i + 8 * q) ^^^ Spec.at64 s (j + 8 * q)))]
    · funext q
      unfold Spec.xxh3Accumulate
      rw [at64_slice _ _ _ (by omega), at64_slice _ _ _ (by omega)]
    · intro k a1 a0
      rw [hb, other_even, other_odd]
      simp only [Nat.mul_add, ← Nat.mul_assoc, Nat.add_assoc]
  · intro a ha
    refine here_parts input ha ?_
    rintro p rfl _ _
    refine ⟨⟨(a - (p + i)) / 16, by omega⟩, ?_, ?_⟩
    · have all : ∀ q : Fin 4, q ∈ [0, 1, 2, 3] := by decide
      exact all _
    · simp only [Bytes.here, range]
      omega

theorem Hashing.scramble_vec {ld : Bytes → Nat → M U128} {body : U128 → U128 → U128}
    (hl : ∀ {b r}, ByteSource w ov cfg P b r → ∀ i, i + 16 ≤ r.length →
      Reads w ov P (b.here i 16) 0 (ld b i) (X86.set64x (Spec.at64 r (i + 8)) (Spec.at64 r i)))
    (hb : ∀ k1 k0 a1 a0, body (X86.set64x k1 k0) (X86.set64x a1 a0) =
      X86.set64x ((a1 ^^^ a1 >>> 47 ^^^ k1) * Spec.xxhP1.setWidth 64)
        ((a0 ^^^ a0 >>> 47 ^^^ k0) * Spec.xxhP1.setWidth 64))
    (acc : Lanes) (hs : 64 ≤ s.length) :
    Reads w ov P nowhere 0 ([0, 1, 2, 3].foldlM (fun (acc : Lanes) (k : Fin 4) => do
        let key_vec ← ld secret (s.length - 64 + 16 * k)
        pure (setAccVec acc k (body key_vec (accVec acc k)))) acc) (Spec.xxh3Scramble s acc) := by
  refine Exec.cov (Exec.post (reads_foldlM (C := fun _ => nowhere)
    (g := fun (acc : Lanes) (k : Fin 4) => setAccVec acc k ((fun k v =>
      body (X86.set64x (Spec.at64 s (s.length - 64 + 16 * k + 8)) (Spec.at64 s (s.length - 64 + 16 * k))) v) k
        (accVec acc k)))
    [0, 1, 2, 3] ?_ acc) ?_) (fun _ h => h.elim) rfl
  · intro a k _
    exact Exec.bindR (hl h.sec (s.length - 64 + 16 * k) (by omega)).uncovered (reads_pure rfl)
  · rintro _ _ ⟨rfl, rfl⟩
    refine ⟨?_, rfl⟩
    rw [four_vecs (fun (q : Fin 8) v =>
      (v ^^^ (v >>> 47) ^^^ Spec.at64 s (s.length - 64 + 8 * q)) * Spec.xxhP1.setWidth 64)]
    · rfl
    · intro k a1 a0
      rw [hb]
      simp only [Nat.mul_add, ← Nat.mul_assoc, Nat.add_assoc]

theorem Hashing.accumulate_avx2 (acc : Lanes) (i j : Nat) (hi : i + 64 ≤ m.length) (hj : j + 64 ≤ s.length) :
    Reads w ov P (input.here i 64) 0 (XXH3_accumulate_512_avx2 acc input i secret j)
      (Spec.xxh3Accumulate s j acc ((m.drop i).take 64)) := by
  unfold XXH3_accumulate_512_avx2
  refine Exec.cov (Exec.post (reads_foldlM (C := fun k => input.here (i + 32 * k) 32)
    (g := fun (acc : Lanes) (k : Fin 2) => setAccVec256 acc k ((fun (k : Fin 2) v =>
      accumulateAvx2 ⟨X86.set64x (Spec.at64 m (i + 32 * k + 8)) (Spec.at64 m (i + 32 * k)),
          X86.set64x (Spec.at64 m (i + 32 * k + 24)) (Spec.at64 m (i + 32 * k + 16))⟩
        ⟨X86.set64x (Spec.at64 s (j + 32 * k + 8)) (Spec.at64 s (j + 32 * k)),
          X86.set64x (Spec.at64 s (j + 32 * k + 24)) (Spec.at64 s (j + 32 * k + 16))⟩ v) k (accVec256 acc k)))
    [0, 1] ?_ acc) ?_) ?_ rfl
  · intro a k _
    refine Exec.bindL (reads_256 h.msg (i + 32 * k) (by omega)) ?_
    rintro _ _ ⟨rfl, rfl⟩
    exact Exec.bindR (reads_256 h.sec (j + 32 * k) (by omega)).uncovered (reads_pure rfl)
  · rintro _ _ ⟨rfl, rfl⟩
    refine ⟨?_, rfl⟩
    rw [two_vecs (fun (q : Fin 8) v => v + Spec.at64 m (i + 8 * (q ^^^ 1 : Fin 8)) +
      Spec.xxh3Halves (Spec.at64 m (i + 8 * q) ^^^ Spec.at64 s (j + 8 * q)))]
    · funext q
      unfold Spec.xxh3Accumulate
      rw [at64_slice _ _ _ (by omega), at64_slice _ _ _ (by omega)]
    · intro k a3 a2 a1 a0
      rw [accumulateAvx2_eq, accumulateSse2_eq, accumulateSse2_eq, other_0, other_1, other_2, other_3]
      simp only [Nat.mul_add, ← Nat.mul_assoc, Nat.add_assoc]
  · intro a ha
    refine here_parts input ha ?_
    rintro p rfl _ _
    refine ⟨⟨(a - (p + i)) / 32, by omega⟩, ?_, ?_⟩
    · have all : ∀ q : Fin 2, q ∈ [0, 1] := by decide
      exact all _
    · simp only [Bytes.here, range]
      omega

theorem Hashing.scramble_avx2 (acc : Lanes) (hs : 64 ≤ s.length) :
    Reads w ov P nowhere 0 (XXH3_scrambleAcc_avx2 acc secret (s.length - 64)) (Spec.xxh3Scramble s acc) := by
  unfold XXH3_scrambleAcc_avx2
  refine Exec.cov (Exec.post (reads_foldlM (C := fun _ => nowhere)
    (g := fun (acc : Lanes) (k : Fin 2) => setAccVec256 acc k ((fun (k : Fin 2) v =>
      scrambleAvx2 ⟨X86.set64x (Spec.at64 s (s.length - 64 + 32 * k + 8)) (Spec.at64 s (s.length - 64 + 32 * k)),
          X86.set64x (Spec.at64 s (s.length - 64 + 32 * k + 24)) (Spec.at64 s (s.length - 64 + 32 * k + 16))⟩ v) k
        (accVec256 acc k)))
    [0, 1] ?_ acc) ?_) (fun _ h => h.elim) rfl
  · intro a k _
    exact Exec.bindR (reads_256 h.sec (s.length - 64 + 32 * k) (by omega)).uncovered (reads_pure rfl)
  · rintro _ _ ⟨rfl, rfl⟩
    refine ⟨?_, rfl⟩
    rw [two_vecs (fun (q : Fin 8) v =>
      (v ^^^ (v >>> 47) ^^^ Spec.at64 s (s.length - 64 + 8 * q)) * Spec.xxhP1.setWidth 64)]
    · rfl
    · intro k a3 a2 a1 a0
      rw [scrambleAvx2_eq, scrambleSse2_eq, scrambleSse2_eq]
      simp only [Nat.mul_add, ← Nat.mul_assoc, Nat.add_assoc]

theorem Hashing.accumulate_avx512 (acc : Lanes) (i j : Nat) (hi : i + 64 ≤ m.length) (hj : j + 64 ≤ s.length) :
    Reads w ov P (input.here i 64) 0 (XXH3_accumulate_512_avx512 acc input i secret j)
      (Spec.xxh3Accumulate s j acc ((m.drop i).take 64)) := by
  unfold XXH3_accumulate_512_avx512
  refine Exec.bindL (reads_512 h.msg i hi) ?_
  rintro _ _ ⟨rfl, rfl⟩
  refine Exec.bindR (reads_512 h.sec j hj).uncovered (reads_pure ?_)
  have e : Spec.xxh3Accumulate s j acc ((m.drop i).take 64) = fun q : Fin 8 =>
      (fun (q : Fin 8) v => v + Spec.at64 m (i + 8 * (q ^^^ 1 : Fin 8)) +
        Spec.xxh3Halves (Spec.at64 m (i + 8 * q) ^^^ Spec.at64 s (j + 8 * q))) q (acc q) := by
    funext q
    unfold Spec.xxh3Accumulate
    rw [at64_slice _ _ _ (by omega), at64_slice _ _ _ (by omega)]
  rw [e]
  refine (congrArg (setAccVec512 acc) (accumulate512_eq (fun c => Spec.at64 m (i + 8 * c))
    (fun c => Spec.at64 s (j + 8 * c)) acc)).trans ?_
  refine Eq.trans ?_ (one_vec (fun (q : Fin 8) v => v + Spec.at64 m (i + 8 * (q ^^^ 1 : Fin 8)) +
        Spec.xxh3Halves (Spec.at64 m (i + 8 * q) ^^^ Spec.at64 s (j + 8 * q))) acc)
  rfl

theorem Hashing.scramble_avx512 (acc : Lanes) (hs : 64 ≤ s.length) :
    Reads w ov P nowhere 0 (XXH3_scrambleAcc_avx512 acc secret (s.length - 64)) (Spec.xxh3Scramble s acc) := by
  unfold XXH3_scrambleAcc_avx512
  refine Exec.bindR (reads_512 h.sec (s.length - 64) (by omega)).uncovered (reads_pure ?_)
  have e : Spec.xxh3Scramble s acc = fun q : Fin 8 => (fun (q : Fin 8) (v : U64) =>
      (v ^^^ (v >>> 47) ^^^ Spec.at64 s (s.length - 64 + 8 * q)) * Spec.xxhP1.setWidth 64) q (acc q) := rfl
  rw [e]
  refine (congrArg (setAccVec512 acc) (scramble512_eq (fun c => Spec.at64 s (s.length - 64 + 8 * c)) acc)).trans ?_
  refine Eq.trans ?_ (one_vec (fun (q : Fin 8) v =>
      (v ^^^ (v >>> 47) ^^^ Spec.at64 s (s.length - 64 + 8 * q)) * Spec.xxhP1.setWidth 64) acc)
  rfl

theorem Hashing.accumulate_512 (acc : Lanes) (i j : Nat) (hi : i + 64 ≤ m.length) (hj : j + 64 ≤ s.length) :
    Reads w ov P (input.here i 64) 0 (XXH3_accumulate_512 cfg x acc input i secret j)
      (Spec.xxh3Accumulate s j acc ((m.drop i).take 64)) := by
  unfold XXH3_accumulate_512
  cases x.vectorOn cfg.endian with
  | scalar => exact h.accumulate_scalar acc i j hi hj
  | sse2 => exact h.accumulate_vec (fun g => reads_128 g) accumulateSse2_eq acc i j hi hj
  | avx2 => exact h.accumulate_avx2 acc i j hi hj
  | avx512 => exact h.accumulate_avx512 acc i j hi hj
  | neon vzip =>
    simp only [XXH3_accumulate_512_neon, Nat.mul_comm _ 16]
    exact h.accumulate_vec (fun g => reads_128 g) (accumulateNeon_eq vzip) acc i j hi hj
  | vsx => exact h.accumulate_vec (fun g => reads_vecLoadu g cfg.endian) accumulateVsx_eq acc i j hi hj

theorem Hashing.scramble (acc : Lanes) (hs : 64 ≤ s.length) :
    Reads w ov P nowhere 0 (XXH3_scrambleAcc cfg x acc secret (s.length - 64)) (Spec.xxh3Scramble s acc) := by
  unfold XXH3_scrambleAcc
  cases x.vectorOn cfg.endian with
  | scalar => exact h.scramble_scalar acc hs
  | sse2 => exact h.scramble_vec (fun g => reads_128 g) scrambleSse2_eq acc hs
  | avx2 => exact h.scramble_avx2 acc hs
  | avx512 => exact h.scramble_avx512 acc hs
  | neon vzip =>
    simp only [XXH3_scrambleAcc_neon, Nat.mul_comm _ 16]
    exact h.scramble_vec (fun g => reads_128 g) (scrambleNeon_eq vzip) acc hs
  | vsx => exact h.scramble_vec (fun g => reads_vecLoadu g cfg.endian) (scrambleVsx_eq cfg.endian) acc hs

theorem Hashing.accumulate (ha : Ahead w ov cfg x P input m.length) (todo i n : Nat) (acc : Lanes)
    (hi : i + 64 * todo ≤ m.length) (hj : 8 * n + 8 * todo + 56 ≤ s.length) :
    Reads w ov P (input.here i (64 * todo)) todo (XXH3_accumulate cfg x input secret todo i (8 * n) acc)
      (absorbed s n acc (chunks 64 todo (m.drop i))) := by
  induction todo generalizing i n acc with
  | zero => exact Exec.cov (Reads.pure acc) (fun a ha => (here_nothing input i ha).elim) rfl
  | succ todo ih =>
    unfold XXH3_accumulate
    have := ih (i + 64) (n + 1) (Spec.xxh3Accumulate s (8 * n) acc ((m.drop i).take 64)) (by omega) (by omega)
    rw [show 8 * (n + 1) = 8 * n + 8 by omega, ← List.drop_drop] at this
    refine Exec.cov (Reads.bind (Reads.iterate h.msg.iter) <| Exec.bindR (ha i (by omega)) <|
      Reads.bind (h.accumulate_512 acc i (8 * n) (by omega) (by omega)) this) ?_ (by omega)
    intro a ha
    refine here_parts input ha ?_
    rintro p rfl _ _
    simp only [Bytes.here, range, nowhere]
    omega

theorem Hashing.blocks (ha : Ahead w ov cfg x P input m.length) (hs : 72 ≤ s.length) (todo i : Nat) (acc : Lanes)
    (hi : i + 64 * (Spec.xxh3PerBlock s * todo) ≤ m.length) :
    Reads w ov P (input.here i (64 * (Spec.xxh3PerBlock s * todo))) (Spec.xxh3PerBlock s * todo + todo)
      (XXH3_hashLong_blocks cfg x input secret s.length (Spec.xxh3PerBlock s) (64 * Spec.xxh3PerBlock s) todo i acc)
      (Spec.xxh3Absorb s 0 acc (chunks 64 (Spec.xxh3PerBlock s * todo) (m.drop i))) := by
  have hp : 0 < Spec.xxh3PerBlock s := by unfold Spec.xxh3PerBlock; omega
  have hp8 : 8 * Spec.xxh3PerBlock s ≤ s.length - 64 := by unfold Spec.xxh3PerBlock; omega
  induction todo generalizing i acc with
  | zero => exact Exec.cov (Reads.pure acc) (fun a ha => (here_nothing input i ha).elim) rfl
  | succ todo ih =>
    rw [Nat.mul_succ] at hi ⊢
    unfold XXH3_hashLong_blocks
    have h1 := h.accumulate ha (Spec.xxh3PerBlock s) i 0 acc (by omega) (by omega)
    have h2 := ih (i + 64 * Spec.xxh3PerBlock s) (Spec.xxh3Scramble s
      (absorbed s 0 acc (chunks 64 (Spec.xxh3PerBlock s) (m.drop i)))) (by omega)
    refine Exec.cov (Reads.bind (Reads.iterate h.msg.iter) <| Reads.bind h1 <|
      Exec.bindR (h.scramble _ (by omega)) (Exec.post h2 ?_)) ?_ (by omega)
    · rintro _ _ ⟨rfl, rfl⟩
      refine ⟨?_, rfl⟩
      rw [Nat.add_comm _ (Spec.xxh3PerBlock s), chunks_append, absorb_app, length_chunks,
        absorb_mod (0 + Spec.xxh3PerBlock s) 0 (by rw [Nat.zero_add, Nat.mod_self, Nat.zero_mod]), List.drop_drop,
        absorb_end 0 acc _ (by rw [length_chunks, Nat.zero_add])
          (List.ne_nil_of_length_pos (by rw [length_chunks]; exact hp))]
    · intro a ha
      refine here_parts input ha ?_
      rintro p rfl _ _
      simp only [Bytes.here, range, nowhere]
      omega

theorem Hashing.long (ha : Ahead w ov cfg x P input m.length) (hs : 136 ≤ s.length) (hb : 8 * s.length < 2 ^ cfg.bits)
    (hm : 64 < m.length) :
    Reads w ov P (input.here 0 m.length) ((m.length - 1) / 64 + (m.length - 1) / (64 * Spec.xxh3PerBlock s))
      (XXH3_hashLong_internal_loop cfg x XXH3_INIT_ACC input m.length secret s.length) (Spec.xxh3Long m s) := by
  have hp : 0 < Spec.xxh3PerBlock s := by unfold Spec.xxh3PerBlock; omega
  have hp8 : 8 * Spec.xxh3PerBlock s ≤ s.length - 64 := by unfold Spec.xxh3PerBlock; omega
  unfold XXH3_hashLong_internal_loop
  rw [show (s.length - 64) / 8 = Spec.xxh3PerBlock s from rfl]
  dsimp only
  rw [Nat.mod_eq_of_lt (show 64 * Spec.xxh3PerBlock s < 2 ^ cfg.bits by omega), if_neg (by omega)]
  rw [← Nat.div_div_eq_div_mul]
  have hq := Nat.div_add_mod ((m.length - 1) / 64) (Spec.xxh3PerBlock s)
  have hr := Nat.mod_lt ((m.length - 1) / 64) hp
  have hc : 64 * Spec.xxh3PerBlock s * ((m.length - 1) / 64 / Spec.xxh3PerBlock s) =
      64 * (Spec.xxh3PerBlock s * ((m.length - 1) / 64 / Spec.xxh3PerBlock s)) := Nat.mul_assoc ..
  have hk : (m.length - 1 - 64 * (Spec.xxh3PerBlock s * ((m.length - 1) / 64 / Spec.xxh3PerBlock s))) / 64 =
      (m.length - 1) / 64 % Spec.xxh3PerBlock s := by omega
  rw [Nat.mul_comm ((m.length - 1) / 64 / Spec.xxh3PerBlock s), hc, hk]
  have h1 := h.blocks ha (by omega) ((m.length - 1) / 64 / Spec.xxh3PerBlock s) 0 XXH3_INIT_ACC (by omega)
  have h2 := fun acc => h.accumulate ha ((m.length - 1) / 64 % Spec.xxh3PerBlock s)
    (64 * (Spec.xxh3PerBlock s * ((m.length - 1) / 64 / Spec.xxh3PerBlock s))) 0 acc (by omega) (by omega)
  refine Exec.cov (assert_ok (fun _ => by simpa using hs) <| Reads.bind h1 <|
    assert_ok (fun _ => by simpa using hm) <| assert_ok (fun _ => by simp; omega) <| Reads.bind (h2 _) <|
    Exec.post (h.accumulate_512 _ (m.length - 64) (s.length - 64 - 7) (by omega) (by omega)) ?_) ?_ (by omega)
  · rintro _ _ ⟨rfl, rfl⟩
    refine ⟨?_, rfl⟩
    unfold Spec.xxh3Long
    rw [List.drop_zero, List.take_of_length_le (by rw [List.length_drop]; omega),
      show s.length - 64 - 7 = s.length - 71 by omega]
    congr 1
    conv => rhs; rw [← hq]
    rw [chunks_append, absorb_app, length_chunks, start3_eq]
    exact ((absorb_mod _ 0 (by simp) _ _).trans
      (absorb_inside 0 _ _ (by rw [length_chunks, Nat.zero_add]; exact hr))).symm
  · intro a ha
    refine here_parts input ha ?_
    rintro p rfl _ _
    simp only [Bytes.here, range]
    omega

theorem Hashing.merge (acc : Lanes) (j : Nat) (start : U64) (hj : j + 64 ≤ s.length) :
    Reads w ov P nowhere 0 (XXH3_mergeAccs cfg x acc secret j start) (Spec.xxh3Merge s j acc start) := by
  have h2 : ∀ a b k, k + 16 ≤ s.length → Reads w ov P nowhere 0 (XXH3_mix2Accs cfg x a b secret k)
      (Spec.mux (a ^^^ Spec.at64 s k) (b ^^^ Spec.at64 s (k + 8))) := fun a b k hk =>
    Exec.bindR (h.key64 k (by omega)) <| Exec.bindR (h.key64 (k + 8) (by omega)) (reads_pure (fold64_eq _ _))
  exact Exec.bindR (h2 _ _ j (by omega)) <| Exec.bindR (h2 _ _ (j + 16 * 1) (by omega)) <|
    Exec.bindR (h2 _ _ (j + 16 * 2) (by omega)) <| Exec.bindR (h2 _ _ (j + 16 * 3) (by omega)) <| reads_pure rfl

theorem Hashing.long64 (ha : Ahead w ov cfg x P input m.length) (hs : 136 ≤ s.length)
    (hb : 8 * s.length < 2 ^ cfg.bits) (hm : 64 < m.length) :
    Reads w ov P (input.here 0 m.length) ((m.length - 1) / 64 + (m.length - 1) / (64 * Spec.xxh3PerBlock s))
      (XXH3_hashLong_64b_internal cfg x input m.length secret s.length)
      (Spec.xxh3Merge s 11 (Spec.xxh3Long m s) (Spec.len64 m * Spec.xxhQ1)) := by
  unfold XXH3_hashLong_64b_internal
  refine Exec.bindL (h.long ha hs hb hm) ?_
  rintro _ _ ⟨rfl, rfl⟩
  exact assert_ok (fun _ => by simp; omega) (h.merge _ 11 _ (by omega))

theorem Hashing.long128 (ha : Ahead w ov cfg x P input m.length) (hs : 136 ≤ s.length)
    (hb : 8 * s.length < 2 ^ cfg.bits) (hm : 64 < m.length) :
    Reads w ov P (input.here 0 m.length) ((m.length - 1) / 64 + (m.length - 1) / (64 * Spec.xxh3PerBlock s))
      (XXH3_hashLong_128b_internal cfg x input m.length secret s.length)
      ⟨Spec.xxh3Merge s 11 (Spec.xxh3Long m s) (Spec.len64 m * Spec.xxhQ1),
        Spec.xxh3Merge s (s.length - 75) (Spec.xxh3Long m s) (~~~(Spec.len64 m * Spec.xxhQ2))⟩ := by
  unfold XXH3_hashLong_128b_internal
  refine Exec.bindL (h.long ha hs hb hm) ?_
  rintro _ _ ⟨rfl, rfl⟩
  refine assert_ok (fun _ => by simp; omega) <| Exec.bindR (h.merge _ 11 _ (by omega)) <|
    Exec.bindR (h.merge _ (s.length - 64 - 11) _ (by omega)) (reads_pure ?_)
  rw [show s.length - 64 - 11 = s.length - 75 by omega]
  rfl

end

/-! ## The secret of a seed -/

theorem writeLE64_eq (v : U64) : XXH_writeLE64 cfg x v = leBytes 8 v.toNat := by
  unfold XXH_writeLE64
  cases cfg.endian with
  | little => rfl
  | big =>
    simp only [Endian.bytes]
    have hlt := beVal_lt (leBytes 8 v.toNat)
    rw [leBytes_length] at hlt
    rw [xxh_swap64_eq, BitVec.toNat_ofNat, Nat.mod_eq_of_lt (by omega), canonical_swapped, List.reverse_reverse]

theorem foldl_append (f g : Nat → List Byte) (l : List Nat) (r : List Byte) :
    l.foldl (fun c i => c ++ f i ++ g i) r = r ++ l.flatMap fun i => f i ++ g i := by
  induction l generalizing r with
  | nil => simp
  | cons a l ih => rw [List.foldl_cons, ih, List.flatMap_cons]; simp only [List.append_assoc]

theorem reads_initCustomSecret_scalar (hP : P .iter) (fine : x.access = .direct → x.lenient32 = true ∧ x.lenient64 = true)
    (seed : U64) : Reads w ov P nowhere 0 (XXH3_initCustomSecret_scalar cfg x seed) (Spec.xxh3Seeded seed) := by
  have g := source_array (w := w) (ov := ov) (cfg := cfg) (P := P) hP (List.prefix_refl XXH3_kSecret)
  have hl : XXH3_kSecret.length = 192 := by rw [kSecret_eq]; exact length_xxh3Secret
  unfold XXH3_initCustomSecret_scalar
  refine Exec.cov (Exec.post (reads_foldlM (C := fun _ => nowhere)
    (g := fun customSecret i => customSecret ++ leBytes 8 (Spec.at64 Spec.xxh3Secret (16 * i) + seed).toNat ++
      leBytes 8 (Spec.at64 Spec.xxh3Secret (16 * i + 8) - seed).toNat) (List.range 12) ?_ []) ?_)
    (fun _ h => h.elim) rfl
  · intro a k hk
    rw [List.mem_range] at hk
    refine Exec.bindR (reads_le64 g fine (16 * k) (by omega)).uncovered <|
      Exec.bindR (reads_le64 g fine (16 * k + 8) (by omega)).uncovered (reads_pure ?_)
    rw [writeLE64_eq, writeLE64_eq, kSecret_eq]
  · intro v o hv
    refine ⟨hv.1.trans ?_, hv.2⟩
    rw [foldl_append (fun i => leBytes 8 (Spec.at64 Spec.xxh3Secret (16 * i) + seed).toNat)
      (fun i => leBytes 8 (Spec.at64 Spec.xxh3Secret (16 * i + 8) - seed).toNat), List.nil_append]
    unfold Spec.xxh3Seeded
    exact congrArg (fun f => List.flatMap f (List.range 12)) rfl

/-- What is done with every 16 bytes of the secret. -/
theorem seeded_vec (k : Nat) (seed : U64) :
    X86.toList (X86.add64 (X86.set64x (Spec.at64 XXH3_kSecret (16 * k + 8)) (Spec.at64 XXH3_kSecret (16 * k)))
      (X86.set64x (-seed) seed)) =
    leBytes 8 (Spec.at64 Spec.xxh3Secret (16 * k) + seed).toNat ++
      leBytes 8 (Spec.at64 Spec.xxh3Secret (16 * k + 8) - seed).toNat := by
  rw [X86.add64_set, X86.toList_set, kSecret_eq, BitVec.sub_eq_add_neg]

theorem seeded_fold (seed : U64) (f : List Byte → Nat → List Byte) (n k : Nat) (hn : 12 = n * k)
    (hf : ∀ d, ∀ i < n, f d i = d ++ ((List.range k).flatMap fun c =>
      leBytes 8 (Spec.at64 Spec.xxh3Secret (16 * (k * i + c)) + seed).toNat ++
      leBytes 8 (Spec.at64 Spec.xxh3Secret (16 * (k * i + c) + 8) - seed).toNat)) :
    (List.range n).foldl f [] = Spec.xxh3Seeded seed := by
  have gen : ∀ c ≤ n, (List.range c).foldl f [] = (List.range (c * k)).flatMap fun i =>
      leBytes 8 (Spec.at64 Spec.xxh3Secret (16 * i) + seed).toNat ++
      leBytes 8 (Spec.at64 Spec.xxh3Secret (16 * i + 8) - seed).toNat := by
    intro c hc
    induction c with
    | zero => rw [Nat.zero_mul]; rfl
    | succ c ih =>
      rw [List.range_succ, List.foldl_append, ih (by omega), List.foldl_cons, List.foldl_nil, hf _ c (by omega),
        Nat.succ_mul, List.range_add, List.flatMap_append, List.flatMap_map, Nat.mul_comm k c]
  rw [gen n (Nat.le_refl _), ← hn]
  rfl

theorem reads_initCustomSecret (hP : P .iter) (fine : x.access = .direct → x.lenient32 = true ∧ x.lenient64 = true)
    (seed : U64) : Reads w ov P nowhere 0 (XXH3_initCustomSecret cfg x seed) (Spec.xxh3Seeded seed) := by
  have g := source_array (w := w) (ov := ov) (cfg := cfg) (P := P) hP (List.prefix_refl XXH3_kSecret)
  have hl : XXH3_kSecret.length = 192 := by rw [kSecret_eq]; exact length_xxh3Secret
  have key := fun k => seeded_vec k seed
  unfold XXH3_initCustomSecret
  cases x.vectorOn cfg.endian with
  | scalar => exact reads_initCustomSecret_scalar hP fine seed
  | neon _ => exact reads_initCustomSecret_scalar hP fine seed
  | vsx => exact reads_initCustomSecret_scalar hP fine seed
  | sse2 =>
    unfold XXH3_initCustomSecret_sse2
    refine Exec.cov (Exec.post (reads_foldlM (C := fun _ => nowhere)
      (g := fun dest i => dest ++ X86.toList (X86.add64 (X86.set64x (Spec.at64 XXH3_kSecret (16 * i + 8))
        (Spec.at64 XXH3_kSecret (16 * i))) (X86.set64x (-seed) seed))) (List.range 12) ?_ []) ?_) (fun _ h => h.elim) rfl
    · intro a k hk
      rw [List.mem_range] at hk
      exact Exec.bindR (reads_128 g (16 * k) (by omega)).uncovered (reads_pure rfl)
    · intro v o hv
      refine ⟨hv.1.trans (seeded_fold seed _ 12 1 rfl fun d i hi => ?_), hv.2⟩
      rw [key i]
      simp
  | avx2 =>
    unfold XXH3_initCustomSecret_avx2
    refine Exec.cov (Exec.post (reads_foldlM (C := fun _ => nowhere)
      (g := fun dest i => dest ++ X86.toList (X86.add64 (X86.set64x (Spec.at64 XXH3_kSecret (32 * i + 8))
        (Spec.at64 XXH3_kSecret (32 * i))) (X86.set64x (-seed) seed)) ++
        X86.toList (X86.add64 (X86.set64x (Spec.at64 XXH3_kSecret (32 * i + 24))
        (Spec.at64 XXH3_kSecret (32 * i + 16))) (X86.set64x (-seed) seed))) (List.range 6) ?_ []) ?_)
        (fun _ h => h.elim) rfl
    · intro a k hk
      rw [List.mem_range] at hk
      exact Exec.bindR (reads_256 g (32 * k) (by omega)).uncovered (reads_pure rfl)
    · intro v o hv
      refine ⟨hv.1.trans (seeded_fold seed _ 6 2 rfl fun d i hi => ?_), hv.2⟩
      have k0 := key (2 * i)
      have k1 := key (2 * i + 1)
      rw [show 16 * (2 * i) = 32 * i by omega] at k0
      rw [show 16 * (2 * i + 1) = 32 * i + 16 by omega, show 32 * i + 16 + 8 = 32 * i + 24 by omega] at k1
      rw [k0, k1]
      simp [List.range_succ]
      simp [show 16 * (2 * i) = 32 * i by omega, show 16 * (2 * i + 1) = 32 * i + 16 by omega]
  | avx512 =>
    unfold XXH3_initCustomSecret_avx512
    refine Exec.cov (Exec.post (reads_foldlM (C := fun _ => nowhere)
      (g := fun dest i => dest ++ X86.toList (X86.add64 (X86.set64x (Spec.at64 XXH3_kSecret (64 * i + 8))
        (Spec.at64 XXH3_kSecret (64 * i))) (X86.set64x (-seed) seed)) ++
        X86.toList (X86.add64 (X86.set64x (Spec.at64 XXH3_kSecret (64 * i + 24))
        (Spec.at64 XXH3_kSecret (64 * i + 16))) (X86.set64x (-seed) seed)) ++
        X86.toList (X86.add64 (X86.set64x (Spec.at64 XXH3_kSecret (64 * i + 40))
        (Spec.at64 XXH3_kSecret (64 * i + 32))) (X86.set64x (-seed) seed)) ++
        X86.toList (X86.add64 (X86.set64x (Spec.at64 XXH3_kSecret (64 * i + 56))
        (Spec.at64 XXH3_kSecret (64 * i + 48))) (X86.set64x (-seed) seed))) (List.range 3) ?_ []) ?_)
        (fun _ h => h.elim) rfl
    · intro a k hk
      rw [List.mem_range] at hk
      exact Exec.bindR (reads_512 g (64 * k) (by omega)).uncovered (reads_pure rfl)
    · intro v o hv
      refine ⟨hv.1.trans (seeded_fold seed _ 3 4 rfl fun d i hi => ?_), hv.2⟩
      have k0 := key (4 * i)
      have k1 := key (4 * i + 1)
      have k2 := key (4 * i + 2)
      have k3 := key (4 * i + 3)
      rw [show 16 * (4 * i) = 64 * i by omega] at k0
      rw [show 16 * (4 * i + 1) = 64 * i + 16 by omega, show 64 * i + 16 + 8 = 64 * i + 24 by omega] at k1
      rw [show 16 * (4 * i + 2) = 64 * i + 32 by omega, show 64 * i + 32 + 8 = 64 * i + 40 by omega] at k2
      rw [show 16 * (4 * i + 3) = 64 * i + 48 by omega, show 64 * i + 48 + 8 = 64 * i + 56 by omega] at k3
      rw [k0, k1, k2, k3]
      simp [List.range_succ]
      simp [show 16 * (4 * i) = 64 * i by omega, show 16 * (4 * i + 1) = 64 * i + 16 by omega,
        show 16 * (4 * i + 2) = 64 * i + 32 by omega, show 16 * (4 * i + 3) = 64 * i + 48 by omega]

theorem length_xxh3Seeded (seed : U64) : (Spec.xxh3Seeded seed).length = 192 := by
  unfold Spec.xxh3Seeded
  rw [List.length_flatMap]
  simp only [List.length_append, leBytes_length]
  rfl

theorem xxh3Seeded_zero : Spec.xxh3Seeded 0 = Spec.xxh3Secret := by decide +kernel

theorem perBlock_seeded (seed : U64) : Spec.xxh3PerBlock (Spec.xxh3Seeded seed) = 16 := by
  unfold Spec.xxh3PerBlock
  rw [length_xxh3Seeded]

/-! ## All lengths -/

/-- The number of iterations; `n` is how many bytes an iteration takes when there are 129 to 240. -/
def rounds3 (n pb len : Nat) : Nat :=
  if len ≤ 128 then 0 else if len ≤ 240 then len / n else (len - 1) / 64 + (len - 1) / (64 * pb)

section
variable (h : Hashing w ov cfg x P input m secret s) (hs : 136 ≤ s.length)
  (hn : x.debug = true → m.length ≠ 0 → input.isNull = false) (hk : x.debug = true → secret.isNull = false)
include h hs hn hk

theorem Hashing.bits64 (h8 : x.debug = true → m.length ≠ 8) {f : Bytes → Nat → U64 → Bytes → Nat → M U64}
    {long : List Byte}
    (hf : 240 < m.length → Reads w ov P (input.here 0 m.length)
      ((m.length - 1) / 64 + (m.length - 1) / (64 * Spec.xxh3PerBlock long)) (f input m.length seed secret s.length)
      (Spec.xxh3Merge long 11 (Spec.xxh3Long m long) (Spec.len64 m * Spec.xxhQ1))) :
    Reads w ov P (input.here 0 m.length) (rounds3 16 (Spec.xxh3PerBlock long) m.length)
      (XXH3_64bits_internal cfg x input m.length seed secret s.length f) (Spec.xxh3 m s seed long) := by
  unfold XXH3_64bits_internal Spec.xxh3 rounds3
  refine assert_ok (fun _ => by simpa using hs) ?_
  by_cases h1 : m.length ≤ 16
  · simp only [if_pos h1, if_pos (show m.length ≤ 128 by omega)]
    exact h.len_0to16 hs hn hk h1 h8
  · by_cases h2 : m.length ≤ 128
    · simp only [if_neg h1, if_pos h2]
      exact h.len_17to128 hs (by omega) h2
    · by_cases h3 : m.length ≤ 240
      · simp only [if_neg h1, if_neg h2, if_pos h3]
        exact h.len_129to240 hs (by omega) h3
      · simp only [if_neg h1, if_neg h2, if_neg h3]
        exact hf (by omega)

theorem Hashing.bits128 {f : Bytes → Nat → U64 → Bytes → Nat → M Hash128} {long : List Byte}
    (hf : 240 < m.length → Reads w ov P (input.here 0 m.length)
      ((m.length - 1) / 64 + (m.length - 1) / (64 * Spec.xxh3PerBlock long)) (f input m.length seed secret s.length)
      ⟨Spec.xxh3Merge long 11 (Spec.xxh3Long m long) (Spec.len64 m * Spec.xxhQ1),
        Spec.xxh3Merge long (long.length - 75) (Spec.xxh3Long m long) (~~~(Spec.len64 m * Spec.xxhQ2))⟩) :
    Reads w ov P (input.here 0 m.length) (rounds3 32 (Spec.xxh3PerBlock long) m.length)
      (XXH3_128bits_internal cfg x input m.length seed secret s.length f) (Spec.xxh3_128 m s seed long) := by
  unfold XXH3_128bits_internal Spec.xxh3_128 rounds3
  refine assert_ok (fun _ => by simpa using hs) ?_
  by_cases h1 : m.length ≤ 16
  · simp only [if_pos h1, if_pos (show m.length ≤ 128 by omega)]
    exact h.len_0to16_128 hs hn hk h1
  · by_cases h2 : m.length ≤ 128
    · simp only [if_neg h1, if_pos h2]
      exact h.len_17to128_128 hs (by omega) h2
    · by_cases h3 : m.length ≤ 240
      · simp only [if_neg h1, if_neg h2, if_pos h3]
        exact h.len_129to240_128 hs (by omega) h3
      · simp only [if_neg h1, if_neg h2, if_neg h3]
        exact hf (by omega)

theorem Hashing.withSecret64 (h8 : x.debug = true → m.length ≠ 8) (hb : 8 * s.length < 2 ^ cfg.bits)
    (ha : 240 < m.length → Ahead w ov cfg x P input m.length) :
    Reads w ov P (input.here 0 m.length) (rounds3 16 (Spec.xxh3PerBlock s) m.length)
      (XXH3_64bits_withSecret cfg x input m.length secret s.length) (Spec.xxh3WithSecret m s) :=
  h.bits64 hs hn hk h8 fun h240 => h.long64 (ha h240) hs hb (by omega)

theorem Hashing.withSecret128 (hb : 8 * s.length < 2 ^ cfg.bits)
    (ha : 240 < m.length → Ahead w ov cfg x P input m.length) :
    Reads w ov P (input.here 0 m.length) (rounds3 32 (Spec.xxh3PerBlock s) m.length)
      (XXH3_128bits_withSecret cfg x input m.length secret s.length) (Spec.xxh3_128WithSecret m s) :=
  h.bits128 hs hn hk fun h240 => h.long128 (ha h240) hs hb (by omega)

end

section
variable (g : ByteSource w ov cfg P input m) (fine : x.access = .direct → x.lenient32 = true ∧ x.lenient64 = true)
include g fine

/-- With a secret which is a value. -/
theorem hashing_array (l : List Byte) : Hashing w ov cfg x P input m (.array l) l :=
  ⟨g, source_array g.iter (List.prefix_refl l), fine⟩

variable (hn : x.debug = true → m.length ≠ 0 → input.isNull = false)
  (ha : 240 < m.length → Ahead w ov cfg x P input m.length)
include hn ha

theorem withSeed64 (h8 : x.debug = true → m.length ≠ 8) (seed : U64) :
    Reads w ov P (input.here 0 m.length) (rounds3 16 16 m.length)
      (XXH3_64bits_withSeed cfg x input m.length seed) (Spec.xxh3WithSeed m seed) := by
  have hb : 8 * 192 < 2 ^ cfg.bits := by unfold Cfg.bits; split <;> decide
  unfold XXH3_64bits_withSeed Spec.xxh3WithSeed
  have h0 := hashing_array g fine Spec.xxh3Secret
  have := h0.bits64 (seed := seed) (by rw [length_xxh3Secret]; omega) hn (fun _ => rfl) h8
    (f := XXH3_hashLong_64b_withSeed cfg x) (long := Spec.xxh3Seeded seed) (fun h240 => by
      unfold XXH3_hashLong_64b_withSeed
      split
      · rename_i hz
        rw [hz, xxh3Seeded_zero, kSecret_eq]
        have := h0.long64 (ha h240) (by rw [length_xxh3Secret]; omega) (by rw [length_xxh3Secret]; omega) (by omega)
        rwa [length_xxh3Secret] at this
      · have hl := length_xxh3Seeded seed
        have := (hashing_array g fine (Spec.xxh3Seeded seed)).long64 (ha h240) (by omega) (by omega) (by omega)
        rw [hl] at this
        exact Exec.bindR (reads_initCustomSecret g.iter fine seed) this)
  rw [perBlock_seeded, length_xxh3Secret] at this
  rw [kSecret_eq]
  exact this

theorem bits64_default (h8 : x.debug = true → m.length ≠ 8) :
    Reads w ov P (input.here 0 m.length) (rounds3 16 16 m.length)
      (XXH3_64bits cfg x input m.length) (Spec.xxh3WithSeed m 0) := by
  have hb : 8 * 192 < 2 ^ cfg.bits := by unfold Cfg.bits; split <;> decide
  unfold XXH3_64bits Spec.xxh3WithSeed
  have h0 := hashing_array g fine Spec.xxh3Secret
  have := h0.bits64 (seed := 0) (by rw [length_xxh3Secret]; omega) hn (fun _ => rfl) h8
    (f := XXH3_hashLong_64b_default cfg x) (long := Spec.xxh3Seeded 0) (fun h240 => by
      unfold XXH3_hashLong_64b_default
      rw [xxh3Seeded_zero, kSecret_eq]
      have := h0.long64 (ha h240) (by rw [length_xxh3Secret]; omega) (by rw [length_xxh3Secret]; omega) (by omega)
      rwa [length_xxh3Secret] at this)
  rw [perBlock_seeded, length_xxh3Secret] at this
  rw [kSecret_eq]
  exact this

theorem withSeed128 (seed : U64) :
    Reads w ov P (input.here 0 m.length) (rounds3 32 16 m.length)
      (XXH3_128bits_withSeed cfg x input m.length seed) (Spec.xxh3_128WithSeed m seed) := by
  have hb : 8 * 192 < 2 ^ cfg.bits := by unfold Cfg.bits; split <;> decide
  unfold XXH3_128bits_withSeed Spec.xxh3_128WithSeed
  have h0 := hashing_array g fine Spec.xxh3Secret
  have := h0.bits128 (seed := seed) (by rw [length_xxh3Secret]; omega) hn (fun _ => rfl)
    (f := XXH3_hashLong_128b_withSeed cfg x) (long := Spec.xxh3Seeded seed) (fun h240 => by
      unfold XXH3_hashLong_128b_withSeed
      split
      · rename_i hz
        rw [hz, xxh3Seeded_zero, kSecret_eq]
        have := h0.long128 (ha h240) (by rw [length_xxh3Secret]; omega) (by rw [length_xxh3Secret]; omega) (by omega)
        rw [length_xxh3Secret] at this ⊢
        exact this
      · have hl := length_xxh3Seeded seed
        have := (hashing_array g fine (Spec.xxh3Seeded seed)).long128 (ha h240) (by omega) (by omega) (by omega)
        rw [hl] at this ⊢
        exact Exec.bindR (reads_initCustomSecret g.iter fine seed) this)
  rw [perBlock_seeded, length_xxh3Secret] at this
  rw [kSecret_eq]
  exact this

theorem bits128_default :
    Reads w ov P (input.here 0 m.length) (rounds3 32 16 m.length)
      (XXH3_128bits cfg x input m.length) (Spec.xxh3_128WithSeed m 0) := by
  have hb : 8 * 192 < 2 ^ cfg.bits := by unfold Cfg.bits; split <;> decide
  unfold XXH3_128bits Spec.xxh3_128WithSeed
  have h0 := hashing_array g fine Spec.xxh3Secret
  have := h0.bits128 (seed := 0) (by rw [length_xxh3Secret]; omega) hn (fun _ => rfl)
    (f := XXH3_hashLong_128b_default cfg x) (long := Spec.xxh3Seeded 0) (fun h240 => by
      unfold XXH3_hashLong_128b_default
      rw [xxh3Seeded_zero, kSecret_eq]
      have := h0.long128 (ha h240) (by rw [length_xxh3Secret]; omega) (by rw [length_xxh3Secret]; omega) (by omega)
      rw [length_xxh3Secret] at this ⊢
      exact this)
  rw [perBlock_seeded, length_xxh3Secret] at this
  rw [kSecret_eq]
  exact this

end

end T1ha.Model
