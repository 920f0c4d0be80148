import Verif.Proofs.Avalanche
import Verif.Proofs.Collide
import Mathlib.Combinatorics.Pigeonhole

/-!
# Many messages which collide under every seed: proofs about the specification
-/

namespace T1ha

open Model

/-! ## `t1ha1` -/

/-- How the seed reaches the tail. -/
theorem t1ha1_prefix (e : Endian) (p : List Byte) (n : Nat) (h0 : 0 < n)
    (hn : p = [] ∧ n ≤ 32 ∨ p.length % 32 = 0 ∧ n < 32) :
    ∃ S : U64 → U64 × U64, ∀ q : List Byte, q.length = n → ∀ seed, Spec.t1ha1 e (p ++ q) seed =
      Spec.t1ha1Final (Spec.t1ha1Tail (Spec.words64 e q) (S seed)) := by
  by_cases h32 : p.length + n ≤ 32
  · have hp : p = [] := by
      rcases hn with h | h
      · exact h.1
      · exact List.eq_nil_of_length_eq_zero (by omega)
    subst hp
    refine ⟨fun seed => (seed, BitVec.ofNat 64 n), fun q hq seed => ?_⟩
    rw [List.nil_append, Spec.t1ha1, if_neg (by simpa [hq] using h32), Spec.len64, hq]
  · have hp : p.length % 32 = 0 ∧ n < 32 := by
      rcases hn with h | h
      · rw [h.1, List.length_nil] at h32; omega
      · exact h
    have key : ∀ q : List Byte, q.length = n → ∀ seed, Spec.t1ha1 e (p ++ q) seed = Spec.t1ha1Final
        (Spec.t1ha1Tail (Spec.words64 e q) ((fun seed =>
          let len : U64 := BitVec.ofNat 64 (p.length + n)
          let s := (Spec.blocks 32 p).foldl (Spec.t1ha1Absorb e)
            { a := seed, b := len, c := len.rotateRight 17 + seed, d := len ^^^ seed.rotateRight 17 }
          (s.a ^^^ Spec.prime6 * (s.c.rotateRight 17 + s.d), s.b ^^^ Spec.prime5 * (s.c + s.d.rotateRight 17)))
          seed)) := by
      intro q hq seed
      rw [Spec.t1ha1, if_pos (by rw [List.length_append, hq]; omega)]
      dsimp only
      rw [blocks_skip (by decide) p q hp.1, rest_skip (by decide) p q hp.1]
      have h1 : Spec.blocks 32 q = [] := by
        rw [Spec.blocks, show q.length / 32 = 0 by omega]; rfl
      have h2 : Spec.rest 32 q = q := by
        rw [Spec.rest, show q.length / 32 = 0 by omega]; rfl
      have h3 : Spec.len64 (p ++ q) = BitVec.ofNat 64 (p.length + n) := by
        rw [Spec.len64, List.length_append, hq]
      rw [h1, h2, h3, List.append_nil]
    exact ⟨_, key⟩

theorem leBytes_injOn (n : Nat) : Function.Injective fun i : Fin (256 ^ n) => leBytes n i.1 := by
  intro i j h
  have h' := congrArg leVal h
  dsimp only at h'
  rw [leVal_leBytes, leVal_leBytes, Nat.mod_eq_of_lt i.2, Nat.mod_eq_of_lt j.2] at h'
  exact Fin.ext h'

/-- After any prefix, the hashes of the messages with a given tail length depend on 128 bits besides the seed. -/
theorem t1ha1_many (e : Endian) (p : List Byte) (k : Nat)
    (hn : p = [] ∧ k ≤ 16 ∨ p.length % 32 = 0 ∧ k < 16) :
    ∃ tails : Set (List Byte), 256 ^ k ≤ tails.ncard ∧ (∀ q ∈ tails, q.length = 16 + k) ∧
      ∀ q ∈ tails, ∀ q' ∈ tails, ∀ seed, Spec.t1ha1 e (p ++ q) seed = Spec.t1ha1 e (p ++ q') seed := by
  obtain ⟨S, hS⟩ := t1ha1_prefix e p (16 + k) (by omega)
    (hn.imp (fun h => ⟨h.1, by omega⟩) fun h => ⟨h.1, by omega⟩)
  choose X Y hXY using t1ha1Tail_add
  let g : Fin (256 ^ (16 + k)) → Fin (2 ^ 64) × Fin (2 ^ 64) := fun i =>
    ((X (Spec.words64 e (leBytes (16 + k) i.1))).toFin, (Y (Spec.words64 e (leBytes (16 + k) i.1))).toFin)
  obtain ⟨y, hy⟩ := Fintype.exists_le_card_fiber_of_mul_le_card (n := 256 ^ k) g (by
    rw [Fintype.card_prod, Fintype.card_fin, Fintype.card_fin, Nat.pow_add]
    exact Nat.mul_le_mul_right _ (by norm_num))
  refine ⟨(fun i : Fin (256 ^ (16 + k)) => leBytes (16 + k) i.1) '' (Finset.univ.filter fun x => g x = y : Finset _),
    ?_, ?_, ?_⟩
  · rw [(leBytes_injOn (16 + k)).injOn.ncard_image, Set.ncard_coe_finset]
    exact hy
  · rintro _ ⟨i, _, rfl⟩
    exact leBytes_length _ _
  · rintro _ ⟨i, hi, rfl⟩ _ ⟨j, hj, rfl⟩ seed
    rw [hS _ (leBytes_length _ _), hS _ (leBytes_length _ _)]
    have h : g i = g j := by
      rw [Finset.mem_coe, Finset.mem_filter] at hi hj
      rw [hi.2, hj.2]
    have h1 := congrArg Prod.fst h
    have h2 := congrArg Prod.snd h
    simp only [g] at h1 h2
    rw [BitVec.toFin_inj] at h1 h2
    obtain ⟨a, b⟩ := S seed
    rw [hXY, hXY, h1, h2]

/-! ## The AES-NI variant A -/

/-- Blocks of 128 bytes which all act alike. -/
def likeZero (x : Nat) : List Byte :=
  let zero := List.replicate 16 (0 : Byte)
  let d := leBytes 16 (X86.aesenc (vecOf zero) 0 ^^^ X86.aesenc (vecOf (leBytes 16 x)) 0).toNat
  [zero, xorBytes zero d, zero, zero, leBytes 16 x, xorBytes zero d, zero, zero].flatten

theorem likeZero_length (x : Nat) : (likeZero x).length = 128 := by
  simp [likeZero, xorBytes, leBytes_length]

theorem likeZero_alike (x : Nat) (s : Spec.XY) :
    Spec.aesBlockA s (likeZero x) = Spec.aesBlockA s (List.replicate 8 (List.replicate 16 (0 : Byte))).flatten :=
  (aesBlockA_twin _ _ _ _ _ _ _ _ _ _ rfl rfl rfl rfl rfl (leBytes_length _ _) rfl rfl rfl (leBytes_length _ _)
    (vecOf_leBytes _) s).symm

theorem fifth_vector (v0 v1 v2 v3 v4 : List Byte) (vs : List (List Byte))
    (h0 : v0.length = 16) (h1 : v1.length = 16) (h2 : v2.length = 16) (h3 : v3.length = 16) (h4 : v4.length = 16) :
    (((v0 :: v1 :: v2 :: v3 :: v4 :: vs).flatten).drop 64).take 16 = v4 := by
  have : (v0 :: v1 :: v2 :: v3 :: v4 :: vs).flatten = (v0 ++ v1 ++ v2 ++ v3) ++ (v4 ++ vs.flatten) := by
    simp only [List.flatten_cons, List.append_assoc]
  rw [this, List.drop_left' (by simp [h0, h1, h2, h3]), List.take_left' h4]

theorem likeZero_inj {x y : Nat} (hx : x < 256 ^ 16) (hy : y < 256 ^ 16) (h : likeZero x = likeZero y) : x = y := by
  have h1 : ∀ x, ((likeZero x).drop 64).take 16 = leBytes 16 x := fun x =>
    fifth_vector _ _ _ _ _ _ rfl (by rw [xorBytes, List.length_zipWith, leBytes_length]; rfl) rfl rfl
      (leBytes_length _ _)
  have h2 := congrArg leVal (h1 x)
  rw [h, h1 y, leVal_leBytes, leVal_leBytes, Nat.mod_eq_of_lt hx, Nat.mod_eq_of_lt hy] at h2
  exact h2.symm

theorem likeZero_hash (p q : List Byte) (hp : p.length % 128 = 0) (xs ys : List Nat) (hl : xs.length = ys.length)
    (seed : U64) : Spec.t1ha0_aesA (p ++ (xs.map likeZero).flatten ++ q) seed =
      Spec.t1ha0_aesA (p ++ (ys.map likeZero).flatten ++ q) seed := by
  induction xs generalizing p ys with
  | nil =>
    cases ys with
    | nil => rfl
    | cons y ys => exact nomatch hl
  | cons x xs ih =>
    cases ys with
    | nil => exact nomatch hl
    | cons y ys =>
      have h1 := t1ha0_aesA_block p (likeZero x) (likeZero y) ((xs.map likeZero).flatten ++ q) hp (likeZero_length _)
        (likeZero_length _) (fun s => by rw [likeZero_alike, likeZero_alike]) seed
      have h2 := ih (p ++ likeZero y) (by rw [List.length_append, likeZero_length]; omega) ys (by simpa using hl)
      simp only [List.map_cons, List.flatten_cons, List.append_assoc] at h1 h2 ⊢
      rw [h1, h2]

theorem likeZero_flatten (xs ys : List Nat) (hl : xs.length = ys.length) (hx : ∀ x ∈ xs, x < 256 ^ 16)
    (hy : ∀ y ∈ ys, y < 256 ^ 16) (h : (xs.map likeZero).flatten = (ys.map likeZero).flatten) : xs = ys := by
  induction xs generalizing ys with
  | nil =>
    cases ys with
    | nil => rfl
    | cons y ys => exact nomatch hl
  | cons x xs ih =>
    cases ys with
    | nil => exact nomatch hl
    | cons y ys =>
      simp only [List.map_cons, List.flatten_cons] at h
      obtain ⟨h1, h2⟩ := List.append_inj h (by rw [likeZero_length, likeZero_length])
      rw [likeZero_inj (hx x (by simp)) (hy y (by simp)) h1, ih ys (by simpa using hl)
        (fun x hx' => hx x (by simp [hx'])) (fun y hy' => hy y (by simp [hy'])) h2]

theorem aesA_many (p q : List Byte) (hp : p.length % 128 = 0) (k : Nat) :
    ∃ parts : Set (List Byte), (2 ^ 128) ^ k ≤ parts.ncard ∧ (∀ b ∈ parts, b.length = 128 * k) ∧
      ∀ b ∈ parts, ∀ b' ∈ parts, ∀ seed, Spec.t1ha0_aesA (p ++ b ++ q) seed = Spec.t1ha0_aesA (p ++ b' ++ q) seed := by
  let g : (Fin k → Fin (256 ^ 16)) → List Byte := fun x => ((List.ofFn fun i => (x i).1).map likeZero).flatten
  have hinj : Function.Injective g := by
    intro x y h
    have := likeZero_flatten _ _ (by simp) (fun a ha => ?_) (fun a ha => ?_) h
    · have := List.ofFn_injective this
      funext i
      exact Fin.ext (congrFun this i)
    · obtain ⟨i, rfl⟩ := List.mem_ofFn.mp ha
      exact (x i).2
    · obtain ⟨i, rfl⟩ := List.mem_ofFn.mp ha
      exact (y i).2
  refine ⟨Set.range g, ?_, ?_, ?_⟩
  · rw [← Set.image_univ, hinj.injOn.ncard_image, Set.ncard_univ, Nat.card_fun, Nat.card_fin, Nat.card_fin]
    exact le_of_eq (by norm_num)
  · rintro _ ⟨x, rfl⟩
    simp only [g]
    rw [List.length_flatten, List.map_map]
    simp [Function.comp_def, likeZero_length, Nat.mul_comm]
  · rintro _ ⟨x, rfl⟩ _ ⟨y, rfl⟩ seed
    exact likeZero_hash p q hp _ _ (by simp) seed

end T1ha
