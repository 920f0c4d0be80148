import Verif.Props.SeedShift

/-!
# One hash of a known short message reveals the seed of t1ha0_32: C96
-/

namespace T1ha.Props

open Model Examples

variable {cfg cfg' : Cfg} {w w' : World} {s s' : Sys} {data data' page page' : Nat}

/-! ## The computation -/

/-- The solutions `y` of `y + (y + v) * p / 2^32 = y'` -/
def solve (v p y' : U32) : List U32 :=
  [(y' + v).toNat, (y' + v).toNat + 2 ^ 32].filterMap fun t =>
    let y := BitVec.ofNat 32 ((t * 2 ^ 32 + 2 ^ 32 + p.toNat - 1) / (2 ^ 32 + p.toNat)) - v
    if y + BitVec.ofNat 32 ((y + v).toNat * p.toNat / 2 ^ 32) = y' then some y else none

/-- The pairs before a word was mixed into them -/
def unmix (v p : U32) (xy : U32 × U32) : List (U32 × U32) :=
  (solve v p xy.2).map fun y => (xy.1 ^^^ BitVec.ofNat 32 ((y + v).toNat * p.toNat), y)

/-- The pairs before the words of a message were mixed into them -/
def untail : List U32 → U32 × U32 → List (U32 × U32)
  | [], ab => [ab]
  | w :: ws, ab =>
    (untail ws ab).flatMap fun c =>
      let p := if ws.length = 0 then 0xCA9B4735 else if ws.length = 1 then 0xA4ABA1C3 else
        if ws.length = 2 then 0xF6499843 else 0x86F0FD61
      if ws.length % 2 = 1 then unmix w p c else (unmix w p c.swap).map Prod.swap

/-- The pair of which this is the result -/
def unfinal (h : U64) : U32 × U32 :=
  let l := h * 0xb3704b9485e12cd1
  let l := (l ^^^ l >>> 47) * 0x6ce8f2e1a267ff03
  let l := (l ^^^ l >>> 41) * 0x7efcf20cccf6e003
  let a := BitVec.ofNat 32 (l.toNat / 2 ^ 32)
  (a, BitVec.ofNat 32 l.toNat ^^^ a.rotateRight 13)

/-- The seed with which a message of `n` bytes begins with the pair -/
def seedOf (n : Nat) (ab : U32 × U32) : U64 :=
  (ab.2 ^^^ BitVec.ofNat 32 n) ++ (ab.1 - (BitVec.ofNat 32 n).rotateRight 17)

/-- The seeds under which a message of up to 16 bytes has a given hash: at most two divisions for every word, and the
tests whether they are solutions. -/
def recoverSeeds (e : Endian) (m : List Byte) (h : U64) : List U64 :=
  (untail (Spec.words32 e m) (unfinal h)).map (seedOf m.length)

/-! ## Its proof -/

theorem mem_solve (v p y' y : U32) :
    y ∈ solve v p y' ↔ y + BitVec.ofNat 32 ((y + v).toNat * p.toNat / 2 ^ 32) = y' := by
  unfold solve
  rw [List.mem_filterMap]
  constructor
  · rintro ⟨t, -, h⟩
    simp only at h
    split at h
    · rename_i hy
      cases h
      exact hy
    · cases h
  · intro h
    have hu := (y + v).isLt
    have hp := p.isLt
    -- the sum without the reduction
    let t := (y + v).toNat + (y + v).toNat * p.toNat / 2 ^ 32
    have hq : (y + v).toNat * p.toNat / 2 ^ 32 < 2 ^ 32 :=
      Nat.div_lt_of_lt_mul (Nat.mul_lt_mul'' hu hp)
    have hmod : t % 2 ^ 32 = (y' + v).toNat := by
      rw [← h, show y + BitVec.ofNat 32 ((y + v).toNat * p.toNat / 2 ^ 32) + v =
        (y + v) + BitVec.ofNat 32 ((y + v).toNat * p.toNat / 2 ^ 32) by
          rw [BitVec.add_assoc, BitVec.add_comm (BitVec.ofNat _ _), ← BitVec.add_assoc]]
      rw [BitVec.toNat_add, BitVec.toNat_ofNat, Nat.add_mod_mod]
    have ht : t = (y' + v).toNat ∨ t = (y' + v).toNat + 2 ^ 32 := by
      have : t < 2 * 2 ^ 32 := by omega
      omega
    have hdiv : (t * 2 ^ 32 + 2 ^ 32 + p.toNat - 1) / (2 ^ 32 + p.toNat) = (y + v).toNat := by
      have h1 := Nat.div_add_mod ((y + v).toNat * p.toNat) (2 ^ 32)
      have h2 := Nat.mod_lt ((y + v).toNat * p.toNat) (show 2 ^ 32 > 0 by decide)
      have e1 : t * 2 ^ 32 = (y + v).toNat * 2 ^ 32 + 2 ^ 32 * ((y + v).toNat * p.toNat / 2 ^ 32) := by
        show ((y + v).toNat + (y + v).toNat * p.toNat / 2 ^ 32) * 2 ^ 32 = _
        rw [Nat.add_mul, Nat.mul_comm ((y + v).toNat * p.toNat / 2 ^ 32)]
      have e2 : (y + v).toNat * (2 ^ 32 + p.toNat) = (y + v).toNat * 2 ^ 32 + (y + v).toNat * p.toNat := Nat.mul_add ..
      have e4 : t * 2 ^ 32 + 2 ^ 32 + p.toNat - 1 = (t * 2 ^ 32 + 2 ^ 32 + p.toNat - 1 - (y + v).toNat * (2 ^ 32 + p.toNat)) +
          (y + v).toNat * (2 ^ 32 + p.toNat) := by omega
      rw [e4, Nat.add_mul_div_right _ _ (by omega), Nat.div_eq_of_lt (by omega), Nat.zero_add]
    refine ⟨t, by simpa using ht, ?_⟩
    simp only [hdiv]
    rw [BitVec.ofNat_toNat, BitVec.setWidth_eq, BitVec.add_sub_cancel, if_pos h]

theorem mem_unmix (v p : U32) (xy : U32 × U32) (x y : U32) : (x, y) ∈ unmix v p xy ↔ Spec.mix32 x y v p = xy := by
  unfold unmix Spec.mix32
  rw [List.mem_map]
  constructor
  · rintro ⟨y₁, h, e⟩
    obtain ⟨e1, rfl⟩ := Prod.mk.inj e
    refine Prod.ext ?_ ((mem_solve v p xy.2 y₁).1 h)
    show x ^^^ _ = xy.1
    rw [← e1, BitVec.xor_assoc, BitVec.xor_self, BitVec.xor_zero]
  · rintro rfl
    refine ⟨y, (mem_solve v p _ y).2 rfl, Prod.ext ?_ rfl⟩
    show x ^^^ _ ^^^ _ = x
    rw [BitVec.xor_assoc, BitVec.xor_self, BitVec.xor_zero]

theorem tailPrime32_eq (n : Nat) : (if n = 0 then 0xCA9B4735 else if n = 1 then 0xA4ABA1C3 else
    if n = 2 then 0xF6499843 else 0x86F0FD61) = Spec.tailPrime32 n := by
  match n with
  | 0 => rfl
  | 1 => rfl
  | 2 => rfl
  | n + 3 => rfl

theorem mem_untail (ws : List U32) (out ab : U32 × U32) : ab ∈ untail ws out ↔ Spec.tail32 ws ab = out := by
  induction ws generalizing ab with
  | nil => exact List.mem_singleton
  | cons w ws ih =>
    obtain ⟨a, b⟩ := ab
    unfold untail
    simp only [List.mem_flatMap, tailPrime32_eq]
    unfold Spec.tail32
    by_cases hodd : ws.length % 2 = 1
    · simp only [if_pos hodd, mem_unmix]
      constructor
      · rintro ⟨c, hc, rfl⟩
        exact (ih _).1 hc
      · exact fun h => ⟨_, (ih _).2 h, rfl⟩
    · simp only [if_neg hodd, List.mem_map]
      constructor
      · rintro ⟨c, hc, ⟨x, y⟩, hx, e⟩
        obtain ⟨rfl, rfl⟩ := Prod.mk.inj e
        rw [mem_unmix] at hx
        rw [← Prod.swap_swap c, ← hx] at hc
        exact (ih _).1 hc
      · exact fun h => ⟨_, (ih _).2 h, (b, a), (mem_unmix ..).2 rfl, rfl⟩

theorem solve_length (v p y' : U32) : (solve v p y').length ≤ 2 := by
  unfold solve
  exact List.length_filterMap_le ..

theorem untail_length (ws : List U32) (out : U32 × U32) : (untail ws out).length ≤ 2 ^ ws.length := by
  induction ws with
  | nil => exact Nat.le_refl 1
  | cons w ws ih =>
    unfold untail
    rw [List.length_cons, Nat.pow_succ, Nat.mul_comm]
    refine Nat.le_trans ?_ (Nat.mul_le_mul_left 2 ih)
    generalize untail ws out = l
    induction l with
    | nil => exact Nat.zero_le _
    | cons c l ih =>
      rw [List.flatMap_cons, List.length_append, List.length_cons, Nat.mul_succ, Nat.add_comm]
      refine Nat.add_le_add ih ?_
      simp only
      split
      · unfold unmix
        rw [List.length_map]
        exact solve_length ..
      · unfold unmix
        rw [List.length_map, List.length_map]
        exact solve_length ..

theorem xorshift_self {k : Nat} (hk : 64 ≤ k + k) (x : U64) : (x ^^^ x >>> k) ^^^ (x ^^^ x >>> k) >>> k = x := by
  rw [BitVec.ushiftRight_xor_distrib, ← BitVec.shiftRight_add, BitVec.xor_assoc, ← BitVec.xor_assoc (x >>> k),
    BitVec.xor_self, BitVec.zero_xor]
  have : x >>> (k + k) = 0#64 := BitVec.eq_of_toNat_eq (by
    rw [BitVec.toNat_ushiftRight, Nat.shiftRight_eq_div_pow]
    exact Nat.div_eq_of_lt (Nat.lt_of_lt_of_le x.isLt (Nat.pow_le_pow_right (by decide) hk)))
  rw [this, BitVec.xor_zero]

theorem halves (l : U64) : BitVec.ofNat 32 (l.toNat / 2 ^ 32) ++ BitVec.ofNat 32 l.toNat = l := by
  refine BitVec.eq_of_toNat_eq ?_
  rw [BitVec.toNat_append, BitVec.toNat_ofNat, BitVec.toNat_ofNat, Nat.shiftLeft_eq, Nat.mul_comm,
    ← Nat.two_pow_add_eq_or_of_lt (Nat.mod_lt _ (by decide))]
  have := l.isLt
  omega

theorem final32_unfinal (h : U64) : Spec.final32 (unfinal h) = h := by
  have hm : ∀ (x p q : U64), q * p = 1#64 → x * q * p = x := fun x p q e => by
    rw [BitVec.mul_assoc, e, BitVec.mul_one]
  unfold Spec.final32 unfinal
  simp only
  rw [BitVec.xor_assoc, BitVec.xor_self, BitVec.xor_zero, halves, hm _ _ _ prime0_inv, xorshift_self (by decide),
    hm _ _ _ prime4_inv, xorshift_self (by decide), hm _ _ _ prime6_inv]

theorem final32_iff (ab : U32 × U32) (h : U64) : Spec.final32 ab = h ↔ ab = unfinal h :=
  ⟨fun e => final32_inj (e.trans (final32_unfinal h).symm), fun e => e ▸ final32_unfinal h⟩

theorem seedOf_iff (n : Nat) (ab : U32 × U32) (seed : U64) :
    seedOf n ab = seed ↔ ((BitVec.ofNat 32 n).rotateRight 17 + BitVec.ofNat 32 seed.toNat,
      BitVec.ofNat 32 n ^^^ BitVec.ofNat 32 (seed.toNat / 2 ^ 32)) = ab := by
  have ha : ∀ x y : U32, y + (x - y) = x := fun x y => by rw [BitVec.add_comm, BitVec.sub_add_cancel]
  have hx : ∀ x y : U32, y ^^^ (x ^^^ y) = x := fun x y => by
    rw [BitVec.xor_comm x, ← BitVec.xor_assoc, BitVec.xor_self, BitVec.zero_xor]
  have hlow : ∀ x y : U32, BitVec.ofNat 32 (x ++ y : U64).toNat = y := fun x y => by
    refine BitVec.eq_of_toNat_eq ?_
    rw [BitVec.toNat_ofNat, BitVec.toNat_append, Nat.shiftLeft_eq, Nat.mul_comm,
      ← Nat.two_pow_add_eq_or_of_lt (BitVec.isLt _), Nat.mul_add_mod, Nat.mod_eq_of_lt (BitVec.isLt _)]
  have hhigh : ∀ x y : U32, BitVec.ofNat 32 ((x ++ y : U64).toNat / 2 ^ 32) = x := fun x y => by
    refine BitVec.eq_of_toNat_eq ?_
    rw [BitVec.toNat_ofNat, BitVec.toNat_append, Nat.shiftLeft_eq, Nat.mul_comm,
      ← Nat.two_pow_add_eq_or_of_lt (BitVec.isLt _), Nat.mul_add_div (by decide), Nat.div_eq_of_lt (BitVec.isLt _),
      Nat.add_zero, Nat.mod_eq_of_lt (BitVec.isLt _)]
  unfold seedOf
  constructor
  · rintro rfl
    rw [hlow, hhigh, ha, hx]
  · rintro rfl
    show (_ ^^^ _ ^^^ _) ++ (_ + _ - _) = seed
    rw [BitVec.xor_comm (BitVec.ofNat 32 n), BitVec.xor_assoc, BitVec.xor_self, BitVec.xor_zero,
      BitVec.add_comm, BitVec.add_sub_cancel]
    exact halves seed

theorem mem_recoverSeeds (e : Endian) {m : List Byte} (hm : m.length ≤ 16) (h seed : U64) :
    seed ∈ recoverSeeds e m h ↔ Spec.t1ha0_32 e m seed = h := by
  unfold recoverSeeds Spec.t1ha0_32
  simp only
  rw [if_neg (by omega), final32_iff, List.mem_map]
  constructor
  · rintro ⟨ab, h1, h2⟩
    rw [(seedOf_iff m.length ab seed).1 h2]
    exact (mem_untail ..).1 h1
  · exact fun h1 => ⟨_, (mem_untail ..).2 h1, (seedOf_iff ..).2 rfl⟩

/-! ## The property -/

/-- The byte order of the words -/
def orderOf (f : OneShot) : Endian := if f = .t1ha0_32be then .big else .little

/-- C96: from one result for a message of up to 16 bytes which is known, the seeds under which it is the result can be
computed. There are at most 2 for every word of the message, so at most 16. -/
theorem seed_revealed (f : OneShot) (hf : f = .t1ha0_32le ∨ f = .t1ha0_32be) {m : List Byte} (hm : m.length ≤ 16)
    (h : Buf cfg w s.ov page data m) (v : U64) :
    (∀ seed, (∃ s₁, f.run cfg data m.length seed w s = .ok (v, s₁)) ↔ seed ∈ recoverSeeds (orderOf f) m v) ∧
    (recoverSeeds (orderOf f) m v).length ≤ 2 ^ ((m.length + 3) / 4) ∧ 2 ^ ((m.length + 3) / 4) ≤ 16 := by
  refine ⟨fun seed => ?_, ?_, ?_⟩
  · obtain ⟨t, ⟨h1, _⟩, _⟩ := f.returns h (ready32 hf) seed
    have hh : f.hash m seed = Spec.t1ha0_32 (orderOf f) m seed := by rcases hf with rfl | rfl <;> rfl
    rw [mem_recoverSeeds _ hm, ← hh, h1]
    constructor
    · rintro ⟨s₁, e⟩
      cases e
      rfl
    · exact fun e => ⟨_, by rw [e]⟩
  · unfold recoverSeeds
    rw [List.length_map]
    have := untail_length (Spec.words32 (orderOf f) m) (unfinal v)
    have hl : (Spec.words32 (orderOf f) m).length = (m.length + 3) / 4 := by
      unfold Spec.words32
      rw [List.length_map, length_chunks]
    rwa [hl] at this
  · exact Nat.pow_le_pow_right (by decide) (show (m.length + 3) / 4 ≤ 4 by omega)

/-- C96: the result for the empty message is the seed in disguise: all 2^64 results occur, each under exactly one seed,
which can be computed from it. -/
theorem seed_revealed_empty (f : OneShot) (hf : f = .t1ha0_32le ∨ f = .t1ha0_32be)
    (h : Buf cfg w s.ov page data []) (v seed : U64) :
    (∃ s₁, f.run cfg data 0 seed w s = .ok (v, s₁)) ↔ seed = seedOf 0 (unfinal v) :=
  ((seed_revealed (m := []) f hf (Nat.zero_le 16) h v).1 seed).trans List.mem_singleton

/-- Two seeds give this result for these ten bytes, on every machine, and no others do. -/
example (seed : U64) :
    (∃ s₁, OneShot.t1ha0_32le.run mips32 5001 10 seed (memory 4096 8192 5001 [1, 2, 3, 4, 5, 6, 7, 8, 9, 10]) start =
      .ok (17239415872636687321, s₁)) ↔ seed = 18033051626618606779 ∨ seed = 0x0123456789ABCDEF := by
  refine ((seed_revealed (m := [1, 2, 3, 4, 5, 6, 7, 8, 9, 10]) .t1ha0_32le (Or.inl rfl) (by decide)
    (buf_mid mips32 rfl [1, 2, 3, 4, 5, 6, 7, 8, 9, 10] (by decide)) 17239415872636687321).1 seed).trans ?_
  have : recoverSeeds (orderOf .t1ha0_32le) [1, 2, 3, 4, 5, 6, 7, 8, 9, 10] 17239415872636687321 =
      [18033051626618606779, 0x0123456789ABCDEF] := by decide +kernel
  rw [this, List.mem_pair]

/-- The seed was 42. -/
example (seed : U64) :
    (∃ s₁, OneShot.t1ha0_32le.run amd64 5001 0 seed (memory 4096 8192 5001 []) start = .ok (4356596355627692252, s₁)) ↔
      seed = 42 := by
  refine (seed_revealed_empty .t1ha0_32le (Or.inl rfl) (buf_mid amd64 rfl [] (by decide)) 4356596355627692252 seed).trans ?_
  rw [show seedOf 0 (unfinal 4356596355627692252) = 42 by decide +kernel]

end T1ha.Props
