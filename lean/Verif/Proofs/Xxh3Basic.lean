import Verif.Model.Xxh3
import Verif.Proofs.Xxhash64
import Verif.Proofs.Wyhash

/-!
# XXH3: arithmetic and reading
-/

namespace T1ha.Model

variable {cfg : Cfg} {x : Xxh3} {w : World} {ov : Overlay} {P : Ev → Prop} {b input secret : Bytes}
  {m s r : List Byte} {α β : Type}

theorem kSecret_eq : XXH3_kSecret = Spec.xxh3Secret := by decide +kernel

theorem length_xxh3Secret : Spec.xxh3Secret.length = 192 := by decide +kernel

/-! ## Arithmetic -/

theorem and_low_half (a : U64) : (a &&& 0xFFFFFFFF#64) = (a.setWidth 32).setWidth 64 := by
  apply BitVec.eq_of_getLsbD_eq
  intro i hi
  rw [BitVec.getLsbD_and, BitVec.getLsbD_setWidth, BitVec.getLsbD_setWidth]
  by_cases h : i < 32
  · have : (0xFFFFFFFF#64).getLsbD i = true := by interval_cases i <;> rfl
    rw [this]; simp [h, hi]
  · have : (0xFFFFFFFF#64).getLsbD i = false := by interval_cases i <;> first | omega | rfl
    rw [this]; simp [h]

theorem low_low_half (a : U64) : (((a.setWidth 32).setWidth 64 : U64).setWidth 32).setWidth 64 =
    ((a.setWidth 32).setWidth 64 : U64) := by
  apply BitVec.eq_of_toNat_eq
  simp only [BitVec.toNat_setWidth]
  omega

theorem low_high_half (a : U64) : ((a >>> 32).setWidth 32).setWidth 64 = a >>> 32 := by
  apply BitVec.eq_of_toNat_eq
  simp only [BitVec.toNat_setWidth, BitVec.toNat_ushiftRight, Nat.shiftRight_eq_div_pow]
  have := a.isLt
  omega

theorem mult_halves (k : U64) : XXH_mult32to64 (k &&& 0xFFFFFFFF#64) (k >>> 32) = Spec.xxh3Halves k := by
  unfold XXH_mult32to64 Spec.xxh3Halves
  rw [low_high_half, and_low_half, low_low_half]

theorem mult64to128_portable (a b : U64) (hx : x.wide = false) :
    XXH_mult64to128 x a b = ⟨(Spec.product a b).1, (Spec.product a b).2⟩ := by
  have ha := a.isLt
  have hb := b.isLt
  have key := portable_product a.toNat b.toNat ha hb
  unfold XXH_mult64to128 XXH_mult32to64
  simp only [hx, Bool.false_eq_true, if_false, low_high_half, and_low_half a, and_low_half b, low_low_half]
  generalize hll : (a.setWidth 32).setWidth 64 * (b.setWidth 32).setWidth 64 = ll
  generalize hlh : (a >>> 32) * (b.setWidth 32).setWidth 64 = lh
  generalize hhl : (a.setWidth 32).setWidth 64 * (b >>> 32) = hl
  generalize hhh : (a >>> 32) * (b >>> 32) = hh
  have ell : ll.toNat = a.toNat % 2 ^ 32 * (b.toNat % 2 ^ 32) := by
    rw [← hll, toNat_mul_halves _ _ (by rw [toNat_low_half]; omega) (by rw [toNat_low_half]; omega),
      toNat_low_half, toNat_low_half]
  have elh : lh.toNat = a.toNat / 2 ^ 32 * (b.toNat % 2 ^ 32) := by
    rw [← hlh, toNat_mul_halves _ _ (by rw [toNat_high_half]; omega) (by rw [toNat_low_half]; omega),
      toNat_low_half, toNat_high_half]
  have ehl : hl.toNat = a.toNat % 2 ^ 32 * (b.toNat / 2 ^ 32) := by
    rw [← hhl, toNat_mul_halves _ _ (by rw [toNat_low_half]; omega) (by rw [toNat_high_half]; omega),
      toNat_low_half, toNat_high_half]
  have ehh : hh.toNat = a.toNat / 2 ^ 32 * (b.toNat / 2 ^ 32) := by
    rw [← hhh, toNat_mul_halves _ _ (by rw [toNat_high_half]; omega) (by rw [toNat_high_half]; omega),
      toNat_high_half, toNat_high_half]
  simp only [← ell, ← elh, ← ehl, ← ehh] at key
  obtain ⟨k1, k2, k3, k4, k5⟩ := key
  clear hll hlh hhl hhh ell elh ehl ehh
  have s1 := toNat_high_half ll
  have s2 := toNat_high_half lh
  have s3 := toNat_low_half lh
  have s4 := toNat_low_half ll
  rw [and_low_half, and_low_half]
  have e1 : ((ll >>> 32) + (lh.setWidth 32).setWidth 64 + hl).toNat =
      ll.toNat / 2 ^ 32 + lh.toNat % 2 ^ 32 + hl.toNat := by
    rw [BitVec.toNat_add, BitVec.toNat_add, s1, s3]
    omega
  generalize (ll >>> 32) + (lh.setWidth 32).setWidth 64 + hl = cross at *
  have e2 : ((cross <<< 32) ||| (ll.setWidth 32).setWidth 64).toNat = cross.toNat % 2 ^ 32 * 2 ^ 32 + ll.toNat % 2 ^ 32 := by
    rw [BitVec.toNat_or, BitVec.toNat_shiftLeft, s4, Nat.shiftLeft_eq,
      show cross.toNat * 2 ^ 32 % 2 ^ 64 = 2 ^ 32 * (cross.toNat % 2 ^ 32) by omega,
      ← Nat.two_pow_add_eq_or_of_lt (i := 32) (by omega), Nat.mul_comm]
  have s5 := toNat_high_half cross
  unfold Spec.product
  rw [k5]
  congr 1
  · apply BitVec.eq_of_toNat_eq
    rw [e2, BitVec.toNat_ofNat]
    omega
  · apply BitVec.eq_of_toNat_eq
    rw [BitVec.toNat_add, BitVec.toNat_add, s2, s5, BitVec.toNat_ofNat]
    omega

theorem mult64to128_eq (a b : U64) : XXH_mult64to128 x a b = ⟨(Spec.product a b).1, (Spec.product a b).2⟩ := by
  by_cases hx : x.wide = true
  · have ha := a.isLt
    have hb := b.isLt
    have hab : a.toNat * b.toNat < 2 ^ 128 := by
      calc a.toNat * b.toNat ≤ (2 ^ 64 - 1) * (2 ^ 64 - 1) := Nat.mul_le_mul (by omega) (by omega)
        _ < 2 ^ 128 := by decide
    have h128 : (a.setWidth 128 * b.setWidth 128 : U128).toNat = a.toNat * b.toNat := by
      rw [BitVec.toNat_mul, BitVec.toNat_setWidth, BitVec.toNat_setWidth,
        Nat.mod_eq_of_lt (a := a.toNat) (by omega), Nat.mod_eq_of_lt (a := b.toNat) (by omega),
        Nat.mod_eq_of_lt hab]
    unfold XXH_mult64to128 Spec.product
    simp only [hx, if_true]
    congr 1
    · apply BitVec.eq_of_toNat_eq
      rw [BitVec.toNat_setWidth, h128, BitVec.toNat_ofNat]
    · apply BitVec.eq_of_toNat_eq
      rw [BitVec.toNat_setWidth, BitVec.toNat_ushiftRight, h128, BitVec.toNat_ofNat,
        Nat.shiftRight_eq_div_pow]
  · exact mult64to128_portable a b (by simpa using hx)

theorem fold64_eq (a b : U64) : XXH3_mul128_fold64 x a b = Spec.mux a b := by
  unfold XXH3_mul128_fold64 Spec.mux
  simp only [mult64to128_eq]

theorem avalanche3_eq (h : U64) : XXH3_avalanche h = Spec.xxh3Avalanche h := rfl

theorem rrmxmx_eq (h len : U64) : XXH3_rrmxmx h len = Spec.xxh3Rrmxmx h len := by
  unfold XXH3_rrmxmx Spec.xxh3Rrmxmx XXH_xorshift64
  simp only [xxh_rotl64_eq]

theorem seed4to8_eq (seed : U64) : XXH3_seed4to8 x seed = Spec.xxh3Seed seed := by
  unfold XXH3_seed4to8 Spec.xxh3Seed Spec.reverse32
  rw [xxh_swap32_eq]

/-! ## Reading -/

/-- The message `m` and the secret `s` can be read. -/
structure Hashing (w : World) (ov : Overlay) (cfg : Cfg) (x : Xxh3) (P : Ev → Prop) (input : Bytes) (m : List Byte)
    (secret : Bytes) (s : List Byte) : Prop where
  msg : ByteSource w ov cfg P input m
  sec : ByteSource w ov cfg P secret s
  fine : x.access = .direct → x.lenient32 = true ∧ x.lenient64 = true

theorem assert_ok {f : Unit → M β} {C : Nat → Prop} {n : Nat} {Q : β → Overlay → Prop} {c : Bool}
    (hc : x.debug = true → c = true) (h : Exec w ov P C n (f ()) Q) : Exec w ov P C n (XXH_ASSERT x c >>= f) Q := by
  refine Exec.bindR (v := ()) ?_ h
  unfold XXH_ASSERT
  rw [if_neg (by
    intro h
    rw [Bool.and_eq_true, Bool.not_eq_true'] at h
    rw [hc h.1] at h
    exact Bool.noConfusion h.2)]
  exact Reads.pure ()

theorem reads_le64 (g : ByteSource w ov cfg P b r) (f : x.access = .direct → x.lenient32 = true ∧ x.lenient64 = true)
    (i : Nat) (h : i + 8 ≤ r.length) :
    Reads w ov P (b.here i 8) 0 (XXH_readLE64 cfg x.toXxh b i) (Spec.at64 r i) :=
  g.readLE64 i h (fun hd => Or.inl (f hd).2)

theorem reads_le32 (g : ByteSource w ov cfg P b r) (f : x.access = .direct → x.lenient32 = true ∧ x.lenient64 = true)
    (i : Nat) (h : i + 4 ≤ r.length) :
    Reads w ov P (b.here i 4) 0 (XXH_readLE32 cfg x.toXxh b i) (Spec.at32 r i) :=
  g.readLE32 i h (fun hd => Or.inl (f hd).1)

theorem Exec.uncovered {C : Nat → Prop} {n : Nat} {mo : M α} {Q : α → Overlay → Prop} (h : Exec w ov P C n mo Q) :
    Exec w ov P nowhere n mo Q := h.cov (fun _ h => h.elim) rfl

variable (h : Hashing w ov cfg x P input m secret s)
include h

theorem Hashing.in64 (i : Nat) (hi : i + 8 ≤ m.length) :
    Reads w ov P (input.here i 8) 0 (XXH_readLE64 cfg x.toXxh input i) (Spec.at64 m i) := reads_le64 h.msg h.fine i hi

theorem Hashing.in32 (i : Nat) (hi : i + 4 ≤ m.length) :
    Reads w ov P (input.here i 4) 0 (XXH_readLE32 cfg x.toXxh input i) (Spec.at32 m i) := reads_le32 h.msg h.fine i hi

theorem Hashing.key64 (j : Nat) (hj : j + 8 ≤ s.length) :
    Reads w ov P nowhere 0 (XXH_readLE64 cfg x.toXxh secret j) (Spec.at64 s j) :=
  (reads_le64 h.sec h.fine j hj).uncovered

theorem Hashing.key32 (j : Nat) (hj : j + 4 ≤ s.length) :
    Reads w ov P nowhere 0 (XXH_readLE32 cfg x.toXxh secret j) (Spec.at32 s j) :=
  (reads_le32 h.sec h.fine j hj).uncovered

theorem Hashing.flip32 (j k : Nat) (hj : j + 4 ≤ s.length) (hk : k + 4 ≤ s.length) :
    Reads w ov P nowhere 0 (XXH3_flip32 cfg x secret j k) ((Spec.at32 s j ^^^ Spec.at32 s k).setWidth 64) := by
  unfold XXH3_flip32
  exact Exec.bindR (h.key32 j hj) (Exec.bindR (h.key32 k hk) (Reads.pure _))

theorem Hashing.flip64 (j k : Nat) (hj : j + 8 ≤ s.length) (hk : k + 8 ≤ s.length) :
    Reads w ov P nowhere 0 (XXH3_flip64 cfg x secret j k) (Spec.at64 s j ^^^ Spec.at64 s k) := by
  unfold XXH3_flip64
  exact Exec.bindR (h.key64 j hj) (Exec.bindR (h.key64 k hk) (Reads.pure _))

/-- 16 bytes of the message are read. -/
theorem Hashing.mix16B (i j : Nat) (seed : U64) (hi : i + 16 ≤ m.length) (hj : j + 16 ≤ s.length) :
    Reads w ov P (input.here i 16) 0 (XXH3_mix16B cfg x input i secret j seed) (Spec.xxh3Mix16 m s seed i j) := by
  unfold XXH3_mix16B
  refine Exec.cov (Reads.bind (h.in64 i (by omega)) <| Exec.bindL (h.in64 (i + 8) (by omega)) ?_) ?_ rfl
  · rintro _ _ ⟨rfl, rfl⟩
    refine Exec.bindR (h.key64 j (by omega)) <| Exec.bindR (h.key64 (j + 8) (by omega)) ?_
    rw [fold64_eq]
    exact Reads.pure _
  · intro a ha
    exact input.here_split 8 (by omega) ha

end T1ha.Model
