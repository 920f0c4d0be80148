import Verif.Proofs.Fetch

/-!
# Tails of 64-bit words
-/

namespace T1ha.Model

variable {w : World} {ov : Overlay} {P : Ev → Prop} {cfg : Cfg} {p : Nat}

/-! ## Exact fetches -/

theorem Fetched.reads {bits k n : Nat} {e : Endian} {C : Nat → Prop} {m : M (BitVec bits)}
    {bs : List Byte} (h : Exec w ov P C n m (Fetched bits e w ov p k)) (hh : Holds w ov p bs)
    (hl : bs.length = k) : Reads w ov P C n m (BitVec.ofNat bits (e.val bs)) :=
  h.post fun _ _ ⟨ho, _, hl', hs, hx⟩ => ⟨by rw [hx, hs.eq_of_holds hh (hl'.trans hl.symm)], ho⟩

/-- The condition under which `fetch64_*_aligned` may be used. -/
def AlOk (cfg : Cfg) (al : Aligness) (p : Nat) : Prop := al = .aligned → p % cfg.alignment64 = 0

theorem exec_fetch64 {e : Endian} {al : Aligness} (hm : Mapped w p 8) (hP : Sub (cfg.gap al 8) P p 8)
    (ha : AlOk cfg al p) :
    Exec w ov P (range p 8) 0 (fetch64 cfg e al p) (Fetched 64 e w ov p 8) := by
  cases e <;> cases al
  · exact exec_fetch64_le_aligned hm hP (ha rfl)
  · exact exec_fetch64_le_unaligned hm hP
  · exact exec_fetch64_be_aligned hm hP (ha rfl)
  · exact exec_fetch64_be_unaligned hm hP

theorem reads_fetch64 {e : Endian} {al : Aligness} {m : List Byte} (hh : Holds w ov p m)
    (hl : m.length = 8) (hP : Sub (cfg.gap al 8) P p 8) (ha : AlOk cfg al p) :
    Reads w ov P (range p 8) 0 (fetch64 cfg e al p) (BitVec.ofNat 64 (e.val m)) :=
  Fetched.reads (exec_fetch64 (hl ▸ hh.mapped) hP ha) hh hl

theorem reads_byteAt {m : List Byte} {i : Nat} {b : Byte} (hh : Holds w ov p m)
    (hb : m[i]? = some b) (hP : P (.rd (p + i) 1)) :
    Reads w ov P (range (p + i) 1) 0 (byteAt p i) b := by
  have hi : i < m.length := (List.getElem?_eq_some_iff.1 hb).1
  have hm : Mapped w (p + i) 1 := hh.mapped.sub (by omega) (by omega)
  refine (exec_byteAt hm hP).post ?_
  rintro x o ⟨ho, hs⟩
  refine ⟨?_, ho⟩
  obtain ⟨t, ht⟩ := hs 0 x rfl
  have := hh t i b hb
  rw [Nat.add_zero] at ht
  rw [ht] at this
  exact Option.some.inj this

/-! ## Arithmetic -/

theorem szSub_and7 {tail k : Nat} (ht : tail < 2 ^ cfg.bits) (hk : 1 ≤ k) (hk8 : k ≤ 8)
    (h : tail % 8 = k % 8) : szSub cfg 8 tail &&& 7 = 8 - k := by
  rw [show (7 : Nat) = 2 ^ 3 - 1 by rfl, Nat.and_two_pow_sub_one_eq_mod, szSub]
  have : 2 ^ cfg.bits = 18446744073709551616 ∨ 2 ^ cfg.bits = 4294967296 := by
    unfold Cfg.bits; split <;> simp
  rcases this with h | h <;> rw [h] at ht ⊢ <;> omega

theorem szSub_and3 {tail k : Nat} (ht : tail < 2 ^ cfg.bits) (hk : 1 ≤ k) (hk4 : k ≤ 4)
    (h : tail % 4 = k % 4) : szSub cfg 4 tail &&& 3 = 4 - k := by
  rw [show (3 : Nat) = 2 ^ 2 - 1 by rfl, Nat.and_two_pow_sub_one_eq_mod, szSub]
  have : 2 ^ cfg.bits = 18446744073709551616 ∨ 2 ^ cfg.bits = 4294967296 := by
    unfold Cfg.bits; split <;> simp
  rcases this with h | h <;> rw [h] at ht ⊢ <;> omega

theorem mask_toNat {W s : Nat} (hs : s ≤ W) : (~~~0#W >>> s).toNat = 2 ^ (W - s) - 1 := by
  rw [BitVec.toNat_ushiftRight, BitVec.toNat_not, Nat.shiftRight_eq_div_pow]
  simp only [BitVec.toNat_ofNat, Nat.zero_mod, Nat.sub_zero]
  have h : 2 ^ W = 2 ^ (W - s) * 2 ^ s := by rw [← Nat.pow_add]; congr 1; omega
  have hp : 0 < 2 ^ s := Nat.two_pow_pos s
  have hq : 0 < 2 ^ (W - s) := Nat.two_pow_pos _
  rw [h]
  have : 2 ^ (W - s) * 2 ^ s - 1 = (2 ^ s - 1) + (2 ^ (W - s) - 1) * 2 ^ s := by
    rw [Nat.sub_mul, Nat.one_mul]
    have : 2 ^ s ≤ 2 ^ (W - s) * 2 ^ s := Nat.le_mul_of_pos_left _ hq
    omega
  rw [this, Nat.add_mul_div_right _ _ hp, Nat.div_eq_of_lt (by omega), Nat.zero_add]

theorem and_mask {W j v : Nat} (hj : j ≤ W) (hv : v < 2 ^ W) :
    BitVec.ofNat W v &&& (~~~0#W >>> (W - j)) = BitVec.ofNat W (v % 2 ^ j) := by
  apply BitVec.eq_of_toNat_eq
  rw [BitVec.toNat_and, mask_toNat (by omega), show W - (W - j) = j by omega,
    Nat.and_two_pow_sub_one_eq_mod, BitVec.toNat_ofNat, BitVec.toNat_ofNat, Nat.mod_eq_of_lt hv,
    Nat.mod_eq_of_lt (a := v % 2 ^ j)]
  exact Nat.lt_of_lt_of_le (Nat.mod_lt _ (Nat.two_pow_pos j)) (Nat.pow_le_pow_right (by decide) hj)

theorem shr_ofNat {W s v : Nat} (hv : v < 2 ^ W) :
    BitVec.ofNat W v >>> s = BitVec.ofNat W (v / 2 ^ s) := by
  apply BitVec.eq_of_toNat_eq
  rw [BitVec.toNat_ushiftRight, BitVec.toNat_ofNat, BitVec.toNat_ofNat, Nat.mod_eq_of_lt hv,
    Nat.shiftRight_eq_div_pow, Nat.mod_eq_of_lt]
  exact Nat.lt_of_le_of_lt (Nat.div_le_self _ _) hv

theorem pow256 (k : Nat) : 256 ^ k = 2 ^ (8 * k) := by
  rw [Nat.pow_mul]

section shots
variable {W n k : Nat} {bs : List Byte} (hW : W = 8 * n) (hl : bs.length = n) (hk : k ≤ n)
include hW hl hk

theorem oneshot_le_mask : BitVec.ofNat W (leVal bs) &&& (~~~0#W >>> ((n - k) <<< 3)) =
    BitVec.ofNat W (leVal (bs.take k)) := by
  have hv := leVal_lt bs
  rw [hl, pow256, ← hW] at hv
  rw [leVal_take, pow256, ← and_mask (j := 8 * k) (by omega) hv,
    show (n - k) <<< 3 = W - 8 * k by rw [Nat.shiftLeft_eq]; omega]

omit hk in
theorem oneshot_le_shift : BitVec.ofNat W (leVal bs) >>> ((n - k) <<< 3) =
    BitVec.ofNat W (leVal (bs.drop (n - k))) := by
  have hv := leVal_lt bs
  rw [hl, pow256, ← hW] at hv
  rw [leVal_drop, pow256, shr_ofNat hv, Nat.shiftLeft_eq, Nat.mul_comm 8]

theorem oneshot_be_mask : BitVec.ofNat W (beVal bs) &&& (~~~0#W >>> ((n - k) <<< 3)) =
    BitVec.ofNat W (beVal (bs.drop (n - k))) := by
  have := oneshot_le_mask (bs := bs.reverse) hW (by simpa using hl) hk
  rw [beVal_eq, beVal_eq, List.reverse_drop, hl, show n - (n - k) = k by omega]
  exact this

omit hk in
theorem oneshot_be_shift : BitVec.ofNat W (beVal bs) >>> ((n - k) <<< 3) =
    BitVec.ofNat W (beVal (bs.take k)) := by
  have := oneshot_le_shift (k := k) (bs := bs.reverse) hW (by simpa using hl)
  rw [beVal_eq, beVal_eq, List.reverse_take, hl]
  exact this
end shots

/-! ## Tails byte by byte -/

/-- One step of the little-endian byte loop. -/
theorem reads_le_step {m : List Byte} {d k : Nat} (hh : Holds w ov p m) (hl : m.length = k)
    (hP : Sub d P p k) (j : Nat) {r : U64} (hr : r = BitVec.ofNat 64 (256 * leVal (m.drop (j + 1)))) :
    Reads w ov P (fun a => a = p + j ∧ j < k) 0
      (if j + 1 ≤ k then do
        let b ← byteAt p j
        pure ((r + b.setWidth 64) <<< 8) else pure r)
      (BitVec.ofNat 64 (256 * leVal (m.drop j))) := by
  split
  · rename_i hj
    refine Exec.bindL ((reads_byteAt (b := m[j]) hh (by simp) (hP.rd _ _ (by omega) (by omega))).cov
      (fun a h => by simp only [range] at *; omega) rfl) ?_
    rintro b o ⟨rfl, rfl⟩
    refine Exec.pure _ ⟨?_, rfl⟩
    rw [hr, List.drop_eq_getElem_cons (i := j) (by omega)]
    apply BitVec.eq_of_toNat_eq
    have := m[j].isLt
    simp only [BitVec.toNat_shiftLeft, BitVec.toNat_add, BitVec.toNat_ofNat, BitVec.toNat_setWidth,
      leVal, Nat.shiftLeft_eq]
    omega
  · rename_i hj
    refine (Exec.pure _ ⟨?_, rfl⟩).cov (fun a h => by omega) rfl
    rw [hr, List.drop_eq_nil_of_le (by omega), List.drop_eq_nil_of_le (by omega)]

theorem reads_tail64_le_bytes {m : List Byte} {d k : Nat} (hh : Holds w ov p m) (hl : m.length = k)
    (h1 : 1 ≤ k) (h8 : k ≤ 8) (hP : Sub d P p k) :
    Reads w ov P (range p k) 0 (tail64_le_bytes p k) (BitVec.ofNat 64 (leVal m)) := by
  unfold tail64_le_bytes
  -- byte 7
  have h7 : Reads w ov P (fun a => a = p + 7 ∧ 7 < k) 0
      (if 8 ≤ k then do
        let b ← byteAt p 7
        pure ((b.setWidth 32 <<< 8 : U32).setWidth 64) else pure 0#64)
      (BitVec.ofNat 64 (256 * leVal (m.drop 7))) := by
    have := reads_le_step hh hl hP 7 (r := 0#64) (by rw [List.drop_eq_nil_of_le (by omega)]; rfl)
    have he : ∀ b : Byte, (b.setWidth 32 <<< 8 : U32).setWidth 64 = ((0#64) + b.setWidth 64) <<< 8 := by
      intro b
      apply BitVec.eq_of_toNat_eq
      have := b.isLt
      simp only [BitVec.toNat_shiftLeft, BitVec.zero_add,
        BitVec.toNat_setWidth, Nat.shiftLeft_eq]
      omega
    simp only [he]
    exact this
  refine Exec.cov (Reads.bind h7 <| Reads.bind (reads_le_step hh hl hP 6 rfl) <|
    Reads.bind (reads_le_step hh hl hP 5 rfl) <| Reads.bind (reads_le_step hh hl hP 4 rfl) <|
    Reads.bind (reads_le_step hh hl hP 3 rfl) <| Reads.bind (reads_le_step hh hl hP 2 rfl) <|
    Reads.bind (reads_le_step hh hl hP 1 rfl) <|
    Reads.bind (reads_byteAt (i := 0) (b := m[0]) hh (by simp) (hP.rd _ _ (by omega) (by omega))) <|
    Exec.pure _ ⟨?_, rfl⟩) (fun a h => ?_) rfl
  · conv => rhs; rw [← List.drop_zero (l := m), List.drop_eq_getElem_cons (i := 0) (by omega)]
    apply BitVec.eq_of_toNat_eq
    have := m[0].isLt
    simp only [BitVec.toNat_add, BitVec.toNat_ofNat, BitVec.toNat_setWidth, leVal, Nat.zero_add]
    omega
  · simp only [range] at *; omega

/-! ## Disjoint bits -/

theorem or_disj {W : Nat} {X Y : BitVec W} (s : Nat) (hx : 2 ^ s ∣ X.toNat) (hy : Y.toNat < 2 ^ s) :
    (X ||| Y).toNat = X.toNat + Y.toNat := by
  obtain ⟨q, hq⟩ := hx
  rw [BitVec.toNat_or, hq, Nat.two_pow_add_eq_or_of_lt hy]

theorem or_disj' {W : Nat} {X Y : BitVec W} (s : Nat) (hx : X.toNat < 2 ^ s) (hy : 2 ^ s ∣ Y.toNat) :
    (X ||| Y).toNat = X.toNat + Y.toNat := by
  rw [BitVec.or_comm, or_disj s hy hx, Nat.add_comm]

theorem shl_byte {W s : Nat} (b : Byte) (h : s + 8 ≤ W) :
    (b.setWidth W <<< s).toNat = b.toNat * 2 ^ s := by
  have hb := b.isLt
  have h1 : b.toNat * 2 ^ s < 2 ^ W := by
    calc b.toNat * 2 ^ s < 2 ^ 8 * 2 ^ s := Nat.mul_lt_mul_of_pos_right hb (Nat.two_pow_pos s)
      _ = 2 ^ (s + 8) := by rw [Nat.pow_add, Nat.mul_comm]
      _ ≤ 2 ^ W := Nat.pow_le_pow_right (by decide) h
  have h2 : b.toNat < 2 ^ W := Nat.lt_of_le_of_lt (Nat.le_mul_of_pos_right _ (Nat.two_pow_pos s)) h1
  rw [BitVec.toNat_shiftLeft, BitVec.toNat_setWidth, Nat.shiftLeft_eq, Nat.mod_eq_of_lt h2,
    Nat.mod_eq_of_lt h1]

theorem or_byte {W : Nat} {X : BitVec W} {v : Nat} (s : Nat) (b : Byte) (hX : X.toNat = v)
    (hv : v < 2 ^ s) (h : s + 8 ≤ W) : (X ||| b.setWidth W <<< s).toNat = v + b.toNat * 2 ^ s := by
  rw [or_disj' s (hX ▸ hv) (by rw [shl_byte b h]; exact Nat.dvd_mul_left _ _), shl_byte b h, hX]

theorem low1 (x : Byte) : (x.setWidth 32).toNat = x.toNat := by
  have := x.isLt
  rw [BitVec.toNat_setWidth]; omega

theorem low2 (x y : Byte) :
    (x.setWidth 32 ||| y.setWidth 32 <<< 8).toNat = x.toNat + y.toNat * 256 :=
  or_byte 8 y (low1 x) x.isLt (by decide)

theorem low3 (x y z : Byte) :
    (x.setWidth 32 ||| y.setWidth 32 <<< 8 ||| z.setWidth 32 <<< 16).toNat =
      x.toNat + y.toNat * 256 + z.toNat * 65536 :=
  or_byte 16 z (low2 x y) (by have := x.isLt; have := y.isLt; omega) (by decide)

theorem low4 (x y z u : Byte) :
    (x.setWidth 32 ||| y.setWidth 32 <<< 8 ||| z.setWidth 32 <<< 16 ||| u.setWidth 32 <<< 24).toNat =
      x.toNat + y.toNat * 256 + z.toNat * 65536 + u.toNat * 16777216 :=
  or_byte 24 u (low3 x y z) (by have := x.isLt; have := y.isLt; have := z.isLt; omega) (by decide)

theorem low4' (x y z u : Byte) :
    ((x.setWidth 32 ||| y.setWidth 32 <<< 8 ||| z.setWidth 32 <<< 16 ||| u.setWidth 32 <<< 24
      : U32).setWidth 64).toNat =
      x.toNat + y.toNat * 256 + z.toNat * 65536 + u.toNat * 16777216 := by
  rw [BitVec.toNat_setWidth, low4, Nat.mod_eq_of_lt]
  have := x.isLt; have := y.isLt; have := z.isLt; have := u.isLt; omega

/-- The `t`-th case of the byte-by-byte big-endian tail. -/
theorem reads_tail64_be_bytes {m : List Byte} {d k : Nat} (hh : Holds w ov p m) (hl : m.length = k)
    (h1 : 1 ≤ k) (h8 : k ≤ 8) (hP : Sub d P p k) :
    Reads w ov P (range p k) 0 (tail64_be_bytes p (k % 8)) (BitVec.ofNat 64 (beVal m)) := by
  unfold tail64_be_bytes
  have r : ∀ (i : Nat) (b : Byte), m[i]? = some b →
      Reads w ov P (range (p + i) 1) 0 (byteAt p i) b := fun i b hb =>
    reads_byteAt hh hb (hP.rd _ _ (by omega)
      (by have := (List.getElem?_eq_some_iff.1 hb).1; omega))
  rcases m with _ | ⟨b0, _ | ⟨b1, _ | ⟨b2, _ | ⟨b3, _ | ⟨b4, _ | ⟨b5, _ | ⟨b6, _ | ⟨b7, _ | ⟨b8, m⟩⟩⟩⟩⟩⟩⟩⟩⟩
  · simp at hl; omega
  · obtain rfl : k = 1 := hl.symm
    refine Exec.cov (Reads.bind (r 0 b0 rfl) <| Exec.pure _ ⟨?_, rfl⟩)
      (fun a h => by simp only [range, nowhere] at *; omega) rfl
    apply BitVec.eq_of_toNat_eq
    have := b0.isLt
    simp [beVal]
  · obtain rfl : k = 2 := hl.symm
    refine Exec.cov (Reads.bind (r 0 b0 rfl) <| Reads.bind (r 1 b1 rfl) <| Exec.pure _ ⟨?_, rfl⟩)
      (fun a h => by simp only [range, nowhere] at *; omega) rfl
    apply BitVec.eq_of_toNat_eq
    have := b0.isLt; have := b1.isLt
    rw [BitVec.toNat_setWidth, low2, BitVec.toNat_ofNat]
    simp only [beVal, List.foldl]
    omega
  · obtain rfl : k = 3 := hl.symm
    refine Exec.cov (Reads.bind (r 0 b0 rfl) <| Reads.bind (r 1 b1 rfl) <| Reads.bind (r 2 b2 rfl) <|
      Exec.pure _ ⟨?_, rfl⟩)
      (fun a h => by simp only [range, nowhere] at *; omega) rfl
    apply BitVec.eq_of_toNat_eq
    have := b0.isLt; have := b1.isLt; have := b2.isLt
    rw [BitVec.toNat_setWidth, low3, BitVec.toNat_ofNat]
    simp only [beVal, List.foldl]
    omega
  · obtain rfl : k = 4 := hl.symm
    refine Exec.cov (Reads.bind (r 0 b0 rfl) <| Reads.bind (r 1 b1 rfl) <| Reads.bind (r 2 b2 rfl) <|
      Reads.bind (r 3 b3 rfl) <| Exec.pure _ ⟨?_, rfl⟩)
      (fun a h => by simp only [range, nowhere] at *; omega) rfl
    apply BitVec.eq_of_toNat_eq
    have := b0.isLt; have := b1.isLt; have := b2.isLt; have := b3.isLt
    rw [BitVec.toNat_setWidth, low4, BitVec.toNat_ofNat]
    simp only [beVal, List.foldl]
    omega
  · obtain rfl : k = 5 := hl.symm
    refine Exec.cov (Reads.bind (r 0 b0 rfl) <| Reads.bind (r 1 b1 rfl) <| Reads.bind (r 2 b2 rfl) <|
      Reads.bind (r 3 b3 rfl) <| Reads.bind (r 4 b4 rfl) <| Exec.pure _ ⟨?_, rfl⟩)
      (fun a h => by simp only [range, nowhere] at *; omega) rfl
    apply BitVec.eq_of_toNat_eq
    have := b0.isLt; have := b1.isLt; have := b2.isLt; have := b3.isLt; have := b4.isLt
    rw [or_byte 32 b0 (low4' b4 b3 b2 b1) (by omega) (by decide), BitVec.toNat_ofNat]
    simp only [beVal, List.foldl]
    omega
  · obtain rfl : k = 6 := hl.symm
    refine Exec.cov (Reads.bind (r 0 b0 rfl) <| Reads.bind (r 1 b1 rfl) <| Reads.bind (r 2 b2 rfl) <|
      Reads.bind (r 3 b3 rfl) <| Reads.bind (r 4 b4 rfl) <| Reads.bind (r 5 b5 rfl) <|
      Exec.pure _ ⟨?_, rfl⟩)
      (fun a h => by simp only [range, nowhere] at *; omega) rfl
    apply BitVec.eq_of_toNat_eq
    have := b0.isLt; have := b1.isLt; have := b2.isLt; have := b3.isLt; have := b4.isLt
    have := b5.isLt
    rw [or_byte 40 b0 (or_byte 32 b1 (low4' b5 b4 b3 b2) (by omega) (by decide)) (by omega) (by decide),
      BitVec.toNat_ofNat]
    simp only [beVal, List.foldl]
    omega
  · obtain rfl : k = 7 := hl.symm
    refine Exec.cov (Reads.bind (r 0 b0 rfl) <| Reads.bind (r 1 b1 rfl) <| Reads.bind (r 2 b2 rfl) <|
      Reads.bind (r 3 b3 rfl) <| Reads.bind (r 4 b4 rfl) <| Reads.bind (r 5 b5 rfl) <|
      Reads.bind (r 6 b6 rfl) <| Exec.pure _ ⟨?_, rfl⟩)
      (fun a h => by simp only [range, nowhere] at *; omega) rfl
    apply BitVec.eq_of_toNat_eq
    have := b0.isLt; have := b1.isLt; have := b2.isLt; have := b3.isLt; have := b4.isLt
    have := b5.isLt; have := b6.isLt
    rw [or_byte 48 b0 (or_byte 40 b1 (or_byte 32 b2 (low4' b6 b5 b4 b3) (by omega) (by decide))
      (by omega) (by decide)) (by omega) (by decide), BitVec.toNat_ofNat]
    simp only [beVal, List.foldl]
    omega
  · obtain rfl : k = 8 := hl.symm
    refine Exec.cov (Reads.bind (r 0 b0 rfl) <| Reads.bind (r 1 b1 rfl) <| Reads.bind (r 2 b2 rfl) <|
      Reads.bind (r 3 b3 rfl) <| Reads.bind (r 4 b4 rfl) <| Reads.bind (r 5 b5 rfl) <|
      Reads.bind (r 6 b6 rfl) <| Reads.bind (r 7 b7 rfl) <| Exec.pure _ ⟨?_, rfl⟩)
      (fun a h => by simp only [range, nowhere] at *; omega) rfl
    apply BitVec.eq_of_toNat_eq
    have := b0.isLt; have := b1.isLt; have := b2.isLt; have := b3.isLt; have := b4.isLt
    have := b5.isLt; have := b6.isLt; have := b7.isLt
    rw [or_byte 56 b0 (or_byte 48 b1 (or_byte 40 b2 (or_byte 32 b3 (low4' b7 b6 b5 b4) (by omega)
      (by decide)) (by omega) (by decide)) (by omega) (by decide)) (by omega) (by decide),
      BitVec.toNat_ofNat]
    simp only [beVal, List.foldl]
    omega
  · simp at hl; omega

/-! ## Tails made of 32-bit and 16-bit fetches -/

/-- The little-endian `switch` with wide fetches (src/t1ha_bits.h:614-640, 703-731). -/
def tail64_le_wide (f16 : M U16) (f32 : M U32) (f64 : M U64) (p t : Nat) : M U64 :=
  if t = 0 then f64
  else if 4 ≤ t then do
    let r : U64 := 0#64
    let r ← (if 7 ≤ t then do
        let b ← byteAt p 6
        pure (b.setWidth 64 <<< 8)
      else pure r)
    let r ← (if 6 ≤ t then do
        let b ← byteAt p 5
        pure ((r + b.setWidth 64) <<< 8)
      else pure r)
    let r ← (if 5 ≤ t then do
        let b ← byteAt p 4
        pure ((r + b.setWidth 64) <<< 32)
      else pure r)
    let x ← f32
    pure (r + x.setWidth 64)
  else if 2 ≤ t then do
    let r : U64 := 0#64
    let r ← (if 3 ≤ t then do
        let b ← byteAt p 2
        pure (b.setWidth 64 <<< 16)
      else pure r)
    let x ← f16
    pure (r + x.setWidth 64)
  else do
    let b ← byteAt p 0
    pure (b.setWidth 64)

theorem add_shl_byte {W : Nat} {r : BitVec W} {v : Nat} (s : Nat) (b : Byte) (hr : r.toNat = v)
    (hW : 8 ≤ W) (hv : (v + b.toNat) * 2 ^ s < 2 ^ W) :
    ((r + b.setWidth W) <<< s).toNat = (v + b.toNat) * 2 ^ s := by
  have hb : b.toNat < 2 ^ W :=
    Nat.lt_of_lt_of_le b.isLt (Nat.pow_le_pow_right (by decide) hW)
  have h1 : v + b.toNat < 2 ^ W :=
    Nat.lt_of_le_of_lt (Nat.le_mul_of_pos_right _ (Nat.two_pow_pos s)) hv
  rw [BitVec.toNat_shiftLeft, BitVec.toNat_add, BitVec.toNat_setWidth, Nat.shiftLeft_eq,
    Nat.mod_eq_of_lt hb, hr, Nat.mod_eq_of_lt h1, Nat.mod_eq_of_lt hv]

theorem add_fetch {W n k : Nat} {r : BitVec W} {v : Nat} {bs : List Byte} (hr : r.toNat = v)
    (hl : bs.length = k) (hk : 256 ^ k = 2 ^ n) (hv : v + leVal bs < 2 ^ W) :
    (r + (BitVec.ofNat n (leVal bs)).setWidth W) = BitVec.ofNat W (v + leVal bs) := by
  have h := leVal_lt bs
  rw [hl, hk] at h
  apply BitVec.eq_of_toNat_eq
  rw [BitVec.toNat_add, BitVec.toNat_setWidth, BitVec.toNat_ofNat, BitVec.toNat_ofNat, hr,
    Nat.mod_eq_of_lt h, Nat.mod_eq_of_lt (a := leVal bs) (by omega)]

theorem reads_tail64_le_wide {m : List Byte} {d k : Nat} {f16 : M U16} {f32 : M U32} {f64 : M U64}
    (hh : Holds w ov p m) (hl : m.length = k) (h1 : 1 ≤ k) (h8 : k ≤ 8) (hP : Sub d P p k)
    (h16 : 2 ≤ k → Exec w ov P (range p 2) 0 f16 (Fetched 16 .little w ov p 2))
    (h32 : 4 ≤ k → Exec w ov P (range p 4) 0 f32 (Fetched 32 .little w ov p 4))
    (h64 : 8 ≤ k → Exec w ov P (range p 8) 0 f64 (Fetched 64 .little w ov p 8)) :
    Reads w ov P (range p k) 0 (tail64_le_wide f16 f32 f64 p (k % 8)) (BitVec.ofNat 64 (leVal m)) := by
  unfold tail64_le_wide
  have r : ∀ (i : Nat) (b : Byte), m[i]? = some b →
      Reads w ov P (range (p + i) 1) 0 (byteAt p i) b := fun i b hb =>
    reads_byteAt hh hb (hP.rd _ _ (by omega)
      (by have := (List.getElem?_eq_some_iff.1 hb).1; omega))
  have r16 : 2 ≤ k → Reads w ov P (range p 2) 0 f16 (BitVec.ofNat 16 (leVal (m.take 2))) := fun hk =>
    Fetched.reads (h16 hk) (hh.take 2) (by simp; omega)
  have r32 : 4 ≤ k → Reads w ov P (range p 4) 0 f32 (BitVec.ofNat 32 (leVal (m.take 4))) := fun hk =>
    Fetched.reads (h32 hk) (hh.take 4) (by simp; omega)
  have r64 : 8 ≤ k → Reads w ov P (range p 8) 0 f64 (BitVec.ofNat 64 (leVal m)) := fun hk =>
    Fetched.reads (h64 hk) hh (by omega)
  rcases m with _ | ⟨b0, _ | ⟨b1, _ | ⟨b2, _ | ⟨b3, _ | ⟨b4, _ | ⟨b5, _ | ⟨b6, _ | ⟨b7, _ | ⟨b8, m⟩⟩⟩⟩⟩⟩⟩⟩⟩
  · simp at hl; omega
  · obtain rfl : k = 1 := hl.symm
    refine Exec.cov (Reads.bind (r 0 b0 rfl) <| Exec.pure _ ⟨?_, rfl⟩)
      (fun a h => by simp only [range, nowhere] at *; omega) rfl
    apply BitVec.eq_of_toNat_eq
    have := b0.isLt
    simp [leVal]
  · obtain rfl : k = 2 := hl.symm
    simp only [Nat.reduceMod, Nat.reduceLeDiff, reduceIte, pure_bind, Nat.reduceEqDiff]
    have := b0.isLt; have := b1.isLt
    refine Exec.cov (Reads.bind (r16 (by decide)) <| Exec.pure _ ⟨?_, rfl⟩)
      (fun a h => by simp only [range, nowhere] at *; omega) rfl
    have hv := add_fetch (W := 64) (n := 16) (bs := [b0, b1]) (k := 2) (r := 0#64) (v := 0) rfl rfl (by decide)
      (by simp only [leVal]; omega)
    refine hv.trans (congrArg (BitVec.ofNat 64) ?_)
    simp only [leVal]
    omega
  · obtain rfl : k = 3 := hl.symm
    simp only [Nat.reduceMod, Nat.reduceLeDiff, reduceIte, bind_assoc, pure_bind, Nat.reduceEqDiff]
    have := b0.isLt; have := b1.isLt; have := b2.isLt
    refine Exec.cov (Reads.bind (r 2 b2 rfl) <| Reads.bind (r16 (by decide)) <| Exec.pure _ ⟨?_, rfl⟩)
      (fun a h => by simp only [range, nowhere] at *; omega) rfl
    have hv := add_fetch (W := 64) (n := 16) (bs := [b0, b1]) (k := 2) (shl_byte (W := 64) (s := 16) b2 (by decide)) rfl (by decide)
      (by simp only [leVal]; omega)
    refine hv.trans (congrArg (BitVec.ofNat 64) ?_)
    simp only [leVal]
    omega
  · obtain rfl : k = 4 := hl.symm
    simp only [Nat.reduceMod, Nat.reduceLeDiff, reduceIte, pure_bind, Nat.reduceEqDiff]
    have := b0.isLt; have := b1.isLt; have := b2.isLt; have := b3.isLt
    refine Exec.cov (Reads.bind (r32 (by decide)) <| Exec.pure _ ⟨?_, rfl⟩)
      (fun a h => by simp only [range, nowhere] at *; omega) rfl
    have hv := add_fetch (W := 64) (n := 32) (bs := [b0, b1, b2, b3]) (k := 4) (r := 0#64) (v := 0) rfl rfl (by decide)
      (by simp only [leVal]; omega)
    refine hv.trans (congrArg (BitVec.ofNat 64) ?_)
    simp only [leVal]
    omega
  · obtain rfl : k = 5 := hl.symm
    simp only [Nat.reduceMod, Nat.reduceLeDiff, reduceIte, bind_assoc, pure_bind, Nat.reduceEqDiff]
    have := b0.isLt; have := b1.isLt; have := b2.isLt; have := b3.isLt; have := b4.isLt
    refine Exec.cov (Reads.bind (r 4 b4 rfl) <| Reads.bind (r32 (by decide)) <| Exec.pure _ ⟨?_, rfl⟩)
      (fun a h => by simp only [range, nowhere] at *; omega) rfl
    have hv := add_fetch (W := 64) (n := 32) (bs := [b0, b1, b2, b3]) (k := 4) (add_shl_byte (W := 64) 32 b4 (r := 0#64) (v := 0) rfl (by decide) (by omega)) rfl (by decide)
      (by simp only [leVal]; omega)
    refine hv.trans (congrArg (BitVec.ofNat 64) ?_)
    simp only [leVal]
    omega
  · obtain rfl : k = 6 := hl.symm
    simp only [Nat.reduceMod, Nat.reduceLeDiff, reduceIte, bind_assoc, pure_bind, Nat.reduceEqDiff]
    have := b0.isLt; have := b1.isLt; have := b2.isLt; have := b3.isLt; have := b4.isLt; have := b5.isLt
    refine Exec.cov (Reads.bind (r 5 b5 rfl) <| Reads.bind (r 4 b4 rfl) <| Reads.bind (r32 (by decide)) <| Exec.pure _ ⟨?_, rfl⟩)
      (fun a h => by simp only [range, nowhere] at *; omega) rfl
    have hv := add_fetch (W := 64) (n := 32) (bs := [b0, b1, b2, b3]) (k := 4) (add_shl_byte (W := 64) 32 b4 (add_shl_byte (W := 64) 8 b5 (r := 0#64) (v := 0) rfl (by decide) (by omega)) (by decide) (by omega)) rfl (by decide)
      (by simp only [leVal]; omega)
    refine hv.trans (congrArg (BitVec.ofNat 64) ?_)
    simp only [leVal]
    omega
  · obtain rfl : k = 7 := hl.symm
    simp only [Nat.reduceMod, Nat.reduceLeDiff, reduceIte, bind_assoc, pure_bind, Nat.reduceEqDiff]
    have := b0.isLt; have := b1.isLt; have := b2.isLt; have := b3.isLt; have := b4.isLt; have := b5.isLt; have := b6.isLt
    refine Exec.cov (Reads.bind (r 6 b6 rfl) <| Reads.bind (r 5 b5 rfl) <| Reads.bind (r 4 b4 rfl) <| Reads.bind (r32 (by decide)) <| Exec.pure _ ⟨?_, rfl⟩)
      (fun a h => by simp only [range, nowhere] at *; omega) rfl
    have hv := add_fetch (W := 64) (n := 32) (bs := [b0, b1, b2, b3]) (k := 4) (add_shl_byte (W := 64) 32 b4 (add_shl_byte (W := 64) 8 b5 (shl_byte (W := 64) (s := 8) b6 (by decide)) (by decide) (by omega)) (by decide) (by omega)) rfl (by decide)
      (by simp only [leVal]; omega)
    refine hv.trans (congrArg (BitVec.ofNat 64) ?_)
    simp only [leVal]
    omega
  · obtain rfl : k = 8 := hl.symm
    simp only [Nat.reduceMod, reduceIte]
    exact r64 (by decide)
  · simp at hl; omega

theorem toNat_fetch {W n k : Nat} {bs : List Byte} (hl : bs.length = k) (hk : 256 ^ k = 2 ^ n)
    (hW : n ≤ W) : ((BitVec.ofNat n (beVal bs)).setWidth W).toNat = beVal bs := by
  have h := beVal_lt bs
  rw [hl, hk] at h
  rw [BitVec.toNat_setWidth, BitVec.toNat_ofNat, Nat.mod_eq_of_lt h,
    Nat.mod_eq_of_lt (Nat.lt_of_lt_of_le h (Nat.pow_le_pow_right (by decide) hW))]

theorem toNat_fetch_shl {W n k s : Nat} {bs : List Byte} (hl : bs.length = k) (hk : 256 ^ k = 2 ^ n)
    (hW : n + s ≤ W) : ((BitVec.ofNat n (beVal bs)).setWidth W <<< s).toNat = beVal bs * 2 ^ s := by
  have h := beVal_lt bs
  rw [hl, hk] at h
  rw [BitVec.toNat_shiftLeft, toNat_fetch hl hk (by omega), Nat.shiftLeft_eq, Nat.mod_eq_of_lt]
  calc beVal bs * 2 ^ s < 2 ^ n * 2 ^ s := Nat.mul_lt_mul_of_pos_right h (Nat.two_pow_pos s)
    _ = 2 ^ (n + s) := by rw [Nat.pow_add]
    _ ≤ 2 ^ W := Nat.pow_le_pow_right (by decide) hW

/-- Cases of `tail64_be_aligned` on big-endian machines (src/t1ha_bits.h:857-877). -/
def tail64_be_wide (f16 f16' : M U16) (f32 : M U32) (f64 : M U64) (p t : Nat) : M U64 :=
  match t with
  | 1 => do
    let p0 ← byteAt p 0
    pure (p0.setWidth 64)
  | 2 => do
    let x ← f16
    pure (x.setWidth 64)
  | 3 => do
    let x ← f16
    let p2 ← byteAt p 2
    pure ((x.setWidth 32 <<< 8 ||| p2.setWidth 32 : U32).setWidth 64)
  | 4 => do
    let x ← f32
    pure (x.setWidth 64)
  | 5 => do
    let x ← f32
    let p4 ← byteAt p 4
    pure (x.setWidth 64 <<< 8 ||| p4.setWidth 64)
  | 6 => do
    let x ← f32
    let y ← f16'
    pure (x.setWidth 64 <<< 16 ||| y.setWidth 64)
  | 7 => do
    let x ← f32
    let y ← f16'
    let p6 ← byteAt p 6
    pure (x.setWidth 64 <<< 24 ||| (y.setWidth 32 <<< 8 : U32).setWidth 64 ||| p6.setWidth 64)
  | 0 => f64
  | _ => fail .unreachable

theorem byte_toNat {W : Nat} (b : Byte) (h : 8 ≤ W) : (b.setWidth W).toNat = b.toNat := by
  rw [BitVec.toNat_setWidth, Nat.mod_eq_of_lt]
  exact Nat.lt_of_lt_of_le b.isLt (Nat.pow_le_pow_right (by decide) h)

theorem reads_tail64_be_wide {m : List Byte} {d k : Nat} {f16 f16' : M U16} {f32 : M U32} {f64 : M U64}
    (hh : Holds w ov p m) (hl : m.length = k) (h1 : 1 ≤ k) (h8 : k ≤ 8) (hP : Sub d P p k)
    (h16 : 2 ≤ k → Exec w ov P (range p 2) 0 f16 (Fetched 16 .big w ov p 2))
    (h16' : 6 ≤ k → Exec w ov P (range (p + 4) 2) 0 f16' (Fetched 16 .big w ov (p + 4) 2))
    (h32 : 4 ≤ k → Exec w ov P (range p 4) 0 f32 (Fetched 32 .big w ov p 4))
    (h64 : 8 ≤ k → Exec w ov P (range p 8) 0 f64 (Fetched 64 .big w ov p 8)) :
    Reads w ov P (range p k) 0 (tail64_be_wide f16 f16' f32 f64 p (k % 8))
      (BitVec.ofNat 64 (beVal m)) := by
  unfold tail64_be_wide
  have r : ∀ (i : Nat) (b : Byte), m[i]? = some b →
      Reads w ov P (range (p + i) 1) 0 (byteAt p i) b := fun i b hb =>
    reads_byteAt hh hb (hP.rd _ _ (by omega)
      (by have := (List.getElem?_eq_some_iff.1 hb).1; omega))
  have r16 : 2 ≤ k → Reads w ov P (range p 2) 0 f16 (BitVec.ofNat 16 (beVal (m.take 2))) := fun hk =>
    Fetched.reads (h16 hk) (hh.take 2) (by simp; omega)
  have r16' : 6 ≤ k → Reads w ov P (range (p + 4) 2) 0 f16'
      (BitVec.ofNat 16 (beVal ((m.drop 4).take 2))) := fun hk =>
    Fetched.reads (h16' hk) (hh.slice 4 2) (by simp; omega)
  have r32 : 4 ≤ k → Reads w ov P (range p 4) 0 f32 (BitVec.ofNat 32 (beVal (m.take 4))) := fun hk =>
    Fetched.reads (h32 hk) (hh.take 4) (by simp; omega)
  have r64 : 8 ≤ k → Reads w ov P (range p 8) 0 f64 (BitVec.ofNat 64 (beVal m)) := fun hk =>
    Fetched.reads (h64 hk) hh (by omega)
  rcases m with _ | ⟨b0, _ | ⟨b1, _ | ⟨b2, _ | ⟨b3, _ | ⟨b4, _ | ⟨b5, _ | ⟨b6, _ | ⟨b7, _ | ⟨b8, m⟩⟩⟩⟩⟩⟩⟩⟩⟩
  · simp at hl; omega
  · obtain rfl : k = 1 := hl.symm
    refine Exec.cov (Reads.bind (r 0 b0 rfl) <| Exec.pure _ ⟨?_, rfl⟩)
      (fun a h => by simp only [range, nowhere] at *; omega) rfl
    apply BitVec.eq_of_toNat_eq
    have := b0.isLt
    simp [beVal]
  · obtain rfl : k = 2 := hl.symm
    refine Exec.cov (Reads.bind (r16 (by decide)) <| Exec.pure _ ⟨?_, rfl⟩)
      (fun a h => by simp only [range, nowhere] at *; omega) rfl
    apply BitVec.eq_of_toNat_eq
    have hlt := beVal_lt [b0, b1]
    rw [show List.take 2 [b0, b1] = [b0, b1] by rfl, toNat_fetch (k := 2) rfl (by decide) (by decide),
      BitVec.toNat_ofNat, Nat.mod_eq_of_lt]
    simp only [List.length_cons, List.length_nil] at hlt; omega
  · obtain rfl : k = 3 := hl.symm
    refine Exec.cov (Reads.bind (r16 (by decide)) <| Reads.bind (r 2 b2 rfl) <| Exec.pure _ ⟨?_, rfl⟩)
      (fun a h => by simp only [range, nowhere] at *; omega) rfl
    have := b0.isLt; have := b1.isLt; have := b2.isLt
    have e1 := toNat_fetch_shl (W := 32) (n := 16) (k := 2) (s := 8) (bs := [b0, b1]) rfl (by decide)
      (by decide)
    have e2 := byte_toNat (W := 32) b2 (by decide)
    apply BitVec.eq_of_toNat_eq
    rw [show List.take 2 [b0, b1, b2] = [b0, b1] by rfl, BitVec.toNat_setWidth,
      or_disj 8 (by rw [e1]; exact Nat.dvd_mul_left _ _) (by rw [e2]; omega), e1, e2,
      BitVec.toNat_ofNat]
    simp only [beVal, List.foldl]
    omega
  · obtain rfl : k = 4 := hl.symm
    refine Exec.cov (Reads.bind (r32 (by decide)) <| Exec.pure _ ⟨?_, rfl⟩)
      (fun a h => by simp only [range, nowhere] at *; omega) rfl
    apply BitVec.eq_of_toNat_eq
    have hlt := beVal_lt [b0, b1, b2, b3]
    rw [show List.take 4 [b0, b1, b2, b3] = [b0, b1, b2, b3] by rfl,
      toNat_fetch (k := 4) rfl (by decide) (by decide), BitVec.toNat_ofNat, Nat.mod_eq_of_lt]
    simp only [List.length_cons, List.length_nil] at hlt; omega
  · obtain rfl : k = 5 := hl.symm
    refine Exec.cov (Reads.bind (r32 (by decide)) <| Reads.bind (r 4 b4 rfl) <| Exec.pure _ ⟨?_, rfl⟩)
      (fun a h => by simp only [range, nowhere] at *; omega) rfl
    have := b0.isLt; have := b1.isLt; have := b2.isLt; have := b3.isLt; have := b4.isLt
    have e1 := toNat_fetch_shl (W := 64) (n := 32) (k := 4) (s := 8) (bs := [b0, b1, b2, b3]) rfl
      (by decide) (by decide)
    have e2 := byte_toNat (W := 64) b4 (by decide)
    apply BitVec.eq_of_toNat_eq
    rw [show List.take 4 [b0, b1, b2, b3, b4] = [b0, b1, b2, b3] by rfl,
      or_disj 8 (by rw [e1]; exact Nat.dvd_mul_left _ _) (by rw [e2]; omega), e1, e2,
      BitVec.toNat_ofNat]
    simp only [beVal, List.foldl]
    omega
  · obtain rfl : k = 6 := hl.symm
    refine Exec.cov (Reads.bind (r32 (by decide)) <| Reads.bind (r16' (by decide)) <|
      Exec.pure _ ⟨?_, rfl⟩)
      (fun a h => by simp only [range, nowhere] at *; omega) rfl
    have := b0.isLt; have := b1.isLt; have := b2.isLt; have := b3.isLt; have := b4.isLt
    have := b5.isLt
    have e1 := toNat_fetch_shl (W := 64) (n := 32) (k := 4) (s := 16) (bs := [b0, b1, b2, b3]) rfl
      (by decide) (by decide)
    have e2 := toNat_fetch (W := 64) (n := 16) (k := 2) (bs := [b4, b5]) rfl (by decide) (by decide)
    apply BitVec.eq_of_toNat_eq
    rw [show List.take 4 [b0, b1, b2, b3, b4, b5] = [b0, b1, b2, b3] by rfl,
      show List.take 2 (List.drop 4 [b0, b1, b2, b3, b4, b5]) = [b4, b5] by rfl,
      or_disj 16 (by rw [e1]; exact Nat.dvd_mul_left _ _)
        (by rw [e2]; simp only [beVal, List.foldl]; omega), e1, e2,
      BitVec.toNat_ofNat]
    simp only [beVal, List.foldl]
    omega
  · obtain rfl : k = 7 := hl.symm
    refine Exec.cov (Reads.bind (r32 (by decide)) <| Reads.bind (r16' (by decide)) <|
      Reads.bind (r 6 b6 rfl) <| Exec.pure _ ⟨?_, rfl⟩)
      (fun a h => by simp only [range, nowhere] at *; omega) rfl
    have := b0.isLt; have := b1.isLt; have := b2.isLt; have := b3.isLt; have := b4.isLt
    have := b5.isLt; have := b6.isLt
    have e1 := toNat_fetch_shl (W := 64) (n := 32) (k := 4) (s := 24) (bs := [b0, b1, b2, b3]) rfl
      (by decide) (by decide)
    have e2 := toNat_fetch_shl (W := 32) (n := 16) (k := 2) (s := 8) (bs := [b4, b5]) rfl (by decide)
      (by decide)
    have e2' : (((BitVec.ofNat 16 (beVal [b4, b5])).setWidth 32 <<< 8 : U32).setWidth 64).toNat =
        beVal [b4, b5] * 2 ^ 8 := by
      rw [BitVec.toNat_setWidth, e2]
      simp only [beVal, List.foldl]
      omega
    have e3 := byte_toNat (W := 64) b6 (by decide)
    have e4 := or_disj (W := 64) (X := (BitVec.ofNat 32 (beVal [b0, b1, b2, b3])).setWidth 64 <<< 24)
      (Y := ((BitVec.ofNat 16 (beVal [b4, b5])).setWidth 32 <<< 8 : U32).setWidth 64) 24
      (by rw [e1]; exact Nat.dvd_mul_left _ _)
      (by rw [e2']; simp only [beVal, List.foldl]; omega)
    rw [e1, e2'] at e4
    apply BitVec.eq_of_toNat_eq
    rw [show List.take 4 [b0, b1, b2, b3, b4, b5, b6] = [b0, b1, b2, b3] by rfl,
      show List.take 2 (List.drop 4 [b0, b1, b2, b3, b4, b5, b6]) = [b4, b5] by rfl,
      or_disj 8 (by rw [e4]; omega) (by rw [e3]; omega), e4, e3,
      BitVec.toNat_ofNat]
    simp only [beVal, List.foldl]
    omega
  · obtain rfl : k = 8 := hl.symm
    exact r64 (by decide)
  · simp at hl; omega

/-! ## All tails -/

/-- What a tail of `k` bytes at `p` may read. The bytes read besides those of the tail have to be
mapped. -/
def TailOk (cfg : Cfg) (al : Aligness) (w : World) (P : Ev → Prop) (p k : Nat) : Prop :=
  match al with
  | .aligned => p % cfg.alignment64 = 0 ∧
    (if cfg.alignedOneshot then Mapped w p 8 ∧ Sub 0 P p 8 else Sub 0 P p k)
  | .unaligned =>
    if cfg.canReadUnderside && cfg.word64 then
      if can_read_underside cfg p 8 then
        8 - k ≤ p ∧ P (.ptr (p - (8 - k))) ∧ Mapped w (p - (8 - k)) 8 ∧
          Sub (cfg.gap .unaligned 8) P (p - (8 - k)) 8
      else Mapped w p 8 ∧ Sub (cfg.gap .unaligned 8) P p 8
    else Sub 0 P p k

theorem alignment64_cases (cfg : Cfg) : cfg.alignment64 = 8 ∨ cfg.alignment64 = 4 := by
  unfold Cfg.alignment64; split <;> simp

theorem Seen.take_eq {bs m : List Byte} {k : Nat} (hs : Seen w ov p bs) (hh : Holds w ov p m)
    (hl : m.length = k) (hk : k ≤ bs.length) : bs.take k = m :=
  (hs.take k).eq_of_holds hh (by simp; omega)

theorem Seen.drop_eq {bs m : List Byte} {j k : Nat} (hs : Seen w ov (p - j) bs) (hh : Holds w ov p m)
    (hj : j ≤ p) (hl : m.length = k) (hk : bs.length = j + k) : bs.drop j = m :=
  Seen.eq_of_holds (by have := hs.drop j; rwa [Nat.sub_add_cancel hj] at this) hh (by simp; omega)

section tails
variable {m : List Byte} {k tail : Nat} (hh : Holds w ov p m) (hl : m.length = k) (h1 : 1 ≤ k)
  (h8 : k ≤ 8) (ht : tail < 2 ^ cfg.bits) (hk : tail % 8 = k % 8)
include hh hl h1 h8 ht hk

theorem reads_tail64_le_aligned (hok : TailOk cfg .aligned w P p k) :
    Reads w ov P (range p k) 0 (tail64_le_aligned cfg p tail) (BitVec.ofNat 64 (leVal m)) := by
  obtain ⟨ha, hok⟩ := hok
  have ha4 : p % 4 = 0 := by rcases alignment64_cases cfg with h | h <;> rw [h] at ha <;> omega
  unfold tail64_le_aligned
  split
  · rename_i hone
    rw [if_pos hone] at hok
    refine Exec.bindL ((exec_fetch64_le_aligned hok.1 hok.2 ha).cov
      (fun a h => by simp only [range] at *; omega) rfl) ?_
    rintro x o ⟨rfl, bs, hbl, hs, rfl⟩
    refine Exec.pure _ ⟨?_, rfl⟩
    rw [szSub_and7 ht h1 h8 hk, Endian.val, oneshot_le_mask rfl hbl h8, hs.take_eq hh hl (by omega)]
  · rename_i hone
    rw [if_neg hone] at hok
    have e7 : tail &&& 7 = k % 8 := by
      rw [show (7 : Nat) = 2 ^ 3 - 1 by rfl, Nat.and_two_pow_sub_one_eq_mod, ← hk]
    simp only [e7]
    have hm := hh.mapped
    rw [hl] at hm
    split
    · exact reads_tail64_le_wide hh hl h1 h8 hok
        (fun h => exec_fetch16_le_aligned (hm.sub (by omega) (by omega)) (hok.mono (by omega) (by omega))
          (by omega))
        (fun h => exec_fetch32_le_aligned (hm.sub (by omega) (by omega)) (hok.mono (by omega) (by omega))
          (by omega))
        (fun h => exec_fetch64_le_aligned (hm.sub (by omega) (by omega)) (hok.mono (by omega) (by omega))
          ha)
    · rw [show (if k % 8 = 0 then 8 else k % 8) = k by split <;> omega]
      exact reads_tail64_le_bytes hh hl h1 h8 hok

theorem reads_tail64_be_aligned (hok : TailOk cfg .aligned w P p k) :
    Reads w ov P (range p k) 0 (tail64_be_aligned cfg p tail) (BitVec.ofNat 64 (beVal m)) := by
  obtain ⟨ha, hok⟩ := hok
  have ha4 : p % 4 = 0 := by rcases alignment64_cases cfg with h | h <;> rw [h] at ha <;> omega
  unfold tail64_be_aligned
  split
  · rename_i hone
    rw [if_pos hone] at hok
    refine Exec.bindL ((exec_fetch64_be_aligned hok.1 hok.2 ha).cov
      (fun a h => by simp only [range] at *; omega) rfl) ?_
    rintro x o ⟨rfl, bs, hbl, hs, rfl⟩
    refine Exec.pure _ ⟨?_, rfl⟩
    rw [szSub_and7 ht h1 h8 hk, Endian.val, oneshot_be_shift rfl hbl, hs.take_eq hh hl (by omega)]
  · rename_i hone
    rw [if_neg hone] at hok
    have e7 : tail &&& 7 = k % 8 := by
      rw [show (7 : Nat) = 2 ^ 3 - 1 by rfl, Nat.and_two_pow_sub_one_eq_mod, ← hk]
    simp only [e7]
    have hm := hh.mapped
    rw [hl] at hm
    cases cfg.endian
    · exact reads_tail64_be_bytes hh hl h1 h8 hok
    · exact reads_tail64_be_wide hh hl h1 h8 hok
        (fun h => exec_fetch16_be_aligned (hm.sub (by omega) (by omega)) (hok.mono (by omega) (by omega))
          (by omega))
        (fun h => exec_fetch16_be_aligned (hm.sub (by omega) (by omega)) (hok.mono (by omega) (by omega))
          (by omega))
        (fun h => exec_fetch32_be_aligned (hm.sub (by omega) (by omega)) (hok.mono (by omega) (by omega))
          (by omega))
        (fun h => exec_fetch64_be_aligned (hm.sub (by omega) (by omega)) (hok.mono (by omega) (by omega))
          ha)

theorem reads_tail64_le_unaligned (hok : TailOk cfg .unaligned w P p k) :
    Reads w ov P (range p k) 0 (tail64_le_unaligned cfg p tail) (BitVec.ofNat 64 (leVal m)) := by
  simp only [TailOk] at hok
  unfold tail64_le_unaligned
  split
  · rename_i hone
    rw [if_pos hone] at hok
    simp only [szSub_and7 ht h1 h8 hk]
    split
    · rename_i hu
      rw [if_pos hu] at hok
      obtain ⟨hp, hpt, hm, hP⟩ := hok
      refine Exec.bindR (Reads.ptrSub hp hpt) ?_
      refine Exec.bindL ((exec_fetch64_le_unaligned hm hP).cov
        (fun a h => by simp only [range] at *; omega) rfl) ?_
      rintro x o ⟨rfl, bs, hbl, hs, rfl⟩
      refine Exec.pure _ ⟨?_, rfl⟩
      rw [Endian.val, oneshot_le_shift rfl hbl, hs.drop_eq hh hp hl (by omega)]
    · rename_i hu
      rw [if_neg hu] at hok
      refine Exec.bindL ((exec_fetch64_le_unaligned hok.1 hok.2).cov
        (fun a h => by simp only [range] at *; omega) rfl) ?_
      rintro x o ⟨rfl, bs, hbl, hs, rfl⟩
      refine Exec.pure _ ⟨?_, rfl⟩
      rw [Endian.val, oneshot_le_mask rfl hbl h8, hs.take_eq hh hl (by omega)]
  · rename_i hone
    rw [if_neg hone] at hok
    have e7 : tail &&& 7 = k % 8 := by
      rw [show (7 : Nat) = 2 ^ 3 - 1 by rfl, Nat.and_two_pow_sub_one_eq_mod, ← hk]
    simp only [e7]
    have hm := hh.mapped
    rw [hl] at hm
    split
    · rename_i he
      have hs : cfg.unaligned ≠ .slow := by rw [he.1]; decide
      exact reads_tail64_le_wide hh hl h1 h8 hok
        (fun h => exec_fetch16_le_unaligned (hm.sub (by omega) (by omega)) (hok.noGap (by omega) (by omega) hs))
        (fun h => exec_fetch32_le_unaligned (hm.sub (by omega) (by omega)) (hok.noGap (by omega) (by omega) hs))
        (fun h => exec_fetch64_le_unaligned (hm.sub (by omega) (by omega)) (hok.noGap (by omega) (by omega) hs))
    · rw [show (if k % 8 = 0 then 8 else k % 8) = k by split <;> omega]
      exact reads_tail64_le_bytes hh hl h1 h8 hok

theorem reads_tail64_be_unaligned (hb : cfg.Buildable) (hok : TailOk cfg .unaligned w P p k) :
    Reads w ov P (range p k) 0 (tail64_be_unaligned cfg p tail) (BitVec.ofNat 64 (beVal m)) := by
  simp only [TailOk] at hok
  unfold tail64_be_unaligned
  split
  · rename_i hone
    rw [if_pos hone] at hok
    simp only [szSub_and7 ht h1 h8 hk]
    split
    · rename_i hu
      rw [if_pos hu] at hok
      obtain ⟨hp, hpt, hm, hP⟩ := hok
      refine Exec.bindR (Reads.ptrSub hp hpt) ?_
      refine Exec.bindL ((exec_fetch64_be_unaligned hm hP).cov
        (fun a h => by simp only [range] at *; omega) rfl) ?_
      rintro x o ⟨rfl, bs, hbl, hs, rfl⟩
      refine Exec.pure _ ⟨?_, rfl⟩
      rw [Endian.val, oneshot_be_mask rfl hbl h8, hs.drop_eq hh hp hl (by omega)]
    · rename_i hu
      rw [if_neg hu] at hok
      refine Exec.bindL ((exec_fetch64_be_unaligned hok.1 hok.2).cov
        (fun a h => by simp only [range] at *; omega) rfl) ?_
      rintro x o ⟨rfl, bs, hbl, hs, rfl⟩
      refine Exec.pure _ ⟨?_, rfl⟩
      rw [Endian.val, oneshot_be_shift rfl hbl, hs.take_eq hh hl (by omega)]
  · rename_i hone
    rw [if_neg hone] at hok
    have e7 : tail &&& 7 = k % 8 := by
      rw [show (7 : Nat) = 2 ^ 3 - 1 by rfl, Nat.and_two_pow_sub_one_eq_mod, ← hk]
    simp only [e7]
    rw [if_neg]
    · exact reads_tail64_be_bytes hh hl h1 h8 hok
    · rintro ⟨h3, h4⟩
      exact hb ⟨h4, h3, by simpa [Bool.and_eq_true] using hone⟩

/-- `tail64_*_*` fetches the `k` remaining bytes (`tail` is congruent to `k` modulo 8). -/
theorem reads_tail64 {e : Endian} {al : Aligness} (hb : e = .big → cfg.Buildable)
    (hok : TailOk cfg al w P p k) :
    Reads w ov P (range p k) 0 (tail64 cfg e al p tail) (BitVec.ofNat 64 (e.val m)) := by
  cases e <;> cases al
  · exact reads_tail64_le_aligned hh hl h1 h8 ht hk hok
  · exact reads_tail64_le_unaligned hh hl h1 h8 ht hk hok
  · exact reads_tail64_be_aligned hh hl h1 h8 ht hk hok
  · exact reads_tail64_be_unaligned hh hl h1 h8 ht hk (hb rfl) hok

end tails

end T1ha.Model
