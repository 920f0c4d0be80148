import Verif.Proofs.Exec
import Verif.Proofs.Bytes

/-!
# Memory fetches
-/

namespace T1ha.Model

variable {w : World} {ov : Overlay} {P : Ev → Prop} {cfg : Cfg} {p : Nat}

/-- How far before the word the pointers are which `fetch*` compute, if they use `read_unaligned` for
words of `n` bytes. -/
def Cfg.gap (cfg : Cfg) (al : Aligness) (n : Nat) : Nat :=
  match al with
  | .aligned => 0
  | .unaligned => if cfg.proxy then n - 1 else 0

/-- Every read within the `k` bytes at `p` satisfies `P`, and, if `d` is not 0, every pointer `d` bytes
before one of them. -/
structure Sub (d : Nat) (P : Ev → Prop) (p k : Nat) : Prop where
  rd : ∀ a n, p ≤ a → a + n ≤ p + k → P (.rd a n)
  ptr : 0 < d → 0 < k → d ≤ p ∧ ∀ a, p ≤ a + d → a + d < p + k → P (.ptr a)

theorem Sub.mono {d d' k q j : Nat} (h : Sub d P p k) (h1 : p ≤ q) (h2 : q + j ≤ p + k)
    (hd : d' = d ∨ d' = 0 := by exact Or.inl rfl) : Sub d' P q j where
  rd := fun a n ha hn => h.rd a n (by omega) (by omega)
  ptr := fun h0 hj => by
    obtain rfl : d' = d := by omega
    obtain ⟨h3, h4⟩ := h.ptr (by omega) (by omega)
    exact ⟨by omega, fun a ha hn => h4 a (by omega) (by omega)⟩

theorem Sub.imp {P' : Ev → Prop} {d k : Nat} (h : Sub d P p k) (hP : ∀ x, P x → P' x) : Sub d P' p k where
  rd := fun a n h1 h2 => hP _ (h.rd a n h1 h2)
  ptr := fun h1 h2 => ⟨(h.ptr h1 h2).1, fun a h3 h4 => hP _ ((h.ptr h1 h2).2 a h3 h4)⟩

theorem gap_unable (h : cfg.unaligned = .unable) (al : Aligness) (n : Nat) : cfg.gap al n = 0 := by
  cases al
  · rfl
  · simp [Cfg.gap, Cfg.proxy, h]

theorem Sub.noGap {d k q j : Nat} (h : Sub d P p k) (h1 : p ≤ q) (h2 : q + j ≤ p + k) {al : Aligness} {n : Nat}
    (hu : cfg.unaligned ≠ .slow) : Sub (cfg.gap al n) P q j := by
  have : cfg.gap al n = 0 := by
    cases al
    · rfl
    · simp [Cfg.gap, Cfg.proxy, hu]
  rw [this]
  exact h.mono h1 h2 (Or.inr rfl)

/-- The value `x` is made, in byte order `e`, from `k` bytes which can be seen at `p`. -/
def Fetched (bits : Nat) (e : Endian) (w : World) (ov : Overlay) (p k : Nat) (x : BitVec bits)
    (o : Overlay) : Prop :=
  o = ov ∧ ∃ bs, bs.length = k ∧ Seen w ov p bs ∧ x = BitVec.ofNat bits (e.val bs)

theorem exec_byteAt {i : Nat} (hm : Mapped w (p + i) 1) (hP : P (.rd (p + i) 1)) :
    Exec w ov P (range (p + i) 1) 0 (byteAt p i) (fun b o => o = ov ∧ Seen w ov (p + i) [b]) := by
  refine Exec.bindL (Exec.load hm hP) ?_
  rintro bs o ⟨ho, hl, hs⟩
  subst ho
  match bs, hl with
  | [b], _ => exact Exec.pure b ⟨rfl, hs⟩

theorem exec_readInt {n : Nat} (hm : Mapped w p n) (hP : P (.rd p n)) :
    Exec w ov P (range p n) 0 (readInt cfg p n)
      (fun x o => o = ov ∧ ∃ bs, bs.length = n ∧ Seen w ov p bs ∧ x = cfg.endian.val bs) := by
  refine Exec.bindL (Exec.load hm hP) ?_
  rintro bs o ⟨ho, hl, hs⟩
  subst ho
  exact Exec.pure _ ⟨rfl, bs, hl, hs, rfl⟩

theorem exec_read_unaligned {n : Nat} (hn : 1 < n) (hm : Mapped w p n)
    (hP : Sub (cfg.gap .unaligned n) P p n) :
    Exec w ov P (range p n) 0 (read_unaligned cfg p n)
      (fun x o => o = ov ∧ ∃ bs, bs.length = n ∧ Seen w ov p bs ∧ x = cfg.endian.val bs) := by
  unfold read_unaligned
  split
  · rename_i hx
    have hg : cfg.gap .unaligned n = n - 1 := by simp [Cfg.gap, hx]
    rw [hg] at hP
    obtain ⟨h1, h2⟩ := hP.ptr (by omega) (by omega)
    refine Exec.bindR (Reads.ptrSub h1 (h2 _ (by omega) (by omega))) ?_
    rw [Nat.sub_add_cancel h1]
    exact exec_readInt hm (hP.rd _ _ (by omega) (by omega))
  · exact exec_readInt hm (hP.rd _ _ (by omega) (by omega))

theorem exec_read_aligned {n : Nat} (hm : Mapped w p n) (hP : P (.rd p n))
    (ha : p % (if n = 8 then cfg.alignment64 else n) = 0) :
    Exec w ov P (range p n) 0 (read_aligned cfg p n)
      (fun x o => o = ov ∧ ∃ bs, bs.length = n ∧ Seen w ov p bs ∧ x = cfg.endian.val bs) := by
  unfold read_aligned
  rw [if_pos (Or.inr ha)]
  exact exec_readInt hm hP

/-! ## 16 bits -/

theorem exec_fetch16_le_aligned {d : Nat} (hm : Mapped w p 2) (hP : Sub d P p 2) (ha : p % 2 = 0) :
    Exec w ov P (range p 2) 0 (fetch16_le_aligned cfg p) (Fetched 16 .little w ov p 2) := by
  refine Exec.bindR (Reads.cassert (by simpa using ha)) ?_
  refine Exec.bindL (exec_read_aligned hm (hP.rd _ _ (by omega) (by omega)) (by simpa using ha)) ?_
  rintro x _ ⟨rfl, bs, hl, hs, rfl⟩
  split
  · rename_i he
    exact Exec.pure _ ⟨rfl, bs, hl, hs, by rw [he]⟩
  · rename_i he
    refine Exec.pure _ ⟨rfl, bs, hl, hs, ?_⟩
    rw [bswap16_eq, toNat_ofNat_val (k := 2) _ _ hl (by decide), bswap_val _ _ hl, he]
    rfl

theorem exec_fetch16_be_aligned {d : Nat} (hm : Mapped w p 2) (hP : Sub d P p 2) (ha : p % 2 = 0) :
    Exec w ov P (range p 2) 0 (fetch16_be_aligned cfg p) (Fetched 16 .big w ov p 2) := by
  refine Exec.bindR (Reads.cassert (by simpa using ha)) ?_
  refine Exec.bindL (exec_read_aligned hm (hP.rd _ _ (by omega) (by omega)) (by simpa using ha)) ?_
  rintro x _ ⟨rfl, bs, hl, hs, rfl⟩
  split
  · rename_i he
    exact Exec.pure _ ⟨rfl, bs, hl, hs, by rw [he]⟩
  · rename_i he
    refine Exec.pure _ ⟨rfl, bs, hl, hs, ?_⟩
    rw [bswap16_eq, toNat_ofNat_val (k := 2) _ _ hl (by decide), bswap_val _ _ hl, he]
    rfl

theorem val16_le (b0 b1 : Byte) :
    (b0.setWidth 32 ||| b1.setWidth 32 <<< 8 : U32).setWidth 16 = BitVec.ofNat 16 (leVal [b0, b1]) := by
  apply BitVec.eq_of_toNat_eq
  have h0 := b0.isLt
  have h1 := b1.isLt
  simp only [BitVec.toNat_setWidth, BitVec.toNat_or, BitVec.toNat_shiftLeft, BitVec.toNat_ofNat, leVal]
  rw [Nat.mod_eq_of_lt (a := b1.toNat) (by omega), Nat.mod_eq_of_lt (a := b1.toNat <<< 8),
    or_shift_eq_add (by omega)]
  · omega
  · rw [Nat.shiftLeft_eq]; omega

theorem val16_be (b0 b1 : Byte) :
    (b0.setWidth 32 <<< 8 ||| b1.setWidth 32 : U32).setWidth 16 = BitVec.ofNat 16 (beVal [b0, b1]) := by
  have := val16_le b1 b0
  rw [BitVec.or_comm] at this
  rw [this]
  simp [beVal_eq]

theorem exec_fetch16_le_unaligned (hm : Mapped w p 2) (hP : Sub (cfg.gap .unaligned 2) P p 2) :
    Exec w ov P (range p 2) 0 (fetch16_le_unaligned cfg p) (Fetched 16 .little w ov p 2) := by
  unfold fetch16_le_unaligned
  split
  · refine Exec.bind' (exec_byteAt (i := 0) (hm.sub (by omega) (by omega)) (hP.rd _ _ (by omega) (by omega)))
      (C₂ := range (p + 1) 1) (n₂ := 0) ?_
      (fun a h => by simp only [range] at *; omega) rfl
    rintro b0 _ ⟨rfl, hs0⟩
    refine Exec.bindL (exec_byteAt (i := 1) (hm.sub (by omega) (by omega)) (hP.rd _ _ (by omega) (by omega))) ?_
    rintro b1 _ ⟨rfl, hs1⟩
    exact Exec.pure _ ⟨rfl, [b0, b1], rfl, Seen.append (xs := [b0]) hs0 hs1, val16_le b0 b1⟩
  · refine Exec.bindL (exec_read_unaligned (by decide) hm hP) ?_
    rintro x _ ⟨rfl, bs, hl, hs, rfl⟩
    split
    · rename_i he
      exact Exec.pure _ ⟨rfl, bs, hl, hs, by rw [he]⟩
    · rename_i he
      refine Exec.pure _ ⟨rfl, bs, hl, hs, ?_⟩
      rw [bswap16_eq, toNat_ofNat_val (k := 2) _ _ hl (by decide), bswap_val _ _ hl, he]
      rfl

theorem exec_fetch16_be_unaligned (hm : Mapped w p 2) (hP : Sub (cfg.gap .unaligned 2) P p 2) :
    Exec w ov P (range p 2) 0 (fetch16_be_unaligned cfg p) (Fetched 16 .big w ov p 2) := by
  unfold fetch16_be_unaligned
  split
  · refine Exec.bind' (exec_byteAt (i := 0) (hm.sub (by omega) (by omega)) (hP.rd _ _ (by omega) (by omega)))
      (C₂ := range (p + 1) 1) (n₂ := 0) ?_
      (fun a h => by simp only [range] at *; omega) rfl
    rintro b0 _ ⟨rfl, hs0⟩
    refine Exec.bindL (exec_byteAt (i := 1) (hm.sub (by omega) (by omega)) (hP.rd _ _ (by omega) (by omega))) ?_
    rintro b1 _ ⟨rfl, hs1⟩
    exact Exec.pure _ ⟨rfl, [b0, b1], rfl, Seen.append (xs := [b0]) hs0 hs1, val16_be b0 b1⟩
  · refine Exec.bindL (exec_read_unaligned (by decide) hm hP) ?_
    rintro x _ ⟨rfl, bs, hl, hs, rfl⟩
    split
    · rename_i he
      exact Exec.pure _ ⟨rfl, bs, hl, hs, by rw [he]⟩
    · rename_i he
      refine Exec.pure _ ⟨rfl, bs, hl, hs, ?_⟩
      rw [bswap16_eq, toNat_ofNat_val (k := 2) _ _ hl (by decide), bswap_val _ _ hl, he]
      rfl

/-! ## 32 bits -/

theorem exec_fetch32_le_aligned {d : Nat} (hm : Mapped w p 4) (hP : Sub d P p 4) (ha : p % 4 = 0) :
    Exec w ov P (range p 4) 0 (fetch32_le_aligned cfg p) (Fetched 32 .little w ov p 4) := by
  refine Exec.bindR (Reads.cassert (by simpa using ha)) ?_
  refine Exec.bindL (exec_read_aligned hm (hP.rd _ _ (by omega) (by omega)) (by simpa using ha)) ?_
  rintro x _ ⟨rfl, bs, hl, hs, rfl⟩
  split
  · rename_i he
    exact Exec.pure _ ⟨rfl, bs, hl, hs, by rw [he]⟩
  · rename_i he
    refine Exec.pure _ ⟨rfl, bs, hl, hs, ?_⟩
    rw [bswap32_eq, toNat_ofNat_val (k := 4) _ _ hl (by decide), bswap_val _ _ hl, he]
    rfl

theorem exec_fetch32_be_aligned {d : Nat} (hm : Mapped w p 4) (hP : Sub d P p 4) (ha : p % 4 = 0) :
    Exec w ov P (range p 4) 0 (fetch32_be_aligned cfg p) (Fetched 32 .big w ov p 4) := by
  unfold fetch32_be_aligned
  split
  · refine Exec.bindL (Exec.load hm (hP.rd _ _ (by omega) (by omega))) ?_
    rintro bs _ ⟨rfl, hl, hs⟩
    exact Exec.pure _ ⟨rfl, bs, hl, hs, rfl⟩
  · refine Exec.bindR (Reads.cassert (by simpa using ha)) ?_
    refine Exec.bindL (exec_read_aligned hm (hP.rd _ _ (by omega) (by omega)) (by simpa using ha)) ?_
    rintro x _ ⟨rfl, bs, hl, hs, rfl⟩
    split
    · rename_i he
      exact Exec.pure _ ⟨rfl, bs, hl, hs, by rw [he]⟩
    · rename_i he
      refine Exec.pure _ ⟨rfl, bs, hl, hs, ?_⟩
      rw [bswap32_eq, toNat_ofNat_val (k := 4) _ _ hl (by decide), bswap_val _ _ hl, he]
      rfl

/-- Combining two halves, low half first. -/
theorem val_halves_le {n m : Nat} (hn : n ≤ m) (k : Nat) (hk : 256 ^ k = 2 ^ n) (hm : m = 2 * n)
    (xs ys : List Byte) (hx : xs.length = k) (hy : ys.length = k) :
    (BitVec.ofNat n (leVal xs)).setWidth m ||| (BitVec.ofNat n (leVal ys)).setWidth m <<< n =
      BitVec.ofNat m (leVal (xs ++ ys)) := by
  apply BitVec.eq_of_toNat_eq
  have h0 := leVal_lt xs
  have h1 := leVal_lt ys
  have h2 := leVal_lt (xs ++ ys)
  rw [List.length_append, hx, hy, Nat.pow_add, hk, ← Nat.pow_add, ← Nat.two_mul, ← hm] at h2
  rw [hx, hk] at h0
  rw [hy, hk] at h1
  have hle : 2 ^ n ≤ 2 ^ m := Nat.pow_le_pow_right (by decide) hn
  simp only [BitVec.toNat_setWidth, BitVec.toNat_or, BitVec.toNat_shiftLeft, BitVec.toNat_ofNat]
  rw [Nat.mod_eq_of_lt h0, Nat.mod_eq_of_lt h1, Nat.mod_eq_of_lt (Nat.lt_of_lt_of_le h0 hle),
    Nat.mod_eq_of_lt (Nat.lt_of_lt_of_le h1 hle), Nat.mod_eq_of_lt h2, Nat.mod_eq_of_lt,
    or_shift_eq_add h0, leVal_append, hx, hk, Nat.mul_comm]
  rw [Nat.shiftLeft_eq]
  calc leVal ys * 2 ^ n < 2 ^ n * 2 ^ n := Nat.mul_lt_mul_of_pos_right h1 (Nat.two_pow_pos n)
    _ = 2 ^ m := by rw [← Nat.pow_add, hm, Nat.two_mul]

theorem val_halves_be {n m : Nat} (hn : n ≤ m) (k : Nat) (hk : 256 ^ k = 2 ^ n) (hm : m = 2 * n)
    (xs ys : List Byte) (hx : xs.length = k) (hy : ys.length = k) :
    (BitVec.ofNat n (beVal xs)).setWidth m <<< n ||| (BitVec.ofNat n (beVal ys)).setWidth m =
      BitVec.ofNat m (beVal (xs ++ ys)) := by
  have := val_halves_le hn k hk hm ys.reverse xs.reverse (by simpa using hy) (by simpa using hx)
  simp only [beVal_eq, List.reverse_append]
  rw [BitVec.or_comm]
  exact this

theorem exec_fetch32_le_unaligned (hm : Mapped w p 4) (hP : Sub (cfg.gap .unaligned 4) P p 4) :
    Exec w ov P (range p 4) 0 (fetch32_le_unaligned cfg p) (Fetched 32 .little w ov p 4) := by
  unfold fetch32_le_unaligned
  split
  · rename_i hu
    refine Exec.bind' (exec_fetch16_le_unaligned (hm.sub (by omega) (by omega))
        (hP.noGap (by omega) (by omega) (by rw [hu]; decide))) (C₂ := range (p + 2) 2) (n₂ := 0) ?_
      (fun a h => by simp only [range] at *; omega) rfl
    rintro _ _ ⟨rfl, xs, hx, hsx, rfl⟩
    refine Exec.bindL (exec_fetch16_le_unaligned (hm.sub (by omega) (by omega))
        (hP.noGap (by omega) (by omega) (by rw [hu]; decide))) ?_
    rintro _ _ ⟨rfl, ys, hy, hsy, rfl⟩
    exact Exec.pure _ ⟨rfl, xs ++ ys, by simp [hx, hy], hsx.append (by rwa [hx]),
      val_halves_le (by decide) 2 (by decide) (by decide) xs ys hx hy⟩
  · refine Exec.bindL (exec_read_unaligned (by decide) hm hP) ?_
    rintro x _ ⟨rfl, bs, hl, hs, rfl⟩
    split
    · rename_i he
      exact Exec.pure _ ⟨rfl, bs, hl, hs, by rw [he]⟩
    · rename_i he
      refine Exec.pure _ ⟨rfl, bs, hl, hs, ?_⟩
      rw [bswap32_eq, toNat_ofNat_val (k := 4) _ _ hl (by decide), bswap_val _ _ hl, he]
      rfl

theorem exec_fetch32_be_unaligned (hm : Mapped w p 4) (hP : Sub (cfg.gap .unaligned 4) P p 4) :
    Exec w ov P (range p 4) 0 (fetch32_be_unaligned cfg p) (Fetched 32 .big w ov p 4) := by
  unfold fetch32_be_unaligned
  split
  · rename_i hu
    refine Exec.bind' (exec_fetch16_be_unaligned (hm.sub (by omega) (by omega))
        (hP.noGap (by omega) (by omega) (by rw [hu]; decide))) (C₂ := range (p + 2) 2) (n₂ := 0) ?_
      (fun a h => by simp only [range] at *; omega) rfl
    rintro _ _ ⟨rfl, xs, hx, hsx, rfl⟩
    refine Exec.bindL (exec_fetch16_be_unaligned (hm.sub (by omega) (by omega))
        (hP.noGap (by omega) (by omega) (by rw [hu]; decide))) ?_
    rintro _ _ ⟨rfl, ys, hy, hsy, rfl⟩
    exact Exec.pure _ ⟨rfl, xs ++ ys, by simp [hx, hy], hsx.append (by rwa [hx]),
      val_halves_be (by decide) 2 (by decide) (by decide) xs ys hx hy⟩
  · refine Exec.bindL (exec_read_unaligned (by decide) hm hP) ?_
    rintro x _ ⟨rfl, bs, hl, hs, rfl⟩
    split
    · rename_i he
      exact Exec.pure _ ⟨rfl, bs, hl, hs, by rw [he]⟩
    · rename_i he
      refine Exec.pure _ ⟨rfl, bs, hl, hs, ?_⟩
      rw [bswap32_eq, toNat_ofNat_val (k := 4) _ _ hl (by decide), bswap_val _ _ hl, he]
      rfl

/-! ## 64 bits -/

theorem exec_fetch64_le_aligned {d : Nat} (hm : Mapped w p 8) (hP : Sub d P p 8) (ha : p % cfg.alignment64 = 0) :
    Exec w ov P (range p 8) 0 (fetch64_le_aligned cfg p) (Fetched 64 .little w ov p 8) := by
  refine Exec.bindR (Reads.cassert (by simpa using ha)) ?_
  refine Exec.bindL (exec_read_aligned hm (hP.rd _ _ (by omega) (by omega)) (by simpa using ha)) ?_
  rintro x _ ⟨rfl, bs, hl, hs, rfl⟩
  split
  · rename_i he
    exact Exec.pure _ ⟨rfl, bs, hl, hs, by rw [he]⟩
  · rename_i he
    refine Exec.pure _ ⟨rfl, bs, hl, hs, ?_⟩
    rw [bswap64_eq, toNat_ofNat_val (k := 8) _ _ hl (by decide), bswap_val _ _ hl, he]
    rfl

theorem exec_fetch64_be_aligned {d : Nat} (hm : Mapped w p 8) (hP : Sub d P p 8) (ha : p % cfg.alignment64 = 0) :
    Exec w ov P (range p 8) 0 (fetch64_be_aligned cfg p) (Fetched 64 .big w ov p 8) := by
  unfold fetch64_be_aligned
  split
  · refine Exec.bindL (Exec.load hm (hP.rd _ _ (by omega) (by omega))) ?_
    rintro bs _ ⟨rfl, hl, hs⟩
    exact Exec.pure _ ⟨rfl, bs, hl, hs, rfl⟩
  · refine Exec.bindR (Reads.cassert (by simpa using ha)) ?_
    refine Exec.bindL (exec_read_aligned hm (hP.rd _ _ (by omega) (by omega)) (by simpa using ha)) ?_
    rintro x _ ⟨rfl, bs, hl, hs, rfl⟩
    split
    · rename_i he
      exact Exec.pure _ ⟨rfl, bs, hl, hs, by rw [he]⟩
    · rename_i he
      refine Exec.pure _ ⟨rfl, bs, hl, hs, ?_⟩
      rw [bswap64_eq, toNat_ofNat_val (k := 8) _ _ hl (by decide), bswap_val _ _ hl, he]
      rfl

theorem exec_fetch64_le_unaligned (hm : Mapped w p 8) (hP : Sub (cfg.gap .unaligned 8) P p 8) :
    Exec w ov P (range p 8) 0 (fetch64_le_unaligned cfg p) (Fetched 64 .little w ov p 8) := by
  unfold fetch64_le_unaligned
  split
  · rename_i hu
    refine Exec.bind' (exec_fetch32_le_unaligned (hm.sub (by omega) (by omega))
        (hP.noGap (by omega) (by omega) (by rw [hu]; decide))) (C₂ := range (p + 4) 4) (n₂ := 0) ?_
      (fun a h => by simp only [range] at *; omega) rfl
    rintro _ _ ⟨rfl, xs, hx, hsx, rfl⟩
    refine Exec.bindL (exec_fetch32_le_unaligned (hm.sub (by omega) (by omega))
        (hP.noGap (by omega) (by omega) (by rw [hu]; decide))) ?_
    rintro _ _ ⟨rfl, ys, hy, hsy, rfl⟩
    exact Exec.pure _ ⟨rfl, xs ++ ys, by simp [hx, hy], hsx.append (by rwa [hx]),
      val_halves_le (by decide) 4 (by decide) (by decide) xs ys hx hy⟩
  · refine Exec.bindL (exec_read_unaligned (by decide) hm hP) ?_
    rintro x _ ⟨rfl, bs, hl, hs, rfl⟩
    split
    · rename_i he
      exact Exec.pure _ ⟨rfl, bs, hl, hs, by rw [he]⟩
    · rename_i he
      refine Exec.pure _ ⟨rfl, bs, hl, hs, ?_⟩
      rw [bswap64_eq, toNat_ofNat_val (k := 8) _ _ hl (by decide), bswap_val _ _ hl, he]
      rfl

theorem exec_fetch64_be_unaligned (hm : Mapped w p 8) (hP : Sub (cfg.gap .unaligned 8) P p 8) :
    Exec w ov P (range p 8) 0 (fetch64_be_unaligned cfg p) (Fetched 64 .big w ov p 8) := by
  unfold fetch64_be_unaligned
  split
  · rename_i hu
    refine Exec.bind' (exec_fetch32_be_unaligned (hm.sub (by omega) (by omega))
        (hP.noGap (by omega) (by omega) (by rw [hu]; decide))) (C₂ := range (p + 4) 4) (n₂ := 0) ?_
      (fun a h => by simp only [range] at *; omega) rfl
    rintro _ _ ⟨rfl, xs, hx, hsx, rfl⟩
    refine Exec.bindL (exec_fetch32_be_unaligned (hm.sub (by omega) (by omega))
        (hP.noGap (by omega) (by omega) (by rw [hu]; decide))) ?_
    rintro _ _ ⟨rfl, ys, hy, hsy, rfl⟩
    exact Exec.pure _ ⟨rfl, xs ++ ys, by simp [hx, hy], hsx.append (by rwa [hx]),
      val_halves_be (by decide) 4 (by decide) (by decide) xs ys hx hy⟩
  · refine Exec.bindL (exec_read_unaligned (by decide) hm hP) ?_
    rintro x _ ⟨rfl, bs, hl, hs, rfl⟩
    split
    · rename_i he
      exact Exec.pure _ ⟨rfl, bs, hl, hs, by rw [he]⟩
    · rename_i he
      refine Exec.pure _ ⟨rfl, bs, hl, hs, ?_⟩
      rw [bswap64_eq, toNat_ofNat_val (k := 8) _ _ hl (by decide), bswap_val _ _ hl, he]
      rfl

end T1ha.Model
