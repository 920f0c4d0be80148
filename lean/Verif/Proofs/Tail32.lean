import Verif.Proofs.Tail
import Verif.Model.T1ha0

/-!
# Tails of 32-bit words
-/

namespace T1ha.Model

variable {w : World} {ov : Overlay} {P : Ev → Prop} {cfg : Cfg} {p : Nat}

/-- The condition under which `fetch32_*_aligned` may be used. -/
def AlOk32 (al : Aligness) (p : Nat) : Prop := al = .aligned → p % 4 = 0

theorem reads_fetch32 {e : Endian} {al : Aligness} {m : List Byte} (hh : Holds w ov p m)
    (hl : m.length = 4) (hP : Sub (cfg.gap al 4) P p 4) (ha : AlOk32 al p) :
    Reads w ov P (range p 4) 0 (fetch32 cfg e al p) (BitVec.ofNat 32 (e.val m)) := by
  have hm : Mapped w p 4 := hl ▸ hh.mapped
  refine Fetched.reads ?_ hh hl
  cases e <;> cases al
  · exact exec_fetch32_le_aligned hm hP (ha rfl)
  · exact exec_fetch32_le_unaligned hm hP
  · exact exec_fetch32_be_aligned hm hP (ha rfl)
  · exact exec_fetch32_be_unaligned hm hP

/-- One step of the little-endian byte loop. -/
theorem reads_le_step32 {m : List Byte} {d k : Nat} (hh : Holds w ov p m) (hl : m.length = k)
    (hP : Sub d P p k) (j : Nat) {r : U32} (hr : r = BitVec.ofNat 32 (256 * leVal (m.drop (j + 1)))) :
    Reads w ov P (fun a => a = p + j ∧ j < k) 0
      (if j + 1 ≤ k then do
        let b ← byteAt p j
        pure ((r + b.setWidth 32) <<< 8) else pure r)
      (BitVec.ofNat 32 (256 * leVal (m.drop j))) := by
  split
  · rename_i hj
    refine Exec.bindL ((reads_byteAt (b := m[j]) hh (by simp) (hP.rd _ _ (by omega) (by omega))).cov
      (fun a h => by simp only [range] at *; omega) rfl) ?_
    rintro b o ⟨rfl, rfl⟩
    refine Exec.pure _ ⟨?_, rfl⟩
    rw [hr, List.drop_eq_getElem_cons (i := j) (by omega)]
    apply BitVec.eq_of_toNat_eq
    have := m[j].isLt
    simp only [BitVec.toNat_shiftLeft, BitVec.toNat_add, BitVec.toNat_ofNat, BitVec.toNat_setWidth,
      leVal, Nat.shiftLeft_eq]
    omega
  · rename_i hj
    refine (Exec.pure _ ⟨?_, rfl⟩).cov (fun a h => by omega) rfl
    rw [hr, List.drop_eq_nil_of_le (by omega), List.drop_eq_nil_of_le (by omega)]

theorem reads_tail32_le_bytes {m : List Byte} {d k : Nat} (hh : Holds w ov p m) (hl : m.length = k)
    (h1 : 1 ≤ k) (h4 : k ≤ 4) (hP : Sub d P p k) :
    Reads w ov P (range p k) 0 (tail32_le_bytes p k) (BitVec.ofNat 32 (leVal m)) := by
  unfold tail32_le_bytes
  refine Exec.cov (
    Reads.bind (reads_le_step32 hh hl hP 3 (by rw [List.drop_eq_nil_of_le (by omega)]; rfl)) <|
    Reads.bind (reads_le_step32 hh hl hP 2 rfl) <|
    Reads.bind (reads_le_step32 hh hl hP 1 rfl) <|
    Reads.bind (reads_byteAt (i := 0) (b := m[0]) hh (by simp) (hP.rd _ _ (by omega) (by omega))) <|
    Exec.pure _ ⟨?_, rfl⟩) (fun a h => ?_) rfl
  · conv => rhs; rw [← List.drop_zero (l := m), List.drop_eq_getElem_cons (i := 0) (by omega)]
    apply BitVec.eq_of_toNat_eq
    have := m[0].isLt
    simp only [BitVec.toNat_add, BitVec.toNat_ofNat, BitVec.toNat_setWidth, leVal, Nat.zero_add]
    omega
  · simp only [range] at *; omega

theorem reads_tail32_be_bytes {m : List Byte} {d k : Nat} (hh : Holds w ov p m) (hl : m.length = k)
    (h1 : 1 ≤ k) (h4 : k ≤ 4) (hP : Sub d P p k) :
    Reads w ov P (range p k) 0 (tail32_be_bytes p (k % 4)) (BitVec.ofNat 32 (beVal m)) := by
  unfold tail32_be_bytes
  have r : ∀ (i : Nat) (b : Byte), m[i]? = some b →
      Reads w ov P (range (p + i) 1) 0 (byteAt p i) b := fun i b hb =>
    reads_byteAt hh hb (hP.rd _ _ (by omega)
      (by have := (List.getElem?_eq_some_iff.1 hb).1; omega))
  rcases m with _ | ⟨b0, _ | ⟨b1, _ | ⟨b2, _ | ⟨b3, _ | ⟨b4, m⟩⟩⟩⟩⟩
  · simp at hl; omega
  · obtain rfl : k = 1 := hl.symm
    refine Exec.cov (Reads.bind (r 0 b0 rfl) <| Exec.pure _ ⟨?_, rfl⟩)
      (fun a h => by simp only [range, nowhere] at *; omega) rfl
    apply BitVec.eq_of_toNat_eq
    have := b0.isLt
    simp [beVal]
  · obtain rfl : k = 2 := hl.symm
    refine Exec.cov (Reads.bind (r 0 b0 rfl) <| Reads.bind (r 1 b1 rfl) <| Exec.pure _ ⟨?_, rfl⟩)
      (fun a h => by simp only [range, nowhere] at *; omega) rfl
    apply BitVec.eq_of_toNat_eq
    have := b0.isLt; have := b1.isLt
    rw [low2, BitVec.toNat_ofNat]
    simp only [beVal, List.foldl]
    omega
  · obtain rfl : k = 3 := hl.symm
    refine Exec.cov (Reads.bind (r 0 b0 rfl) <| Reads.bind (r 1 b1 rfl) <| Reads.bind (r 2 b2 rfl) <|
      Exec.pure _ ⟨?_, rfl⟩)
      (fun a h => by simp only [range, nowhere] at *; omega) rfl
    apply BitVec.eq_of_toNat_eq
    have := b0.isLt; have := b1.isLt; have := b2.isLt
    rw [low3, BitVec.toNat_ofNat]
    simp only [beVal, List.foldl]
    omega
  · obtain rfl : k = 4 := hl.symm
    refine Exec.cov (Reads.bind (r 0 b0 rfl) <| Reads.bind (r 1 b1 rfl) <| Reads.bind (r 2 b2 rfl) <|
      Reads.bind (r 3 b3 rfl) <| Exec.pure _ ⟨?_, rfl⟩)
      (fun a h => by simp only [range, nowhere] at *; omega) rfl
    apply BitVec.eq_of_toNat_eq
    have := b0.isLt; have := b1.isLt; have := b2.isLt; have := b3.isLt
    rw [low4, BitVec.toNat_ofNat]
    simp only [beVal, List.foldl]
    omega
  · simp at hl; omega

/-- The little-endian `switch` with wide fetches (src/t1ha0.c:58-72, 113-127). -/
def tail32_le_wide (f16 : M U16) (f32 : M U32) (p t : Nat) : M U32 :=
  if t = 0 then f32
  else if 2 ≤ t then do
    let r : U32 := 0#32
    let r ← (if 3 ≤ t then do
        let b ← byteAt p 2
        pure (b.setWidth 32 <<< 16)
      else pure r)
    let x ← f16
    pure (r + x.setWidth 32)
  else do
    let b ← byteAt p 0
    pure (b.setWidth 32)

theorem reads_tail32_le_wide {m : List Byte} {d k : Nat} {f16 : M U16} {f32 : M U32}
    (hh : Holds w ov p m) (hl : m.length = k) (h1 : 1 ≤ k) (h4 : k ≤ 4) (hP : Sub d P p k)
    (h16 : 2 ≤ k → Exec w ov P (range p 2) 0 f16 (Fetched 16 .little w ov p 2))
    (h32 : 4 ≤ k → Exec w ov P (range p 4) 0 f32 (Fetched 32 .little w ov p 4)) :
    Reads w ov P (range p k) 0 (tail32_le_wide f16 f32 p (k % 4)) (BitVec.ofNat 32 (leVal m)) := by
  unfold tail32_le_wide
  have r : ∀ (i : Nat) (b : Byte), m[i]? = some b →
      Reads w ov P (range (p + i) 1) 0 (byteAt p i) b := fun i b hb =>
    reads_byteAt hh hb (hP.rd _ _ (by omega)
      (by have := (List.getElem?_eq_some_iff.1 hb).1; omega))
  have r16 : 2 ≤ k → Reads w ov P (range p 2) 0 f16 (BitVec.ofNat 16 (leVal (m.take 2))) := fun hk =>
    Fetched.reads (h16 hk) (hh.take 2) (by simp; omega)
  have r32 : 4 ≤ k → Reads w ov P (range p 4) 0 f32 (BitVec.ofNat 32 (leVal m)) := fun hk =>
    Fetched.reads (h32 hk) hh (by omega)
  rcases m with _ | ⟨b0, _ | ⟨b1, _ | ⟨b2, _ | ⟨b3, _ | ⟨b4, m⟩⟩⟩⟩⟩
  · simp at hl; omega
  · obtain rfl : k = 1 := hl.symm
    refine Exec.cov (Reads.bind (r 0 b0 rfl) <| Exec.pure _ ⟨?_, rfl⟩)
      (fun a h => by simp only [range, nowhere] at *; omega) rfl
    apply BitVec.eq_of_toNat_eq
    have := b0.isLt
    simp [leVal]
  · obtain rfl : k = 2 := hl.symm
    simp only [Nat.reduceMod, Nat.reduceLeDiff, reduceIte, pure_bind, Nat.reduceEqDiff]
    refine Exec.cov (Reads.bind (r16 (by decide)) <| Exec.pure _ ⟨?_, rfl⟩)
      (fun a h => by simp only [range, nowhere] at *; omega) rfl
    have := b0.isLt; have := b1.isLt
    have hv := add_fetch (W := 32) (n := 16) (bs := [b0, b1]) (k := 2) (r := 0#32) (v := 0) rfl rfl
      (by decide) (by simp only [leVal]; omega)
    refine hv.trans (congrArg (BitVec.ofNat 32) ?_)
    simp only [leVal]
    omega
  · obtain rfl : k = 3 := hl.symm
    simp only [Nat.reduceMod, Nat.reduceLeDiff, reduceIte, bind_assoc, pure_bind, Nat.reduceEqDiff]
    refine Exec.cov (Reads.bind (r 2 b2 rfl) <| Reads.bind (r16 (by decide)) <| Exec.pure _ ⟨?_, rfl⟩)
      (fun a h => by simp only [range, nowhere] at *; omega) rfl
    have := b0.isLt; have := b1.isLt; have := b2.isLt
    have hv := add_fetch (W := 32) (n := 16) (bs := [b0, b1]) (k := 2)
      (shl_byte (W := 32) (s := 16) b2 (by decide)) rfl (by decide) (by simp only [leVal]; omega)
    refine hv.trans (congrArg (BitVec.ofNat 32) ?_)
    simp only [leVal]
    omega
  · obtain rfl : k = 4 := hl.symm
    exact r32 (by decide)
  · simp at hl; omega

/-- The big-endian `switch` with wide fetches (src/t1ha0.c:158-170, 206-218). -/
def tail32_be_wide (f16 : M U16) (f32 : M U32) (p t : Nat) : M U32 :=
  match t with
  | 1 => do
    let p0 ← byteAt p 0
    pure (p0.setWidth 32)
  | 2 => do
    let x ← f16
    pure (x.setWidth 32)
  | 3 => do
    let x ← f16
    let p2 ← byteAt p 2
    pure (x.setWidth 32 <<< 8 ||| p2.setWidth 32)
  | 0 => f32
  | _ => fail .unreachable

theorem reads_tail32_be_wide {m : List Byte} {d k : Nat} {f16 : M U16} {f32 : M U32}
    (hh : Holds w ov p m) (hl : m.length = k) (h1 : 1 ≤ k) (h4 : k ≤ 4) (hP : Sub d P p k)
    (h16 : 2 ≤ k → Exec w ov P (range p 2) 0 f16 (Fetched 16 .big w ov p 2))
    (h32 : 4 ≤ k → Exec w ov P (range p 4) 0 f32 (Fetched 32 .big w ov p 4)) :
    Reads w ov P (range p k) 0 (tail32_be_wide f16 f32 p (k % 4)) (BitVec.ofNat 32 (beVal m)) := by
  unfold tail32_be_wide
  have r : ∀ (i : Nat) (b : Byte), m[i]? = some b →
      Reads w ov P (range (p + i) 1) 0 (byteAt p i) b := fun i b hb =>
    reads_byteAt hh hb (hP.rd _ _ (by omega)
      (by have := (List.getElem?_eq_some_iff.1 hb).1; omega))
  have r16 : 2 ≤ k → Reads w ov P (range p 2) 0 f16 (BitVec.ofNat 16 (beVal (m.take 2))) := fun hk =>
    Fetched.reads (h16 hk) (hh.take 2) (by simp; omega)
  have r32 : 4 ≤ k → Reads w ov P (range p 4) 0 f32 (BitVec.ofNat 32 (beVal m)) := fun hk =>
    Fetched.reads (h32 hk) hh (by omega)
  rcases m with _ | ⟨b0, _ | ⟨b1, _ | ⟨b2, _ | ⟨b3, _ | ⟨b4, m⟩⟩⟩⟩⟩
  · simp at hl; omega
  · obtain rfl : k = 1 := hl.symm
    refine Exec.cov (Reads.bind (r 0 b0 rfl) <| Exec.pure _ ⟨?_, rfl⟩)
      (fun a h => by simp only [range, nowhere] at *; omega) rfl
    apply BitVec.eq_of_toNat_eq
    have := b0.isLt
    simp [beVal]
  · obtain rfl : k = 2 := hl.symm
    refine Exec.cov (Reads.bind (r16 (by decide)) <| Exec.pure _ ⟨?_, rfl⟩)
      (fun a h => by simp only [range, nowhere] at *; omega) rfl
    apply BitVec.eq_of_toNat_eq
    have hlt := beVal_lt [b0, b1]
    rw [show List.take 2 [b0, b1] = [b0, b1] by rfl, toNat_fetch (k := 2) rfl (by decide) (by decide),
      BitVec.toNat_ofNat, Nat.mod_eq_of_lt]
    simp only [List.length_cons, List.length_nil] at hlt; omega
  · obtain rfl : k = 3 := hl.symm
    refine Exec.cov (Reads.bind (r16 (by decide)) <| Reads.bind (r 2 b2 rfl) <| Exec.pure _ ⟨?_, rfl⟩)
      (fun a h => by simp only [range, nowhere] at *; omega) rfl
    have := b0.isLt; have := b1.isLt; have := b2.isLt
    have e1 := toNat_fetch_shl (W := 32) (n := 16) (k := 2) (s := 8) (bs := [b0, b1]) rfl (by decide)
      (by decide)
    have e2 := byte_toNat (W := 32) b2 (by decide)
    apply BitVec.eq_of_toNat_eq
    rw [show List.take 2 [b0, b1, b2] = [b0, b1] by rfl,
      or_disj 8 (by rw [e1]; exact Nat.dvd_mul_left _ _) (by rw [e2]; omega), e1, e2,
      BitVec.toNat_ofNat]
    simp only [beVal, List.foldl]
    omega
  · obtain rfl : k = 4 := hl.symm
    exact r32 (by decide)
  · simp at hl; omega

/-- What a tail of `k` bytes at `p` may read. The bytes read besides those of the tail have to be
mapped. -/
def TailOk32 (cfg : Cfg) (al : Aligness) (w : World) (P : Ev → Prop) (p k : Nat) : Prop :=
  match al with
  | .aligned => p % 4 = 0 ∧ (if cfg.alignedOneshot then Mapped w p 4 ∧ Sub 0 P p 4 else Sub 0 P p k)
  | .unaligned =>
    if cfg.canReadUnderside then
      if can_read_underside cfg p 4 then
        4 - k ≤ p ∧ P (.ptr (p - (4 - k))) ∧ Mapped w (p - (4 - k)) 4 ∧
          Sub (cfg.gap .unaligned 4) P (p - (4 - k)) 4
      else Mapped w p 4 ∧ Sub (cfg.gap .unaligned 4) P p 4
    else Sub 0 P p k

section tails
variable {m : List Byte} {k tail : Nat} (hh : Holds w ov p m) (hl : m.length = k) (h1 : 1 ≤ k)
  (h4 : k ≤ 4) (ht : tail < 2 ^ cfg.bits) (hk : tail % 4 = k % 4)
include hh hl h1 h4 ht hk

theorem reads_tail32_le_aligned (hok : TailOk32 cfg .aligned w P p k) :
    Reads w ov P (range p k) 0 (tail32_le_aligned cfg p tail) (BitVec.ofNat 32 (leVal m)) := by
  obtain ⟨ha, hok⟩ := hok
  unfold tail32_le_aligned
  split
  · rename_i hone
    rw [if_pos hone] at hok
    refine Exec.bindL ((exec_fetch32_le_aligned hok.1 hok.2 ha).cov
      (fun a h => by simp only [range] at *; omega) rfl) ?_
    rintro x o ⟨rfl, bs, hbl, hs, rfl⟩
    refine Exec.pure _ ⟨?_, rfl⟩
    rw [szSub_and3 ht h1 h4 hk, Endian.val, oneshot_le_mask rfl hbl h4, hs.take_eq hh hl (by omega)]
  · rename_i hone
    rw [if_neg hone] at hok
    have e3 : tail &&& 3 = k % 4 := by
      rw [show (3 : Nat) = 2 ^ 2 - 1 by rfl, Nat.and_two_pow_sub_one_eq_mod, ← hk]
    simp only [e3]
    have hm := hh.mapped
    rw [hl] at hm
    split
    · exact reads_tail32_le_wide hh hl h1 h4 hok
        (fun h => exec_fetch16_le_aligned (hm.sub (by omega) (by omega)) (hok.mono (by omega) (by omega))
          (by omega))
        (fun h => exec_fetch32_le_aligned (hm.sub (by omega) (by omega)) (hok.mono (by omega) (by omega))
          ha)
    · rw [show (if k % 4 = 0 then 4 else k % 4) = k by split <;> omega]
      exact reads_tail32_le_bytes hh hl h1 h4 hok

theorem reads_tail32_be_aligned (hok : TailOk32 cfg .aligned w P p k) :
    Reads w ov P (range p k) 0 (tail32_be_aligned cfg p tail) (BitVec.ofNat 32 (beVal m)) := by
  obtain ⟨ha, hok⟩ := hok
  unfold tail32_be_aligned
  split
  · rename_i hone
    rw [if_pos hone] at hok
    refine Exec.bindL ((exec_fetch32_be_aligned hok.1 hok.2 ha).cov
      (fun a h => by simp only [range] at *; omega) rfl) ?_
    rintro x o ⟨rfl, bs, hbl, hs, rfl⟩
    refine Exec.pure _ ⟨?_, rfl⟩
    rw [szSub_and3 ht h1 h4 hk, Endian.val, oneshot_be_shift rfl hbl, hs.take_eq hh hl (by omega)]
  · rename_i hone
    rw [if_neg hone] at hok
    have e3 : tail &&& 3 = k % 4 := by
      rw [show (3 : Nat) = 2 ^ 2 - 1 by rfl, Nat.and_two_pow_sub_one_eq_mod, ← hk]
    simp only [e3]
    have hm := hh.mapped
    rw [hl] at hm
    cases cfg.endian
    · exact reads_tail32_be_bytes hh hl h1 h4 hok
    · exact reads_tail32_be_wide hh hl h1 h4 hok
        (fun h => exec_fetch16_be_aligned (hm.sub (by omega) (by omega)) (hok.mono (by omega) (by omega))
          (by omega))
        (fun h => exec_fetch32_be_aligned (hm.sub (by omega) (by omega)) (hok.mono (by omega) (by omega))
          ha)

theorem reads_tail32_le_unaligned (hok : TailOk32 cfg .unaligned w P p k) :
    Reads w ov P (range p k) 0 (tail32_le_unaligned cfg p tail) (BitVec.ofNat 32 (leVal m)) := by
  simp only [TailOk32] at hok
  unfold tail32_le_unaligned
  split
  · rename_i hone
    rw [if_pos hone] at hok
    simp only [szSub_and3 ht h1 h4 hk]
    split
    · rename_i hu
      rw [if_pos hu] at hok
      obtain ⟨hp, hpt, hm, hP⟩ := hok
      refine Exec.bindR (Reads.ptrSub hp hpt) ?_
      refine Exec.bindL ((exec_fetch32_le_unaligned hm hP).cov
        (fun a h => by simp only [range] at *; omega) rfl) ?_
      rintro x o ⟨rfl, bs, hbl, hs, rfl⟩
      refine Exec.pure _ ⟨?_, rfl⟩
      rw [Endian.val, oneshot_le_shift rfl hbl, hs.drop_eq hh hp hl (by omega)]
    · rename_i hu
      rw [if_neg hu] at hok
      refine Exec.bindL ((exec_fetch32_le_unaligned hok.1 hok.2).cov
        (fun a h => by simp only [range] at *; omega) rfl) ?_
      rintro x o ⟨rfl, bs, hbl, hs, rfl⟩
      refine Exec.pure _ ⟨?_, rfl⟩
      rw [Endian.val, oneshot_le_mask rfl hbl h4, hs.take_eq hh hl (by omega)]
  · rename_i hone
    rw [if_neg hone] at hok
    have e3 : tail &&& 3 = k % 4 := by
      rw [show (3 : Nat) = 2 ^ 2 - 1 by rfl, Nat.and_two_pow_sub_one_eq_mod, ← hk]
    simp only [e3]
    have hm := hh.mapped
    rw [hl] at hm
    split
    · rename_i he
      have hs : cfg.unaligned ≠ .slow := by rw [he.1]; decide
      exact reads_tail32_le_wide hh hl h1 h4 hok
        (fun h => exec_fetch16_le_unaligned (hm.sub (by omega) (by omega)) (hok.noGap (by omega) (by omega) hs))
        (fun h => exec_fetch32_le_unaligned (hm.sub (by omega) (by omega)) (hok.noGap (by omega) (by omega) hs))
    · rw [show (if k % 4 = 0 then 4 else k % 4) = k by split <;> omega]
      exact reads_tail32_le_bytes hh hl h1 h4 hok

theorem reads_tail32_be_unaligned (hok : TailOk32 cfg .unaligned w P p k) :
    Reads w ov P (range p k) 0 (tail32_be_unaligned cfg p tail) (BitVec.ofNat 32 (beVal m)) := by
  simp only [TailOk32] at hok
  unfold tail32_be_unaligned
  split
  · rename_i hone
    rw [if_pos hone] at hok
    simp only [szSub_and3 ht h1 h4 hk]
    split
    · rename_i hu
      rw [if_pos hu] at hok
      obtain ⟨hp, hpt, hm, hP⟩ := hok
      refine Exec.bindR (Reads.ptrSub hp hpt) ?_
      refine Exec.bindL ((exec_fetch32_be_unaligned hm hP).cov
        (fun a h => by simp only [range] at *; omega) rfl) ?_
      rintro x o ⟨rfl, bs, hbl, hs, rfl⟩
      refine Exec.pure _ ⟨?_, rfl⟩
      rw [Endian.val, oneshot_be_mask rfl hbl h4, hs.drop_eq hh hp hl (by omega)]
    · rename_i hu
      rw [if_neg hu] at hok
      refine Exec.bindL ((exec_fetch32_be_unaligned hok.1 hok.2).cov
        (fun a h => by simp only [range] at *; omega) rfl) ?_
      rintro x o ⟨rfl, bs, hbl, hs, rfl⟩
      refine Exec.pure _ ⟨?_, rfl⟩
      rw [Endian.val, oneshot_be_shift rfl hbl, hs.take_eq hh hl (by omega)]
  · rename_i hone
    rw [if_neg hone] at hok
    have e3 : tail &&& 3 = k % 4 := by
      rw [show (3 : Nat) = 2 ^ 2 - 1 by rfl, Nat.and_two_pow_sub_one_eq_mod, ← hk]
    simp only [e3]
    have hm := hh.mapped
    rw [hl] at hm
    split
    · rename_i he
      have hs : cfg.unaligned ≠ .slow := by rw [he.1]; decide
      exact reads_tail32_be_wide hh hl h1 h4 hok
        (fun h => exec_fetch16_be_unaligned (hm.sub (by omega) (by omega)) (hok.noGap (by omega) (by omega) hs))
        (fun h => exec_fetch32_be_unaligned (hm.sub (by omega) (by omega)) (hok.noGap (by omega) (by omega) hs))
    · exact reads_tail32_be_bytes hh hl h1 h4 hok

/-- `tail32_*_*` fetches the `k` remaining bytes (`tail` is congruent to `k` modulo 4). -/
theorem reads_tail32 {e : Endian} {al : Aligness} (hok : TailOk32 cfg al w P p k) :
    Reads w ov P (range p k) 0 (tail32 cfg e al p tail) (BitVec.ofNat 32 (e.val m)) := by
  cases e <;> cases al
  · exact reads_tail32_le_aligned hh hl h1 h4 ht hk hok
  · exact reads_tail32_le_unaligned hh hl h1 h4 ht hk hok
  · exact reads_tail32_be_aligned hh hl h1 h4 ht hk hok
  · exact reads_tail32_be_unaligned hh hl h1 h4 ht hk hok

end tails

end T1ha.Model
