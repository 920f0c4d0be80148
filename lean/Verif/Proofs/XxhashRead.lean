import Verif.Proofs.Highway
import Verif.Model.Xxhash

/-!
# xxHash: arithmetic and reading
-/

namespace T1ha.Model

variable {w : World} {ov : Overlay} {cfg : Cfg} {x : Xxh} {P : Ev → Prop} {lo hi d : Nat} {b : Bytes} {r : List Byte}

/-! ## Arithmetic -/

theorem xxh_rotl32_eq (v : U32) (k : Nat) (h : 0 < k ∧ k < 32) : XXH_rotl32 v k h = v.rotateLeft k := by
  rw [XXH_rotl32, BitVec.rotateLeft_def, Nat.mod_eq_of_lt h.2]

theorem xxh_rotl64_eq (v : U64) (k : Nat) (h : 0 < k ∧ k < 64) : XXH_rotl64 v k h = v.rotateLeft k := by
  rw [XXH_rotl64, BitVec.rotateLeft_def, Nat.mod_eq_of_lt h.2]

theorem xxh_swap32_eq (v : U32) : XXH_swap32 x v = BitVec.ofNat 32 (beVal (leBytes 4 v.toNat)) := by
  unfold XXH_swap32
  split
  · rfl
  · have h : ((v <<< 24) &&& 0xff000000#32) ||| ((v <<< 8) &&& 0x00ff0000#32) ||| ((v >>> 8) &&& 0x0000ff00#32) |||
        ((v >>> 24) &&& 0x000000ff#32) =
        v.extractLsb' 0 8 ++ v.extractLsb' 8 8 ++ v.extractLsb' 16 8 ++ v.extractLsb' 24 8 := by
      apply BitVec.eq_of_getLsbD_eq
      intro i hi
      simp only [BitVec.getLsbD_append, BitVec.getLsbD_extractLsb']
      interval_cases i <;> simp
    rw [h]
    apply BitVec.eq_of_toNat_eq
    have := v.isLt
    simp only [toNat_append_add, BitVec.extractLsb'_toNat, BitVec.toNat_ofNat, beVal, leBytes,
      List.foldl, Nat.shiftRight_eq_div_pow, Nat.div_div_eq_div_mul, Nat.reducePow, Nat.reduceMul, Nat.div_one]
    omega

theorem xxh_swap64_eq (v : U64) : XXH_swap64 x v = BitVec.ofNat 64 (beVal (leBytes 8 v.toNat)) := by
  unfold XXH_swap64
  split
  · rfl
  · have h : ((v <<< 56) &&& 0xff00000000000000#64) ||| ((v <<< 40) &&& 0x00ff000000000000#64) |||
        ((v <<< 24) &&& 0x0000ff0000000000#64) ||| ((v <<< 8) &&& 0x000000ff00000000#64) |||
        ((v >>> 8) &&& 0x00000000ff000000#64) ||| ((v >>> 24) &&& 0x0000000000ff0000#64) |||
        ((v >>> 40) &&& 0x000000000000ff00#64) ||| ((v >>> 56) &&& 0x00000000000000ff#64) =
        v.extractLsb' 0 8 ++ v.extractLsb' 8 8 ++ v.extractLsb' 16 8 ++ v.extractLsb' 24 8 ++
          v.extractLsb' 32 8 ++ v.extractLsb' 40 8 ++ v.extractLsb' 48 8 ++ v.extractLsb' 56 8 := by
      apply BitVec.eq_of_getLsbD_eq
      intro i hi
      simp only [BitVec.getLsbD_append, BitVec.getLsbD_extractLsb']
      interval_cases i <;> simp
    rw [h]
    apply BitVec.eq_of_toNat_eq
    have := v.isLt
    simp only [toNat_append_add, BitVec.extractLsb'_toNat, BitVec.toNat_ofNat, beVal, leBytes,
      List.foldl, Nat.shiftRight_eq_div_pow, Nat.div_div_eq_div_mul, Nat.reducePow, Nat.reduceMul, Nat.div_one]
    omega

theorem num32_cons (b : Byte) (bs : List Byte) : Spec.num32 (b :: bs) = b.setWidth 32 ||| Spec.num32 bs <<< 8 := by
  have hb := b.isLt
  unfold Spec.num32
  apply BitVec.eq_of_toNat_eq
  rw [BitVec.toNat_or, BitVec.toNat_shiftLeft, BitVec.toNat_ofNat, BitVec.toNat_ofNat, BitVec.toNat_setWidth,
    Nat.mod_eq_of_lt (a := b.toNat) (by omega), leVal]
  have : (leVal bs % 2 ^ 32) <<< 8 % 2 ^ 32 = (leVal bs % 2 ^ 24) <<< 8 := by
    rw [Nat.shiftLeft_eq, Nat.shiftLeft_eq]; omega
  rw [this, or_shift_eq_add (by omega)]
  omega

theorem num32_four (b0 b1 b2 b3 : Byte) :
    (b0.setWidth 32 ||| b1.setWidth 32 <<< 8 ||| b2.setWidth 32 <<< 16 ||| b3.setWidth 32 <<< 24 : U32) =
      Spec.num32 [b0, b1, b2, b3] := by
  rw [num32_cons, num32_cons, num32_cons, num32_cons, show Spec.num32 [] = 0#32 from rfl]
  simp only [BitVec.shiftLeft_or_distrib, ← BitVec.shiftLeft_add, BitVec.or_assoc, BitVec.zero_shiftLeft, BitVec.or_zero,
    Nat.reduceAdd]

/-! ## Reading -/

/-- Where the `n` bytes at `b + i` are in memory. -/
def Bytes.here : Bytes → Nat → Nat → Nat → Prop
  | .memory p, i, n => range (p + i) n
  | .array _, _, _ => nowhere

theorem Bytes.here_split (b : Bytes) {i n a : Nat} (k : Nat) (hk : k ≤ n) (h : b.here i n a) :
    b.here i k a ∨ b.here (i + k) (n - k) a := by
  cases b with
  | memory p => simp only [Bytes.here, range] at *; omega
  | array l => exact Or.inl h

/-- From `b` the bytes `r` can be read. -/
structure ByteSource (w : World) (ov : Overlay) (cfg : Cfg) (P : Ev → Prop) (b : Bytes) (r : List Byte) : Prop where
  iter : P .iter
  load : ∀ i n, i + n ≤ r.length → Reads w ov P (b.here i n) 0 (b.load i n) ((r.drop i).take n)
  pointer : ∀ n, n ≤ r.length → Reads w ov P nowhere 0 (b.pointer cfg n) ()

theorem Space.source {v : Nat} (hs : Space cfg d P lo hi) (hh : Holds w ov v r) (h1 : lo ≤ v)
    (h2 : v + r.length ≤ hi) : ByteSource w ov cfg P (.memory v) r where
  iter := hs.iter
  load := fun i n h => by
    unfold Bytes.load Bytes.here
    simp only []
    exact Reads.load (hh.slice i n) (by rw [List.length_take, List.length_drop]; omega)
      (hs.rd _ _ (by omega) (by omega))
  pointer := fun n hn => by
    have hlt := hs.hi_lt
    unfold Bytes.pointer
    exact Exec.cov (Reads.bind (Reads.ptrAdd (by omega) (hs.ptr _ (by omega) (by omega))) (Reads.pure ()))
      (fun a h => Or.inl h) rfl

theorem source_array {l : List Byte} (hP : P .iter) (hp : r <+: l) : ByteSource w ov cfg P (.array l) r where
  iter := hP
  load := fun i n h => by
    have := hp.length_le
    unfold Bytes.load
    simp only []
    rw [if_pos (by omega)]
    obtain ⟨t, rfl⟩ := hp
    rw [List.drop_append_of_le_length (by omega), List.take_append_of_le_length (by rw [List.length_drop]; omega)]
    exact Reads.pure _
  pointer := fun n hn => by
    have := hp.length_le
    unfold Bytes.pointer
    simp only []
    rw [if_pos (by omega)]
    exact Reads.pure ()

theorem ByteSource.byte (g : ByteSource w ov cfg P b r) (i : Nat) (h : i < r.length) :
    Reads w ov P (b.here i 1) 0 (b.byte i) r[i] := by
  unfold Bytes.byte
  refine Exec.cov (Reads.bind (C₂ := nowhere) (n₂ := 0) (g.load i 1 (by omega)) ?_) (fun a h => Or.inl h) rfl
  rw [List.drop_eq_getElem_cons h]
  exact Reads.pure _

/-- 32-bit words can be read at `b + i`. -/
def Fine32 (x : Xxh) (aligned : Bool) (b : Bytes) : Prop :=
  (aligned = true → ∀ i, i % 4 = 0 → b.isAligned i 4 = true) ∧
  (aligned = false → x.access = .direct → x.lenient32 = true)

/-- 64-bit words can be read at `b + i`. -/
def Fine64 (x : Xxh) (aligned : Bool) (b : Bytes) : Prop :=
  (aligned = true → ∀ i, i % 8 = 0 → b.isAligned i 8 = true) ∧
  (aligned = false → x.access = .direct → x.lenient64 = true)

theorem reads_pure {α : Type} {u v : α} (h : u = v) : Reads w ov P nowhere 0 (pure u : M α) v := h ▸ Reads.pure _

theorem take_four (l : List Byte) (h : 4 ≤ l.length) : l.take 4 = [l[0], l[1], l[2], l[3]] := by
  match l, h with
  | _ :: _ :: _ :: _ :: _, _ => rfl

theorem length_slice (i n : Nat) (h : i + n ≤ r.length) : ((r.drop i).take n).length = n := by
  rw [List.length_take, List.length_drop]; omega

theorem le32_of_load (e : Endian) (bs : List Byte) (hl : bs.length = 4) :
    (match e with
      | .little => BitVec.ofNat 32 (e.val bs)
      | .big => XXH_swap32 x (BitVec.ofNat 32 (e.val bs))) = Spec.num32 bs := by
  cases e with
  | little => rfl
  | big =>
    simp only []
    rw [xxh_swap32_eq, toNat_ofNat_val (k := 4) .big _ hl (by decide), bswap_val _ _ hl]
    rfl

theorem be32_of_load (e : Endian) (bs : List Byte) (hl : bs.length = 4) :
    (match e with
      | .little => XXH_swap32 x (BitVec.ofNat 32 (e.val bs))
      | .big => BitVec.ofNat 32 (e.val bs)) = BitVec.ofNat 32 (beVal bs) := by
  cases e with
  | big => rfl
  | little =>
    simp only []
    rw [xxh_swap32_eq, toNat_ofNat_val (k := 4) .little _ hl (by decide), bswap_val _ _ hl]

theorem le64_of_load (e : Endian) (bs : List Byte) (hl : bs.length = 8) :
    (match e with
      | .little => BitVec.ofNat 64 (e.val bs)
      | .big => XXH_swap64 x (BitVec.ofNat 64 (e.val bs))) = Spec.num bs := by
  cases e with
  | little => rfl
  | big =>
    simp only []
    rw [xxh_swap64_eq, toNat_ofNat_val (k := 8) .big _ hl (by decide), bswap_val _ _ hl]
    rfl

theorem be64_of_load (e : Endian) (bs : List Byte) (hl : bs.length = 8) :
    (match e with
      | .little => XXH_swap64 x (BitVec.ofNat 64 (e.val bs))
      | .big => BitVec.ofNat 64 (e.val bs)) = BitVec.ofNat 64 (beVal bs) := by
  cases e with
  | big => rfl
  | little =>
    simp only []
    rw [xxh_swap64_eq, toNat_ofNat_val (k := 8) .little _ hl (by decide), bswap_val _ _ hl]

theorem ByteSource.deref32 (g : ByteSource w ov cfg P b r) (i : Nat) (h : i + 4 ≤ r.length)
    (ha : (x.lenient32 || b.isAligned i 4) = true) :
    Reads w ov P (b.here i 4) 0 (deref32 cfg x b i) (BitVec.ofNat 32 (cfg.endian.val ((r.drop i).take 4))) := by
  unfold Model.deref32
  rw [if_pos ha]
  exact Exec.cov (Reads.bind (g.load i 4 h) (Reads.pure _)) (fun a h => Or.inl h) rfl

theorem ByteSource.deref64 (g : ByteSource w ov cfg P b r) (i : Nat) (h : i + 8 ≤ r.length)
    (ha : (x.lenient64 || b.isAligned i 8) = true) :
    Reads w ov P (b.here i 8) 0 (deref64 cfg x b i) (BitVec.ofNat 64 (cfg.endian.val ((r.drop i).take 8))) := by
  unfold Model.deref64
  rw [if_pos ha]
  exact Exec.cov (Reads.bind (g.load i 8 h) (Reads.pure _)) (fun a h => Or.inl h) rfl

theorem ByteSource.read32 (g : ByteSource w ov cfg P b r) (i : Nat) (h : i + 4 ≤ r.length)
    (ha : x.access = .direct → x.lenient32 = true ∨ b.isAligned i 4 = true) :
    Reads w ov P (b.here i 4) 0 (XXH_read32 cfg x b i) (BitVec.ofNat 32 (cfg.endian.val ((r.drop i).take 4))) := by
  unfold XXH_read32
  split
  · rename_i he
    exact g.deref32 i h (by simpa using ha he)
  · exact Exec.cov (Reads.bind (g.load i 4 h) (Reads.pure _)) (fun a h => Or.inl h) rfl

theorem ByteSource.read64 (g : ByteSource w ov cfg P b r) (i : Nat) (h : i + 8 ≤ r.length)
    (ha : x.access = .direct → x.lenient64 = true ∨ b.isAligned i 8 = true) :
    Reads w ov P (b.here i 8) 0 (XXH_read64 cfg x b i) (BitVec.ofNat 64 (cfg.endian.val ((r.drop i).take 8))) := by
  unfold XXH_read64
  split
  · rename_i he
    exact g.deref64 i h (by simpa using ha he)
  · exact Exec.cov (Reads.bind (g.load i 8 h) (Reads.pure _)) (fun a h => Or.inl h) rfl

theorem Bytes.here_bytes (b : Bytes) {i n a : Nat} (h : b.here i n a) : ∃ k < n, b.here (i + k) 1 a := by
  cases b with
  | memory p =>
    simp only [Bytes.here, range] at *
    exact ⟨a - (p + i), by omega, by omega, by omega⟩
  | array l => exact absurd h (by simp [Bytes.here, nowhere])

theorem ByteSource.readLE32 (g : ByteSource w ov cfg P b r) (i : Nat) (h : i + 4 ≤ r.length)
    (ha : x.access = .direct → x.lenient32 = true ∨ b.isAligned i 4 = true) :
    Reads w ov P (b.here i 4) 0 (XXH_readLE32 cfg x b i) (Spec.num32 ((r.drop i).take 4)) := by
  unfold XXH_readLE32
  split
  · rw [take_four _ (by rw [List.length_drop]; omega)]
    simp only [List.getElem_drop, Nat.add_zero]
    refine Exec.cov (Reads.bind (g.byte i (by omega)) <| Reads.bind (g.byte (i + 1) (by omega)) <|
      Reads.bind (g.byte (i + 2) (by omega)) <|
      Reads.bind (C₂ := nowhere) (n₂ := 0) (g.byte (i + 3) (by omega)) ?_) (fun a h => ?_) rfl
    · rw [num32_four]
      exact Reads.pure _
    · obtain ⟨k, hk, h⟩ := b.here_bytes h
      interval_cases k <;> (try simp only [Nat.add_zero] at h) <;> simp only [h, true_or, or_true]
  · refine Exec.cov (Reads.bind (C₂ := nowhere) (n₂ := 0) (g.read32 (x := x) i h ha) ?_) (fun a h => Or.inl h) rfl
    exact reads_pure (le32_of_load _ _ (length_slice i 4 h))

theorem ByteSource.readLE64 (g : ByteSource w ov cfg P b r) (i : Nat) (h : i + 8 ≤ r.length)
    (ha : x.access = .direct → x.lenient64 = true ∨ b.isAligned i 8 = true) :
    Reads w ov P (b.here i 8) 0 (XXH_readLE64 cfg x b i) (Spec.num ((r.drop i).take 8)) := by
  unfold XXH_readLE64
  split
  · rw [take_eight _ (by rw [List.length_drop]; omega)]
    simp only [List.getElem_drop, Nat.add_zero]
    refine Exec.cov (Reads.bind (g.byte i (by omega)) <| Reads.bind (g.byte (i + 1) (by omega)) <|
      Reads.bind (g.byte (i + 2) (by omega)) <| Reads.bind (g.byte (i + 3) (by omega)) <|
      Reads.bind (g.byte (i + 4) (by omega)) <| Reads.bind (g.byte (i + 5) (by omega)) <|
      Reads.bind (g.byte (i + 6) (by omega)) <|
      Reads.bind (C₂ := nowhere) (n₂ := 0) (g.byte (i + 7) (by omega)) ?_) (fun a h => ?_) rfl
    · rw [num_eight]
      exact Reads.pure _
    · obtain ⟨k, hk, h⟩ := b.here_bytes h
      interval_cases k <;> (try simp only [Nat.add_zero] at h) <;> simp only [h, true_or, or_true]
  · refine Exec.cov (Reads.bind (C₂ := nowhere) (n₂ := 0) (g.read64 (x := x) i h ha) ?_) (fun a h => Or.inl h) rfl
    exact reads_pure (le64_of_load _ _ (length_slice i 8 h))

theorem ByteSource.readBE32 (g : ByteSource w ov cfg P b r) (i : Nat) (h : i + 4 ≤ r.length)
    (ha : x.access = .direct → x.lenient32 = true ∨ b.isAligned i 4 = true) :
    Reads w ov P (b.here i 4) 0 (XXH_readBE32 cfg x b i) (BitVec.ofNat 32 (beVal ((r.drop i).take 4))) := by
  unfold XXH_readBE32
  split
  · rw [take_four _ (by rw [List.length_drop]; omega)]
    simp only [List.getElem_drop, Nat.add_zero]
    refine Exec.cov (Reads.bind (g.byte (i + 3) (by omega)) <| Reads.bind (g.byte (i + 2) (by omega)) <|
      Reads.bind (g.byte (i + 1) (by omega)) <|
      Reads.bind (C₂ := nowhere) (n₂ := 0) (g.byte i (by omega)) ?_) (fun a h => ?_) rfl
    · rw [num32_four, beVal_eq]
      exact Reads.pure _
    · obtain ⟨k, hk, h⟩ := b.here_bytes h
      interval_cases k <;> (try simp only [Nat.add_zero] at h) <;> simp only [h, true_or, or_true]
  · refine Exec.cov (Reads.bind (C₂ := nowhere) (n₂ := 0) (g.read32 (x := x) i h ha) ?_) (fun a h => Or.inl h) rfl
    exact reads_pure (be32_of_load _ _ (length_slice i 4 h))

theorem ByteSource.readBE64 (g : ByteSource w ov cfg P b r) (i : Nat) (h : i + 8 ≤ r.length)
    (ha : x.access = .direct → x.lenient64 = true ∨ b.isAligned i 8 = true) :
    Reads w ov P (b.here i 8) 0 (XXH_readBE64 cfg x b i) (BitVec.ofNat 64 (beVal ((r.drop i).take 8))) := by
  unfold XXH_readBE64
  split
  · rw [take_eight _ (by rw [List.length_drop]; omega)]
    simp only [List.getElem_drop, Nat.add_zero]
    refine Exec.cov (Reads.bind (g.byte (i + 7) (by omega)) <| Reads.bind (g.byte (i + 6) (by omega)) <|
      Reads.bind (g.byte (i + 5) (by omega)) <| Reads.bind (g.byte (i + 4) (by omega)) <|
      Reads.bind (g.byte (i + 3) (by omega)) <| Reads.bind (g.byte (i + 2) (by omega)) <|
      Reads.bind (g.byte (i + 1) (by omega)) <|
      Reads.bind (C₂ := nowhere) (n₂ := 0) (g.byte i (by omega)) ?_) (fun a h => ?_) rfl
    · rw [num_eight, beVal_eq]
      exact Reads.pure _
    · obtain ⟨k, hk, h⟩ := b.here_bytes h
      interval_cases k <;> (try simp only [Nat.add_zero] at h) <;> simp only [h, true_or, or_true]
  · refine Exec.cov (Reads.bind (C₂ := nowhere) (n₂ := 0) (g.read64 (x := x) i h ha) ?_) (fun a h => Or.inl h) rfl
    exact reads_pure (be64_of_load _ _ (length_slice i 8 h))

theorem ByteSource.readLE32_align (g : ByteSource w ov cfg P b r) {aligned : Bool} (f : Fine32 x aligned b) (i : Nat)
    (h : i + 4 ≤ r.length) (h4 : i % 4 = 0) :
    Reads w ov P (b.here i 4) 0 (XXH_readLE32_align cfg x aligned b i) (Spec.num32 ((r.drop i).take 4)) := by
  unfold XXH_readLE32_align
  cases aligned with
  | true =>
    rw [if_pos rfl]
    refine Exec.cov (Reads.bind (C₂ := nowhere) (n₂ := 0)
      (g.deref32 (x := x) i h (by rw [f.1 rfl i h4, Bool.or_true])) ?_) (fun a h => Or.inl h) rfl
    exact reads_pure (le32_of_load _ _ (length_slice i 4 h))
  | false =>
    rw [if_neg (by simp)]
    exact g.readLE32 i h (fun hd => Or.inl (f.2 rfl hd))

theorem ByteSource.readLE64_align (g : ByteSource w ov cfg P b r) {aligned : Bool} (f : Fine64 x aligned b) (i : Nat)
    (h : i + 8 ≤ r.length) (h8 : i % 8 = 0) :
    Reads w ov P (b.here i 8) 0 (XXH_readLE64_align cfg x aligned b i) (Spec.num ((r.drop i).take 8)) := by
  unfold XXH_readLE64_align
  cases aligned with
  | true =>
    rw [if_pos rfl]
    refine Exec.cov (Reads.bind (C₂ := nowhere) (n₂ := 0)
      (g.deref64 (x := x) i h (by rw [f.1 rfl i h8, Bool.or_true])) ?_) (fun a h => Or.inl h) rfl
    exact reads_pure (le64_of_load _ _ (length_slice i 8 h))
  | false =>
    rw [if_neg (by simp)]
    exact g.readLE64 i h (fun hd => Or.inl (f.2 rfl hd))

end T1ha.Model
