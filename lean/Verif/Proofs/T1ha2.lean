import Verif.Proofs.Region
import Verif.Model.T1ha2

/-!
# `t1ha2_atonce`, `t1ha2_atonce128` compute the specification
-/

namespace T1ha.Model

variable {w : World} {ov : Overlay} {cfg : Cfg} {P : Ev → Prop} {al : Aligness} {lo hi : Nat}

/-! ## Tails -/

/-- One step of `T1HA2_TAIL_AB`. -/
def abStep (n : Nat) (s : State256) (x : U64) : State256 :=
  if n % 2 = 1 then
    { s with a := (Spec.mix s.a s.b x (Spec.tailPrime n)).1, b := (Spec.mix s.a s.b x (Spec.tailPrime n)).2 }
  else
    { s with b := (Spec.mix s.b s.a x (Spec.tailPrime n)).1, a := (Spec.mix s.b s.a x (Spec.tailPrime n)).2 }

theorem tailAB_eq (ws : List U64) (s : State256) :
    Spec.tailAB ws (s.a, s.b) = ((tailFold abStep ws s).a, (tailFold abStep ws s).b) := by
  induction ws generalizing s with
  | nil => rfl
  | cons x ws ih =>
    rw [tailFold, ← ih]
    simp only [Spec.tailAB, abStep]
    split <;> rfl

theorem abStep_3 (s : State256) (x : U64) : abStep 3 s x =
    { s with a := (Spec.mix s.a s.b x prime_4).1, b := (Spec.mix s.a s.b x prime_4).2 } := (rfl)
theorem abStep_2 (s : State256) (x : U64) : abStep 2 s x =
    { s with b := (Spec.mix s.b s.a x prime_3).1, a := (Spec.mix s.b s.a x prime_3).2 } := (rfl)
theorem abStep_1 (s : State256) (x : U64) : abStep 1 s x =
    { s with a := (Spec.mix s.a s.b x prime_2).1, b := (Spec.mix s.a s.b x prime_2).2 } := (rfl)
theorem abStep_0 (s : State256) (x : U64) : abStep 0 s x =
    { s with b := (Spec.mix s.b s.a x prime_1).1, a := (Spec.mix s.b s.a x prime_1).2 } := (rfl)

set_option linter.unusedSimpArgs false in
theorem t1ha2_TAIL_AB_mix_eq (s : State256) (v len : Nat) :
    t1ha2_TAIL_AB_mix cfg al s v len =
      steps cfg 8 (fetch64 cfg .little al) (tail64 cfg .little al) abStep len 3 s v := by
  unfold t1ha2_TAIL_AB_mix
  simp only [steps, Nat.reduceAdd, Nat.reduceMul, Nat.zero_add, Nat.one_mul]
  by_cases h24 : 24 < len <;> by_cases h16 : 16 < len <;> by_cases h8 : 8 < len <;>
    by_cases h0 : 0 < len <;> first | omega | skip
  all_goals
    simp only [h24, h16, h8, h0, if_true, if_false, bind_assoc, pure_bind]
    try simp only [abStep_3, abStep_2, abStep_1, abStep_0]
    try simp only [mixup64_eq]

theorem reads_TAIL_AB_mix (hr : Region cfg al w P lo hi) {v len : Nat} {r : List Byte} (s : State256)
    (ha : AlOk cfg al v) (hh : Holds w ov v r) (hlo : lo ≤ v) (hhi : v + r.length = hi)
    (hlen : r.length = len) (h32 : len ≤ 32) :
    Reads w ov P (range v len) 0 (t1ha2_TAIL_AB_mix cfg al s v len)
      (tailFold abStep (Spec.words64 .little r) s) := by
  rw [t1ha2_TAIL_AB_mix_eq]
  exact hr.steps (e := .little) (fun h => nomatch h) abStep s ha hh hlo hhi hlen h32

theorem reads_TAIL_AB (hr : Region cfg al w P lo hi) {v len : Nat} {r : List Byte} (s : State256)
    (ha : AlOk cfg al v) (hh : Holds w ov v r) (hlo : lo ≤ v) (hhi : v + r.length = hi)
    (hlen : r.length = len) (h32 : len ≤ 32) :
    Reads w ov P (range v len) 0 (t1ha2_TAIL_AB cfg al s v len)
      (Spec.final64 (Spec.tailAB (Spec.words64 .little r) (s.a, s.b))) := by
  unfold t1ha2_TAIL_AB
  refine Exec.bindL (reads_TAIL_AB_mix hr s ha hh hlo hhi hlen h32) (fun x o ⟨hx, ho⟩ => ?_)
  refine Exec.pure _ ⟨?_, ho⟩
  rw [final64_eq, tailAB_eq, hx]

/-- One step of `T1HA2_TAIL_ABCD`. -/
def abcdStep (n : Nat) (s : State256) (x : U64) : State256 :=
  match n with
  | 0 => { s with d := (Spec.mix s.d s.c x prime_1).1, c := (Spec.mix s.d s.c x prime_1).2 }
  | 1 => { s with c := (Spec.mix s.c s.b x prime_2).1, b := (Spec.mix s.c s.b x prime_2).2 }
  | 2 => { s with b := (Spec.mix s.b s.a x prime_3).1, a := (Spec.mix s.b s.a x prime_3).2 }
  | _ => { s with a := (Spec.mix s.a s.d x prime_4).1, d := (Spec.mix s.a s.d x prime_4).2 }

theorem tailABCD_eq (ws : List U64) (s : State256) :
    Spec.tailABCD ws s.spec = (tailFold abcdStep ws s).spec := by
  induction ws generalizing s with
  | nil => rfl
  | cons x ws ih =>
    rw [tailFold, ← ih]
    simp only [Spec.tailABCD]
    rcases hl : ws.length with _ | _ | _ | n <;> rfl

theorem abcdStep_3 (s : State256) (x : U64) : abcdStep 3 s x =
    { s with a := (Spec.mix s.a s.d x prime_4).1, d := (Spec.mix s.a s.d x prime_4).2 } := (rfl)
theorem abcdStep_2 (s : State256) (x : U64) : abcdStep 2 s x =
    { s with b := (Spec.mix s.b s.a x prime_3).1, a := (Spec.mix s.b s.a x prime_3).2 } := (rfl)
theorem abcdStep_1 (s : State256) (x : U64) : abcdStep 1 s x =
    { s with c := (Spec.mix s.c s.b x prime_2).1, b := (Spec.mix s.c s.b x prime_2).2 } := (rfl)
theorem abcdStep_0 (s : State256) (x : U64) : abcdStep 0 s x =
    { s with d := (Spec.mix s.d s.c x prime_1).1, c := (Spec.mix s.d s.c x prime_1).2 } := (rfl)

set_option linter.unusedSimpArgs false in
theorem t1ha2_TAIL_ABCD_mix_eq (s : State256) (v len : Nat) :
    t1ha2_TAIL_ABCD_mix cfg al s v len =
      steps cfg 8 (fetch64 cfg .little al) (tail64 cfg .little al) abcdStep len 3 s v := by
  unfold t1ha2_TAIL_ABCD_mix
  simp only [steps, Nat.reduceAdd, Nat.reduceMul, Nat.zero_add, Nat.one_mul]
  by_cases h24 : 24 < len <;> by_cases h16 : 16 < len <;> by_cases h8 : 8 < len <;>
    by_cases h0 : 0 < len <;> first | omega | skip
  all_goals
    simp only [h24, h16, h8, h0, if_true, if_false, bind_assoc, pure_bind]
    try simp only [abcdStep_3, abcdStep_2, abcdStep_1, abcdStep_0]
    try simp only [mixup64_eq]

theorem reads_TAIL_ABCD_mix (hr : Region cfg al w P lo hi) {v len : Nat} {r : List Byte} (s : State256)
    (ha : AlOk cfg al v) (hh : Holds w ov v r) (hlo : lo ≤ v) (hhi : v + r.length = hi)
    (hlen : r.length = len) (h32 : len ≤ 32) :
    Reads w ov P (range v len) 0 (t1ha2_TAIL_ABCD_mix cfg al s v len)
      (tailFold abcdStep (Spec.words64 .little r) s) := by
  rw [t1ha2_TAIL_ABCD_mix_eq]
  exact hr.steps (e := .little) (fun h => nomatch h) abcdStep s ha hh hlo hhi hlen h32

/-! ## Writing -/

theorem canWrite_of {t p n : Nat} (h1 : ∀ i, i < n → (w.cell t (p + i)).isSome)
    (h2 : ∀ i, i < n → w.writable (p + i) = true) : canWrite w t p n = true := by
  induction n generalizing p with
  | zero => rfl
  | succ n ih =>
    simp only [canWrite, Bool.and_eq_true]
    refine ⟨⟨by simpa using h1 0 (by omega), by simpa using h2 0 (by omega)⟩, ih ?_ ?_⟩
    · intro i hi
      have := h1 (i + 1) (by omega)
      rwa [show p + (i + 1) = p + 1 + i by omega] at this
    · intro i hi
      have := h2 (i + 1) (by omega)
      rwa [show p + (i + 1) = p + 1 + i by omega] at this

theorem Exec.store {p : Nat} {bs : List Byte} (h : Writable w p bs.length)
    (hP : P (.wr p bs.length)) :
    Exec w ov P nowhere 0 (store p bs) (fun _ o => o = put ov p bs) := by
  intro log
  refine ⟨(), put ov p bs, [.wr p bs.length], ?_, rfl, ?_, ?_, ?_⟩
  · unfold Model.store
    rw [if_pos (canWrite_of (h.1 _) h.2)]
    rfl
  · simpa using hP
  · intro a h
    exact absurd h (by simp [nowhere])
  · simp

theorem length_leBytes (n v : Nat) : (leBytes n v).length = n := by
  induction n generalizing v with
  | zero => rfl
  | succ n ih => simp [leBytes, ih]

theorem length_bytes (e : Endian) (n v : Nat) : (e.bytes n v).length = n := by
  cases e <;> simp [Endian.bytes, length_leBytes]

theorem Exec.writeInt {p n v : Nat} (h : Writable w p n) (hP : P (.wr p n)) :
    Exec w ov P nowhere 0 (writeInt cfg p n v) (fun _ o => o = put ov p (cfg.endian.bytes n v)) := by
  have := length_bytes cfg.endian n v
  unfold Model.writeInt
  exact Exec.store (by rwa [this]) (by rwa [this])

/-! ## The block loop -/

theorem reads_UPDATE (hr : Region cfg al w P lo hi) (s : State256) (v : Nat)
    (r : List Byte) (ha : AlOk cfg al v) (hh : Holds w ov v r) (hlo : lo ≤ v)
    (hhi : v + 32 ≤ hi) (hl : 32 ≤ r.length) :
    Exec w ov P (range v 32) 0 (t1ha2_UPDATE cfg al s v)
      (fun x o => x.spec = Spec.absorb s.spec (r.take 32) ∧ o = ov) := by
  have hw := fun i (hi4 : i < 4) => hr.word (e := .little) ha hh hlo hhi hl hi4
  unfold t1ha2_UPDATE
  refine Exec.cov (Reads.bind (hw 0 (by omega)) <|
    Reads.bind (hw 1 (by omega)) <| Reads.bind (hw 2 (by omega)) <|
    Reads.bind (hw 3 (by omega)) <| Exec.pure _ ⟨?_, rfl⟩)
    (fun a h => by simp only [range, nowhere] at *; omega) rfl
  simp only [rot64_eq]
  rfl

theorem reads_t1ha2_loop (hr : Region cfg al w P lo hi) (n : Nat) (s : State256) (v : Nat)
    (r : List Byte) (ha : AlOk cfg al v) (hh : Holds w ov v r) (hlo : lo ≤ v)
    (hhi : v + r.length = hi) (hn : r.length / 32 = n + 1) {fuel : Nat} (hf : n < fuel) {detent : Nat}
    (hd : detent = hi - 31) :
    Exec w ov P (range v (32 * (n + 1))) (n + 1) (t1ha2_loop cfg al detent fuel s v)
      (fun x o => x.1.spec = (chunks 32 (n + 1) r).foldl Spec.absorb s.spec ∧
        x.2 = v + 32 * (n + 1) ∧ o = ov) := by
  induction n generalizing s v r fuel with
  | zero =>
    have hlt := hr.hi_lt
    obtain ⟨fuel, rfl⟩ : ∃ k, fuel = k + 1 := ⟨fuel - 1, by omega⟩
    unfold t1ha2_loop
    refine Exec.cov (Reads.bind (Reads.iterate hr.iter) <| Reads.bind (Reads.ptrAdd (by omega) (hr.ptr _ (by omega) (by omega))) <|
      Exec.bind (C₂ := nowhere) (n₂ := 0) (reads_UPDATE hr s v r ha hh hlo (by omega) (by omega))
      (fun x o ⟨hx, ho⟩ => ?_))
      (fun a h => by simp only [range, nowhere] at *; omega) rfl
    rw [if_neg (by omega), ho]
    exact Exec.pure _ ⟨hx, rfl, rfl⟩
  | succ n ih =>
    have hlt := hr.hi_lt
    obtain ⟨fuel, rfl⟩ : ∃ k, fuel = k + 1 := ⟨fuel - 1, by omega⟩
    have hd' : (r.drop 32).length = r.length - 32 := List.length_drop
    unfold t1ha2_loop
    refine Exec.cov (Reads.bind (Reads.iterate hr.iter) <| Reads.bind (Reads.ptrAdd (by omega) (hr.ptr _ (by omega) (by omega))) <|
      Exec.bind (C₂ := range (v + 32) (32 * (n + 1))) (n₂ := n + 1)
      (reads_UPDATE hr s v r ha hh hlo (by omega) (by omega))
      (fun x o ⟨hx, ho⟩ => ?_))
      (fun a h => by simp only [range, nowhere] at *; omega) (by omega)
    rw [if_pos (by omega), ho]
    refine (ih x (v + 32) (r.drop 32) (ha.add32 (j := 1))
        (hh.drop 32) (by omega) (by omega) (by omega) (fuel := fuel) (by omega)).post ?_
    rintro y o ⟨h1, h2, h3⟩
    refine ⟨?_, by omega, h3⟩
    rw [h1, hx]
    rfl

theorem reads_t1ha2_LOOP (hr : Region cfg al w P lo hi) (s : State256) (v : Nat)
    (r : List Byte) (ha : AlOk cfg al v) (hh : Holds w ov v r) (hlo : lo ≤ v)
    (hhi : v + r.length = hi) (hl : 32 ≤ r.length) :
    Exec w ov P (range v (32 * (r.length / 32))) (r.length / 32) (t1ha2_LOOP cfg al s v r.length)
      (fun x o => x.1.spec = Spec.absorbAll s.spec (Spec.blocks 32 r) ∧
        x.2 = v + 32 * (r.length / 32) ∧ o = ov) := by
  have hlt := hr.hi_lt
  have hn : r.length / 32 = (r.length / 32 - 1) + 1 := by omega
  have := reads_t1ha2_loop hr (r.length / 32 - 1) s v r ha hh hlo hhi hn
    (fuel := r.length) (detent := hi - 31) (by omega) rfl
  rw [← hn] at this
  unfold t1ha2_LOOP
  refine Exec.bindR (Reads.ptrAdd (by omega) (hr.ptr _ (by omega) (by omega))) <| Exec.bindR (Reads.ptrSub (by omega) (hr.ptr _ (by omega) (by omega))) ?_
  rw [hhi]
  exact this

theorem reads_atonce_body (hr : Region cfg al w P lo hi) {data : Nat} {m : List Byte} (g : State256)
    (seed : U64) (ha : AlOk cfg al data) (hh : Holds w ov data m) (hlo : lo ≤ data)
    (hhi : data + m.length = hi) :
    Reads w ov P (range data m.length) (loops 32 m.length)
      (t1ha2_atonce_body cfg al g data m.length seed) (Spec.t1ha2_atonce m seed) := by
  unfold t1ha2_atonce_body Spec.t1ha2_atonce loops
  by_cases h : 32 < m.length
  · have hrest := length_rest 32 m
    simp only [if_pos h, gt_iff_lt]
    refine Exec.cov (Exec.bind (C₂ := range (data + 32 * (m.length / 32)) (m.length % 32)) (n₂ := 0)
      (reads_t1ha2_LOOP hr _ data m ha hh hlo hhi (by omega)) ?_)
      (fun a h => by simp only [range] at *; omega) rfl
    rintro ⟨s, v⟩ o ⟨hs, hv, ho⟩
    simp only at hv hs ⊢
    rw [hv, ho, and_31]
    have key := reads_TAIL_AB (ov := ov) (len := m.length % 32) hr (squash s)
      (v := data + 32 * (m.length / 32)) (r := Spec.rest 32 m)
      ha.add32 (hh.drop _) (by omega) (by rw [hrest]; omega) hrest (by omega)
    rw [init_eq] at hs
    have hsq := squash_eq s
    rw [hs] at hsq
    rw [show (squash s).a = (squash s).spec.a from rfl, show (squash s).b = (squash s).spec.b from rfl,
      hsq] at key
    exact key
  · simp only [if_neg h, gt_iff_lt]
    exact reads_TAIL_AB hr _ ha hh hlo hhi rfl (by omega)

theorem reads_atonce {page data : Nat} {m : List Byte} (h : Buf cfg w ov page data m)
    (hslack : cfg.SafeTail ∨ Mapped w (data + m.length) 8) (g : State256) (seed : U64) :
    Reads w ov (Foot cfg page data m.length) (range data m.length) (loops 32 m.length)
      (t1ha2_atonce cfg g data m.length seed) (Spec.t1ha2_atonce m seed) := by
  unfold t1ha2_atonce
  by_cases he : cfg.unaligned = .efficient
  · rw [if_pos he]
    exact reads_atonce_body (h.region (al := .unaligned) hslack (fun h => nomatch h)) g seed .unaligned
      h.holds (Nat.le_refl _) rfl
  · rw [if_neg he]
    by_cases hm : (data &&& (cfg.alignment64 - 1) != 0) = true
    · simp only [if_pos hm]
      exact reads_atonce_body (h.region (al := .unaligned) hslack (fun h => nomatch h)) g seed .unaligned
        h.holds (Nat.le_refl _) rfl
    · simp only [if_neg hm]
      exact reads_atonce_body (h.region hslack (fun _ => he)) g seed (misaligned_false hm) h.holds
        (Nat.le_refl _) rfl

theorem exec_TAIL_ABCD (hr : Region cfg al w P lo hi) {v len extra : Nat} {r : List Byte} (s : State256)
    (ha : AlOk cfg al v) (hh : Holds w ov v r) (hlo : lo ≤ v) (hhi : v + r.length = hi)
    (hlen : r.length = len) (h32 : len ≤ 32) (hw : Writable w extra 8) (hP : P (.wr extra 8)) :
    Exec w ov P (range v len) 0 (t1ha2_TAIL_ABCD cfg al s v len extra)
      (fun x o => x = (Spec.final128 (Spec.tailABCD (Spec.words64 .little r) s.spec)).1 ∧
        o = put ov extra (cfg.endian.bytes 8
          (Spec.final128 (Spec.tailABCD (Spec.words64 .little r) s.spec)).2.toNat)) := by
  unfold t1ha2_TAIL_ABCD
  refine Exec.bindL (reads_TAIL_ABCD_mix hr s ha hh hlo hhi hlen h32) ?_
  rintro x o ⟨hx, ho⟩
  refine Exec.bindL (Exec.writeInt hw hP) (fun _ o' ho' => Exec.pure _ ?_)
  rw [tailABCD_eq, ho', ho, final128_eq, hx]
  exact ⟨rfl, rfl⟩

theorem exec_atonce128_body (hr : Region cfg al w P lo hi) {data extra : Nat} {m : List Byte}
    (g : State256) (seed : U64) (ha : AlOk cfg al data) (hh : Holds w ov data m) (hlo : lo ≤ data)
    (hhi : data + m.length = hi) (hw : Writable w extra 8) (hP : P (.wr extra 8)) :
    Exec w ov P (range data m.length) (loops 32 m.length)
      (t1ha2_atonce128_body cfg al g extra data m.length seed)
      (fun x o => x = (Spec.t1ha2_atonce128 m seed).1 ∧
        o = put ov extra (cfg.endian.bytes 8 (Spec.t1ha2_atonce128 m seed).2.toNat)) := by
  unfold t1ha2_atonce128_body Spec.t1ha2_atonce128 loops
  by_cases h : 32 < m.length
  · have hrest := length_rest 32 m
    simp only [if_pos h, gt_iff_lt]
    refine Exec.cov (Exec.bind (C₂ := range (data + 32 * (m.length / 32)) (m.length % 32)) (n₂ := 0)
      (reads_t1ha2_LOOP hr _ data m ha hh hlo hhi (by omega)) ?_)
      (fun a h => by simp only [range] at *; omega) rfl
    rintro ⟨s, v⟩ o ⟨hs, hv, ho⟩
    simp only at hv hs ⊢
    rw [hv, ho, and_31]
    have key := exec_TAIL_ABCD (ov := ov) (len := m.length % 32) hr s
      (v := data + 32 * (m.length / 32)) (r := Spec.rest 32 m)
      ha.add32 (hh.drop _) (by omega) (by rw [hrest]; omega) hrest (by omega) hw hP
    rw [init_eq] at hs
    rw [hs] at key
    exact key
  · simp only [if_neg h, gt_iff_lt]
    have key := exec_TAIL_ABCD (ov := ov) hr
      (init_cd (init_ab g seed (BitVec.ofNat 64 m.length)) seed (BitVec.ofNat 64 m.length))
      ha hh hlo hhi rfl (by omega) hw hP
    rw [init_eq] at key
    exact key

/-- What `t1ha2_atonce128` may do: the reads of a hash, and the write of the result. -/
def Foot128 (cfg : Cfg) (page data len extra : Nat) (x : Ev) : Prop :=
  Foot cfg page data len x ∨ x = .wr extra 8

theorem exec_atonce128 {page data extra : Nat} {m : List Byte} (h : Buf cfg w ov page data m)
    (hslack : cfg.SafeTail ∨ Mapped w (data + m.length) 8) (hw : Writable w extra 8) (g : State256)
    (seed : U64) :
    Exec w ov (Foot128 cfg page data m.length extra) (range data m.length) (loops 32 m.length)
      (t1ha2_atonce128 cfg g extra data m.length seed)
      (fun x o => x = (Spec.t1ha2_atonce128 m seed).1 ∧
        o = put ov extra (cfg.endian.bytes 8 (Spec.t1ha2_atonce128 m seed).2.toNat)) := by
  unfold t1ha2_atonce128
  have hreg : ∀ al, (al = Aligness.aligned → cfg.unaligned ≠ .efficient) →
      Region cfg al w (Foot128 cfg page data m.length extra) data (data + m.length) :=
    fun al hal => (h.region hslack hal).mono fun _ hx => Or.inl hx
  by_cases he : cfg.unaligned = .efficient
  · rw [if_pos he]
    exact exec_atonce128_body (hreg .unaligned (fun h => nomatch h)) g seed .unaligned
      h.holds (Nat.le_refl _) rfl hw (Or.inr rfl)
  · rw [if_neg he]
    by_cases hm : (data &&& (cfg.alignment64 - 1) != 0) = true
    · simp only [if_pos hm]
      exact exec_atonce128_body (hreg .unaligned (fun h => nomatch h)) g seed .unaligned
        h.holds (Nat.le_refl _) rfl hw (Or.inr rfl)
    · simp only [if_neg hm]
      exact exec_atonce128_body (hreg .aligned (fun _ => he)) g seed (misaligned_false hm) h.holds
        (Nat.le_refl _) rfl hw (Or.inr rfl)

end T1ha.Model
