import Verif.Props.Session
import Verif.Proofs.Stream

/-!
# Streams, contexts and their images
-/

namespace T1ha.Model

variable {w : World} {ov o : Overlay} {cfg : Cfg} {P : Ev → Prop}

/-! ## Images -/

/-- The bytes `bs` are at offset `k` of the image. -/
def Part (img : List Byte) (k : Nat) (bs : List Byte) : Prop := (img.drop k).take bs.length = bs

theorem Part.holds {img bs : List Byte} {k p : Nat} (h : Part img k bs) (hh : Holds w ov p img) :
    Holds w ov (p + k) bs := by
  have := hh.slice k bs.length
  rwa [h] at this

/-- Contents are unique. -/
theorem Holds.unique {p : Nat} {xs ys : List Byte} (hx : Holds w ov p xs) (hy : Holds w ov p ys)
    (hl : xs.length = ys.length) : xs = ys := by
  refine Seen.eq_of_holds (w := w) (ov := ov) (p := p) ?_ hy hl
  intro i b hb
  exact ⟨0, hx 0 i b hb⟩

theorem Part.of_holds {img bs : List Byte} {k p : Nat} (hh : Holds w ov p img)
    (hb : Holds w ov (p + k) bs) (hl : k + bs.length ≤ img.length) : Part img k bs := by
  refine (hh.slice k bs.length).unique hb ?_
  rw [List.length_take, List.length_drop]
  omega

/-- The members of a context with the given contents. -/
structure Img (cfg : Cfg) (img : List Byte) (s : Spec.State) (pend : List Byte) (total : U64) :
    Prop where
  a : Part img 0 (cfg.endian.bytes 8 s.a.toNat)
  b : Part img 8 (cfg.endian.bytes 8 s.b.toNat)
  c : Part img 16 (cfg.endian.bytes 8 s.c.toNat)
  d : Part img 24 (cfg.endian.bytes 8 s.d.toNat)
  buf : Part img 32 pend
  part : Part img 64 (cfg.endian.bytes (szBytes cfg) pend.length)
  total : Part img (offTotal cfg) (cfg.endian.bytes 8 total.toNat)
  short : pend.length < 32

variable {img pend : List Byte} {s : Spec.State} {total : U64} {ctx : Nat}

theorem Img.rep (h : Img cfg img s pend total) (hh : Holds w ov ctx img) :
    Rep cfg w ov ctx s pend total :=
  ⟨⟨h.a.holds hh, h.b.holds hh, h.c.holds hh, h.d.holds hh⟩, h.buf.holds hh, h.part.holds hh,
    h.total.holds hh, h.short⟩

theorem Rep.toImg (h : Rep cfg w ov ctx s pend total) (hh : Holds w ov ctx img)
    (hl : img.length = ctxSize cfg) : Img cfg img s pend total := by
  obtain ⟨f1, f2, f3, f4, f5⟩ := offs cfg
  have len := fun n v => length_bytes cfg.endian n v
  have := h.short
  exact ⟨.of_holds hh h.state.a (by rw [len]; omega), .of_holds hh h.state.b (by rw [len]; omega),
    .of_holds hh h.state.c (by rw [len]; omega), .of_holds hh h.state.d (by rw [len]; omega),
    .of_holds hh h.buf (by omega), .of_holds hh h.part (by rw [len]; omega),
    .of_holds hh h.total (by rw [len]; omega), h.short⟩

theorem Ctx.place (h : Ctx cfg w ov ctx img) : Place cfg w ctx := ⟨h.writable, h.fits, h.aligned⟩

/-- Whatever a call wrote, memory still has contents. -/
theorem Holds.image {p : Nat} (h : Holds w ov p img) (hg : ∀ a, o a = none → ov a = none) :
    ∃ img', img'.length = img.length ∧ Holds w o p img' := by
  refine ⟨(List.range img.length).map fun i => (o (p + i)).getD ((img[i]?).getD 0), by simp, ?_⟩
  intro t i b hb
  simp only [List.getElem?_map, Option.map_eq_some_iff] at hb
  obtain ⟨j, hj, hb⟩ := hb
  have hi : i < img.length := by
    rcases Nat.lt_or_ge i img.length with h | h
    · exact h
    · rw [List.getElem?_eq_none (by simpa using h)] at hj; exact absurd hj (by simp)
  rw [List.getElem?_range hi] at hj
  cases hj
  have hm := h t i img[i] (by simp [hi])
  unfold see at hm ⊢
  simp only [Option.map_eq_some_iff] at hm ⊢
  obtain ⟨c, hc, hv⟩ := hm
  refine ⟨c, hc, ?_⟩
  rw [← hb]
  cases ho : o (p + i) with
  | some x => rfl
  | none =>
    rw [hg _ ho] at hv
    simp only [Option.getD_none] at hv ⊢
    rw [hv]
    simp [hi]

theorem Ctx.after (h : Ctx cfg w ov ctx img) (hg : ∀ a, o a = none → ov a = none) :
    ∃ img', Ctx cfg w o ctx img' := by
  obtain ⟨img', h1, h2⟩ := h.holds.image hg
  exact ⟨img', h1.trans h.size, h2, h.writable, h.fits, h.aligned, h.notNull⟩

theorem Ctx.only {q n : Nat} (h : Ctx cfg w ov ctx img) (ho : Only ov o q n)
    (hd : ctx + ctxSize cfg ≤ q ∨ q + n ≤ ctx) : Ctx cfg w o ctx img :=
  ⟨h.size, h.holds.only ho (by rw [h.size]; exact hd), h.writable, h.fits, h.aligned, h.notNull⟩

/-! ## Calls -/

theorem returns_of_exec {α : Type} {C : Nat → Prop} {n : Nat} {m : M α} {Q : α → Overlay → Prop}
    {s : Sys} (h : Exec w s.ov P C n m Q) :
    ∃ v s' t, Returns m w s v s' t ∧ Q v s'.ov ∧ (∀ x ∈ t, P x) ∧
      (∀ a, C a → ∃ x ∈ t, x.covers a) ∧ t.count .iter = n := by
  obtain ⟨v, ov', t, h1, h2, h3, h4, h5⟩ := h s.log
  exact ⟨v, ⟨t ++ s.log, ov'⟩, t, ⟨h1, rfl⟩, h2, h3, h4, h5⟩

theorem Returns.unique {α : Type} {m : M α} {s s₁ s₂ : Sys} {v₁ v₂ : α} {t₁ t₂ : List Ev}
    (h₁ : Returns m w s v₁ s₁ t₁) (h₂ : Returns m w s v₂ s₂ t₂) : v₁ = v₂ ∧ s₁ = s₂ ∧ t₁ = t₂ := by
  have h := h₁.1.symm.trans h₂.1
  simp only [Except.ok.injEq, Prod.mk.injEq] at h
  refine ⟨h.1, h.2, ?_⟩
  have h3 := h₁.2.symm.trans ((congrArg Sys.log h.2).trans h₂.2)
  exact List.append_cancel_right h3

theorem acc_update {data len : Nat} : Acc (UpdateEv cfg ctx data len) ctx (ctxSize cfg) :=
  fun _ _ h1 h2 => ⟨Or.inl ⟨h1, h2⟩, ⟨h1, h2⟩⟩

theorem words_update {data len : Nat} (hb : cfg.proxy = true → 32 ≤ len → 7 ≤ data) :
    Words cfg (UpdateEv cfg ctx data len) data len where
  rd := ⟨fun _ _ h1 h2 => Or.inr ⟨h1, h2⟩, fun h => absurd h (Nat.lt_irrefl _)⟩
  words := fun h32 => ⟨fun _ _ h1 h2 => Or.inr ⟨h1, h2⟩, fun h0 _ => by
    obtain ⟨hx, hg, -⟩ := gap_pos h0
    have := hb hx h32
    exact ⟨by omega, fun a h1 h2 => Or.inr (Or.inr ⟨hx, h32, by omega, by omega⟩)⟩⟩

theorem Piece.apart' {data : Nat} {m : List Byte} (h : Piece cfg w ov ctx data m) :
    Apart cfg ctx data m.length := by
  rcases h.apart with h | h
  · exact Or.inl (by rw [h]; rfl)
  · exact Or.inr h

theorem init_exec (h : Ctx cfg w ov ctx img) (x y : U64) :
    Exec w ov (InitEv cfg ctx) nowhere 0 (t1ha2_init cfg ctx x y)
      (fun _ o => Rep cfg w o ctx (Spec.init x y) [] 0 ∧ Only ov o ctx (ctxSize cfg)) :=
  exec_init h.place (fun _ _ h1 h2 => ⟨h1, h2⟩) x y

theorem update_exec {data : Nat} {m : List Byte} (h : Ctx cfg w ov ctx img)
    (hi : Img cfg img s pend total) (hp : Piece cfg w ov ctx data m) :
    Exec w ov (UpdateEv cfg ctx data m.length) (range data m.length)
      (updateLoops pend.length m.length) (t1ha2_update cfg ctx data m.length)
      (fun _ o => Rep cfg w o ctx (Spec.absorbAll s (Spec.blocks 32 (pend ++ m)))
          (Spec.rest 32 (pend ++ m)) (total + BitVec.ofNat 64 m.length) ∧
        Only ov o ctx (ctxSize cfg)) :=
  exec_update h.place acc_update trivial (hi.rep h.holds) hp.holds (words_update hp.above)
    (fun _ h1 h2 => Or.inr (Or.inl ⟨h1, h2⟩)) hp.apart' hp.fits (Or.inl hp.notNull)

theorem bits_ge (cfg : Cfg) : 2 ^ 32 ≤ 2 ^ cfg.bits := by unfold Cfg.bits; split <;> decide

/-- Writing bytes which are there already. -/
theorem Holds.rewrite {p k : Nat} {bs : List Byte} (h : Holds w ov p img) (hk : Part img k bs)
    (hl : k + bs.length ≤ img.length) : Holds w (Model.put ov (p + k) bs) p img := by
  intro t i b hb
  by_cases hi : k ≤ i ∧ i < k + bs.length
  · have hm : Mapped w (p + k) bs.length := by
      intro t j hj
      have := h t (k + j) img[k + j] (by simp [show k + j < img.length by omega])
      unfold see at this
      simp only [Option.map_eq_some_iff] at this
      obtain ⟨c, hc, -⟩ := this
      rw [show p + k + j = p + (k + j) by omega, hc]
      rfl
    have hb' : bs[i - k]? = some b := by
      rw [← hk, List.getElem?_take, if_pos (by omega), List.getElem?_drop,
        show k + (i - k) = i by omega]
      exact hb
    have := (holds_put (w := w) (ov := ov) hm) t (i - k) b hb'
    rwa [show p + k + (i - k) = p + i by omega] at this
  · have := h t i b hb
    unfold see at this ⊢
    rw [put_other (by omega)]
    exact this

/-- What an update of length 0 may do. -/
def EmptyEv (cfg : Cfg) (ctx : Nat) : Ev → Prop
  | .rd a n => Inside ctx (ctxSize cfg) a n ∨ n = 0
  | .wr a n => Inside ctx (ctxSize cfg) a n
  | .iter => False
  | .ptr _ => False

theorem empty_exec {data : Nat} (h : Ctx cfg w ov ctx img) (hi : Img cfg img s pend total)
    (hn : data ≠ 0 ∨ pend.length = 0) :
    Exec w ov (EmptyEv cfg ctx) nowhere 0 (t1ha2_update cfg ctx data 0)
      (fun _ o => Holds w o ctx img ∧ Only ov o ctx (ctxSize cfg)) := by
  obtain ⟨f1, f2, f3, f4, f5⟩ := offs cfg
  have len := fun n v => length_bytes cfg.endian n v
  have hshort := hi.short
  have hs := h.size
  have hbits := bits_ge cfg
  have rd : ∀ k n, k + n ≤ ctxSize cfg → EmptyEv cfg ctx (.rd (ctx + k) n) :=
    fun k n hk => Or.inl ⟨by omega, by omega⟩
  have wr : ∀ k n, k + n ≤ ctxSize cfg → EmptyEv cfg ctx (.wr (ctx + k) n) :=
    fun k n hk => ⟨by omega, by omega⟩
  unfold t1ha2_update
  refine Exec.bindR (reads_readU64 (hi.total.holds h.holds) (rd _ _ (by omega))) ?_
  rw [show total + BitVec.ofNat 64 0 = total by simp]
  refine Exec.bindL (Exec.writeU64 (h.writable.sub (by omega) (by omega)) (wr _ _ (by omega))) ?_
  rintro _ o ho
  have h1 : Holds w o ctx img := by
    rw [ho]; exact h.holds.rewrite hi.total (by rw [len]; omega)
  have o1 : Only ov o ctx (ctxSize cfg) := by
    rw [ho]; exact only_put (by omega) (by rw [len]; omega)
  refine Exec.bindR (reads_readPartial (hi.part.holds h1) (by omega) (rd _ _ (by omega))) ?_
  by_cases hz : pend.length = 0
  · rw [if_neg (by omega)]
    exact Exec.pure _ ⟨h1, o1⟩
  · rw [if_pos hz]
    replace hn := hn.resolve_right hz
    have hleft : szSub cfg 32 pend.length = 32 - pend.length := by
      unfold szSub
      rw [show 2 ^ cfg.bits + 32 - pend.length = (32 - pend.length) + 2 ^ cfg.bits by omega,
        Nat.add_mod_right, Nat.mod_eq_of_lt (by omega)]
    simp only [hleft]
    rw [if_neg (by omega)]
    have hcopy := Exec.memcpy (P := EmptyEv cfg ctx) (w := w) (ov := o) (dst := ctx + offBuffer + pend.length)
      (src := data) (m := []) holds_nil (h.writable.sub (by unfold offBuffer; omega)
        (by unfold offBuffer; simp only [List.length_nil]; omega)) (Or.inr rfl)
      (by unfold offBuffer; exact ⟨by omega, by simp only [List.length_nil]; omega⟩) (by unfold offBuffer; omega) hn
    refine Exec.cov (C₁ := fun a => range data 0 a ∨ nowhere a) (n₁ := 0 + 0) (Exec.bind hcopy ?_)
      (fun a ha => Or.inr ha) rfl
    rintro _ o2 ho2
    have e2 : o2 = o := by
      rw [ho2]
      funext a
      exact put_other (by simp only [List.length_nil]; omega)
    subst e2
    clear ho2
    refine Exec.bindR (reads_readPartial (hi.part.holds h1) (by omega) (rd _ _ (by omega))) ?_
    have hadd : szAdd cfg pend.length 0 = pend.length := Nat.mod_eq_of_lt (by omega)
    rw [hadd]
    unfold writePartial
    refine Exec.bindL (Exec.writeInt (h.writable.sub (by omega) (by simp only [offPartial]; omega))
      (wr _ _ (by simp only [offPartial]; omega))) ?_
    rintro _ o3 ho3
    have h3 : Holds w o3 ctx img := by
      rw [ho3]; exact h1.rewrite hi.part (by rw [len]; unfold offPartial at *; omega)
    have o3' : Only o2 o3 ctx (ctxSize cfg) := by
      rw [ho3]
      exact only_put (by simp only [offPartial]; omega) (by rw [len]; simp only [offPartial]; omega)
    refine Exec.bindR (reads_readPartial (hi.part.holds h3) (by omega) (rd _ _ (by omega))) ?_
    rw [if_pos hshort]
    refine (Reads.cassert (by simp)).post ?_
    rintro _ _ ⟨-, rfl⟩
    exact ⟨h3, o1.trans o3'⟩

theorem null_update {sy : Sys} (h : Ctx cfg w sy.ov ctx img) (hi : Img cfg img s pend total)
    (hp : pend.length ≠ 0) : t1ha2_update cfg ctx 0 0 w sy = .error .nullPointer := by
  obtain ⟨f1, f2, f3, f4, f5⟩ := offs cfg
  have len := fun n v => length_bytes cfg.endian n v
  have hshort := hi.short
  have hs := h.size
  unfold t1ha2_update
  have r1 : Reads w sy.ov (fun _ => True) nowhere 0 (readU64 cfg (ctx + offTotal cfg)) total :=
    reads_readU64 (hi.total.holds h.holds) trivial
  obtain ⟨v1, s1, t1, k1, ⟨q1, q1'⟩, -⟩ := returns_of_exec r1
  have hw : Writable w (ctx + offTotal cfg) 8 := h.writable.sub (by omega) (by omega)
  obtain ⟨v2, s2, t2, k2, q2, -⟩ := returns_of_exec (s := s1) (P := fun _ => True)
    (Exec.writeU64 (cfg := cfg) (v := v1 + BitVec.ofNat 64 0) hw trivial)
  have o2 : Only sy.ov s2.ov (ctx + offTotal cfg) 8 := by
    rw [q2, q1']; exact only_put (by omega) (by rw [len])
  have r3 : Reads w s2.ov (fun _ => True) nowhere 0 (readPartial cfg ctx) pend.length :=
    reads_readPartial ((hi.part.holds h.holds).only o2 (by rw [len]; omega)) (by omega) trivial
  obtain ⟨v3, s3, t3, k3, ⟨q3, q3'⟩, -⟩ := returns_of_exec r3
  subst q3
  simp only [bind, M.bind, k1.1, k2.1, k3.1]
  rw [if_pos hp]
  simp [M.bind, memcpy, fail]

/-! ## The message so far -/

theorem length_blocks (k : Nat) (m : List Byte) : (Spec.blocks k m).length = m.length / k :=
  length_chunks k _ m

theorem chunks_take (k n : Nat) (m r : List Byte) (h : n * k ≤ m.length) :
    chunks k n (m ++ r) = chunks k n m := by
  induction n generalizing m with
  | zero => rfl
  | succ n ih =>
    rw [Nat.succ_mul] at h
    simp only [chunks]
    rw [List.take_append_of_le_length (by omega), List.drop_append_of_le_length (by omega),
      ih _ (by rw [List.length_drop]; omega)]

theorem append_div (a b : Nat) : (a + b) / 32 = a / 32 + (a % 32 + b) / 32 := by omega

theorem blocks_append (fed m : List Byte) :
    Spec.blocks 32 (fed ++ m) = Spec.blocks 32 fed ++ Spec.blocks 32 (Spec.rest 32 fed ++ m) := by
  unfold Spec.blocks
  have hl : (fed ++ m).length / 32 = fed.length / 32 + (Spec.rest 32 fed ++ m).length / 32 := by
    rw [List.length_append, List.length_append, length_rest, append_div]
  rw [hl, chunks_append, chunks_take _ _ _ _ (by omega), List.drop_append_of_le_length (by omega)]
  rfl

theorem rest_append (fed m : List Byte) :
    Spec.rest 32 (fed ++ m) = Spec.rest 32 (Spec.rest 32 fed ++ m) := by
  have hl : (fed ++ m).length / 32 = fed.length / 32 + (Spec.rest 32 fed ++ m).length / 32 := by
    rw [List.length_append, List.length_append, length_rest, append_div]
  rw [Spec.rest, hl, Nat.mul_add, ← List.drop_drop, List.drop_append_of_le_length (by omega)]
  rfl

theorem absorb_append (s : Spec.State) (fed m : List Byte) :
    Spec.absorbAll (Spec.absorbAll s (Spec.blocks 32 fed)) (Spec.blocks 32 (Spec.rest 32 fed ++ m)) =
      Spec.absorbAll s (Spec.blocks 32 (fed ++ m)) := by
  rw [blocks_append fed m, Spec.absorbAll, Spec.absorbAll, Spec.absorbAll, List.foldl_append]

theorem len_append (fed m : List Byte) :
    BitVec.ofNat 64 fed.length + BitVec.ofNat 64 m.length = BitVec.ofNat 64 (fed ++ m).length := by
  rw [List.length_append, BitVec.ofNat_add]

/-- A context which has absorbed `fed`. -/
abbrev Fed (cfg : Cfg) (x y : U64) (img fed : List Byte) : Prop :=
  Img cfg img (Spec.absorbAll (Spec.init x y) (Spec.blocks 32 fed)) (Spec.rest 32 fed)
    (BitVec.ofNat 64 fed.length)

theorem withBits_fed (fed : List Byte) :
    fed ++ leBytes 8 (BitVec.ofNat 64 fed.length <<< 3 ^^^ 1#64 <<< 63).toNat = Spec.padded fed := by
  unfold Spec.padded
  congr 2
  rw [BitVec.toNat_xor, BitVec.toNat_shiftLeft, BitVec.toNat_ofNat, Nat.shiftLeft_eq]
  congr 1
  rw [Nat.mul_mod, Nat.mod_mod, ← Nat.mul_mod, Nat.mul_comm]

theorem Fed.step {x y : U64} {fed m : List Byte} (h : Rep cfg w o ctx
      (Spec.absorbAll (Spec.absorbAll (Spec.init x y) (Spec.blocks 32 fed))
        (Spec.blocks 32 (Spec.rest 32 fed ++ m)))
      (Spec.rest 32 (Spec.rest 32 fed ++ m))
      (BitVec.ofNat 64 fed.length + BitVec.ofNat 64 m.length))
    (hh : Holds w o ctx img) (hl : img.length = ctxSize cfg) : Fed cfg x y img (fed ++ m) := by
  rw [absorb_append, ← rest_append, len_append] at h
  exact h.toImg hh hl

theorem History.fed {x y : U64} {fed : List Byte} (h : History cfg x y img fed) :
    Fed cfg x y img fed := by
  induction h with
  | init here call there =>
    obtain ⟨v, s', t, h1, ⟨h2, -⟩, -⟩ := returns_of_exec (init_exec here x y)
    obtain ⟨-, rfl, -⟩ := call.unique h1
    exact h2.toImg there.holds there.size
  | update past here piece call there ih =>
    obtain ⟨v, s', t, h1, ⟨h2, -⟩, -⟩ := returns_of_exec (update_exec here ih piece)
    obtain ⟨-, rfl, -⟩ := call.unique h1
    exact Fed.step h2 there.holds there.size

/-! ## The end -/

/-- `t1ha2_final` may do this, or start an iteration (which it does not). -/
def FinalEv' (cfg : Cfg) (ctx : Nat) (extra : Option Nat) (slot : Nat) (x : Ev) : Prop :=
  FinalEv cfg ctx extra slot x ∨ x = .iter

theorem final_exec {x y : U64} {fed : List Byte} {extra : Option Nat} {slot : Nat}
    (h : Ctx cfg w ov ctx img) (hi : Fed cfg x y img fed) (hf : Out cfg w ctx extra slot) :
    Exec w ov (FinalEv' cfg ctx extra slot) nowhere 0 (t1ha2_final cfg ctx extra slot)
      (fun v o => v = streamHash fed x y extra ∧
        (∀ p, extra = some p → Holds w o p (cfg.endian.bytes 8 (Spec.t1ha2_stream128 fed x y).2.toNat)) ∧
        (∀ a, (a < ctx ∨ ctx + ctxSize cfg ≤ a) → (a < slot ∨ slot + 8 ≤ a) →
          (∀ p, extra = some p → a < p ∨ p + 8 ≤ a) → o a = ov a) ∧
        (∀ a, o a = none → ov a = none)) := by
  refine (exec_final (P := FinalEv' cfg ctx extra slot) (bits := slot) h.place
    ⟨hf.slot_writable, hf.slot_fits, hf.slot_apart, hf.slot_notNull, hf.extra_writable⟩
    (fun _ _ h1 h2 => ⟨Or.inl (Or.inl ⟨h1, h2⟩), Or.inl (Or.inl ⟨h1, h2⟩)⟩)
    (fun _ _ h1 h2 => ⟨Or.inl (Or.inr ⟨h1, h2⟩), Or.inl (Or.inr (Or.inl ⟨h1, h2⟩))⟩)
    (fun p hp => Or.inl (Or.inr (Or.inr ⟨hp, rfl⟩))) (Or.inr rfl)
    (fun _ h1 h2 => Or.inl (Or.inl ⟨h1, h2⟩)) (fun _ h1 h2 => Or.inl (Or.inr ⟨h1, h2⟩)) (hi.rep h.holds)).post ?_
  rintro v o ⟨h1, hg, -, h2⟩
  simp only [withBits] at h2
  rw [absorb_append, ← rest_append, withBits_fed] at h2
  cases extra with
  | none => exact ⟨h2, fun p hp => (nomatch hp), h1, hg⟩
  | some p =>
    refine ⟨h2.1, ?_, h1, hg⟩
    rintro _ ⟨⟩
    exact h2.2

/-- What is left in the buffer. -/
theorem final_left {x y : U64} {fed : List Byte} {extra : Option Nat} {slot : Nat}
    (h : Ctx cfg w ov ctx img) (hi : Fed cfg x y img fed) (hf : Out cfg w ctx extra slot)
    (ha : ∀ p, extra = some p → p + 8 ≤ ctx ∨ ctx + ctxSize cfg ≤ p) :
    Exec w ov (fun _ => True) nowhere 0 (t1ha2_final cfg ctx extra slot)
      (fun v o => v = streamHash fed x y extra ∧ Holds w o (ctx + 32) (Spec.rest 32 (Spec.padded fed))) := by
  refine (exec_final (P := fun _ => True) (bits := slot) h.place
    ⟨hf.slot_writable, hf.slot_fits, hf.slot_apart, hf.slot_notNull, hf.extra_writable⟩
    (fun _ _ _ _ => ⟨trivial, trivial⟩) (fun _ _ _ _ => ⟨trivial, trivial⟩)
    (fun _ _ => trivial) trivial (fun _ _ _ => trivial) (fun _ _ _ => trivial) (hi.rep h.holds)).post ?_
  rintro v o ⟨_, _, h3, h2⟩
  have h4 := (h3 ha).buf
  simp only [withBits] at h2 h4
  rw [← rest_append, withBits_fed] at h4
  rw [absorb_append, ← rest_append, withBits_fed] at h2
  refine ⟨?_, h4⟩
  cases extra with
  | none => exact h2
  | some p => exact h2.1

theorem final_ev {extra : Option Nat} {slot : Nat} {t : List Ev}
    (h : ∀ x ∈ t, FinalEv' cfg ctx extra slot x) (hc : t.count .iter = 0) :
    ∀ x ∈ t, FinalEv cfg ctx extra slot x := by
  intro x hx
  rcases h x hx with h | h
  · exact h
  · subst h
    exact absurd (List.count_pos_iff.2 hx) (by omega)

end T1ha.Model
