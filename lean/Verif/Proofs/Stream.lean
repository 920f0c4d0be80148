import Verif.Proofs.Mem
import Verif.Model.Stream

/-!
# The streaming functions
-/

namespace T1ha.Model

variable {w : World} {ov o : Overlay} {cfg : Cfg} {P : Ev → Prop} {al : Aligness}

/-! ## Bookkeeping -/

/-- Only the `n` bytes at `p` may differ. -/
structure Only (ov o : Overlay) (p n : Nat) : Prop where
  same : ∀ a, a < p ∨ p + n ≤ a → o a = ov a
  grow : ∀ a, o a = none → ov a = none

theorem Only.refl {p n : Nat} : Only ov ov p n := ⟨fun _ _ => rfl, fun _ h => h⟩

theorem Only.trans {o' : Overlay} {p n : Nat} (h : Only ov o p n) (h' : Only o o' p n) : Only ov o' p n :=
  ⟨fun a ha => (h'.same a ha).trans (h.same a ha), fun a ha => h.grow a (h'.grow a ha)⟩

theorem Only.mono {p n q k : Nat} (h : Only ov o q k) (h1 : p ≤ q) (h2 : q + k ≤ p + n) :
    Only ov o p n :=
  ⟨fun a ha => h.same a (by omega), h.grow⟩

theorem only_put {p q n : Nat} {bs : List Byte} (h1 : p ≤ q) (h2 : q + bs.length ≤ p + n) :
    Only ov (put ov q bs) p n :=
  ⟨fun a ha => put_other (by omega), fun _ h => put_grow h⟩

theorem Holds.only {p n q : Nat} {m : List Byte} (h : Holds w ov q m) (ho : Only ov o p n)
    (hd : q + m.length ≤ p ∨ p + n ≤ q) : Holds w o q m :=
  h.congr fun a h1 h2 => ho.same a (by omega)

theorem holds_nil {p : Nat} : Holds w ov p [] := by
  intro t i b hb
  simp at hb

/-- Reads and writes of the `n` bytes at `p` are allowed. -/
def Acc (P : Ev → Prop) (p n : Nat) : Prop :=
  ∀ a k, p ≤ a → a + k ≤ p + n → P (.rd a k) ∧ P (.wr a k)

theorem Acc.sub {p n q k : Nat} (h : Acc P p n) (h1 : p ≤ q) (h2 : q + k ≤ p + n) : Acc P q k :=
  fun a j h3 h4 => h a j (by omega) (by omega)

theorem Acc.rd {p n q k : Nat} (h : Acc P p n) (h1 : p ≤ q) (h2 : q + k ≤ p + n) : P (.rd q k) :=
  (h q k h1 h2).1

theorem Acc.wr {p n q k : Nat} (h : Acc P p n) (h1 : p ≤ q) (h2 : q + k ≤ p + n) : P (.wr q k) :=
  (h q k h1 h2).2

theorem Acc.subRd {p n q k : Nat} (h : Acc P p n) (h1 : p ≤ q) (h2 : q + k ≤ p + n) : Sub 0 P q k where
  rd := fun a j h3 h4 => (h a j (by omega) (by omega)).1
  ptr := fun h0 => absurd h0 (Nat.lt_irrefl _)

/-- The `k` bytes at `p` may be read, and, if there is a whole block, as `fetch64_le_unaligned` does. -/
structure Words (cfg : Cfg) (P : Ev → Prop) (p k : Nat) : Prop where
  rd : Sub 0 P p k
  words : 32 ≤ k → Sub (cfg.gap .unaligned 8) P p k

theorem Words.mono {p k q j : Nat} (h : Words cfg P p k) (h1 : p ≤ q) (h2 : q + j ≤ p + k) : Words cfg P q j :=
  ⟨h.rd.mono h1 h2, fun hj => (h.words (by omega)).mono h1 h2⟩

theorem Words.sub {p k : Nat} (h : Words cfg P p k) (hk : 32 ≤ k) (al : Aligness) : Sub (cfg.gap al 8) P p k := by
  cases al
  · exact h.rd
  · exact h.words hk

/-- Writes within the `n` bytes at `p` are allowed. -/
def SubW (P : Ev → Prop) (p n : Nat) : Prop := ∀ a k, p ≤ a → a + k ≤ p + n → P (.wr a k)

theorem Acc.wrs {p n : Nat} (h : Acc P p n) : SubW P p n := fun a k h1 h2 => (h a k h1 h2).2

theorem SubW.wr {p n q k : Nat} (h : SubW P p n) (h1 : p ≤ q) (h2 : q + k ≤ p + n) : P (.wr q k) :=
  h q k h1 h2

theorem SubW.sub {p n q k : Nat} (h : SubW P p n) (h1 : p ≤ q) (h2 : q + k ≤ p + n) : SubW P q k :=
  fun a j h3 h4 => h a j (by omega) (by omega)

/-! ## Integers in memory -/

theorem bits_cases (cfg : Cfg) : cfg.bits = 64 ∨ cfg.bits = 32 := by
  unfold Cfg.bits; split <;> simp

theorem offs (cfg : Cfg) : 64 + szBytes cfg ≤ offTotal cfg ∧ offTotal cfg ≤ 72 ∧
    ctxSize cfg = offTotal cfg + 8 ∧ (szBytes cfg = 4 ∨ szBytes cfg = 8) ∧ 68 ≤ offTotal cfg := by
  unfold szBytes ctxSize offTotal Cfg.bits
  cases cfg.ptr64 <;> cases cfg.u64Align4 <;> simp

theorem reads_readInt {p n v : Nat} (h : Holds w ov p (cfg.endian.bytes n v)) (hP : P (.rd p n)) :
    Reads w ov P nowhere 0 (readInt cfg p n) (v % 256 ^ n) := by
  unfold readInt
  refine Exec.cov (Reads.bind (C₂ := nowhere) (n₂ := 0)
    (Reads.load h (length_bytes _ _ _).symm hP) (Exec.pure _ ⟨?_, rfl⟩))
    (fun a h => absurd h (by simp [nowhere])) rfl
  rw [Endian.val_bytes]

theorem reads_readU64 {p : Nat} {v : U64} (h : Holds w ov p (cfg.endian.bytes 8 v.toNat))
    (hP : P (.rd p 8)) : Reads w ov P nowhere 0 (readU64 cfg p) v := by
  unfold readU64
  refine Exec.bindR (reads_readInt h hP) (Exec.pure _ ⟨?_, rfl⟩)
  apply BitVec.eq_of_toNat_eq
  have := v.isLt
  rw [BitVec.toNat_ofNat]
  omega

theorem Exec.writeU64 {p : Nat} {v : U64} (h : Writable w p 8) (hP : P (.wr p 8)) :
    Exec w ov P nowhere 0 (writeU64 cfg p v) (fun _ o => o = put ov p (cfg.endian.bytes 8 v.toNat)) :=
  Exec.writeInt h hP

theorem reads_readPartial {ctx n : Nat} (h : Holds w ov (ctx + 64) (cfg.endian.bytes (szBytes cfg) n))
    (hn : n ≤ 32) (hP : P (.rd (ctx + 64) (szBytes cfg))) :
    Reads w ov P nowhere 0 (readPartial cfg ctx) n := by
  have := reads_readInt h hP
  rw [Nat.mod_eq_of_lt] at this
  · exact this
  · rcases (offs cfg).2.2.2.1 with h | h <;> rw [h] <;> omega

/-! ## The state in memory -/

/-- The members of a `t1ha_state256_t`. -/
structure StateAt (cfg : Cfg) (w : World) (ov : Overlay) (p : Nat) (s : Spec.State) : Prop where
  a : Holds w ov p (cfg.endian.bytes 8 s.a.toNat)
  b : Holds w ov (p + 8) (cfg.endian.bytes 8 s.b.toNat)
  c : Holds w ov (p + 16) (cfg.endian.bytes 8 s.c.toNat)
  d : Holds w ov (p + 24) (cfg.endian.bytes 8 s.d.toNat)

theorem StateAt.only {p q n : Nat} {s : Spec.State} (h : StateAt cfg w ov p s) (ho : Only ov o q n)
    (hd : p + 32 ≤ q ∨ q + n ≤ p) : StateAt cfg w o p s where
  a := h.a.only ho (by rw [length_bytes]; omega)
  b := h.b.only ho (by rw [length_bytes]; omega)
  c := h.c.only ho (by rw [length_bytes]; omega)
  d := h.d.only ho (by rw [length_bytes]; omega)

theorem reads_readState {p : Nat} {s : Spec.State} (h : StateAt cfg w ov p s) (hP : Acc P p 32) :
    Reads w ov P nowhere 0 (readState cfg p) ⟨s.a, s.b, s.c, s.d⟩ := by
  unfold readState
  refine Exec.bindR (reads_readU64 h.a (hP.rd (by omega) (by omega))) ?_
  refine Exec.bindR (reads_readU64 h.b (hP.rd (by omega) (by omega))) ?_
  refine Exec.bindR (reads_readU64 h.c (hP.rd (by omega) (by omega))) ?_
  refine Exec.bindR (reads_readU64 h.d (hP.rd (by omega) (by omega))) ?_
  exact Reads.pure _

theorem exec_writeState {p : Nat} (s : State256) (hw : Writable w p 32) (hP : SubW P p 32) :
    Exec w ov P nowhere 0 (writeState cfg p s)
      (fun _ o => StateAt cfg w o p s.spec ∧ Only ov o p 32) := by
  have len := fun v => length_bytes cfg.endian 8 v
  unfold writeState
  refine Exec.bindL (Exec.writeU64 (hw.sub (by omega) (by omega)) (hP.wr (by omega) (by omega))) ?_
  rintro _ _ rfl
  refine Exec.bindL (Exec.writeU64 (hw.sub (by omega) (by omega)) (hP.wr (by omega) (by omega))) ?_
  rintro _ _ rfl
  refine Exec.bindL (Exec.writeU64 (hw.sub (by omega) (by omega)) (hP.wr (by omega) (by omega))) ?_
  rintro _ _ rfl
  refine (Exec.writeU64 (hw.sub (by omega) (by omega)) (hP.wr (by omega) (by omega))).post ?_
  rintro _ _ rfl
  have hm : ∀ q (v : U64), p ≤ q → q + 8 ≤ p + 32 → ∀ ov',
      Holds w (put ov' q (cfg.endian.bytes 8 v.toNat)) q (cfg.endian.bytes 8 v.toNat) :=
    fun q v h1 h2 ov' => holds_put ((len v.toNat).symm ▸ hw.1.sub h1 h2)
  refine ⟨⟨?_, ?_, ?_, ?_⟩, ?_⟩
  · exact (((hm p _ (by omega) (by omega) _).put (by rw [len, len]; omega)).put
      (by rw [len, len]; omega)).put (by rw [len, len]; omega)
  · exact ((hm (p + 8) _ (by omega) (by omega) _).put (by rw [len, len]; omega)).put
      (by rw [len, len]; omega)
  · exact (hm (p + 16) _ (by omega) (by omega) _).put (by rw [len, len]; omega)
  · exact hm (p + 24) _ (by omega) (by omega) _
  · refine Only.trans (only_put (q := p) ?_ ?_) <| Only.trans (only_put (q := p + 8) ?_ ?_) <|
      Only.trans (only_put (q := p + 16) ?_ ?_) (only_put (q := p + 24) ?_ ?_) <;>
      first | omega | (rw [len] <;> omega)

/-! ## Blocks -/

theorem reads_UPDATE_at (s : State256) {v : Nat} {blk : List Byte} (hP : Sub (cfg.gap al 8) P v 32)
    (ha : AlOk cfg al v) (hh : Holds w ov v blk) (hl : 32 ≤ blk.length) :
    Exec w ov P (range v 32) 0 (t1ha2_UPDATE cfg al s v)
      (fun x o => x.spec = Spec.absorb s.spec (blk.take 32) ∧ o = ov) := by
  have hw : ∀ i, i < 4 → Reads w ov P (range (v + 8 * i) 8) 0 (fetch64 cfg .little al (v + 8 * i))
      (Spec.word64 .little (blk.take 32) i) := fun i hi =>
    reads_fetch64 ((hh.take 32).slice (8 * i) 8)
      (by simp only [List.length_take, List.length_drop]; omega)
      (hP.mono (by omega) (by omega)) ha.add
  unfold t1ha2_UPDATE
  refine Exec.cov (Reads.bind (hw 0 (by omega)) <|
    Reads.bind (hw 1 (by omega)) <| Reads.bind (hw 2 (by omega)) <|
    Reads.bind (hw 3 (by omega)) <| Exec.pure _ ⟨?_, rfl⟩)
    (fun a h => by simp only [range, nowhere] at *; omega) rfl
  simp only [rot64_eq]
  rfl

theorem exec_UPDATE_mem {st v : Nat} {s : Spec.State} {blk : List Byte} (hw : Writable w st 32)
    (hs : StateAt cfg w ov st s) (hA : Acc P st 32) (hP : Sub (cfg.gap al 8) P v 32) (ha : AlOk cfg al v)
    (hh : Holds w ov v blk) (hl : 32 ≤ blk.length) :
    Exec w ov P (range v 32) 0 (t1ha2_UPDATE_mem cfg al st v)
      (fun _ o => StateAt cfg w o st (Spec.absorb s (blk.take 32)) ∧ Only ov o st 32) := by
  unfold t1ha2_UPDATE_mem
  refine Exec.bindR (reads_readState hs hA) ?_
  refine Exec.bindL (reads_UPDATE_at _ hP ha hh hl) ?_
  rintro x o ⟨hx, rfl⟩
  refine (exec_writeState x hw hA.wrs).post ?_
  rintro _ o' ⟨h1, h2⟩
  rw [hx] at h1
  exact ⟨h1, h2⟩

theorem exec_loop_mem {st : Nat} (hw : Writable w st 32) (hA : Acc P st 32) (hiter : P .iter)
    {hi : Nat} (hhi : hi < 2 ^ cfg.bits)
    (n : Nat) (s : Spec.State) (v : Nat) (r : List Byte) (ov : Overlay) (hs : StateAt cfg w ov st s)
    (hP : Sub (cfg.gap al 8) P v r.length) (hpt : ∀ a, v ≤ a → a ≤ v + r.length → P (.ptr a))
    (ha : AlOk cfg al v) (hh : Holds w ov v r)
    (hd : v + r.length ≤ st ∨ st + 32 ≤ v) (he : v + r.length = hi) (hn : r.length / 32 = n + 1)
    {fuel : Nat} (hf : n < fuel) {detent : Nat} (hdt : detent = hi - 31) :
    Exec w ov P (range v (32 * (n + 1))) (n + 1) (t1ha2_loop_mem cfg al st detent fuel v)
      (fun x o => StateAt cfg w o st ((chunks 32 (n + 1) r).foldl Spec.absorb s) ∧ Only ov o st 32 ∧
        x = v + 32 * (n + 1)) := by
  induction n generalizing s v r fuel ov with
  | zero =>
    obtain ⟨fuel, rfl⟩ : ∃ k, fuel = k + 1 := ⟨fuel - 1, by omega⟩
    unfold t1ha2_loop_mem
    refine Exec.cov (Reads.bind (Reads.iterate hiter) <| Reads.bind (Reads.ptrAdd (by omega)
      (hpt _ (by omega) (by omega))) <|
      Exec.bind (C₂ := nowhere) (n₂ := 0)
      (exec_UPDATE_mem hw hs hA (hP.mono (Nat.le_refl _) (by omega)) ha hh (by omega))
      (fun _ o ⟨h1, h2⟩ => ?_))
      (fun a h => by simp only [range, nowhere] at *; omega) rfl
    rw [if_neg (by omega)]
    exact Exec.pure _ ⟨h1, h2, rfl⟩
  | succ n ih =>
    obtain ⟨fuel, rfl⟩ : ∃ k, fuel = k + 1 := ⟨fuel - 1, by omega⟩
    have hd' : (r.drop 32).length = r.length - 32 := List.length_drop
    unfold t1ha2_loop_mem
    refine Exec.cov (Reads.bind (Reads.iterate hiter) <| Reads.bind (Reads.ptrAdd (by omega)
      (hpt _ (by omega) (by omega))) <|
      Exec.bind (C₂ := range (v + 32) (32 * (n + 1))) (n₂ := n + 1)
      (exec_UPDATE_mem hw hs hA (hP.mono (Nat.le_refl _) (by omega)) ha hh (by omega))
      (fun _ o ⟨h1, h2⟩ => ?_))
      (fun a h => by simp only [range, nowhere] at *; omega) (by omega)
    rw [if_pos (by omega)]
    refine (ih _ (v + 32) (r.drop 32) o h1 (hP.mono (by omega) (by omega))
      (fun a h1 h2 => hpt a (by omega) (by omega)) (ha.add32 (j := 1))
      ((hh.only h2 (by omega)).drop 32) (by omega) (by omega) (by omega) (fuel := fuel)
      (by omega)).post ?_
    rintro y o' ⟨g1, g2, g3⟩
    exact ⟨g1, h2.trans g2, by omega⟩

theorem exec_LOOP_mem {st : Nat} (hw : Writable w st 32) (hA : Acc P st 32) (hiter : P .iter)
    (s : Spec.State) (v : Nat) (r : List Byte) (hs : StateAt cfg w ov st s)
    (hP : Sub (cfg.gap al 8) P v r.length) (hpt : ∀ a, v ≤ a → a ≤ v + r.length → P (.ptr a))
    (ha : AlOk cfg al v) (hh : Holds w ov v r)
    (hd : v + r.length ≤ st ∨ st + 32 ≤ v) (he : v + r.length < 2 ^ cfg.bits) (hn : 32 ≤ r.length) :
    Exec w ov P (range v (32 * (r.length / 32))) (r.length / 32)
      (t1ha2_LOOP_mem cfg al st v r.length)
      (fun x o => StateAt cfg w o st (Spec.absorbAll s (Spec.blocks 32 r)) ∧ Only ov o st 32 ∧
        x = v + 32 * (r.length / 32)) := by
  have hn' : r.length / 32 = (r.length / 32 - 1) + 1 := by omega
  have := exec_loop_mem hw hA hiter he (r.length / 32 - 1) s v r ov hs hP hpt ha hh hd rfl hn'
    (fuel := r.length) (by omega) rfl
  rw [← hn'] at this
  unfold t1ha2_LOOP_mem
  refine Exec.bindR (Reads.ptrAdd (by omega) (hpt _ (by omega) (by omega))) <|
    Exec.bindR (Reads.ptrSub (by omega) (hpt _ (by omega) (by omega))) ?_
  exact this

theorem Exec.memcpy {dst src : Nat} {m : List Byte} (hh : Holds w ov src m)
    (hw : Writable w dst m.length) (hP : P (.rd src m.length)) (hP' : P (.wr dst m.length))
    (hdst : dst ≠ 0) (hsrc : src ≠ 0) :
    Exec w ov P (range src m.length) 0 (memcpy dst src m.length) (fun _ o => o = put ov dst m) := by
  unfold Model.memcpy
  rw [if_neg (by omega)]
  refine Exec.cov (Reads.bind (C₂ := nowhere) (n₂ := 0) (Reads.load hh rfl hP) (Exec.store hw hP'))
    (fun a h => Or.inl h) rfl

/-! ## The context in memory -/

/-- The members of a `t1ha_context_t`. -/
structure Rep (cfg : Cfg) (w : World) (ov : Overlay) (ctx : Nat) (s : Spec.State) (pend : List Byte)
    (total : U64) : Prop where
  state : StateAt cfg w ov ctx s
  buf : Holds w ov (ctx + 32) pend
  part : Holds w ov (ctx + 64) (cfg.endian.bytes (szBytes cfg) pend.length)
  total : Holds w ov (ctx + offTotal cfg) (cfg.endian.bytes 8 total.toNat)
  short : pend.length < 32

/-- Where the context is. -/
structure Place (cfg : Cfg) (w : World) (ctx : Nat) : Prop where
  writable : Writable w ctx (ctxSize cfg)
  fits : ctx + ctxSize cfg < 2 ^ cfg.bits
  aligned : ctx % cfg.alignment64 = 0

theorem exec_init {ctx : Nat} (hp : Place cfg w ctx) (hA : SubW P ctx (ctxSize cfg)) (x y : U64) :
    Exec w ov P nowhere 0 (t1ha2_init cfg ctx x y)
      (fun _ o => Rep cfg w o ctx (Spec.init x y) [] 0 ∧ Only ov o ctx (ctxSize cfg)) := by
  obtain ⟨f1, f2, f3, f4, f5⟩ := offs cfg
  have len := fun n v => length_bytes cfg.endian n v
  unfold t1ha2_init writePartial
  refine Exec.bindL (exec_writeState (p := ctx) _ (hp.writable.sub (by omega) (by omega))
    (hA.sub (by omega) (by omega))) ?_
  rintro _ o ⟨h1, h2⟩
  rw [init_eq] at h1
  refine Exec.bindL (Exec.writeInt (hp.writable.sub (by omega) (by simp only [offPartial]; omega))
    (hA.wr (by omega) (by simp only [offPartial]; omega))) ?_
  rintro _ _ rfl
  refine (Exec.writeU64 (hp.writable.sub (by omega) (by omega)) (hA.wr (by omega) (by omega))).post ?_
  rintro _ _ rfl
  have o1 : Only o (put o (ctx + 64) (cfg.endian.bytes (szBytes cfg) 0)) (ctx + 64) (szBytes cfg) :=
    only_put (by omega) (by rw [len])
  have o2 : ∀ ov', Only ov' (put ov' (ctx + offTotal cfg) (cfg.endian.bytes 8 (0#64).toNat))
      (ctx + offTotal cfg) 8 := fun _ => only_put (by omega) (by rw [len])
  refine ⟨⟨(h1.only o1 (by omega)).only (o2 _) (by omega), holds_nil, ?_, ?_, by simp⟩,
    ((h2.mono (by omega) (by omega)).trans (o1.mono (by omega) (by omega))).trans
      ((o2 _).mono (by omega) (by omega))⟩
  · refine Holds.only (holds_put ?_) (o2 _) (by rw [len]; omega)
    rw [len]
    exact hp.writable.1.sub (by omega) (by omega)
  · refine holds_put ?_
    rw [len]
    exact hp.writable.1.sub (by omega) (by omega)

/-- Data which does not overlap the context. -/
def Apart (cfg : Cfg) (ctx data len : Nat) : Prop :=
  len = 0 ∨ data + len ≤ ctx ∨ ctx + ctxSize cfg ≤ data

theorem exec_update_rest {ctx data : Nat} {r : List Byte} {s : Spec.State} {total : U64}
    (hp : Place cfg w ctx) (hA : Acc P ctx (ctxSize cfg)) (hiter : P .iter)
    (hr : Rep cfg w ov ctx s [] total) (hh : Holds w ov data r) (hP : Words cfg P data r.length)
    (hpt : ∀ a, data ≤ a → a ≤ data + r.length → P (.ptr a))
    (hd : Apart cfg ctx data r.length) (he : data + r.length < 2 ^ cfg.bits)
    (hnz : data ≠ 0 ∨ r = []) :
    Exec w ov P (range data r.length) (r.length / 32) (t1ha2_update_rest cfg ctx data r.length)
      (fun _ o => Rep cfg w o ctx (Spec.absorbAll s (Spec.blocks 32 r)) (Spec.rest 32 r) total ∧
        Only ov o ctx (ctxSize cfg)) := by
  obtain ⟨f1, f2, f3, f4, f5⟩ := offs cfg
  have len := fun n v => length_bytes cfg.endian n v
  have hrest := length_rest 32 r
  -- the second half
  have tail : ∀ o s', StateAt cfg w o ctx s' → Only ov o ctx 32 →
      Exec w o P (range (data + 32 * (r.length / 32)) (r.length % 32)) 0
        (if r.length % 32 ≠ 0 then do
          writePartial cfg ctx (r.length % 32)
          memcpy (ctx + offBuffer) (data + 32 * (r.length / 32)) (r.length % 32)
        else pure ())
        (fun _ o => Rep cfg w o ctx s' (Spec.rest 32 r) total ∧ Only ov o ctx (ctxSize cfg)) := by
    intro o s' hs' ho
    have ho' := ho.mono (p := ctx) (n := ctxSize cfg) (by omega) (by omega)
    have htot := hr.total.only ho (by omega)
    have hpart := hr.part.only ho (by omega)
    by_cases hz : r.length % 32 ≠ 0
    · rw [if_pos hz]
      have hnz' : data ≠ 0 := by
        rcases hnz with h | h
        · exact h
        · rw [h] at hz; exact absurd rfl hz
      have hdat : Holds w o (data + 32 * (r.length / 32)) (Spec.rest 32 r) :=
        (hh.only ho' (by unfold Apart at hd; omega)).drop _
      have hsplit : r.length = 32 * (r.length / 32) + r.length % 32 := by omega
      unfold Apart at hd
      have o1 : Only o (put o (ctx + 64) (cfg.endian.bytes (szBytes cfg) (r.length % 32)))
          (ctx + 64) (szBytes cfg) := only_put (by omega) (by rw [len])
      have o2 : ∀ ov', Only ov' (put ov' (ctx + 32) (Spec.rest 32 r)) (ctx + 32) 32 :=
        fun _ => only_put (by omega) (by omega)
      unfold writePartial
      refine Exec.cov (C₁ := fun a => nowhere a ∨ range (data + 32 * (r.length / 32)) (r.length % 32) a)
        (n₁ := 0 + 0) (Exec.bind (Exec.writeInt (hp.writable.sub (by omega)
          (by simp only [offPartial]; omega)) (hA.wr (by omega) (by simp only [offPartial]; omega))) ?_)
        (fun a h => Or.inr h) rfl
      rintro _ _ rfl
      have hcopy := Exec.memcpy (dst := ctx + 32) (P := P) (hdat.only o1 (by omega))
        (hp.writable.sub (by omega) (by omega)) (hP.rd.rd _ _ (by omega) (by omega))
        (hA.wr (by omega) (by omega)) (by omega) (by omega)
      rw [hrest] at hcopy
      refine hcopy.post ?_
      rintro _ _ rfl
      refine ⟨⟨(hs'.only o1 (by omega)).only (o2 _) (by omega), ?_, ?_,
        (htot.only o1 (by rw [len]; omega)).only (o2 _) (by rw [len]; omega), by omega⟩,
        (ho'.trans (o1.mono (by omega) (by omega))).trans ((o2 _).mono (by omega) (by omega))⟩
      · refine holds_put (hp.writable.1.sub (by omega) (by omega))
      · rw [hrest]
        refine Holds.only (holds_put ?_) (o2 _) (by rw [len]; omega)
        rw [len]
        exact hp.writable.1.sub (by omega) (by omega)
    · rw [if_neg hz]
      have hnil : Spec.rest 32 r = [] := List.eq_nil_of_length_eq_zero (by omega)
      refine Exec.cov (Exec.pure _ ⟨?_, ho'⟩) (fun a h => by simp only [range] at h; omega) rfl
      rw [hnil]
      exact ⟨hs', holds_nil, hpart, htot, by simp⟩
  have loop : ∀ al, 32 ≤ r.length → AlOk cfg al data →
      Exec w ov P (range data (32 * (r.length / 32))) (r.length / 32)
        (t1ha2_LOOP_mem cfg al (ctx + offState) data r.length)
        (fun x o => StateAt cfg w o ctx (Spec.absorbAll s (Spec.blocks 32 r)) ∧ Only ov o ctx 32 ∧
          x = data + 32 * (r.length / 32)) := by
    intro al hn ha
    unfold Apart at hd
    exact exec_LOOP_mem (st := ctx) (hp.writable.sub (by omega) (by omega))
      (hA.sub (by omega) (by omega)) hiter s data r hr.state (hP.sub hn al) hpt ha hh (by omega) he hn
  unfold t1ha2_update_rest
  by_cases hn : 32 ≤ r.length
  · simp only [if_pos hn]
    refine Exec.cov (C₁ := fun a => range data (32 * (r.length / 32)) a ∨
      range (data + 32 * (r.length / 32)) (r.length % 32) a) (n₁ := r.length / 32 + 0)
      (Exec.bind (Q := fun x o => StateAt cfg w o ctx (Spec.absorbAll s (Spec.blocks 32 r)) ∧
        Only ov o ctx 32 ∧ x = (data + 32 * (r.length / 32), r.length % 32)) ?_ ?_)
      (fun a h => by simp only [range] at *; omega) rfl
    · refine Exec.bindL (Q := fun x o => StateAt cfg w o ctx (Spec.absorbAll s (Spec.blocks 32 r)) ∧
        Only ov o ctx 32 ∧ x = data + 32 * (r.length / 32)) ?_
        (fun x o ⟨h1, h2, h3⟩ => Exec.pure _ ⟨h1, h2, by rw [h3, and_31]⟩)
      by_cases hu : cfg.unaligned = .efficient
      · rw [if_pos hu]
        exact loop .unaligned hn .unaligned
      · rw [if_neg hu]
        by_cases hm : (data &&& (cfg.alignment64 - 1) != 0) = true
        · simp only [if_pos hm]
          exact loop .unaligned hn .unaligned
        · simp only [if_neg hm]
          exact loop .aligned hn (misaligned_false hm)
    · rintro x o ⟨h1, h2, rfl⟩
      exact tail o _ h1 h2
  · simp only [if_neg hn, pure_bind]
    have hz : r.length / 32 = 0 := by omega
    have := tail ov s hr.state .refl
    rw [hz, Nat.mod_eq_of_lt (by omega)] at this
    rw [hz]
    have hb : Spec.blocks 32 r = [] := by rw [Spec.blocks, hz]; rfl
    rw [hb]
    exact this

/-- Iterations of the block loop of `t1ha2_update`: the blocks which lie wholly in the data. -/
def updateLoops (pending len : Nat) : Nat :=
  if pending = 0 then len / 32 else (len - (32 - pending)) / 32

theorem absorb_first {s : Spec.State} {xs ys : List Byte} (h : xs.length = 32) :
    Spec.absorbAll s (Spec.blocks 32 (xs ++ ys)) =
      Spec.absorbAll (Spec.absorb s xs) (Spec.blocks 32 ys) := by
  have : (xs ++ ys).length / 32 = ys.length / 32 + 1 := by
    rw [List.length_append]; omega
  unfold Spec.blocks
  rw [this, chunks, List.take_left' h, List.drop_left' h]
  rfl

theorem rest_first {xs ys : List Byte} (h : xs.length = 32) :
    Spec.rest 32 (xs ++ ys) = Spec.rest 32 ys := by
  have : (xs ++ ys).length / 32 = ys.length / 32 + 1 := by
    rw [List.length_append]; omega
  unfold Spec.rest
  rw [this, Nat.mul_add, Nat.add_comm, ← List.drop_drop, List.drop_left' (by omega)]

theorem exec_update {ctx data : Nat} {m pend : List Byte} {s : Spec.State} {total : U64}
    (hp : Place cfg w ctx) (hA : Acc P ctx (ctxSize cfg)) (hiter : P .iter)
    (hr : Rep cfg w ov ctx s pend total) (hh : Holds w ov data m) (hP : Words cfg P data m.length)
    (hpt : ∀ a, data ≤ a → a ≤ data + m.length → P (.ptr a))
    (hd : Apart cfg ctx data m.length) (he : data + m.length < 2 ^ cfg.bits)
    (hnz : data ≠ 0 ∨ pend = [] ∧ m = []) :
    Exec w ov P (range data m.length) (updateLoops pend.length m.length)
      (t1ha2_update cfg ctx data m.length)
      (fun _ o => Rep cfg w o ctx (Spec.absorbAll s (Spec.blocks 32 (pend ++ m)))
          (Spec.rest 32 (pend ++ m)) (total + BitVec.ofNat 64 m.length) ∧
        Only ov o ctx (ctxSize cfg)) := by
  obtain ⟨f1, f2, f3, f4, f5⟩ := offs cfg
  have len := fun n v => length_bytes cfg.endian n v
  have hshort := hr.short
  have hbits : 2 ^ 32 ≤ 2 ^ cfg.bits := by
    rcases bits_cases cfg with h | h
    · rw [h]; decide
    · rw [h]
  have hd0 := hd
  unfold Apart at hd
  unfold t1ha2_update
  refine Exec.bindR (reads_readU64 hr.total (hA.rd (by omega) (by omega))) ?_
  refine Exec.cov (C₁ := fun a => nowhere a ∨ range data m.length a) (Exec.bind (n₁ := 0)
    (n₂ := updateLoops pend.length m.length) (Exec.writeU64
    (hp.writable.sub (by omega) (by omega)) (hA.wr (by omega) (by omega))) ?_)
    (fun _ h => Or.inr h) (Nat.zero_add _)
  rintro _ o rfl
  -- after `ctx->total += length`
  generalize ho : put ov (ctx + offTotal cfg) (cfg.endian.bytes 8 (total + BitVec.ofNat 64 m.length).toNat) = o
  have o1 : Only ov o (ctx + offTotal cfg) 8 := by
    rw [← ho]; exact only_put (by omega) (by rw [len])
  have hr1 : Rep cfg w o ctx s pend (total + BitVec.ofNat 64 m.length) := by
    refine ⟨hr.state.only o1 (by omega), hr.buf.only o1 (by omega), hr.part.only o1 (by rw [len]; omega),
      ?_, hshort⟩
    rw [← ho]
    refine holds_put ?_
    rw [len]
    exact hp.writable.1.sub (by omega) (by omega)
  have hh1 : Holds w o data m := by
    rcases hd with h | h
    · rw [List.eq_nil_of_length_eq_zero h]; exact holds_nil
    · exact hh.only o1 (by omega)
  have o1' := o1.mono (p := ctx) (n := ctxSize cfg) (by omega) (by omega)
  generalize total + BitVec.ofNat 64 m.length = total' at hr1 ⊢
  clear ho o1 hr hh
  refine Exec.bindR (reads_readPartial hr1.part (by omega) (hA.rd (by omega) (by omega))) ?_
  by_cases hz : pend.length = 0
  · -- nothing is pending
    have hnil : pend = [] := List.eq_nil_of_length_eq_zero hz
    subst hnil
    rw [if_neg (by simp), updateLoops, if_pos List.length_nil, List.nil_append]
    refine (exec_update_rest hp hA hiter hr1 hh1 hP hpt hd0 he (by tauto)).post ?_
    rintro _ o' ⟨h1, h2⟩
    exact ⟨h1, o1'.trans h2⟩
  · replace hnz : data ≠ 0 := by
      rcases hnz with h | h
      · exact h
      · rw [h.1] at hz; exact absurd rfl hz
    rw [if_pos hz, updateLoops, if_neg hz]
    have hleft : szSub cfg 32 pend.length = 32 - pend.length := by
      unfold szSub
      rw [show 2 ^ cfg.bits + 32 - pend.length = (32 - pend.length) + 2 ^ cfg.bits by omega,
        Nat.add_mod_right, Nat.mod_eq_of_lt (by omega)]
    simp only [hleft]
    generalize hc : (if 32 - pend.length ≤ m.length then 32 - pend.length else m.length) = chunk
    have hcl : chunk ≤ m.length ∧ chunk ≤ 32 - pend.length ∧
        (chunk = m.length ∨ chunk = 32 - pend.length) := by
      rw [← hc]; split <;> omega
    simp only [offBuffer]
    have htl : (m.take chunk).length = chunk := by rw [List.length_take]; omega
    have hcopy := Exec.memcpy (dst := ctx + 32 + pend.length) (P := P) (hh1.take chunk)
      (hp.writable.sub (by omega) (by omega)) (hP.rd.rd _ _ (by omega) (by omega))
      (hA.wr (by omega) (by omega)) (by omega) hnz
    rw [htl] at hcopy
    refine Exec.cov (C₁ := fun a => range data chunk a ∨ range (data + chunk) (m.length - chunk) a)
      (n₁ := 0 + (m.length - (32 - pend.length)) / 32)
      (Exec.bind hcopy ?_) (fun a h => by simp only [range] at *; omega) (Nat.zero_add _)
    rintro _ o2 ho2
    -- after `memcpy`
    have o2' : Only o o2 (ctx + 32 + pend.length) chunk := by
      rw [ho2]; exact only_put (by omega) (by omega)
    have hbuf2 : Holds w o2 (ctx + 32) (pend ++ m.take chunk) := by
      refine (hr1.buf.only o2' (by omega)).append ?_
      rw [ho2]
      exact holds_put (hp.writable.1.sub (by omega) (by omega))
    have hst2 := hr1.state.only o2' (by omega)
    have hpart2 := hr1.part.only o2' (by rw [len]; omega)
    have htot2 := hr1.total.only o2' (by rw [len]; omega)
    have hh2 : Holds w o2 data m := by
      rcases hd with h | h
      · rw [List.eq_nil_of_length_eq_zero h]; exact holds_nil
      · exact hh1.only o2' (by omega)
    have oo2 := o1'.trans (o2'.mono (p := ctx) (n := ctxSize cfg) (by omega) (by omega))
    clear ho2 o2' hr1 hh1 o1'
    refine Exec.bindR (reads_readPartial hpart2 (by omega) (hA.rd (by omega) (by omega))) ?_
    have hadd : szAdd cfg pend.length chunk = pend.length + chunk := Nat.mod_eq_of_lt (by omega)
    rw [hadd]
    unfold writePartial
    refine Exec.cov (C₁ := fun a => nowhere a ∨ range (data + chunk) (m.length - chunk) a)
      (n₁ := 0 + (m.length - (32 - pend.length)) / 32) (Exec.bind (Exec.writeInt
      (hp.writable.sub (by omega) (by simp only [offPartial]; omega))
      (hA.wr (by omega) (by simp only [offPartial]; omega))) ?_)
      (fun a h => Or.inr h) (Nat.zero_add _)
    rintro _ o3 ho3
    -- after `ctx->partial += chunk`
    have o3' : Only o2 o3 (ctx + 64) (szBytes cfg) := by
      rw [ho3]; exact only_put (by simp only [offPartial]; omega) (by rw [len]; simp only [offPartial]; omega)
    have hpart3 : Holds w o3 (ctx + 64) (cfg.endian.bytes (szBytes cfg) (pend.length + chunk)) := by
      rw [ho3]
      refine holds_put ?_
      rw [len]
      exact hp.writable.1.sub (by omega) (by simp only [offPartial]; omega)
    have hst3 := hst2.only o3' (by omega)
    have htot3 := htot2.only o3' (by rw [len]; omega)
    have hbuf3 := hbuf2.only o3' (by rw [List.length_append, htl]; omega)
    have hh3 : Holds w o3 data m := by
      rcases hd with h | h
      · rw [List.eq_nil_of_length_eq_zero h]; exact holds_nil
      · exact hh2.only o3' (by omega)
    have oo3 := oo2.trans (o3'.mono (p := ctx) (n := ctxSize cfg) (by omega) (by omega))
    clear ho3 o3' hst2 htot2 hbuf2 hh2 oo2 hpart2
    refine Exec.bindR (reads_readPartial hpart3 (by omega) (hA.rd (by omega) (by omega))) ?_
    by_cases hlt : pend.length + chunk < 32
    · -- the block is not complete
      rw [if_pos hlt]
      have hcm : chunk = m.length := by omega
      have hz0 : (m.length - (32 - pend.length)) / 32 = 0 := by omega
      rw [hz0]
      refine Exec.cov ((Reads.cassert (by simp; omega)).post ?_)
        (fun a h => by simp only [range] at h; omega) rfl
      rintro _ _ ⟨-, rfl⟩
      rw [hcm, List.take_length] at hbuf3
      have hb : Spec.blocks 32 (pend ++ m) = [] := by
        rw [Spec.blocks, List.length_append, Nat.div_eq_of_lt (by omega)]; rfl
      have hrr : Spec.rest 32 (pend ++ m) = pend ++ m := by
        rw [Spec.rest, List.length_append, Nat.div_eq_of_lt (by omega)]; rfl
      rw [hb, hrr]
      rw [hcm] at hpart3
      exact ⟨⟨hst3, hbuf3, by rw [List.length_append]; exact hpart3, htot3,
        by rw [List.length_append]; omega⟩, oo3⟩
    · rw [if_neg hlt]
      have hch : chunk = 32 - pend.length := by omega
      have hlen32 : (pend ++ m.take chunk).length = 32 := by
        rw [List.length_append, htl]; omega
      refine Exec.cov (C₁ := fun a => nowhere a ∨ range (data + chunk) (m.length - chunk) a)
        (n₁ := 0 + (m.length - (32 - pend.length)) / 32) (Exec.bind (Exec.writeInt
        (hp.writable.sub (by omega) (by simp only [offPartial]; omega))
        (hA.wr (by omega) (by simp only [offPartial]; omega))) ?_)
        (fun a h => Or.inr h) (Nat.zero_add _)
      rintro _ o4 ho4
      -- after `ctx->partial = 0`
      have o4' : Only o3 o4 (ctx + 64) (szBytes cfg) := by
        rw [ho4]; exact only_put (by simp only [offPartial]; omega) (by rw [len]; simp only [offPartial]; omega)
      have hpart4 : Holds w o4 (ctx + 64) (cfg.endian.bytes (szBytes cfg) 0) := by
        rw [ho4]
        refine holds_put ?_
        rw [len]
        exact hp.writable.1.sub (by omega) (by simp only [offPartial]; omega)
      have hst4 := hst3.only o4' (by omega)
      have htot4 := htot3.only o4' (by rw [len]; omega)
      have hbuf4 := hbuf3.only o4' (by omega)
      have hh4 : Holds w o4 data m := by
        rcases hd with h | h
        · rw [List.eq_nil_of_length_eq_zero h]; exact holds_nil
        · exact hh3.only o4' (by omega)
      have oo4 := oo3.trans (o4'.mono (p := ctx) (n := ctxSize cfg) (by omega) (by omega))
      clear ho4 o4' hst3 htot3 hbuf3 hh3 oo3 hpart3
      refine Exec.bindR (Reads.ptrAdd (by omega) (hpt _ (by omega) (by omega))) ?_
      have hsub : szSub cfg m.length chunk = m.length - chunk := by
        unfold szSub
        rw [show 2 ^ cfg.bits + m.length - chunk = (m.length - chunk) + 2 ^ cfg.bits by omega,
          Nat.add_mod_right, Nat.mod_eq_of_lt (by omega)]
      rw [hsub]
      have halign : AlOk cfg .aligned (ctx + 32) := by
        intro _
        have := hp.aligned
        rcases alignment64_cases cfg with hc | hc <;> rw [hc] at this ⊢ <;> omega
      refine Exec.cov (C₁ := fun a => range (ctx + 32) 32 a ∨ range (data + chunk) (m.length - chunk) a)
        (n₁ := 0 + (m.length - (32 - pend.length)) / 32)
        (Exec.bind (exec_UPDATE_mem (st := ctx) (hp.writable.sub (by omega) (by omega)) hst4
          (hA.sub (by omega) (by omega)) (hA.subRd (by omega) (by omega)) halign hbuf4
          (by omega)) ?_)
        (fun a h => Or.inr h) (Nat.zero_add _)
      rintro _ o5 ⟨hst5, o5'⟩
      -- after `T1HA2_UPDATE`
      rw [List.take_of_length_le (by omega)] at hst5
      have hr5 : Rep cfg w o5 ctx (Spec.absorb s (pend ++ m.take chunk)) [] total' :=
        ⟨hst5, holds_nil, hpart4.only o5' (by rw [len]; omega), htot4.only o5' (by rw [len]; omega),
          by simp⟩
      have hh5 : Holds w o5 data m := by
        rcases hd with h | h
        · rw [List.eq_nil_of_length_eq_zero h]; exact holds_nil
        · exact hh4.only o5' (by omega)
      have hdl : (m.drop chunk).length = m.length - chunk := List.length_drop
      have key := exec_update_rest (P := P) hp hA hiter hr5 (hh5.drop chunk)
        (by rw [hdl]; exact hP.mono (by omega) (by omega))
        (by rw [hdl]; exact fun a h1 h2 => hpt a (by omega) (by omega)) (by rw [hdl]; unfold Apart; omega)
        (by rw [hdl]; omega) (Or.inl (by omega))
      rw [hdl] at key
      refine Exec.cov (key.post ?_) (fun _ h => h) (by rw [hch])
      rintro _ o6 ⟨h1, h2⟩
      have hsp : pend ++ m = (pend ++ m.take chunk) ++ m.drop chunk := by
        rw [List.append_assoc, List.take_append_drop]
      rw [hsp, absorb_first hlen32, rest_first hlen32]
      exact ⟨h1, (oo4.trans (o5'.mono (by omega) (by omega))).trans h2⟩

/-! ## The end of the stream -/

/-- The length block. -/
theorem bits_bytes (v : U64) : cfg.endian.bytes 8
    (match cfg.endian with
      | .little => v
      | .big => bswap64 cfg v).toNat = leBytes 8 v.toNat := by
  cases cfg.endian with
  | little => rfl
  | big =>
    have h1 : beVal (leBytes 8 v.toNat) < 2 ^ 64 := by
      have := beVal_lt (leBytes 8 v.toNat)
      rwa [leBytes_length] at this
    simp only [Endian.bytes]
    rw [bswap64_eq, BitVec.toNat_ofNat, Nat.mod_eq_of_lt h1, beVal_eq]
    have := leBytes_leVal (leBytes 8 v.toNat).reverse
    rw [List.length_reverse, leBytes_length] at this
    rw [this, List.reverse_reverse]

/-- The buffer of the context is a region. -/
theorem Place.region {ctx : Nat} (hp : Place cfg w ctx) (hA : Acc P ctx (ctxSize cfg)) (hiter : P .iter)
    (hptr : ∀ a, ctx ≤ a → a ≤ ctx + ctxSize cfg → P (.ptr a)) {n : Nat} (hn : n < 32) : Region cfg .aligned w P (ctx + 32) (ctx + 32 + n) := by
  obtain ⟨f1, f2, f3, f4, f5⟩ := offs cfg
  have hfit := hp.fits
  refine ⟨by omega, fun q k h1 h2 => hA.subRd (by omega) (by omega), hiter,
    fun a h1 h2 => hptr a (by omega) (by omega), ?_⟩
  intro q k h1 h8 hlo he ha
  have haq := ha rfl
  have hca := hp.aligned
  have hq : q + 8 ≤ ctx + 68 := by
    rcases alignment64_cases cfg with hc | hc <;> rw [hc] at haq hca <;> omega
  have hmod : q % cfg.alignment64 = 0 := haq
  simp only [TailOk]
  by_cases c : cfg.alignedOneshot = true
  · simp only [if_pos c]
    exact ⟨hmod, hp.writable.1.sub (by omega) (by omega), hA.subRd (by omega) (by omega)⟩
  · simp only [if_neg c]
    exact ⟨hmod, hA.subRd (by omega) (by omega)⟩

/-- What `t1ha2_final` may use besides the context. -/
structure FinalPlace (cfg : Cfg) (w : World) (ctx : Nat) (extra : Option Nat) (bits : Nat) : Prop where
  bits_writable : Writable w bits 8
  bits_fits : bits + 8 < 2 ^ cfg.bits
  bits_apart : bits + 8 ≤ ctx ∨ ctx + ctxSize cfg ≤ bits
  bits_notNull : bits ≠ 0
  extra_writable : ∀ p, extra = some p → Writable w p 8

/-- Data and length block. -/
def withBits (pend : List Byte) (total : U64) : List Byte :=
  pend ++ leBytes 8 (total <<< 3 ^^^ 1#64 <<< 63).toNat

/-- The state which `t1ha2_final` leaves in the context. -/
def leftState (wide : Bool) (tail : List U64) (s : Spec.State) : Spec.State :=
  if wide then Spec.tailABCD tail s
  else
    let q := Spec.squash s
    let ab := Spec.tailAB tail (q.a, q.b)
    ⟨ab.1, ab.2, q.c, q.d⟩

theorem tailFold_ab_cd (ws : List U64) (s : State256) :
    (tailFold abStep ws s).c = s.c ∧ (tailFold abStep ws s).d = s.d := by
  induction ws generalizing s with
  | nil => exact ⟨rfl, rfl⟩
  | cons x ws ih =>
    rw [tailFold, (ih _).1, (ih _).2]
    simp only [abStep]
    split <;> exact ⟨rfl, rfl⟩

theorem exec_final {ctx bits : Nat} {extra : Option Nat} {pend : List Byte} {s : Spec.State}
    {total : U64} (hp : Place cfg w ctx) (hf : FinalPlace cfg w ctx extra bits)
    (hA : Acc P ctx (ctxSize cfg)) (hB : Acc P bits 8) (hE : ∀ p, extra = some p → P (.wr p 8))
    (hiter : P .iter) (hAp : ∀ a, ctx ≤ a → a ≤ ctx + ctxSize cfg → P (.ptr a))
    (hBp : ∀ a, bits ≤ a → a ≤ bits + 8 → P (.ptr a)) (hr : Rep cfg w ov ctx s pend total) :
    Exec w ov P nowhere 0 (t1ha2_final cfg ctx extra bits)
      (fun x o =>
        let m := withBits pend total
        let s' := Spec.absorbAll s (Spec.blocks 32 m)
        let tail := Spec.words64 .little (Spec.rest 32 m)
        (∀ a, (a < ctx ∨ ctx + ctxSize cfg ≤ a) → (a < bits ∨ bits + 8 ≤ a) →
          (∀ p, extra = some p → a < p ∨ p + 8 ≤ a) → o a = ov a) ∧
        (∀ a, o a = none → ov a = none) ∧
        ((∀ p, extra = some p → p + 8 ≤ ctx ∨ ctx + ctxSize cfg ≤ p) →
          Rep cfg w o ctx (leftState extra.isSome tail s') (Spec.rest 32 m) (total + BitVec.ofNat 64 8)) ∧
        match (generalizing := false) extra with
        | none => x = Spec.final64 (Spec.tailAB tail ((Spec.squash s').a, (Spec.squash s').b))
        | some p => x = (Spec.final128 (Spec.tailABCD tail s')).1 ∧
            Holds w o p (cfg.endian.bytes 8 (Spec.final128 (Spec.tailABCD tail s')).2.toNat)) := by
  obtain ⟨f1, f2, f3, f4, f5⟩ := offs cfg
  have len := fun n v => length_bytes cfg.endian n v
  have hba := hf.bits_apart
  unfold t1ha2_final
  refine Exec.bindR (reads_readU64 hr.total (hA.rd (by omega) (by omega))) ?_
  refine Exec.bindL (Exec.writeU64 hf.bits_writable (hB.wr (by omega) (by omega))) ?_
  rintro _ o1 ho1
  replace ho1 := ho1.trans (congrArg (put ov bits) (bits_bytes (total <<< 3 ^^^ 1#64 <<< 63)))
  have hbl : (leBytes 8 (total <<< 3 ^^^ 1#64 <<< 63).toNat).length = 8 := leBytes_length _ _
  have o1' : Only ov o1 bits 8 := by
    rw [ho1]; exact only_put (by omega) (by omega)
  have hb1 : Holds w o1 bits (leBytes 8 (total <<< 3 ^^^ 1#64 <<< 63).toNat) := by
    rw [ho1]; exact holds_put (by rw [hbl]; exact hf.bits_writable.1)
  have hr1 : Rep cfg w o1 ctx s pend total := by
    have := hr.short
    exact ⟨hr.state.only o1' (by omega), hr.buf.only o1' (by omega),
      hr.part.only o1' (by rw [len]; omega), hr.total.only o1' (by rw [len]; omega), hr.short⟩
  have hpl : (withBits pend total).length = pend.length + 8 := by
    rw [withBits, List.length_append, hbl]
  have hloops : updateLoops pend.length 8 = 0 := by
    have := hr.short
    unfold updateLoops
    split <;> omega
  have hupd := exec_update (P := P) hp hA hiter hr1 hb1 (by
    rw [hbl]; exact ⟨hB.subRd (by omega) (by omega), fun h => by omega⟩)
    (by rw [hbl]; exact hBp)
    (by unfold Apart; omega) (by rw [hbl]; exact hf.bits_fits) (Or.inl hf.bits_notNull)
  rw [hbl, hloops] at hupd
  change Exec w o1 P (range bits 8) 0 _ (fun _ o => Rep cfg w o ctx
    (Spec.absorbAll s (Spec.blocks 32 (withBits pend total))) (Spec.rest 32 (withBits pend total)) _ ∧ _)
    at hupd
  refine Exec.cov (C₁ := range bits 8) (Exec.bindL hupd ?_)
    (fun a h => absurd h (by simp [nowhere])) rfl
  rintro _ o2 ⟨hr2, o2'⟩
  simp only
  generalize total + BitVec.ofNat 64 8 = total' at hr2 ⊢
  generalize Spec.absorbAll s (Spec.blocks 32 (withBits pend total)) = s' at hr2 ⊢
  generalize Spec.rest 32 (withBits pend total) = tl at hr2 ⊢
  have hreg := hp.region hA hiter hAp hr2.short
  have halign : AlOk cfg .aligned (ctx + 32) := by
    intro _
    have := hp.aligned
    rcases alignment64_cases cfg with hc | hc <;> rw [hc] at this ⊢ <;> omega
  have hsh := hr2.short
  have hw32 : Writable w ctx 32 := hp.writable.sub (by omega) (by omega)
  have hA32 : Acc P ctx 32 := hA.sub (by omega) (by omega)
  cases extra with
  | none =>
    simp only [offState, Nat.add_zero, offBuffer]
    refine Exec.bindR (reads_readState hr2.state hA32) ?_
    refine Exec.bindL (exec_writeState _ hw32 hA32.wrs) ?_
    rintro _ o3 ⟨h3, o3'⟩
    have hpart3 := hr2.part.only o3' (by omega)
    have hbuf3 := hr2.buf.only o3' (by omega)
    refine Exec.bindR (reads_readPartial hpart3 (by omega) (hA.rd (by omega) (by omega))) ?_
    refine Exec.cov (C₁ := range (ctx + 32) tl.length) (n₁ := 0) (Exec.bindL
      (reads_TAIL_AB_mix hreg _ halign hbuf3 (by omega) rfl rfl (by omega)) ?_)
      (fun a h => absurd h (by simp [nowhere])) rfl
    rintro s4 o4 ⟨h4, rfl⟩
    refine Exec.bindL (exec_writeState _ hw32 hA32.wrs) ?_
    rintro _ o5 ⟨h5, o5'⟩
    refine Exec.pure _ ⟨?_, fun a ha => o1'.grow a (o2'.grow a (o3'.grow a (o5'.grow a ha))), fun _ => ?_, ?_⟩
    · intro a ha hb _
      rw [o5'.same a (by omega), o3'.same a (by omega), o2'.same a (by omega), o1'.same a (by omega)]
    · have hleft : leftState false (Spec.words64 .little tl) s' = s4.spec := by
        have hsq := squash_eq ⟨s'.a, s'.b, s'.c, s'.d⟩
        change (squash ⟨s'.a, s'.b, s'.c, s'.d⟩).spec = Spec.squash s' at hsq
        have hcd := tailFold_ab_cd (Spec.words64 .little tl) (squash ⟨s'.a, s'.b, s'.c, s'.d⟩)
        simp only [leftState, Bool.false_eq_true, if_false]
        rw [← hsq, h4]
        simp only [State256.spec]
        rw [tailAB_eq, hcd.1, hcd.2]
      simp only [Option.isSome_none, hleft]
      exact ⟨h5, hbuf3.only o5' (by omega), hpart3.only o5' (by omega),
        (hr2.total.only o3' (by omega)).only o5' (by omega), hsh⟩
    · rw [final64_eq, h4]
      have hsq := squash_eq ⟨s'.a, s'.b, s'.c, s'.d⟩
      change (squash ⟨s'.a, s'.b, s'.c, s'.d⟩).spec = Spec.squash s' at hsq
      rw [← hsq]
      have := tailAB_eq (Spec.words64 .little tl) (squash ⟨s'.a, s'.b, s'.c, s'.d⟩)
      change _ = Spec.final64 (Spec.tailAB (Spec.words64 .little tl)
        ((squash ⟨s'.a, s'.b, s'.c, s'.d⟩).a, (squash ⟨s'.a, s'.b, s'.c, s'.d⟩).b))
      rw [this]
  | some p =>
    have hwE := hf.extra_writable p rfl
    simp only [offState, Nat.add_zero, offBuffer]
    refine Exec.bindR (reads_readState hr2.state hA32) ?_
    refine Exec.bindR (reads_readPartial hr2.part (by omega) (hA.rd (by omega) (by omega))) ?_
    refine Exec.cov (C₁ := range (ctx + 32) tl.length) (n₁ := 0) (Exec.bindL
      (reads_TAIL_ABCD_mix hreg _ halign hr2.buf (by omega) rfl rfl (by omega)) ?_)
      (fun a h => absurd h (by simp [nowhere])) rfl
    rintro s4 o4 ⟨h4, rfl⟩
    refine Exec.bindL (exec_writeState _ hw32 hA32.wrs) ?_
    rintro _ o5 ⟨h5, o5'⟩
    refine Exec.bindL (Exec.writeInt hwE (hE p rfl)) ?_
    rintro _ _ rfl
    have hab := tailABCD_eq (Spec.words64 .little tl) ⟨s'.a, s'.b, s'.c, s'.d⟩
    rw [← h4] at hab
    change Spec.tailABCD _ s' = ⟨s4.a, s4.b, s4.c, s4.d⟩ at hab
    refine Exec.pure _ ⟨?_, fun a ha => o1'.grow a (o2'.grow a (o5'.grow a (put_grow ha))), fun hapart => ?_, ?_, ?_⟩
    · intro a ha hb hc
      have := hc p rfl
      rw [put_other (by rw [len]; omega), o5'.same a (by omega), o2'.same a (by omega),
        o1'.same a (by omega)]
    · have hap := hapart p rfl
      have hput : Only o5 (put o5 p (cfg.endian.bytes 8 (final128 cfg s4.a s4.b s4.c s4.d).2.toNat)) p 8 :=
        only_put (by omega) (by rw [len])
      have hleft : leftState true (Spec.words64 .little tl) s' = s4.spec := by
        simp only [leftState, if_true]
        exact hab
      simp only [Option.isSome_some, hleft]
      exact ⟨h5.only hput (by omega), (hr2.buf.only o5' (by omega)).only hput (by omega),
        (hr2.part.only o5' (by omega)).only hput (by rw [len]; omega),
        (hr2.total.only o5' (by omega)).only hput (by rw [len]; omega), hsh⟩
    · rw [final128_eq, hab]
    · rw [final128_eq, hab]
      exact holds_put (by rw [len]; exact hwE.1)

end T1ha.Model
