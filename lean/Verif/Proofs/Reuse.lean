import Verif.Props.Sponge
import Verif.Proofs.Session

/-!
# Going on after `t1ha2_final`
-/

namespace T1ha.Spec

open Model

theorem rest_short {m : List Byte} (h : m.length < 32) : rest 32 m = m := by
  unfold rest
  rw [Nat.div_eq_of_lt h]
  rfl

theorem blocks_short {m : List Byte} (h : m.length < 32) : blocks 32 m = [] := by
  unfold blocks
  rw [Nat.div_eq_of_lt h]
  rfl

theorem Sponge.feed_nil {s : Sponge} (h : s.pend.length < 32) : s.feed [] = s := by
  unfold Sponge.feed
  rw [List.append_nil, rest_short h, blocks_short h]
  cases s
  simp [absorbAll]

theorem Sponge.feed_append (s : Sponge) (m k : List Byte) : (s.feed m).feed k = s.feed (m ++ k) := by
  unfold Sponge.feed
  simp only []
  congr 1
  · rw [← List.append_assoc, blocks_append (s.pend ++ m) k]
    simp only [absorbAll, List.foldl_append]
  · rw [← List.append_assoc, rest_append (s.pend ++ m) k]
  · rw [BitVec.add_assoc, len_append]

theorem Sponge.feed_short (s : Sponge) (m : List Byte) : (s.feed m).pend.length < 32 := by
  unfold Sponge.feed
  simp only [length_rest]
  omega

theorem Sponge.finish_pend (s : Sponge) (wide : Bool) : (s.finish wide).pend.length < 32 :=
  s.feed_short _

theorem sponge_final (x y : U64) (done : List (List Byte × Bool)) (fed : List Byte) (wide : Bool) :
    sponge x y (done ++ [(fed, wide)]) [] = (sponge x y done fed).finish wide := by
  unfold sponge
  rw [List.foldl_append, Sponge.feed_nil]
  · rfl
  · exact Sponge.finish_pend _ _

theorem sponge_short (x y : U64) (done : List (List Byte × Bool)) (fed : List Byte) :
    (sponge x y done fed).pend.length < 32 := Sponge.feed_short _ _

/-- Nothing has been finalised: the ordinary hash. -/
theorem sponge_fresh (x y : U64) (fed : List Byte) :
    (sponge x y [] fed).result false = t1ha2_stream fed x y ∧
      ((sponge x y [] fed).result true, (sponge x y [] fed).high) = t1ha2_stream128 fed x y := by
  have hp : (sponge x y [] fed).pad = (Sponge.start x y).feed (padded fed) := by
    have ht : (sponge x y [] fed).total = BitVec.ofNat 64 fed.length := by
      simp [sponge, Sponge.feed, Sponge.start]
    rw [Sponge.pad, ht, sponge, List.foldl_nil, Sponge.feed_append, withBits_fed]
  constructor
  · simp only [Sponge.result, Sponge.finish, hp]
    rfl
  · simp only [Sponge.result, Sponge.high, Sponge.finish, hp]
    rfl

end T1ha.Spec

namespace T1ha.Model

variable {w : World} {ov o : Overlay} {cfg : Cfg} {ctx : Nat} {img : List Byte} {x y : U64}

/-- The context contains this. -/
abbrev Image (cfg : Cfg) (img : List Byte) (p : Spec.Sponge) : Prop := Img cfg img p.state p.pend p.total

theorem feed_exec {data : Nat} {m : List Byte} {p : Spec.Sponge} (h : Ctx cfg w ov ctx img)
    (hi : Image cfg img p) (hp : Piece cfg w ov ctx data m) :
    Exec w ov (UpdateEv cfg ctx data m.length) (range data m.length)
      (updateLoops p.pend.length m.length) (t1ha2_update cfg ctx data m.length)
      (fun _ o => Rep cfg w o ctx (p.feed m).state (p.feed m).pend (p.feed m).total ∧
        Only ov o ctx (ctxSize cfg)) :=
  update_exec h hi hp

theorem finish_exec {extra : Option Nat} {slot : Nat} {p : Spec.Sponge} (h : Ctx cfg w ov ctx img)
    (hi : Image cfg img p) (hf : Out cfg w ctx extra slot) :
    Exec w ov (FinalEv' cfg ctx extra slot) nowhere 0 (t1ha2_final cfg ctx extra slot)
      (fun v o => v = p.result extra.isSome ∧
        (∀ q, extra = some q → Holds w o q (cfg.endian.bytes 8 p.high.toNat)) ∧
        (∀ a, (a < ctx ∨ ctx + ctxSize cfg ≤ a) → (a < slot ∨ slot + 8 ≤ a) →
          (∀ p, extra = some p → a < p ∨ p + 8 ≤ a) → o a = ov a) ∧
        (∀ a, o a = none → ov a = none) ∧
        ((∀ q, extra = some q → q + 8 ≤ ctx ∨ ctx + ctxSize cfg ≤ q) →
          Rep cfg w o ctx (p.finish extra.isSome).state (p.finish extra.isSome).pend
            (p.finish extra.isSome).total)) := by
  refine (exec_final (P := FinalEv' cfg ctx extra slot) (bits := slot) h.place
    ⟨hf.slot_writable, hf.slot_fits, hf.slot_apart, hf.slot_notNull, hf.extra_writable⟩
    (fun _ _ h1 h2 => ⟨Or.inl (Or.inl ⟨h1, h2⟩), Or.inl (Or.inl ⟨h1, h2⟩)⟩)
    (fun _ _ h1 h2 => ⟨Or.inl (Or.inr ⟨h1, h2⟩), Or.inl (Or.inr (Or.inl ⟨h1, h2⟩))⟩)
    (fun p hp => Or.inl (Or.inr (Or.inr ⟨hp, rfl⟩))) (Or.inr rfl)
    (fun _ h1 h2 => Or.inl (Or.inl ⟨h1, h2⟩)) (fun _ h1 h2 => Or.inl (Or.inr ⟨h1, h2⟩)) (hi.rep h.holds)).post ?_
  rintro v o ⟨h1, hg, hr, h2⟩
  have hbl : (leBytes 8 (p.total <<< 3 ^^^ 1#64 <<< 63).toNat).length = 8 := leBytes_length _ _
  have hpad : (p.finish extra.isSome).total = p.total + BitVec.ofNat 64 8 := by
    simp only [Spec.Sponge.finish, Spec.Sponge.pad, Spec.Sponge.feed, hbl]
  refine ⟨?_, ?_, h1, hg, fun ha => ?_⟩
  · cases extra with
    | none => exact h2
    | some q => exact h2.1
  · rintro q rfl
    exact h2.2
  · have := hr ha
    rw [hpad]
    exact this

theorem Reuse.image {done : List (List Byte × Bool)} {fed : List Byte} (h : Reuse cfg x y img done fed) :
    Image cfg img (Spec.sponge x y done fed) := by
  induction h with
  | init here call there =>
    obtain ⟨v, s', t, h1, ⟨h2, -⟩, -⟩ := returns_of_exec (init_exec here x y)
    obtain ⟨-, rfl, -⟩ := call.unique h1
    have e : Spec.sponge x y [] [] = Spec.Sponge.start x y := Spec.Sponge.feed_nil (show 0 < 32 by decide)
    rw [e]
    exact h2.toImg there.holds there.size
  | update past here piece call there ih =>
    obtain ⟨v, s', t, h1, ⟨h2, -⟩, -⟩ := returns_of_exec (feed_exec here ih piece)
    obtain ⟨-, rfl, -⟩ := call.unique h1
    rw [Spec.sponge, Spec.Sponge.feed_append] at h2
    exact h2.toImg there.holds there.size
  | final past here out apart call there ih =>
    obtain ⟨v, s', t, h1, ⟨-, -, -, -, h2⟩, -⟩ := returns_of_exec (finish_exec here ih out)
    obtain ⟨-, rfl, -⟩ := call.unique h1
    rw [Spec.sponge_final]
    exact (h2 apart).toImg there.holds there.size

/-! ## Contents which no function of the library left -/

/-- Eight bytes of an image are the bytes of a number. -/
theorem part_u64 {k : Nat} (h : k + 8 ≤ img.length) :
    ∃ v : U64, Part img k (cfg.endian.bytes 8 v.toNat) := by
  have hl : ((img.drop k).take 8).length = 8 := by rw [List.length_take, List.length_drop]; omega
  have hb := cfg.endian.bytes_val ((img.drop k).take 8)
  rw [hl] at hb
  refine ⟨BitVec.ofNat 64 (cfg.endian.val ((img.drop k).take 8)), ?_⟩
  have hv : cfg.endian.val ((img.drop k).take 8) < 256 ^ 8 := by
    have := cfg.endian.val_lt ((img.drop k).take 8)
    rwa [hl] at this
  rw [BitVec.toNat_ofNat, Nat.mod_eq_of_lt (by simpa using hv), hb]
  unfold Part
  rw [hl]

/-- A context with any contents, if the number of waiting bytes in it is less than 32. -/
theorem Ctx.image {n : Nat} (h : Ctx cfg w ov ctx img)
    (hn : Holds w ov (ctx + 64) (cfg.endian.bytes (szBytes cfg) n)) (hlt : n < 32) :
    ∃ p : Spec.Sponge, p.pend.length = n ∧ Image cfg img p := by
  obtain ⟨f1, f2, f3, f4, f5⟩ := offs cfg
  have hs := h.size
  obtain ⟨a, ha⟩ := part_u64 (cfg := cfg) (img := img) (k := 0) (by omega)
  obtain ⟨b, hb⟩ := part_u64 (cfg := cfg) (img := img) (k := 8) (by omega)
  obtain ⟨c, hc⟩ := part_u64 (cfg := cfg) (img := img) (k := 16) (by omega)
  obtain ⟨d, hd⟩ := part_u64 (cfg := cfg) (img := img) (k := 24) (by omega)
  obtain ⟨t, ht⟩ := part_u64 (cfg := cfg) (img := img) (k := offTotal cfg) (by omega)
  have hl : ((img.drop 32).take n).length = n := by rw [List.length_take, List.length_drop]; omega
  refine ⟨⟨⟨a, b, c, d⟩, (img.drop 32).take n, t⟩, hl, ha, hb, hc, hd, ?_, ?_, ht, ?_⟩
  · unfold Part
    rw [hl]
  · rw [hl]
    exact .of_holds h.holds hn (by rw [length_bytes]; omega)
  · rw [hl]; exact hlt

/-- `ctx->partial` is so large that `ctx->buffer + ctx->partial` is behind the context. -/
theorem overflow_exec {data n : Nat} {m : List Byte} (h : Ctx cfg w ov ctx img)
    (hn : Holds w ov (ctx + 64) (cfg.endian.bytes (szBytes cfg) n))
    (hp : Piece cfg w ov ctx data m) (hbig : ctxSize cfg ≤ 32 + n) (hfit : n + m.length < 2 ^ cfg.bits)
    (hw : Writable w (ctx + 32 + n) m.length) :
    Exec w ov (fun _ => True) (range data m.length) 0 (t1ha2_update cfg ctx data m.length)
      (fun _ o => Holds w o (ctx + 32 + n) m) := by
  obtain ⟨f1, f2, f3, f4, f5⟩ := offs cfg
  have len := fun n v => length_bytes cfg.endian n v
  have hA : Acc (fun _ => True) ctx (ctxSize cfg) := fun _ _ _ _ => ⟨trivial, trivial⟩
  have hpl := h.place
  have hs := h.size
  have hpow : 256 ^ szBytes cfg = 2 ^ cfg.bits := by
    rcases bits_cases cfg with h | h <;> simp [szBytes, h]
  obtain ⟨total, ht⟩ := part_u64 (cfg := cfg) (img := img) (k := offTotal cfg) (by omega)
  obtain ⟨a, ha⟩ := part_u64 (cfg := cfg) (img := img) (k := 0) (by omega)
  obtain ⟨b, hb⟩ := part_u64 (cfg := cfg) (img := img) (k := 8) (by omega)
  obtain ⟨c, hc⟩ := part_u64 (cfg := cfg) (img := img) (k := 16) (by omega)
  obtain ⟨d, hdd⟩ := part_u64 (cfg := cfg) (img := img) (k := 24) (by omega)
  have hst : StateAt cfg w ov ctx ⟨a, b, c, d⟩ :=
    ⟨ha.holds h.holds, hb.holds h.holds, hc.holds h.holds, hdd.holds h.holds⟩
  have hbuf : Holds w ov (ctx + 32) ((img.drop 32).take 32) := h.holds.slice 32 32
  have hbl : ((img.drop 32).take 32).length = 32 := by rw [List.length_take, List.length_drop]; omega
  have hap := hp.apart
  have hm : m = [] ∨ data + m.length ≤ ctx ∨ ctx + ctxSize cfg ≤ data := hap
  unfold t1ha2_update
  refine Exec.bindR (reads_readU64 (ht.holds h.holds) trivial) ?_
  refine Exec.cov (C₁ := fun a => nowhere a ∨ range data m.length a) (Exec.bind (n₁ := 0) (n₂ := 0)
    (Exec.writeU64 (hpl.writable.sub (by omega) (by omega)) trivial) ?_)
    (fun _ h => Or.inr h) (Nat.zero_add _)
  rintro _ o ho
  have o1 : Only ov o (ctx + offTotal cfg) 8 := by
    rw [ho]; exact only_put (by omega) (by rw [len])
  have hn1 := hn.only o1 (by rw [len]; omega)
  have hst1 := hst.only o1 (by omega)
  have hbuf1 := hbuf.only o1 (by omega)
  have htot1 : Holds w o (ctx + offTotal cfg) (cfg.endian.bytes 8 (total + BitVec.ofNat 64 m.length).toNat) := by
    rw [ho]
    refine holds_put ?_
    rw [len]
    exact hpl.writable.1.sub (by omega) (by omega)
  have hh1 : Holds w o data m := by
    rcases hm with h | h
    · rw [h]; exact holds_nil
    · exact hp.holds.only o1 (by omega)
  clear ho o1 hn hst hbuf
  have hread : ∀ {o : Overlay} {v : Nat}, v < 2 ^ cfg.bits →
      Holds w o (ctx + 64) (cfg.endian.bytes (szBytes cfg) v) →
      Reads w o (fun _ => True) nowhere 0 (readPartial cfg ctx) v := by
    intro o v hv hh
    have := reads_readInt (P := fun _ => True) hh trivial
    rw [hpow, Nat.mod_eq_of_lt hv] at this
    exact this
  refine Exec.bindR (hread (by omega) hn1) ?_
  rw [if_pos (by omega)]
  have hleft : szSub cfg 32 n = 2 ^ cfg.bits + 32 - n := Nat.mod_eq_of_lt (by omega)
  simp only [hleft]
  rw [if_neg (show ¬ 2 ^ cfg.bits + 32 - n ≤ m.length by omega)]
  simp only [offBuffer]
  refine Exec.cov (C₁ := fun a => range data m.length a ∨ nowhere a)
    (n₁ := 0 + 0) (Exec.bind (Exec.memcpy (dst := ctx + 32 + n) hh1 hw trivial trivial (by omega) hp.notNull) ?_)
    (fun a h => Or.inl h) rfl
  rintro _ o2 ho2
  have o2' : Only o o2 (ctx + 32 + n) m.length := by
    rw [ho2]; exact only_put (by omega) (by omega)
  have hout2 : Holds w o2 (ctx + 32 + n) m := by
    rw [ho2]; exact holds_put hw.1
  have hn2 := hn1.only o2' (by rw [len]; omega)
  have hst2 := hst1.only o2' (by omega)
  have hbuf2 := hbuf1.only o2' (by omega)
  have htot2 := htot1.only o2' (by rw [len]; omega)
  clear ho2 o2' hn1 hst1 hbuf1 htot1
  refine Exec.bindR (hread (by omega) hn2) ?_
  have hadd : szAdd cfg n m.length = n + m.length := Nat.mod_eq_of_lt (by omega)
  rw [hadd]
  unfold writePartial
  refine Exec.cov (C₁ := fun a => nowhere a ∨ nowhere a) (n₁ := 0 + 0) (Exec.bind (Exec.writeInt
    (hpl.writable.sub (by omega) (by simp only [offPartial]; omega)) trivial) ?_)
    (fun a h => absurd h (by simp [nowhere])) rfl
  rintro _ o3 ho3
  have o3' : Only o2 o3 (ctx + 64) (szBytes cfg) := by
    rw [ho3]; exact only_put (by simp only [offPartial]; omega) (by rw [len]; simp only [offPartial]; omega)
  have hn3 : Holds w o3 (ctx + 64) (cfg.endian.bytes (szBytes cfg) (n + m.length)) := by
    rw [ho3]
    refine holds_put ?_
    rw [len]
    exact hpl.writable.1.sub (by omega) (by simp only [offPartial]; omega)
  have hout3 := hout2.only o3' (by omega)
  have hst3 := hst2.only o3' (by omega)
  have hbuf3 := hbuf2.only o3' (by omega)
  have htot3 := htot2.only o3' (by rw [len]; omega)
  clear ho3 o3' hn2 hst2 hbuf2 htot2 hout2
  refine Exec.bindR (hread (by omega) hn3) ?_
  rw [if_neg (by omega)]
  refine Exec.cov (C₁ := fun a => nowhere a ∨ nowhere a) (n₁ := 0 + 0) (Exec.bind (Exec.writeInt
    (hpl.writable.sub (by omega) (by simp only [offPartial]; omega)) trivial) ?_)
    (fun a h => absurd h (by simp [nowhere])) rfl
  rintro _ o4 ho4
  have o4' : Only o3 o4 (ctx + 64) (szBytes cfg) := by
    rw [ho4]; exact only_put (by simp only [offPartial]; omega) (by rw [len]; simp only [offPartial]; omega)
  have hn4 : Holds w o4 (ctx + 64) (cfg.endian.bytes (szBytes cfg) 0) := by
    rw [ho4]
    refine holds_put ?_
    rw [len]
    exact hpl.writable.1.sub (by omega) (by simp only [offPartial]; omega)
  have hout4 := hout3.only o4' (by omega)
  have hst4 := hst3.only o4' (by omega)
  have hbuf4 := hbuf3.only o4' (by omega)
  have htot4 := htot3.only o4' (by rw [len]; omega)
  clear ho4 o4' hn3 hst3 hbuf3 htot3 hout3
  refine Exec.bindR (Reads.ptrAdd (by have := hp.fits; omega) trivial) ?_
  have hsub : szSub cfg m.length m.length = 0 := by
    unfold szSub
    rw [Nat.add_sub_cancel, Nat.mod_self]
  rw [hsub]
  have halign : AlOk cfg .aligned (ctx + 32) := by
    intro _
    have := hpl.aligned
    rcases alignment64_cases cfg with hc | hc <;> rw [hc] at this ⊢ <;> omega
  refine Exec.cov (C₁ := fun a => range (ctx + 32) 32 a ∨ nowhere a) (n₁ := 0 + 0)
    (Exec.bind (exec_UPDATE_mem (st := ctx) (hpl.writable.sub (by omega) (by omega)) hst4
      (hA.sub (by omega) (by omega)) (hA.subRd (by omega) (by omega)) halign hbuf4
      (by omega)) ?_)
    (fun a h => absurd h (by simp [nowhere])) rfl
  rintro _ o5 ⟨hst5, o5'⟩
  have hr5 := (⟨hst5, holds_nil, hn4.only o5' (by rw [len]; omega), htot4.only o5' (by rw [len]; omega),
    by simp⟩ : Rep cfg w o5 ctx _ [] (total + BitVec.ofNat 64 m.length))
  have key := exec_update_rest (P := fun _ => True) (data := data + m.length) (r := []) hpl hA trivial hr5 holds_nil
    ⟨⟨fun _ _ _ _ => trivial, fun h => absurd h (Nat.lt_irrefl _)⟩, fun h => by simp at h⟩ (fun _ _ _ => trivial) (Or.inl rfl) (by have := hp.fits; simp; omega) (Or.inr rfl)
  refine Exec.cov (key.post ?_) (fun _ h => absurd h (by simp [nowhere])) (by simp)
  rintro _ o6 ⟨-, h2⟩
  exact (hout4.only o5' (by omega)).only h2 (by omega)

end T1ha.Model
