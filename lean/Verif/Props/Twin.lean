import Verif.Props.OneShot
import Verif.Props.Stream

/-!
# Streams and one-shot functions are related: C92
-/

namespace T1ha.Props

open Model Examples

variable {cfg cfg' : Cfg} {w w' : World} {s s' : Sys} {ctx slot data page : Nat} {x y : U64} {img fed m : List Byte}

/-- The bytes `fed`, and then eight bytes which anybody can compute: the number of bits, with the top bit flipped. -/
def Extended (fed m : List Byte) : Prop := m = fed ++ leBytes 8 ((8 * fed.length) % 2 ^ 64 ^^^ 2 ^ 63)

theorem Extended.length (h : Extended fed m) : m.length = fed.length + 8 := by
  rw [h, List.length_append, leBytes_length]

theorem Extended.padded (h : Extended fed m) : Spec.padded fed = m := h.symm

/-- C92: a stream of `fed` with the seeds `x` and `y`, where `y` is the number of bytes and eight more, gives the same
result as `t1ha2_atonce` of another message, `m`, with the seed `x` - on any two machines and whatever `x` is, if there
are at least 25 bytes. For shorter ones see `twin_short`. -/
theorem twin_atonce (past : History cfg x y img fed) (here : Ctx cfg w s.ov ctx img) (out : Out cfg w ctx none slot)
    (h : Buf cfg' w' s'.ov page data m) (hslack : cfg'.SafeTail ∨ Mapped w' (data + m.length) 8) (g : State256)
    (hm : Extended fed m) (hy : y = BitVec.ofNat 64 (fed.length + 8)) (hlen : 25 ≤ fed.length) :
    ∃ v s₁ t log, Returns (t1ha2_final cfg ctx none slot) w s v s₁ t ∧
      t1ha2_atonce cfg' g data m.length x w' s' = .ok (v, ⟨log, s'.ov⟩) := by
  obtain ⟨s₁, t, -, h1, -⟩ := t1ha2_final_correct past here out
  obtain ⟨log, h2⟩ := t1ha2_atonce_correct h hslack g x
  refine ⟨_, s₁, t, log, h1, ?_⟩
  rw [h2]
  have : Spec.t1ha2_atonce m x = streamHash fed x y none := by
    show _ = Spec.t1ha2_stream fed x y
    unfold Spec.t1ha2_atonce Spec.t1ha2_stream Spec.len64
    rw [if_pos (by rw [hm.length]; omega), hm.padded, hm.length, hy]
  rw [this]

/-- C92: the same for the result of 128 bits, for any number of bytes but 24: the values which are returned, and the ones
which are stored. For 24 bytes see `twin_short`. -/
theorem twin_atonce128 {p q : Nat} (past : History cfg x y img fed) (here : Ctx cfg w s.ov ctx img)
    (out : Out cfg w ctx (some p) slot)
    (h : Buf cfg' w' s'.ov page data m) (hslack : cfg'.SafeTail ∨ Mapped w' (data + m.length) 8) (hw : Writable w' q 8)
    (g : State256) (hm : Extended fed m) (hy : y = BitVec.ofNat 64 (fed.length + 8)) (hlen : fed.length ≠ 24) :
    ∃ v high s₁ t log ov, Returns (t1ha2_final cfg ctx (some p) slot) w s v s₁ t ∧
      Holds w s₁.ov p (cfg.endian.bytes 8 high) ∧
      t1ha2_atonce128 cfg' g q data m.length x w' s' = .ok (v, ⟨log, ov⟩) ∧
      Holds w' ov q (cfg'.endian.bytes 8 high) := by
  obtain ⟨s₁, t, -, h1, h3, -⟩ := t1ha2_final_correct past here out
  obtain ⟨log, ov, h2, h4, -⟩ := t1ha2_atonce128_correct h hslack hw g x
  have : Spec.t1ha2_atonce128 m x = Spec.t1ha2_stream128 fed x y := by
    unfold Spec.t1ha2_atonce128 Spec.t1ha2_stream128 Spec.len64
    rw [hm.padded, hy, hm.length]
    split
    · rfl
    · have hl : m.length < 32 := by have := hm.length; omega
      have hb : Spec.blocks 32 m = [] := by
        unfold Spec.blocks
        rw [Nat.div_eq_of_lt hl]
        rfl
      have hr : Spec.rest 32 m = m := by
        unfold Spec.rest
        rw [Nat.div_eq_of_lt hl]
        rfl
      rw [hb, hr]
      rfl
  rw [this] at h2 h4
  exact ⟨_, _, s₁, t, log, ov, h1, h3 p rfl, h2, h4⟩

/-- C92 needs the numbers of bytes: for every number of bytes up to 24 there is a message for which the results of 64 bits
are different, and for 24 bytes one for which those of 128 bits are. -/
theorem twin_short {n : Nat} (hn : n < 25) :
    (∀ {slot : Nat}, History cfg 7 y img (msg n) → Ctx cfg w s.ov ctx img → Out cfg w ctx none slot →
      Buf cfg' w' s'.ov page data m → (cfg'.SafeTail ∨ Mapped w' (data + m.length) 8) → Extended (msg n) m →
      y = BitVec.ofNat 64 (n + 8) → ∀ g : State256,
      ∃ v v' s₁ t log, v ≠ v' ∧ Returns (t1ha2_final cfg ctx none slot) w s v s₁ t ∧
        t1ha2_atonce cfg' g data m.length 7 w' s' = .ok (v', ⟨log, s'.ov⟩)) ∧
    (∀ {slot p q : Nat}, History cfg 7 y img (msg n) → Ctx cfg w s.ov ctx img → Out cfg w ctx (some p) slot →
      Buf cfg' w' s'.ov page data m → (cfg'.SafeTail ∨ Mapped w' (data + m.length) 8) → Writable w' q 8 →
      Extended (msg n) m → y = BitVec.ofNat 64 (n + 8) → n = 24 → ∀ g : State256,
      ∃ v v' s₁ t log ov, v ≠ v' ∧ Returns (t1ha2_final cfg ctx (some p) slot) w s v s₁ t ∧
        t1ha2_atonce128 cfg' g q data m.length 7 w' s' = .ok (v', ⟨log, ov⟩)) := by
  have h64 : ∀ k < 25, Spec.t1ha2_stream (msg k) 7 (BitVec.ofNat 64 (k + 8)) ≠
      Spec.t1ha2_atonce (Spec.padded (msg k)) 7 := by decide +kernel
  have h128 : (Spec.t1ha2_stream128 (msg 24) 7 32).1 ≠ (Spec.t1ha2_atonce128 (Spec.padded (msg 24)) 7).1 := by
    decide +kernel
  constructor
  · intro slot past here out h hslack hm hy g
    obtain ⟨s₁, t, -, h1, -⟩ := t1ha2_final_correct past here out
    obtain ⟨log, h2⟩ := t1ha2_atonce_correct h hslack g 7
    refine ⟨_, _, s₁, t, log, ?_, h1, h2⟩
    rw [← hm.padded, hy]
    exact h64 n hn
  · intro slot p q past here out h hslack hw hm hy hn24 g
    obtain ⟨s₁, t, -, h1, -⟩ := t1ha2_final_correct past here out
    obtain ⟨log, ov, h2, -⟩ := t1ha2_atonce128_correct h hslack hw g 7
    refine ⟨_, _, s₁, t, log, ov, ?_, h1, h2⟩
    rw [← hm.padded, hy]
    subst hn24
    exact h128

/-- 143 bytes are fed in two pieces on a big-endian machine of 32 bits; 151 bytes are hashed at once on amd64. -/
example (g : State256) : ∃ s v s₁ t log m,
    m = quietBytes 5001 43 ++ quietBytes 6003 100 ++ leBytes 8 0x8000000000000478 ∧
    Returns (t1ha2_final mips32 4096 none 4300) quiet s v s₁ t ∧
    t1ha2_atonce amd64 g 5001 151 7 (memory 4096 8192 5001 m) start = .ok (v, ⟨log, start.ov⟩) := by
  have hl : (quietBytes 5001 43 ++ quietBytes 6003 100).length = 143 := by
    rw [List.length_append, length_quietBytes, length_quietBytes]
  obtain ⟨s, img, h1, h2, _⟩ := history_quiet mips32 7 151
  have hm : Extended (quietBytes 5001 43 ++ quietBytes 6003 100)
      (quietBytes 5001 43 ++ quietBytes 6003 100 ++ leBytes 8 0x8000000000000478) := by
    unfold Extended
    rw [hl, show 8 * 143 % 2 ^ 64 ^^^ 2 ^ 63 = 0x8000000000000478 by decide]
  obtain ⟨v, s₁, t, log, a, b⟩ := twin_atonce h1 h2 (out_quiet mips32 none (fun _ h => nomatch h))
    (buf_mid amd64 rfl _ (by rw [hm.length, hl]; decide)) (Or.inl (by decide)) g hm (by rw [hl]; rfl) (by rw [hl]; decide)
  rw [hm.length, hl] at b
  exact ⟨s, v, s₁, t, log, _, rfl, a, b⟩

/-- The same with 128 bits -/
example (g : State256) : ∃ s v high s₁ t log ov m,
    Returns (t1ha2_final mips32 4096 (some 9001) 4300) quiet s v s₁ t ∧
    Holds quiet s₁.ov 9001 (Endian.big.bytes 8 high) ∧
    t1ha2_atonce128 amd64 g 4500 5001 151 7 (memory 4096 8192 5001 m) start = .ok (v, ⟨log, ov⟩) ∧
    Holds (memory 4096 8192 5001 m) ov 4500 (Endian.little.bytes 8 high) := by
  have hl : (quietBytes 5001 43 ++ quietBytes 6003 100).length = 143 := by
    rw [List.length_append, length_quietBytes, length_quietBytes]
  obtain ⟨s, img, h1, h2, _⟩ := history_quiet mips32 7 151
  have hm : Extended (quietBytes 5001 43 ++ quietBytes 6003 100)
      (quietBytes 5001 43 ++ quietBytes 6003 100 ++ leBytes 8 0x8000000000000478) := by
    unfold Extended
    rw [hl, show 8 * 143 % 2 ^ 64 ^^^ 2 ^ 63 = 0x8000000000000478 by decide]
  obtain ⟨v, high, s₁, t, log, ov, a, b, c, d⟩ := twin_atonce128 (q := 4500) h1 h2
    (out_quiet mips32 (some 9001) (by rintro _ ⟨⟩; decide))
    (buf_mid amd64 rfl _ (by rw [hm.length, hl]; decide)) (Or.inl (by decide))
    (writable (by decide) (by decide)) g hm (by rw [hl]; rfl) (by rw [hl]; decide)
  rw [hm.length, hl] at c
  exact ⟨s, v, high, s₁, t, log, ov, _, a, b, c, d⟩

/-- No bytes are fed: the results of 64 bits are different. -/
example (g : State256) : ∃ s v v' s₁ t log, v ≠ v' ∧
    Returns (t1ha2_final mips32 4096 none 4300) quiet s v s₁ t ∧
    t1ha2_atonce amd64 g 5001 8 7 (memory 4096 8192 5001 (leBytes 8 (2 ^ 63))) start = .ok (v', ⟨log, start.ov⟩) := by
  obtain ⟨s, _, img, r1, c1, _, _⟩ := t1ha2_init_returns (s := start) (ctx_quiet mips32) 7 8
  obtain ⟨v, v', s₁, t, log, a, b, c⟩ := (twin_short (n := 0) (by decide)).1 (History.init (ctx_quiet mips32) r1 c1) c1
    (out_quiet mips32 none (fun _ h => nomatch h))
    (buf_mid amd64 rfl (leBytes 8 (2 ^ 63)) (by rw [leBytes_length]; decide)) (Or.inl (by decide)) (by rfl) rfl g
  rw [leBytes_length] at c
  exact ⟨s, v, v', s₁, t, log, a, b, c⟩

end T1ha.Props
