import Verif.Props.Stream

/-!
# The length block: C18
-/

namespace T1ha.Props

open Model Examples

variable {cfg : Cfg} {w w' : World} {s s' : Sys} {ctx ctx' slot slot' : Nat} {extra : Option Nat} {x y : U64}
  {img img' fed fed' : List Byte}

/-- The value which `t1ha2_final` computes from whole blocks and the words behind them. -/
def digest (x y : U64) (wide : Bool) (blocks : List (List Byte)) (tail : List U64) : U64 :=
  let s := Spec.absorbAll (Spec.init x y) blocks
  if wide then (Spec.final128 (Spec.tailABCD tail s)).1
  else Spec.final64 (Spec.tailAB tail ((Spec.squash s).a, (Spec.squash s).b))

/-- C18: when `t1ha2_final` returns, the buffer of the context holds the bytes behind the last whole block
of the data followed by the number of bits (8 bytes, little endian on every machine, top bit flipped), and
the result was computed from these bytes and the blocks before them. -/
theorem final_absorbs_length (past : History cfg x y img fed) (here : Ctx cfg w s.ov ctx img)
    (out : Out cfg w ctx extra slot) (apart : ∀ p, extra = some p → p + 8 ≤ ctx ∨ ctx + ctxSize cfg ≤ p) :
    ∃ (s₁ : Sys) (t : List Ev) (all : List Byte),
      all = fed ++ leBytes 8 ((8 * fed.length) % 2 ^ 64 ^^^ 2 ^ 63) ∧
      Returns (t1ha2_final cfg ctx extra slot) w s
        (digest x y extra.isSome (Spec.blocks 32 all) (Spec.words64 .little (Spec.rest 32 all))) s₁ t ∧
      Holds w s₁.ov (ctx + 32) (Spec.rest 32 all) := by
  obtain ⟨v, s₁, t, h1, ⟨rfl, h3⟩, _⟩ := returns_of_exec (final_left here past.fed out apart)
  refine ⟨s₁, t, _, rfl, ?_, h3⟩
  cases extra <;> exact h1

/-- 143 bytes, both halves of the result: the length in bits is 1144; 23 bytes are left in the buffer. -/
example : ∃ (s s₁ : Sys) (t : List Ev) (v : U64),
    Returns (t1ha2_final mips32 4096 (some 9001) 4300) quiet s v s₁ t ∧
    Holds quiet s₁.ov 4128 (Spec.rest 32
      (quietBytes 5001 43 ++ quietBytes 6003 100 ++ leBytes 8 0x8000000000000478)) := by
  obtain ⟨s, img, h1, h2, _⟩ := history_quiet mips32 5 6
  have ho := out_quiet mips32 (some 9001) (by rintro _ ⟨⟩; decide)
  obtain ⟨s₁, t, all, rfl, g1, g2⟩ := final_absorbs_length h1 h2 ho
    (by rintro _ ⟨⟩; exact .inr (by decide))
  rw [List.length_append, length_quietBytes, length_quietBytes] at g2
  exact ⟨s, s₁, t, _, g1, g2⟩

private theorem flatten_blocks (m : List Byte) : (Spec.blocks 32 m).flatten ++ Spec.rest 32 m = m := by
  rw [Spec.blocks, flatten_chunks, Spec.rest, List.take_append_drop]

/-- C18: contexts which have absorbed different data, of less than 2^61 bytes: `t1ha2_final` computes the
results from different blocks, or from different words behind them; these are the words in the buffers of
the contexts. -/
theorem finals_absorb_differently (past : History cfg x y img fed) (past' : History cfg x y img' fed')
    (short : fed.length < 2 ^ 61) (short' : fed'.length < 2 ^ 61) (hne : fed ≠ fed')
    (here : Ctx cfg w s.ov ctx img) (here' : Ctx cfg w' s'.ov ctx' img')
    (out : Out cfg w ctx none slot) (out' : Out cfg w' ctx' none slot') :
    ∃ (s₁ s₁' : Sys) (t t' : List Ev) (bs bs' : List (List Byte)) (r r' : List Byte),
      Returns (t1ha2_final cfg ctx none slot) w s (digest x y false bs (Spec.words64 .little r)) s₁ t ∧
      Returns (t1ha2_final cfg ctx' none slot') w' s' (digest x y false bs' (Spec.words64 .little r')) s₁' t' ∧
      Holds w s₁.ov (ctx + 32) r ∧ Holds w' s₁'.ov (ctx' + 32) r' ∧
      bs.flatten ++ r = fed ++ leBytes 8 ((8 * fed.length) % 2 ^ 64 ^^^ 2 ^ 63) ∧
      bs'.flatten ++ r' = fed' ++ leBytes 8 ((8 * fed'.length) % 2 ^ 64 ^^^ 2 ^ 63) ∧
      (bs ≠ bs' ∨ Spec.words64 .little r ≠ Spec.words64 .little r') := by
  obtain ⟨s₁, t, _, rfl, h1, h2⟩ := final_absorbs_length past here out (fun _ h => nomatch h)
  obtain ⟨s₁', t', _, rfl, h1', h2'⟩ := final_absorbs_length past' here' out' (fun _ h => nomatch h)
  exact ⟨s₁, s₁', t, t', _, _, _, _, h1, h1', h2, h2',
    flatten_blocks _, flatten_blocks _, padding_unambiguous short short' hne⟩

/-- A fresh context, and one with 143 bytes. -/
example : ∃ (s s' s₁ s₁' : Sys) (t t' : List Ev) (bs bs' : List (List Byte)) (r r' : List Byte),
    Returns (t1ha2_final mips32 4096 none 4300) quiet s (digest 5 6 false bs (Spec.words64 .little r)) s₁ t ∧
    Returns (t1ha2_final mips32 4096 none 4300) quiet s' (digest 5 6 false bs' (Spec.words64 .little r')) s₁' t' ∧
    bs'.flatten ++ r' = leBytes 8 (2 ^ 63) ∧
    (bs ≠ bs' ∨ Spec.words64 .little r ≠ Spec.words64 .little r') := by
  obtain ⟨s, img, h1, h2, _⟩ := history_quiet mips32 5 6
  obtain ⟨s', _, img', r1, c1, _, _⟩ := t1ha2_init_returns (s := start) (ctx_quiet mips32) 5 6
  have h1' := History.init (ctx_quiet mips32) r1 c1
  have ho := out_quiet mips32 none (fun _ h => nomatch h)
  have hl : (quietBytes 5001 43 ++ quietBytes 6003 100).length = 143 := by
    rw [List.length_append, length_quietBytes, length_quietBytes]
  obtain ⟨s₁, s₁', t, t', bs, bs', r, r', g1, g2, _, _, _, g3, g4⟩ :=
    finals_absorb_differently h1 h1' (by rw [hl]; decide) (by decide)
      (fun h => by rw [h] at hl; exact absurd hl (by decide)) h2 c1 ho ho
  exact ⟨s, s', s₁, s₁', t, t', bs, bs', r, r', g1, g2, g3, g4⟩

end T1ha.Props
