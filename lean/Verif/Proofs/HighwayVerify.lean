import Verif.Props.OthersApi
import Verif.Proofs.Ops
import Verif.Proofs.Selfcheck

/-!
# The verification of the implementations of HighwayHash
-/

namespace T1ha.Model

variable {w : World} {cfg : Cfg} {σ : Type}

theorem returns_forLoop {bound : Nat} {body : Nat → σ → M σ} (J : Nat → σ → Overlay → Prop)
    (step : ∀ i x (s : Sys), i < bound → J i x s.ov →
      ∃ y s' t, Returns (body i x) w s y s' t ∧ J (i + 1) y s'.ov) :
    ∀ fuel i x (s : Sys), i ≤ bound → bound - i < fuel → J i x s.ov →
      ∃ y s' t, Returns (forLoop bound body fuel i x) w s y s' t ∧ J bound y s'.ov := by
  intro fuel
  induction fuel with
  | zero => intro i x s _ h; omega
  | succ fuel ih =>
    intro i x s hi hf hJ
    unfold forLoop
    by_cases hb : i < bound
    · rw [if_pos hb]
      have h0 : Returns iterate w s () ⟨.iter :: s.log, s.ov⟩ [.iter] := ⟨rfl, rfl⟩
      obtain ⟨y, s1, t1, h1, h2⟩ := step i x ⟨.iter :: s.log, s.ov⟩ hb hJ
      obtain ⟨z, s2, t2, h3, h4⟩ := ih (i + 1) y s1 (by omega) (by omega) h2
      exact ⟨z, s2, _, h0.bind (h1.bind h3), h4⟩
    · rw [if_neg hb]
      refine ⟨x, s, [], Returns.pure _, ?_⟩
      rwa [show bound = i by omega]

theorem returns_put {data n i : Nat} {b : Byte} (hw : Writable w data n) (hf : data + n < 2 ^ cfg.bits) (hi : i < n)
    (s : Sys) :
    ∃ s' t, Returns (do let p ← ptrAdd cfg data i; store p [b]) w s () s' t ∧ s'.ov = put s.ov (data + i) [b] := by
  have h : Exec w s.ov (fun _ => True) nowhere 0 (do let p ← ptrAdd cfg data i; store p [b] : M Unit)
      (fun _ o => o = put s.ov (data + i) [b]) :=
    Exec.cov (Reads.bind (C₂ := nowhere) (n₂ := 0) (Reads.ptrAdd (by omega) trivial) (Exec.store
      (P := fun _ => True) ⟨fun t j hj => by
        have := hw.1 t (i + j) (by simp at hj; omega)
        rwa [← Nat.add_assoc] at this, fun j hj => by
        have := hw.2 (i + j) (by simp at hj; omega)
        rwa [← Nat.add_assoc] at this⟩ trivial)) (fun a h => nomatch h) rfl
  obtain ⟨v, s', t, h1, h2, -⟩ := returns_of_exec h
  exact ⟨s', t, h1, h2⟩

theorem countUp_succ (first n : Nat) : countUp first (n + 1) = countUp first n ++ [BitVec.ofNat 8 (first + n)] := by
  simp [countUp, List.range_succ]

theorem length_countUp (first n : Nat) : (countUp first n).length = n := by simp [countUp]

/-- Only the `n` bytes at `p` have changed. -/
def Touches (ov o : Overlay) (p n : Nat) : Prop := ∀ a, a < p ∨ p + n ≤ a → o a = ov a

theorem holds_countUp {ov : Overlay} {data first i : Nat} (hm : Mapped w data (i + 1))
    (h : Holds w ov data (countUp first i)) :
    Holds w (put ov (data + i) [BitVec.ofNat 8 (first + i)]) data (countUp first (i + 1)) := by
  rw [countUp_succ]
  refine Holds.append (h.put (Or.inl (by rw [length_countUp]))) ?_
  rw [length_countUp]
  refine holds_put fun t j hj => ?_
  have := hm t (i + j) (by simp at hj; omega)
  rwa [← Nat.add_assoc] at this

theorem returns_TestHash64 {data : Nat} {fn : HighwayFn} {answer : Quad → List Byte → U64}
    (code : HashesAt w data fn answer) (key : Quad) {m : List Byte} {n : Nat} (hn : m.length = n) (hm : n ≤ 64) (s : Sys)
    (hh : Holds w s.ov data m) (expected : U64) :
    ∃ s' t, Returns (TestHash64 fn expected data n key) w s (decide (expected ≠ answer key m)) s' t ∧
      s'.ov = s.ov := by
  subst hn
  obtain ⟨s', t, h1, h2⟩ := code key m s hm hh
  refine ⟨s', t, ?_, h2⟩
  unfold TestHash64
  have := h1.done (g := fun hash => decide (expected ≠ hash))
  convert this using 3
  split <;> simp [*]

theorem expected_some {i : Nat} (h : i < 65) : ∃ v, Ref.kExpected64[i]? = some v := by
  have : Ref.kExpected64.length = 65 := by decide +kernel
  exact ⟨_, List.getElem?_eq_getElem (by omega)⟩

theorem returns_highwayVerify {data : Nat} {fn : HighwayFn} {answer : Quad → List Byte → U64}
    (code : HashesAt w data fn answer) (hw : Writable w data 65) (hf : data + 65 < 2 ^ cfg.bits) (s : Sys) :
    ∃ failed s' t, Returns (HighwayHash64_verify cfg data fn) w s failed s' t ∧
      (failed = false ↔ HighwayPasses answer) ∧ Touches s.ov s'.ov data 65 := by
  have h0 : ∃ s0 t0, Returns (store data (List.replicate 65 0#8)) w s () s0 t0 ∧
      s0.ov = put s.ov data (List.replicate 65 0#8) := by
    have h : Exec w s.ov (fun _ => True) nowhere 0 (store data (List.replicate 65 0#8))
      (fun _ o => o = put s.ov data (List.replicate 65 0#8)) := Exec.store (by simpa using hw) trivial
    obtain ⟨v, s', t, h1, h2, -⟩ := returns_of_exec h
    exact ⟨s', t, h1, h2⟩
  obtain ⟨s0, t0, r0, o0⟩ := h0
  have e0 : Touches s.ov s0.ov data 65 := by
    intro a ha
    rw [o0]
    exact put_other (by simpa using ha)
  -- the first loop
  have h1 := returns_forLoop (w := w) (bound := 65) (body := fun i (failed : Bool) => do
    let p ← ptrAdd cfg data i
    store p [BitVec.ofNat 8 i]
    let expected ← expectedAt i
    let r ← TestHash64 fn expected data i kTestKey1
    pure (failed || r))
    (fun i failed o => Holds w o data (countUp 0 i) ∧ Touches s.ov o data 65 ∧
      (failed = false ↔ ∀ j < i, Ref.kExpected64[j]? = some (answer kTestKey1 (countUp 0 j))))
    (by
      rintro i failed s1 hi ⟨j1, j2, j3⟩
      obtain ⟨s2, t2, r2, o2⟩ := returns_put (cfg := cfg) (b := BitVec.ofNat 8 i) hw hf hi s1
      have hh : Holds w s2.ov data (countUp 0 (i + 1)) := by
        rw [o2]
        have := holds_countUp (first := 0) (fun t j hj => hw.1 t j (by omega)) j1
        rwa [Nat.zero_add] at this
      have hh' : Holds w s2.ov data (countUp 0 i) := by
        have := hh.take i
        rwa [countUp_succ, List.take_left' (length_countUp 0 i)] at this
      obtain ⟨v, hv⟩ := expected_some hi
      have r3 : Returns (expectedAt i) w s2 v s2 [] := by
        unfold expectedAt; rw [hv]; exact Returns.pure _
      obtain ⟨s3, t3, r4, o3⟩ := returns_TestHash64 code kTestKey1 (length_countUp 0 i) (by omega) s2 hh' v
      have r5 := r2.bind (f := fun _ => do
        let expected ← expectedAt i
        let r ← TestHash64 fn expected data i kTestKey1
        pure (failed || r)) (r3.bind (r4.done (g := fun r => failed || r)))
      rw [bind_assoc] at r5
      refine ⟨_, s3, _, r5, by rw [o3]; exact hh, ?_, ?_⟩
      · intro a ha
        rw [o3, o2, put_other (by simp only [List.length_singleton]; omega)]
        exact j2 a ha
      · rw [Bool.or_eq_false_iff, j3]
        have hl : decide (v ≠ answer kTestKey1 (countUp 0 i)) = false ↔
            Ref.kExpected64[i]? = some (answer kTestKey1 (countUp 0 i)) := by
          rw [hv]; simp
        rw [hl]
        constructor
        · rintro ⟨g1, g2⟩ j hj
          rcases Nat.lt_succ_iff_lt_or_eq.1 hj with h | h
          · exact g1 j h
          · subst h; exact g2
        · exact fun g => ⟨fun j hj => g j (by omega), g i (by omega)⟩)
    66 0 false s0 (by omega) (by omega) ⟨fun t i b h => by simp [countUp] at h, e0, by simp⟩
  obtain ⟨failed, s1, t1, r1, -, e1, hfailed⟩ := h1
  have h2 := returns_forLoop (w := w) (bound := 33) (body := fun i (_ : Unit) => do
    let p ← ptrAdd cfg data i
    store p [BitVec.ofNat 8 (128 + i)])
    (fun i _ o => Holds w o data (countUp 128 i) ∧ Touches s.ov o data 65)
    (by
      rintro i _ s3 hi ⟨j1, j2⟩
      obtain ⟨s4, t4, r4, o4⟩ := returns_put (cfg := cfg) (b := BitVec.ofNat 8 (128 + i)) hw hf (i := i) (by omega) s3
      refine ⟨(), s4, t4, r4, ?_, ?_⟩
      · rw [o4]
        exact holds_countUp (first := 128) (fun t j hj => hw.1 t j (by omega)) j1
      · intro a ha
        rw [o4, put_other (by simp only [List.length_singleton]; omega)]
        exact j2 a ha)
    34 0 () s1 (by omega) (by omega) ⟨fun t i b h => by simp [countUp] at h, e1⟩
  obtain ⟨_, s2, t2, r2, hh, e2⟩ := h2
  obtain ⟨s3, t3, r3, o3⟩ := returns_TestHash64 code kTestKey2 (length_countUp 128 33) (by omega) s2 hh
    0x53c516cce478cad7
  refine ⟨_, s3, _, r0.bind (r1.bind (r2.bind (r3.done (g := fun r => failed || r)))), ?_, fun a ha => ?_⟩
  · rw [Bool.or_eq_false_iff, hfailed]
    unfold HighwayPasses
    refine and_congr Iff.rfl ?_
    simp only [decide_eq_false_iff_not, ne_eq, not_not]
    exact eq_comm
  · rw [o3]; exact e2 a ha

end T1ha.Model
