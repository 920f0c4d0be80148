import Verif.Contract

/-!
# Program logic for the machine
-/

namespace T1ha.Model

/-- The event reads the byte at `a`. -/
def Ev.covers (a : Nat) : Ev → Prop
  | .rd p n => p ≤ a ∧ a < p + n
  | _ => False

/-- From overlay `ov`, whatever happened before, `m` succeeds; its events all satisfy `P`, they read
every address of `C`, exactly `n` of them are loop iterations; result and final overlay satisfy `Q`. -/
def Exec (w : World) (ov : Overlay) (P : Ev → Prop) (C : Nat → Prop) (n : Nat) {α : Type} (m : M α)
    (Q : α → Overlay → Prop) : Prop :=
  ∀ log, ∃ v ov' t, m w ⟨log, ov⟩ = .ok (v, ⟨t ++ log, ov'⟩) ∧ Q v ov' ∧ (∀ x ∈ t, P x) ∧
    (∀ a, C a → ∃ x ∈ t, x.covers a) ∧ t.count .iter = n

/-- `m` returns `v` and writes nothing. -/
abbrev Reads (w : World) (ov : Overlay) (P : Ev → Prop) (C : Nat → Prop) (n : Nat) {α : Type}
    (m : M α) (v : α) : Prop :=
  Exec w ov P C n m (fun x o => x = v ∧ o = ov)

/-- No address. -/
def nowhere : Nat → Prop := fun _ => False

/-- Addresses of the `n` bytes at `p`. -/
def range (p n : Nat) : Nat → Prop := fun a => p ≤ a ∧ a < p + n

variable {w : World} {ov : Overlay} {P : Ev → Prop} {C C₁ C₂ : Nat → Prop} {n n₁ n₂ : Nat}
  {α β : Type}

theorem Exec.mono {m : M α} {Q Q' : α → Overlay → Prop} {P' : Ev → Prop} {C' : Nat → Prop} {n' : Nat}
    (h : Exec w ov P C n m Q)
    (hQ : ∀ v o, Q v o → Q' v o) (hP : ∀ x, P x → P' x) (hC : ∀ a, C' a → C a) (hn : n = n') :
    Exec w ov P' C' n' m Q' := by
  intro log
  obtain ⟨v, ov', t, h1, h2, h3, h4, h5⟩ := h log
  exact ⟨v, ov', t, h1, hQ _ _ h2, fun x hx => hP _ (h3 x hx), fun a ha => h4 a (hC a ha), hn ▸ h5⟩

theorem Exec.post {m : M α} {Q Q' : α → Overlay → Prop} (h : Exec w ov P C n m Q)
    (hQ : ∀ v o, Q v o → Q' v o) : Exec w ov P C n m Q' :=
  h.mono hQ (fun _ h => h) (fun _ h => h) rfl

theorem Exec.pure {Q : α → Overlay → Prop} (v : α) (h : Q v ov) :
    Exec w ov P nowhere 0 (pure v : M α) Q := by
  intro log
  exact ⟨v, ov, [], rfl, h, by simp, by simp [nowhere], rfl⟩

theorem Exec.bind' {m : M α} {f : α → M β} {Q : α → Overlay → Prop} {R : β → Overlay → Prop}
    (h₁ : Exec w ov P C₁ n₁ m Q)
    (h₂ : ∀ v o, Q v o → Exec w o P C₂ n₂ (f v) R)
    (hC : ∀ a, C a → C₁ a ∨ C₂ a) (hn : n = n₁ + n₂) :
    Exec w ov P C n (m >>= f) R := by
  intro log
  obtain ⟨v, ov', t, h1, h2, h3, h4, h5⟩ := h₁ log
  obtain ⟨v2, ov2, t2, g1, g2, g3, g4, g5⟩ := h₂ v ov' h2 (t ++ log)
  refine ⟨v2, ov2, t2 ++ t, ?_, g2, ?_, ?_, ?_⟩
  · show M.bind m f w ⟨log, ov⟩ = _
    simp only [M.bind, h1, g1, List.append_assoc]
  · intro x hx
    rcases List.mem_append.1 hx with hx | hx
    · exact g3 x hx
    · exact h3 x hx
  · intro a ha
    rcases hC a ha with h | h
    · obtain ⟨x, hx, hc⟩ := h4 a h
      exact ⟨x, List.mem_append.2 (Or.inr hx), hc⟩
    · obtain ⟨x, hx, hc⟩ := g4 a h
      exact ⟨x, List.mem_append.2 (Or.inl hx), hc⟩
  · rw [List.count_append, g5, h5, hn, Nat.add_comm]

/-- Sequencing, keeping track of coverage as a union. -/
theorem Exec.bind {m : M α} {f : α → M β} {Q : α → Overlay → Prop} {R : β → Overlay → Prop}
    (h₁ : Exec w ov P C₁ n₁ m Q)
    (h₂ : ∀ v o, Q v o → Exec w o P C₂ n₂ (f v) R) :
    Exec w ov P (fun a => C₁ a ∨ C₂ a) (n₁ + n₂) (m >>= f) R :=
  Exec.bind' h₁ h₂ (fun _ h => h) rfl

/-- Sequencing before a computation which reads nothing. -/
theorem Exec.bindL {m : M α} {f : α → M β} {Q : α → Overlay → Prop} {R : β → Overlay → Prop}
    (h₁ : Exec w ov P C n m Q)
    (h₂ : ∀ v o, Q v o → Exec w o P nowhere 0 (f v) R) :
    Exec w ov P C n (m >>= f) R :=
  Exec.bind' h₁ h₂ (fun _ h => Or.inl h) rfl

/-- Sequencing after a computation which has no effect. -/
theorem Exec.bindR {m : M α} {f : α → M β} {R : β → Overlay → Prop} {v : α}
    (h₁ : Reads w ov P nowhere 0 m v) (h₂ : Exec w ov P C n (f v) R) :
    Exec w ov P C n (m >>= f) R :=
  Exec.bind' (n₂ := n) h₁ (fun x o ⟨hx, ho⟩ => by rw [hx, ho]; exact h₂) (fun _ h => Or.inr h)
    (by omega)

/-- Sequencing after a computation which only reads. -/
theorem Reads.bind {m : M α} {f : α → M β} {R : β → Overlay → Prop} {v : α}
    (h₁ : Reads w ov P C₁ n₁ m v) (h₂ : Exec w ov P C₂ n₂ (f v) R) :
    Exec w ov P (fun a => C₁ a ∨ C₂ a) (n₁ + n₂) (m >>= f) R :=
  Exec.bind h₁ (fun x o ⟨hx, ho⟩ => by rw [hx, ho]; exact h₂)

theorem Reads.pure (v : α) : Reads w ov P nowhere 0 (pure v : M α) v :=
  Exec.pure v ⟨rfl, rfl⟩

/-- Change the coverage and the number of iterations. -/
theorem Exec.cov {m : M α} {Q : α → Overlay → Prop} (h : Exec w ov P C₁ n₁ m Q)
    (hC : ∀ a, C a → C₁ a) (hn : n₁ = n) : Exec w ov P C n m Q :=
  h.mono (fun _ _ h => h) (fun _ h => h) hC hn

/-! ## Memory -/

/-- Every byte of `bs` is what can be found at its place (counting from `p`) at some moment. -/
def Seen (w : World) (ov : Overlay) (p : Nat) (bs : List Byte) : Prop :=
  ∀ i b, bs[i]? = some b → ∃ t, see w ov t (p + i) = some b

theorem see_isSome {t a : Nat} : (see w ov t a).isSome = (w.cell t a).isSome := by
  simp [see]

theorem Holds.mapped {p : Nat} {m : List Byte} (h : Holds w ov p m) : Mapped w p m.length := by
  intro t i hi
  have := h t i m[i] (by simp [hi])
  rw [← see_isSome (ov := ov), this]; rfl

theorem Holds.slice {p : Nat} {m : List Byte} (h : Holds w ov p m) (i n : Nat) :
    Holds w ov (p + i) ((m.drop i).take n) := by
  intro t j b hb
  rw [List.getElem?_take] at hb
  split at hb
  · rw [List.getElem?_drop] at hb
    have := h t (i + j) b hb
    rwa [← Nat.add_assoc] at this
  · exact absurd hb (by simp)

theorem Holds.drop {p : Nat} {m : List Byte} (h : Holds w ov p m) (i : Nat) :
    Holds w ov (p + i) (m.drop i) := by
  intro t j b hb
  rw [List.getElem?_drop] at hb
  have := h t (i + j) b hb
  rwa [← Nat.add_assoc] at this

theorem Holds.take {p : Nat} {m : List Byte} (h : Holds w ov p m) (n : Nat) :
    Holds w ov p (m.take n) := by
  have := h.slice 0 n
  simpa using this

theorem Mapped.sub {p n : Nat} (h : Mapped w p n) {q k : Nat} (h1 : p ≤ q) (h2 : q + k ≤ p + n) :
    Mapped w q k := by
  intro t i hi
  have := h t (q - p + i) (by omega)
  rwa [show p + (q - p + i) = q + i by omega] at this

/-- What is seen where `m` is held is `m`. -/
theorem Seen.eq_of_holds {p : Nat} {bs m : List Byte} (hs : Seen w ov p bs) (hh : Holds w ov p m)
    (hl : bs.length = m.length) : bs = m := by
  apply List.ext_getElem? 
  intro i
  by_cases hi : i < bs.length
  · have hm : i < m.length := hl ▸ hi
    obtain ⟨t, ht⟩ := hs i bs[i] (by simp [hi])
    have := hh t i m[i] (by simp [hm])
    rw [ht] at this
    simp only [Option.some.injEq] at this
    simp [hi, hm, this]
  · rw [List.getElem?_eq_none (by omega), List.getElem?_eq_none (by omega)]

theorem Seen.drop {p : Nat} {bs : List Byte} (h : Seen w ov p bs) (i : Nat) :
    Seen w ov (p + i) (bs.drop i) := by
  intro j b hb
  rw [List.getElem?_drop] at hb
  have := h (i + j) b hb
  rwa [← Nat.add_assoc] at this

theorem Seen.take {p : Nat} {bs : List Byte} (h : Seen w ov p bs) (n : Nat) :
    Seen w ov p (bs.take n) := by
  intro j b hb
  rw [List.getElem?_take] at hb
  split at hb
  · exact h j b hb
  · exact absurd hb (by simp)

theorem Seen.append {p : Nat} {xs ys : List Byte} (hx : Seen w ov p xs)
    (hy : Seen w ov (p + xs.length) ys) : Seen w ov p (xs ++ ys) := by
  intro i b hb
  rw [List.getElem?_append] at hb
  split at hb
  · exact hx i b hb
  · rename_i hi
    have := hy (i - xs.length) b hb
    rwa [show p + xs.length + (i - xs.length) = p + i by omega] at this

theorem seeBytes_spec {t p n : Nat} (h : ∀ i, i < n → (w.cell t (p + i)).isSome) :
    ∃ bs, seeBytes w ov t p n = some bs ∧ bs.length = n ∧
      ∀ i b, bs[i]? = some b → see w ov t (p + i) = some b := by
  induction n generalizing p with
  | zero => exact ⟨[], rfl, rfl, by simp⟩
  | succ n ih =>
    have h0 := h 0 (by omega)
    rw [Nat.add_zero, ← see_isSome (ov := ov)] at h0
    obtain ⟨b0, hb0⟩ := Option.isSome_iff_exists.1 h0
    obtain ⟨bs, h1, h2, h3⟩ := ih (p := p + 1) (fun i hi => by
      have := h (i + 1) (by omega)
      rwa [show p + (i + 1) = p + 1 + i by omega] at this)
    refine ⟨b0 :: bs, by simp [seeBytes, hb0, h1], by simp [h2], ?_⟩
    intro i b hb
    cases i with
    | zero =>
      simp at hb
      subst hb
      simpa using hb0
    | succ i =>
      simp at hb
      have := h3 i b hb
      rwa [show p + 1 + i = p + (i + 1) by omega] at this

theorem Exec.load {p n : Nat} (h : Mapped w p n) (hP : P (.rd p n)) :
    Exec w ov P (range p n) 0 (load p n)
      (fun bs o => o = ov ∧ bs.length = n ∧ Seen w ov p bs) := by
  intro log
  obtain ⟨bs, h1, h2, h3⟩ := seeBytes_spec (ov := ov) (h log.length)
  refine ⟨bs, ov, [.rd p n], ?_, ⟨rfl, h2, fun i b hb => ⟨_, h3 i b hb⟩⟩, ?_, ?_, ?_⟩
  · simp [Model.load, h1]
  · simpa using hP
  · intro a ha
    exact ⟨_, List.mem_singleton.2 rfl, ha⟩
  · simp

theorem Reads.load {p : Nat} {m : List Byte} (h : Holds w ov p m) {n : Nat} (hn : n = m.length)
    (hP : P (.rd p n)) :
    Reads w ov P (range p n) 0 (load p n) m := by
  subst hn
  exact (Exec.load h.mapped hP).post
    (fun v o ⟨ho, hl, hs⟩ => ⟨hs.eq_of_holds h hl, ho⟩)

theorem Reads.iterate (hP : P .iter) : Reads w ov P nowhere 1 iterate () := by
  intro log
  exact ⟨(), ov, [.iter], rfl, ⟨rfl, rfl⟩, by simpa using hP, by simp [nowhere], by simp⟩

theorem Reads.cassert {cfg : Cfg} {c : Bool} (h : c = true) :
    Reads w ov P nowhere 0 (cassert cfg c) () := by
  unfold Model.cassert
  split <;> exact Reads.pure ()

theorem Reads.pointer {p : Nat} (hP : P (.ptr p)) : Reads w ov P nowhere 0 (pointer p) p := by
  intro log
  exact ⟨p, ov, [.ptr p], rfl, ⟨rfl, rfl⟩, by simpa using hP, by simp [nowhere], by simp⟩

theorem Reads.ptrAdd {cfg : Cfg} {p k : Nat} (h : p + k < 2 ^ cfg.bits) (hP : P (.ptr (p + k))) :
    Reads w ov P nowhere 0 (ptrAdd cfg p k) (p + k) := by
  unfold Model.ptrAdd
  rw [if_pos h]
  exact Reads.pointer hP

theorem Reads.ptrSub {cfg : Cfg} {p k : Nat} (h : k ≤ p) (hP : P (.ptr (p - k))) :
    Reads w ov P nowhere 0 (ptrSub cfg p k) (p - k) := by
  unfold Model.ptrSub
  rw [if_pos h]
  exact Reads.pointer hP

end T1ha.Model
