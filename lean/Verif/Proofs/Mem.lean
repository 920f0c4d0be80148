import Verif.Proofs.T1ha2

/-!
# What writes do to memory
-/

namespace T1ha.Model

variable {w : World} {ov : Overlay} {cfg : Cfg}

theorem put_other {p a : Nat} {bs : List Byte} (h : a < p ∨ p + bs.length ≤ a) :
    put ov p bs a = ov a := by
  unfold put
  split
  · rw [List.getElem?_eq_none (by omega)]; rfl
  · rfl

theorem put_get {p i : Nat} {bs : List Byte} {b : Byte} (h : bs[i]? = some b) :
    put ov p bs (p + i) = some b := by
  unfold put
  rw [if_pos (by omega), show p + i - p = i by omega, h]
  rfl

/-- What has been written is there. -/
theorem holds_put {p : Nat} {bs : List Byte} (h : Mapped w p bs.length) :
    Holds w (put ov p bs) p bs := by
  intro t i b hb
  have hi : i < bs.length := by
    rcases Nat.lt_or_ge i bs.length with h | h
    · exact h
    · rw [List.getElem?_eq_none h] at hb; exact absurd hb (by simp)
  obtain ⟨c, hc⟩ := Option.isSome_iff_exists.1 (h t i hi)
  unfold see
  rw [hc, put_get hb]
  rfl

/-- Contents survive if the overlay does not change there. -/
theorem Holds.congr {ov' : Overlay} {p : Nat} {m : List Byte} (h : Holds w ov p m)
    (he : ∀ a, p ≤ a → a < p + m.length → ov' a = ov a) : Holds w ov' p m := by
  intro t i b hb
  have hi : i < m.length := by
    rcases Nat.lt_or_ge i m.length with h | h
    · exact h
    · rw [List.getElem?_eq_none h] at hb; exact absurd hb (by simp)
  have := h t i b hb
  unfold see at this ⊢
  rwa [he (p + i) (by omega) (by omega)]

theorem Holds.put {p q : Nat} {m bs : List Byte} (h : Holds w ov p m)
    (hd : p + m.length ≤ q ∨ q + bs.length ≤ p) : Holds w (put ov q bs) p m :=
  h.congr fun a h1 h2 => put_other (by omega)

theorem put_grow {p a : Nat} {bs : List Byte} (h : put ov p bs a = none) : ov a = none := by
  unfold put at h
  split at h
  · cases hb : bs[a - p]? with
    | none => rw [hb] at h; simpa using h
    | some b => rw [hb] at h; simp at h
  · exact h

theorem Holds.append {p : Nat} {xs ys : List Byte} (hx : Holds w ov p xs)
    (hy : Holds w ov (p + xs.length) ys) : Holds w ov p (xs ++ ys) := by
  intro t i b hb
  rw [List.getElem?_append] at hb
  split at hb
  · exact hx t i b hb
  · rename_i hi
    have := hy t (i - xs.length) b hb
    rwa [show p + xs.length + (i - xs.length) = p + i by omega] at this

theorem Writable.sub {p n : Nat} (h : Writable w p n) {q k : Nat} (h1 : p ≤ q) (h2 : q + k ≤ p + n) :
    Writable w q k := by
  refine ⟨h.1.sub h1 h2, fun i hi => ?_⟩
  have := h.2 (q - p + i) (by omega)
  rwa [show p + (q - p + i) = q + i by omega] at this

end T1ha.Model
