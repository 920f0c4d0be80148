import Verif.Model.Tool
import Mathlib.Tactic.ByContra
import Mathlib.Data.List.Basic

/-!
# The tool `test`: lines of standard input
-/

namespace T1ha.Model

/-- The lines of a text: pieces which are not empty and make up the text, with a line feed at the end and nowhere
else, except that the last one may lack it. -/
structure IsLines (input : List Byte) (ls : List (List Byte)) : Prop where
  all : ls.flatten = input
  nonempty : [] ∉ ls
  inside : ∀ l ∈ ls, 10 ∉ l.dropLast
  ends : ∀ l ∈ ls.dropLast, l.getLast? = some 10

theorem IsLines.nil : IsLines [] [] := ⟨rfl, by simp, by simp, by simp⟩

theorem IsLines.tail {r l : List Byte} {ls : List (List Byte)} (h : IsLines r (l :: ls)) : IsLines ls.flatten ls := by
  refine ⟨rfl, fun hm => h.nonempty (List.mem_cons_of_mem _ hm), fun x hx => h.inside x (List.mem_cons_of_mem _ hx),
    fun x hx => h.ends x ?_⟩
  cases ls with
  | nil => cases hx
  | cons y ys => rw [List.dropLast_cons_of_ne_nil (by simp)]; exact List.mem_cons_of_mem _ hx

theorem IsLines.cons {l r : List Byte} {ls : List (List Byte)} (h : IsLines r ls) (hl : l ≠ [])
    (hi : 10 ∉ l.dropLast) (he : ls ≠ [] → l.getLast? = some 10) : IsLines (l ++ r) (l :: ls) := by
  refine ⟨by rw [List.flatten_cons, h.all], ?_, ?_, ?_⟩
  · intro hm
    rcases List.mem_cons.1 hm with e | e
    · exact hl e.symm
    · exact h.nonempty e
  · intro x hx
    rcases List.mem_cons.1 hx with rfl | e
    · exact hi
    · exact h.inside x e
  · intro x hx
    cases hc : ls with
    | nil => rw [hc] at hx; cases hx
    | cons y ys =>
      have hne : ls ≠ [] := by rw [hc]; simp
      rw [List.dropLast_cons_of_ne_nil hne] at hx
      rcases List.mem_cons.1 hx with rfl | e
      · exact he hne
      · exact h.ends x e

private theorem not_longer {r l l' : List Byte} {ls ls' : List (List Byte)} (h : IsLines r (l :: ls))
    (h' : IsLines r (l' :: ls')) : l'.length ≤ l.length := by
  by_contra hlt
  have e : l ++ ls.flatten = l' ++ ls'.flatten := by
    rw [← List.flatten_cons, ← List.flatten_cons, h.all, h'.all]
  have hne : ls ≠ [] := by
    rintro rfl
    have := congrArg List.length e
    simp only [List.flatten_nil, List.append_nil, List.length_append] at this
    omega
  have h10 : l.getLast? = some 10 := h.ends l (by rw [List.dropLast_cons_of_ne_nil hne]; exact List.mem_cons_self)
  have hl : l ≠ [] := fun hz => h.nonempty (by rw [← hz]; exact List.mem_cons_self)
  refine h'.inside l' List.mem_cons_self ?_
  have hpos : 0 < l.length := List.length_pos_iff.2 hl
  have g : l'[l.length - 1]? = some 10 := by
    have := congrArg (fun x : List Byte => x[l.length - 1]?) e
    beta_reduce at this
    rw [List.getElem?_append_left (by omega), List.getElem?_append_left (by omega)] at this
    rw [← this, ← List.getLast?_eq_getElem?, h10]
  rw [List.mem_iff_getElem?]
  refine ⟨l.length - 1, ?_⟩
  rw [List.dropLast_eq_take, List.getElem?_take_of_lt (by omega), g]

/-- A text has no other lines. -/
theorem IsLines.unique {r : List Byte} {ls ls' : List (List Byte)} (h : IsLines r ls) (h' : IsLines r ls') :
    ls = ls' := by
  have head : ∀ {l : List Byte} {ls : List (List Byte)}, IsLines [] (l :: ls) → False := by
    intro l ls h
    have := h.all
    rw [List.flatten_cons, List.append_eq_nil_iff] at this
    exact h.nonempty (by rw [← this.1]; exact List.mem_cons_self)
  induction ls generalizing r ls' with
  | nil =>
    have hr : r = [] := h.all.symm
    subst hr
    cases ls' with
    | nil => rfl
    | cons l ls => exact (head h').elim
  | cons l ls ih =>
    cases ls' with
    | nil =>
      have hr : r = [] := h'.all.symm
      subst hr
      exact (head h).elim
    | cons l' ls' =>
      have e : l ++ ls.flatten = l' ++ ls'.flatten := by
        rw [← List.flatten_cons, ← List.flatten_cons, h.all, h'.all]
      have hlen : l.length = l'.length := Nat.le_antisymm (not_longer h' h) (not_longer h h')
      obtain ⟨e1, e2⟩ := List.append_inj e hlen
      subst e1
      rw [ih h.tail (by rw [e2]; exact h'.tail)]

/-! ## Reading -/

theorem takeLine_append (n : Nat) (r : List Byte) : (takeLine n r).1 ++ (takeLine n r).2.1 = r := by
  induction n generalizing r with
  | zero => rfl
  | succ n ih =>
    cases r with
    | nil => rfl
    | cons c r =>
      unfold takeLine
      split
      · rfl
      · simp only [List.cons_append, ih r]

theorem takeLine_inside (n : Nat) (r : List Byte) : 10 ∉ (takeLine n r).1.dropLast := by
  induction n generalizing r with
  | zero => simp [takeLine]
  | succ n ih =>
    cases r with
    | nil => simp [takeLine]
    | cons c r =>
      unfold takeLine
      split
      · simp
      · rename_i hc
        simp only
        cases hl : (takeLine n r).1 with
        | nil => simp
        | cons y ys =>
          rw [List.dropLast_cons_of_ne_nil (by simp), ← hl, List.mem_cons, not_or]
          exact ⟨fun e => hc e.symm, ih r⟩

theorem takeLine_end (n : Nat) (r : List Byte) (h : (takeLine n r).2.2 = true) : (takeLine n r).2.1 = [] := by
  induction n generalizing r with
  | zero => cases h
  | succ n ih =>
    cases r with
    | nil => rfl
    | cons c r =>
      unfold takeLine at h ⊢
      split at h
      · cases h
      · rename_i hc
        rw [if_neg hc]
        exact ih r h

theorem takeLine_feed (n : Nat) (r : List Byte) (h : (takeLine n r).2.2 = false) (hn : (takeLine n r).1.length < n) :
    (takeLine n r).1.getLast? = some 10 := by
  induction n generalizing r with
  | zero => cases hn
  | succ n ih =>
    cases r with
    | nil => cases h
    | cons c r =>
      unfold takeLine at h hn ⊢
      split
      · rename_i hc; subst hc; rfl
      · rename_i hc
        rw [if_neg hc] at h hn
        simp only [List.length_cons] at h hn ⊢
        have := ih r h (by omega)
        rw [List.getLast?_cons, this]
        rfl

theorem takeLine_length (n : Nat) (r : List Byte) : (takeLine n r).1.length ≤ n := by
  induction n generalizing r with
  | zero => exact Nat.le_refl _
  | succ n ih =>
    cases r with
    | nil => exact Nat.zero_le _
    | cons c r =>
      unfold takeLine
      split
      · simp
      · have := ih r
        simp only [List.length_cons]; omega

theorem takeLine_some (n : Nat) {r : List Byte} (hr : r ≠ []) : (takeLine (n + 1) r).1 ≠ [] := by
  cases r with
  | nil => exact absurd rfl hr
  | cons c r =>
    unfold takeLine
    split
    · simp
    · simp

/-- `getline`, again and again. -/
theorem getline_lines (fuel : Nat) (r : List Byte) (hf : r.length + 2 ≤ fuel) :
    ∃ ls, stringLoop getline fuel ⟨r, false⟩ = some ls ∧ IsLines r ls := by
  induction fuel generalizing r with
  | zero => omega
  | succ fuel ih =>
    unfold stringLoop
    simp only [Bool.false_eq_true, if_false]
    by_cases hr : r = []
    · subst hr
      exact ⟨[], rfl, IsLines.nil⟩
    · have hne := takeLine_some r.length hr
      have happ := takeLine_append (r.length + 1) r
      have hin := takeLine_inside (r.length + 1) r
      have hend := takeLine_end (r.length + 1) r
      have hfeed := takeLine_feed (r.length + 1) r
      rw [show getline ⟨r, false⟩ = (if (takeLine (r.length + 1) r).1 = [] then none
        else some (takeLine (r.length + 1) r).1, ⟨(takeLine (r.length + 1) r).2.1, (takeLine (r.length + 1) r).2.2⟩)
        from rfl]
      generalize takeLine (r.length + 1) r = q at *
      obtain ⟨l, r', e⟩ := q
      simp only at *
      rw [if_neg hne]
      simp only
      have hlen := congrArg List.length happ
      rw [List.length_append] at hlen
      have hpos : 0 < l.length := List.length_pos_iff.2 hne
      cases e with
      | true =>
        have : r' = [] := hend rfl
        subst this
        rw [List.append_nil] at happ
        subst happ
        obtain ⟨fuel, rfl⟩ : ∃ k, fuel = k + 1 := ⟨fuel - 1, by omega⟩
        refine ⟨[l], by simp [stringLoop], ?_⟩
        have := IsLines.nil.cons hne hin (by simp)
        rwa [List.append_nil] at this
      | false =>
        obtain ⟨ls, h1, h2⟩ := ih r' (by omega)
        refine ⟨l :: ls, by rw [h1]; rfl, ?_⟩
        rw [← happ]
        exact h2.cons hne hin (fun _ => hfeed rfl (by omega))

private theorem takeLine_line (m : Nat) (l r : List Byte) (hl : l ≠ []) (hi : 10 ∉ l.dropLast) (hm : l.length ≤ m) :
    (l.getLast? = some 10 → takeLine m (l ++ r) = (l, r, false)) ∧
    (10 ∉ l → takeLine m l = (l, [], decide (l.length < m))) := by
  induction m generalizing l with
  | zero => exact absurd (List.length_pos_iff.2 hl) (by omega)
  | succ m ih =>
    cases l with
    | nil => exact absurd rfl hl
    | cons c l =>
      cases l with
      | nil =>
        refine ⟨fun h => ?_, fun h => ?_⟩
        · simp only [List.getLast?_singleton, Option.some.injEq] at h
          subst h
          rfl
        · simp only [List.mem_singleton] at h
          unfold takeLine
          rw [if_neg (fun e => h e.symm)]
          cases m with
          | zero => rfl
          | succ m => simp [takeLine]
      | cons d l =>
        rw [List.dropLast_cons_of_ne_nil (by simp), List.mem_cons, not_or] at hi
        simp only [List.length_cons] at hm ih
        obtain ⟨i1, i2⟩ := ih (d :: l) (by simp) hi.2 (by simp only [List.length_cons]; omega)
        refine ⟨fun h => ?_, fun h => ?_⟩
        · rw [List.getLast?_cons_cons] at h
          unfold takeLine
          simp only [List.cons_append]
          rw [if_neg (fun e => hi.1 e.symm), ← List.cons_append, i1 h]
        · rw [List.mem_cons, not_or] at h
          unfold takeLine
          simp only
          rw [if_neg (fun e => h.1 e.symm), i2 h.2]
          simp only [List.length_cons, Prod.mk.injEq, true_and, decide_eq_decide]
          omega

private theorem takeWhile_all {l : List Byte} (h : 0 ∉ l) : l.takeWhile (· ≠ 0) = l := by
  induction l with
  | nil => rfl
  | cons c l ih =>
    rw [List.mem_cons, not_or] at h
    rw [List.takeWhile_cons_of_pos (by simpa using fun e => h.1 e.symm), ih h.2]

/-- `fgets`, for lines which fit and have no zero bytes. -/
theorem fgets_lines {m : Nat} (hm : 1 ≤ m) (ls : List (List Byte)) : ∀ (fuel : Nat) (r : List Byte),
    ls.length + 2 ≤ fuel → IsLines r ls → (∀ l ∈ ls, l.length ≤ m ∧ 0 ∉ l) →
    stringLoop (fgets (m + 1)) fuel ⟨r, false⟩ = some ls := by
  obtain ⟨m, rfl⟩ : ∃ k, m = k + 1 := ⟨m - 1, by omega⟩
  induction ls with
  | nil =>
    intro fuel r hf h _
    have hr : r = [] := h.all.symm
    subst hr
    obtain ⟨fuel, rfl⟩ : ∃ k, fuel = k + 1 := ⟨fuel - 1, by simp only [List.length_nil] at hf; omega⟩
    rfl
  | cons l ls ih =>
    intro fuel r hf h hl
    obtain ⟨fuel, rfl⟩ : ∃ k, fuel = k + 1 := ⟨fuel - 1, by simp only [List.length_cons] at hf; omega⟩
    simp only [List.length_cons] at hf
    have hne : l ≠ [] := fun hz => h.nonempty (by rw [← hz]; exact List.mem_cons_self)
    obtain ⟨hlen, h0⟩ := hl l List.mem_cons_self
    have hin := h.inside l List.mem_cons_self
    obtain ⟨i1, i2⟩ := takeLine_line (m + 1) l ls.flatten hne hin hlen
    have hr : r = l ++ ls.flatten := by rw [← h.all, List.flatten_cons]
    have next := ih fuel ls.flatten (by omega) h.tail (fun x hx => hl x (List.mem_cons_of_mem _ hx))
    unfold stringLoop
    simp only [Bool.false_eq_true, if_false]
    rw [show fgets (m + 1 + 1) ⟨r, false⟩ = (if (takeLine (m + 1) r).1 = [] ∧ (takeLine (m + 1) r).2.2 = true then none
        else some ((takeLine (m + 1) r).1.takeWhile (· ≠ 0)), ⟨(takeLine (m + 1) r).2.1, (takeLine (m + 1) r).2.2⟩)
        from rfl]
    by_cases hc : l.getLast? = some 10
    · rw [hr, i1 hc]
      simp only [Bool.false_eq_true, and_false, if_false, takeWhile_all h0]
      rw [next]
      rfl
    · have hls : ls = [] := by
        by_contra hls
        exact hc (h.ends l (by rw [List.dropLast_cons_of_ne_nil hls]; exact List.mem_cons_self))
      subst hls
      have h10 : 10 ∉ l := by
        intro hm10
        have := List.dropLast_append_getLast hne
        rw [← this, List.mem_append, List.mem_singleton] at hm10
        rcases hm10 with g | g
        · exact hin g
        · exact hc (by rw [List.getLast?_eq_some_getLast hne, ← g])
      rw [List.flatten_nil, List.append_nil] at hr
      rw [hr, i2 h10]
      simp only [hne, false_and, if_false, takeWhile_all h0]
      cases hd : decide (l.length < m + 1) with
      | false =>
        have := next
        rw [List.flatten_nil] at this
        rw [this]
        rfl
      | true =>
        obtain ⟨fuel, rfl⟩ : ∃ k, fuel = k + 1 := ⟨fuel - 1, by omega⟩
        simp [stringLoop]

/-- The loop ends if the buffer has room for a byte. -/
theorem fgets_ends {m : Nat} (hm : 1 ≤ m) (fuel : Nat) (r : List Byte) (hf : r.length + 2 ≤ fuel) :
    ∃ ls, stringLoop (fgets (m + 1)) fuel ⟨r, false⟩ = some ls := by
  obtain ⟨m, rfl⟩ : ∃ k, m = k + 1 := ⟨m - 1, by omega⟩
  induction fuel generalizing r with
  | zero => omega
  | succ fuel ih =>
    unfold stringLoop
    simp only [Bool.false_eq_true, if_false]
    by_cases hr : r = []
    · subst hr
      exact ⟨[], rfl⟩
    · have hne := takeLine_some m hr
      have happ := takeLine_append (m + 1) r
      rw [show fgets (m + 1 + 1) ⟨r, false⟩ = (if (takeLine (m + 1) r).1 = [] ∧ (takeLine (m + 1) r).2.2 = true then none
        else some ((takeLine (m + 1) r).1.takeWhile (· ≠ 0)), ⟨(takeLine (m + 1) r).2.1, (takeLine (m + 1) r).2.2⟩)
        from rfl]
      generalize takeLine (m + 1) r = q at *
      obtain ⟨l, r', e⟩ := q
      simp only at *
      rw [if_neg (fun h => hne h.1)]
      simp only
      have hlen := congrArg List.length happ
      rw [List.length_append] at hlen
      have hpos : 0 < l.length := List.length_pos_iff.2 hne
      obtain ⟨fuel, rfl⟩ : ∃ k, fuel = k + 1 := ⟨fuel - 1, by omega⟩
      cases e with
      | true => exact ⟨[l.takeWhile (· ≠ 0)], by simp [stringLoop]⟩
      | false =>
        obtain ⟨ls, h1⟩ := ih r' (by omega)
        exact ⟨l.takeWhile (· ≠ 0) :: ls, by rw [h1]; rfl⟩

end T1ha.Model
