import Verif.Model.HighwayPower
import Verif.Props.HighwayArch

/-!
# The clock rate which HighwayHash finds on POWER: C95
-/

namespace T1ha.Props

open Model

variable {sc : Scanf}

/-- It begins with `clock`, in letters of any case. -/
def ClockName (name : List Byte) : Prop :=
  ∃ five rest, name = five ++ rest ∧
    List.Forall₂ (fun c (l : List Byte) => c ∈ l) five [[0x63, 0x43], [0x6C, 0x4C], [0x6F, 0x4F], [0x63, 0x43], [0x6B, 0x4B]]

/-- It is one line of text. -/
def IsLine (l : List Byte) : Prop := 0x0A ∉ l ∧ 0 ∉ l

/-- It says nothing about the clock: it has no colon, or no name which begins with `clock` before it, or nothing which
begins like a number after it. -/
def NoClock (l : List Byte) : Prop :=
  ∀ name value, l = name ++ 0x3A :: value → 0x3A ∉ name → ClockName name →
    ∃ k v, value = List.replicate k 0x20 ++ v ∧ ∀ c ∈ v.head?, ¬MayBegin c

theorem lower_mem (c : Byte) :
    (lower c = 0x63 ↔ c ∈ ([0x63, 0x43] : List Byte)) ∧ (lower c = 0x6C ↔ c ∈ ([0x6C, 0x4C] : List Byte)) ∧
    (lower c = 0x6F ↔ c ∈ ([0x6F, 0x4F] : List Byte)) ∧ (lower c = 0x6B ↔ c ∈ ([0x6B, 0x4B] : List Byte)) := by
  revert c
  decide +kernel

theorem clockName_iff (name : List Byte) :
    (name.take 5).map lower = [0x63, 0x6C, 0x6F, 0x63, 0x6B] ↔ ClockName name := by
  constructor
  · intro h
    refine ⟨name.take 5, name.drop 5, (List.take_append_drop 5 name).symm, ?_⟩
    generalize name.take 5 = l at h
    have hlen : l.length = 5 := by have := congrArg List.length h; simpa using this
    match l, hlen with
    | [a, b, c, d, e], _ =>
      simp only [List.map_cons, List.map_nil, List.cons.injEq, and_true] at h
      obtain ⟨h1, h2, h3, h4, h5⟩ := h
      exact .cons ((lower_mem a).1.1 h1) (.cons ((lower_mem b).2.1.1 h2) (.cons ((lower_mem c).2.2.1.1 h3)
        (.cons ((lower_mem d).1.1 h4) (.cons ((lower_mem e).2.2.2.1 h5) .nil))))
  · rintro ⟨five, rest, rfl, h⟩
    cases h with
    | cons h1 h => cases h with
      | cons h2 h => cases h with
        | cons h3 h => cases h with
          | cons h4 h => cases h with
            | cons h5 h =>
              cases h
              simp only [List.cons_append, List.nil_append, List.take_succ_cons, List.take_zero, List.map_cons, List.map_nil]
              rw [(lower_mem _).1.2 h1, (lower_mem _).2.1.2 h2, (lower_mem _).2.2.1.2 h3, (lower_mem _).1.2 h4,
                (lower_mem _).2.2.2.2 h5]

theorem fgets_line (l t : List Byte) (h : 0x0A ∉ l) (n : Nat) (hn : l.length < n) :
    fgetsText n (l ++ 0x0A :: t) = (l ++ [0x0A], t) := by
  induction l generalizing n with
  | nil =>
    obtain ⟨n, rfl⟩ : ∃ m, n = m + 1 := ⟨n - 1, by simp at hn; omega⟩
    rfl
  | cons c l ih =>
    obtain ⟨n, rfl⟩ : ∃ m, n = m + 1 := ⟨n - 1, by simp at hn; omega⟩
    have hc : c ≠ 0x0A := fun e => h (e ▸ List.mem_cons_self ..)
    rw [List.cons_append]
    unfold fgetsText
    rw [if_neg hc, ih (fun m => h (List.mem_cons_of_mem _ m)) n (by simp at hn; omega)]
    rfl

theorem fgets_full (l t : List Byte) (h : 0x0A ∉ l) : fgetsText l.length (l ++ t) = (l, t) := by
  induction l with
  | nil => cases t <;> rfl
  | cons c l ih =>
    have hc : c ≠ 0x0A := fun e => h (e ▸ List.mem_cons_self ..)
    rw [List.cons_append, List.length_cons]
    unfold fgetsText
    rw [if_neg hc, ih (fun m => h (List.mem_cons_of_mem _ m))]

theorem takeWhile_ne {x : Byte} {p q : List Byte} (h : x ∉ p) : (p ++ x :: q).takeWhile (· != x) = p := by
  have hp : ∀ c ∈ p, (c != x) = true := fun c hc => bne_iff_ne.2 fun e => h (e ▸ hc)
  rw [List.takeWhile_append_of_pos hp, List.takeWhile_cons_of_neg (by simp), List.append_nil]

theorem dropWhile_ne {x : Byte} {p q : List Byte} (h : x ∉ p) : (p ++ x :: q).dropWhile (· != x) = x :: q := by
  have hp : ∀ c ∈ p, (c != x) = true := fun c hc => bne_iff_ne.2 fun e => h (e ▸ hc)
  rw [List.dropWhile_append_of_pos hp, List.dropWhile_cons_of_neg (by simp)]

theorem takeWhile_all {x : Byte} {p : List Byte} (h : x ∉ p) : p.takeWhile (· != x) = p := by
  have hp : ∀ c ∈ p, (c != x) = true := fun c hc => bne_iff_ne.2 fun e => h (e ▸ hc)
  have := List.takeWhile_append_of_pos (l₂ := []) hp
  rwa [List.append_nil, List.takeWhile_nil, List.append_nil] at this

/-- What is done with a line, with the line feed after it or without it. -/
theorem clockLine_value {name v e : List Byte} {k : Nat} (hl : IsLine (name ++ 0x3A :: (List.replicate k 0x20 ++ v)))
    (he : e = [] ∨ e = [0x0A]) (hname : 0x3A ∉ name) (hv : v.head? ≠ some 0x20) :
    clockLine sc (name ++ 0x3A :: (List.replicate k 0x20 ++ v) ++ e) =
      if (name.take 5).map lower = [0x63, 0x6C, 0x6F, 0x63, 0x6B] then sc.scan v else none := by
  obtain ⟨h10, h0⟩ := hl
  have h0' : (0 : Byte) ∉ name ++ 0x3A :: (List.replicate k 0x20 ++ v) ++ e := by
    rintro h
    rcases List.mem_append.1 h with h | h
    · exact h0 h
    · rcases he with rfl | rfl
      · exact nomatch h
      · exact absurd (List.mem_singleton.1 h) (by decide)
  have hv10 : (0x0A : Byte) ∉ v := fun h =>
    h10 (List.mem_append_right _ (List.mem_cons_of_mem _ (List.mem_append_right _ h)))
  have hd : (List.replicate k (0x20 : Byte) ++ (v ++ e)).dropWhile (· == 0x20) = v ++ e := by
    rw [List.dropWhile_append_of_pos fun c hc => by simpa using (List.mem_replicate.1 hc).2]
    cases v with
    | nil => rcases he with rfl | rfl <;> rfl
    | cons c v =>
      rw [List.cons_append, List.dropWhile_cons_of_neg]
      simpa using fun h => hv (by rw [h]; rfl)
  have ht : (v ++ e).takeWhile (· != 0x0A) = v := by
    rcases he with rfl | rfl
    · rw [List.append_nil, takeWhile_all hv10]
    · exact takeWhile_ne hv10
  unfold clockLine
  simp only [takeWhile_all h0']
  rw [show name ++ 0x3A :: (List.replicate k 0x20 ++ v) ++ e = name ++ 0x3A :: (List.replicate k 0x20 ++ (v ++ e)) by simp,
    if_pos (by simp), takeWhile_ne hname, dropWhile_ne hname, List.drop_one, List.tail_cons, hd, ht]

/-- Every text with a colon has a first one. -/
theorem first_colon {x : Byte} {l : List Byte} (h : x ∈ l) : ∃ p q, l = p ++ x :: q ∧ x ∉ p := by
  induction l with
  | nil => exact nomatch h
  | cons c l ih =>
    by_cases hc : c = x
    · exact ⟨[], l, by rw [hc]; rfl, List.not_mem_nil⟩
    · rcases List.mem_cons.1 h with h | h
      · exact absurd h.symm hc
      · obtain ⟨p, q, rfl, hp⟩ := ih h
        exact ⟨c :: p, q, rfl, fun m => by
          rcases List.mem_cons.1 m with m | m
          · exact hc m.symm
          · exact hp m⟩

theorem leading_spaces (l : List Byte) : ∃ k v, l = List.replicate k 0x20 ++ v ∧ v.head? ≠ some 0x20 := by
  induction l with
  | nil => exact ⟨0, [], rfl, nofun⟩
  | cons c l ih =>
    by_cases hc : c = 0x20
    · obtain ⟨k, v, rfl, hv⟩ := ih
      exact ⟨k + 1, v, by rw [hc]; rfl, hv⟩
    · exact ⟨0, c :: l, rfl, fun h => hc (Option.some.inj h)⟩

theorem clockLine_no {l e : List Byte} (hl : IsLine l) (he : e = [] ∨ e = [0x0A]) (hno : NoClock l) :
    clockLine sc (l ++ e) = none := by
  by_cases hcol : (0x3A : Byte) ∈ l
  · obtain ⟨name, value, rfl, hname⟩ := first_colon hcol
    by_cases hck : ClockName name
    · obtain ⟨k, v, rfl, hv⟩ := hno name value rfl hname hck
      have h20 : v.head? ≠ some 0x20 := fun h => hv 0x20 (by rw [h]; rfl) (by decide)
      rw [clockLine_value hl he hname h20, sc.refused v hv, ite_self]
    · obtain ⟨k, v, rfl, hv⟩ := leading_spaces value
      rw [clockLine_value hl he hname hv, if_neg ((clockName_iff name).not.2 hck)]
  · unfold clockLine
    refine if_neg fun h => ?_
    rcases List.mem_append.1 (List.takeWhile_subset _ h) with h | h
    · exact hcol h
    · rcases he with rfl | rfl
      · exact nomatch h
      · exact absurd (List.mem_singleton.1 h) (by decide)

theorem clockLoop_skip {before : List (List Byte)} (hline : ∀ l ∈ before, IsLine l ∧ l.length ≤ 198)
    (hno : ∀ l ∈ before, NoClock l) (t : List Byte) (n : Nat) :
    clockLoop sc (before.length + n) (before.flatMap (· ++ [0x0A]) ++ t) = clockLoop sc n t := by
  induction before with
  | nil => rw [List.length_nil, Nat.zero_add]; rfl
  | cons l before ih =>
    have hl := hline l (List.mem_cons_self ..)
    rw [List.length_cons, Nat.add_right_comm, List.flatMap_cons]
    rw [show l ++ [0x0A] ++ before.flatMap (· ++ [0x0A]) ++ t = l ++ 0x0A :: (before.flatMap (· ++ [0x0A]) ++ t) by simp]
    rw [clockLoop, fgets_line l _ hl.1.1 199 (by omega)]
    simp only
    rw [if_neg (by simp), clockLine_no hl.1 (Or.inr rfl) (hno l (List.mem_cons_self ..))]
    exact ih (fun l h => hline l (List.mem_cons_of_mem _ h)) fun l h => hno l (List.mem_cons_of_mem _ h)

theorem lines_length (before : List (List Byte)) : before.length ≤ (before.flatMap (· ++ [0x0A])).length := by
  induction before with
  | nil => exact Nat.le_refl 0
  | cons l before ih =>
    rw [List.flatMap_cons, List.length_append, List.length_append, List.length_cons, List.length_singleton]
    omega

/-- The line with the clock, and what is after it -/
theorem clockLoop_line {name a b r t : List Byte} {k : Nat}
    (hl : IsLine (name ++ 0x3A :: (List.replicate k 0x20 ++ (a ++ 0x2E :: b ++ r))))
    (hlen : (name ++ 0x3A :: (List.replicate k 0x20 ++ (a ++ 0x2E :: b ++ r))).length ≤ 198)
    (hname : 0x3A ∉ name) (hclock : ClockName name) (ha0 : a ≠ []) (ha : ∀ c ∈ a, IsDigit c) (hb : ∀ c ∈ b, IsDigit c)
    (hr : ∀ c ∈ r.head?, ¬IsDigit c ∧ c ≠ 0x65 ∧ c ≠ 0x45) {n : Nat} (hn : 1 ≤ n) :
    clockLoop sc n (name ++ 0x3A :: (List.replicate k 0x20 ++ (a ++ 0x2E :: b ++ r)) ++ 0x0A :: t) =
      some (sc.fl (sc.fl (decimal (a ++ b) / 10 ^ b.length) * 1000000)) := by
  obtain ⟨n, rfl⟩ : ∃ m, n = m + 1 := ⟨n - 1, by omega⟩
  have hab : (a ++ b).length ≤ 200 := by
    simp only [List.length_append, List.length_cons] at hlen ⊢
    omega
  have hhead : (a ++ 0x2E :: b ++ r).head? ≠ some 0x20 := by
    cases a with
    | nil => exact absurd rfl ha0
    | cons c a =>
      intro h
      have : c = 0x20 := Option.some.inj h
      exact absurd (ha c (List.mem_cons_self ..)) (by rw [this]; decide)
  unfold clockLoop
  rw [fgets_line _ t hl.1 199 (by omega)]
  simp only
  rw [if_neg (by simp), clockLine_value hl (Or.inr rfl) hname hhead, if_pos ((clockName_iff name).2 hclock),
    sc.number a b r ha0 ha hb hr hab]

/-- C95: on POWER the clock rate is the number, in MHz, in the first line of `/proc/cpuinfo` which says something about the
clock, and the loop ends. Missing: lines longer than 198 bytes before it, for which it is false, see `powerClock_split`. -/
theorem powerClock_correct_partial {before : List (List Byte)} {name a b r t : List Byte} {k : Nat}
    (hline : ∀ l ∈ before, IsLine l ∧ l.length ≤ 198) (hno : ∀ l ∈ before, NoClock l)
    (hl : IsLine (name ++ 0x3A :: (List.replicate k 0x20 ++ (a ++ 0x2E :: b ++ r))))
    (hlen : (name ++ 0x3A :: (List.replicate k 0x20 ++ (a ++ 0x2E :: b ++ r))).length ≤ 198)
    (hname : 0x3A ∉ name) (hclock : ClockName name) (ha0 : a ≠ []) (ha : ∀ c ∈ a, IsDigit c) (hb : ∀ c ∈ b, IsDigit c)
    (hr : ∀ c ∈ r.head?, ¬IsDigit c ∧ c ≠ 0x65 ∧ c ≠ 0x45) {file : List Byte}
    (hfile : file = before.flatMap (· ++ [0x0A]) ++
      (name ++ 0x3A :: (List.replicate k 0x20 ++ (a ++ 0x2E :: b ++ r)) ++ 0x0A :: t))
    {n : Nat} (hn : file.length < n) :
    PowerClockRate sc n (some file) = some (sc.fl (sc.fl (decimal (a ++ b) / 10 ^ b.length) * 1000000)) := by
  have h1 := lines_length before
  have h2 : before.length < n := by rw [hfile, List.length_append] at hn; omega
  obtain ⟨d, rfl⟩ : ∃ d, n = before.length + d := ⟨n - before.length, by omega⟩
  show clockLoop sc _ file = _
  rw [hfile, clockLoop_skip hline hno]
  exact clockLoop_line hl hlen hname hclock ha0 ha hb hr (by omega)

/-- C95: if no line says anything about the clock, the clock rate is −1; if the file cannot be opened, it is 0. -/
theorem powerClock_absent {lines : List (List Byte)} (hline : ∀ l ∈ lines, IsLine l ∧ l.length ≤ 198)
    (hno : ∀ l ∈ lines, NoClock l) {n : Nat} (hn : (lines.flatMap (· ++ [0x0A])).length < n) :
    PowerClockRate sc n (some (lines.flatMap (· ++ [0x0A]))) = some (-1) ∧ PowerClockRate sc n none = some 0 := by
  refine ⟨?_, rfl⟩
  have h1 := lines_length lines
  obtain ⟨d, rfl⟩ : ∃ d, n = lines.length + (d + 1) := ⟨n - lines.length - 1, by omega⟩
  have := clockLoop_skip (sc := sc) hline hno [] (d + 1)
  rw [List.append_nil] at this
  exact this.trans rfl

/-- C95 is false for lines of more than 199 bytes: what is after the first 199 bytes of a line is taken for a line. -/
theorem powerClock_split {junk name a b r t : List Byte} {k : Nat} (hj : IsLine junk) (hj199 : junk.length = 199)
    (hno : NoClock junk)
    (hl : IsLine (name ++ 0x3A :: (List.replicate k 0x20 ++ (a ++ 0x2E :: b ++ r))))
    (hlen : (name ++ 0x3A :: (List.replicate k 0x20 ++ (a ++ 0x2E :: b ++ r))).length ≤ 198)
    (hname : 0x3A ∉ name) (hclock : ClockName name) (ha0 : a ≠ []) (ha : ∀ c ∈ a, IsDigit c) (hb : ∀ c ∈ b, IsDigit c)
    (hr : ∀ c ∈ r.head?, ¬IsDigit c ∧ c ≠ 0x65 ∧ c ≠ 0x45) {n : Nat} (hn : 2 ≤ n) :
    PowerClockRate sc n
        (some (junk ++ (name ++ 0x3A :: (List.replicate k 0x20 ++ (a ++ 0x2E :: b ++ r)) ++ 0x0A :: t))) =
      some (sc.fl (sc.fl (decimal (a ++ b) / 10 ^ b.length) * 1000000)) := by
  obtain ⟨n, rfl⟩ : ∃ m, n = m + 1 := ⟨n - 1, by omega⟩
  show clockLoop sc (n + 1) _ = _
  have h1 := fgets_full junk (name ++ 0x3A :: (List.replicate k 0x20 ++ (a ++ 0x2E :: b ++ r)) ++ 0x0A :: t) hj.1
  rw [hj199] at h1
  have h2 := clockLine_no (sc := sc) hj (Or.inl rfl) hno
  rw [List.append_nil] at h2
  unfold clockLoop
  rw [h1]
  simp only
  rw [if_neg (fun h => by rw [h] at hj199; simp at hj199), h2]
  exact clockLoop_line hl hlen hname hclock ha0 ha hb hr (by omega)

end T1ha.Props

namespace T1ha.Examples

open Model

/-- The digits, a point and digits, and then anything. -/
def plainScan (l : List Byte) : Option ℚ :=
  match l.dropWhile (fun c => decide (IsDigit c)) with
  | 0x2E#8 :: t =>
    let a := l.takeWhile fun c => decide (IsDigit c)
    let b := t.takeWhile fun c => decide (IsDigit c)
    if a ≠ [] then some ((decimal (a ++ b) : ℚ) / 10 ^ b.length) else none
  | _ => none

theorem plainScan_number (a b r : List Byte) (h0 : a ≠ []) (ha : ∀ c ∈ a, IsDigit c) (hb : ∀ c ∈ b, IsDigit c)
    (hr : ∀ c ∈ r.head?, ¬IsDigit c) :
    plainScan (a ++ 0x2E :: b ++ r) = some ((decimal (a ++ b) : ℚ) / 10 ^ b.length) := by
  have hp : ¬IsDigit (0x2E : Byte) := by decide
  rw [List.append_assoc, List.cons_append]
  have h1 : (a ++ 0x2E :: (b ++ r)).dropWhile (fun c => decide (IsDigit c)) = 0x2E :: (b ++ r) := by
    rw [List.dropWhile_append_of_pos fun c hc => by simpa using ha c hc, List.dropWhile_cons_of_neg (by simpa using hp)]
  have h2 : (a ++ 0x2E :: (b ++ r)).takeWhile (fun c => decide (IsDigit c)) = a := by
    rw [List.takeWhile_append_of_pos fun c hc => by simpa using ha c hc, List.takeWhile_cons_of_neg (by simpa using hp),
      List.append_nil]
  have h3 : (b ++ r).takeWhile (fun c => decide (IsDigit c)) = b := by
    rw [List.takeWhile_append_of_pos fun c hc => by simpa using hb c hc]
    cases r with
    | nil => rw [List.takeWhile_nil, List.append_nil]
    | cons c r => rw [List.takeWhile_cons_of_neg (by simpa using hr c rfl), List.append_nil]
  unfold plainScan
  rw [h1, h2]
  show (if a ≠ [] then some ((decimal (a ++ (b ++ r).takeWhile fun c => decide (IsDigit c)) : ℚ) /
    10 ^ ((b ++ r).takeWhile fun c => decide (IsDigit c)).length) else none) = _
  rw [h3]
  exact if_pos h0

/-- A `sscanf` which knows no other numbers, without rounding -/
def plainScanf : Scanf where
  fl := id
  scan := plainScan
  number := fun a b r h0 ha hb hr _ => plainScan_number a b r h0 ha hb fun c hc => (hr c hc).1
  refused := fun l h => by
    cases l with
    | nil => rfl
    | cons c l =>
      have hc : ¬MayBegin c := h c rfl
      have hd : ¬IsDigit c := fun h => hc (Or.inl h)
      have hp : c ≠ 0x2E := fun h => hc (Or.inr (by rw [h]; decide))
      unfold plainScan
      rw [List.dropWhile_cons_of_neg (by simpa using hd)]
      split
      · rename_i heq
        exact absurd (List.cons.inj heq).1 hp
      · rfl

/-- cpu: POWER8 -/
def linePower : List Byte := [0x63, 0x70, 0x75, 0x3a, 0x20, 0x50, 0x4f, 0x57, 0x45, 0x52, 0x38]

end T1ha.Examples

namespace T1ha.Props

open Model Examples

theorem linePower_line : IsLine linePower := ⟨by decide, by decide⟩

/-- The name before the colon of this line is `cpu`. -/
theorem linePower_no : NoClock linePower := by
  intro name value h hname hclock
  have h1 : name = [0x63, 0x70, 0x75] := by
    have := takeWhile_ne (q := value) hname
    rw [← h] at this
    rw [← this]
    decide
  rw [← clockName_iff, h1] at hclock
  exact absurd hclock (by decide)

/-- Clock : 3425.0MHz, in the second line -/
example : PowerClockRate plainScanf 100 (some (linePower ++ [0x0A] ++
    [0x43, 0x6c, 0x6f, 0x63, 0x6b, 9, 0x3a, 0x20, 0x33, 0x34, 0x32, 0x35, 0x2e, 0x30, 0x4d, 0x48, 0x7a, 0x0A])) =
      some 3425000000 := by
  refine (powerClock_correct_partial (sc := plainScanf) (before := [linePower]) (name := [0x43, 0x6c, 0x6f, 0x63, 0x6b, 9])
    (a := [0x33, 0x34, 0x32, 0x35]) (b := [0x30]) (r := [0x4d, 0x48, 0x7a]) (k := 1) (t := [])
    (fun l hl => by rw [List.mem_singleton.1 hl]; exact ⟨linePower_line, by decide⟩)
    (fun l hl => by rw [List.mem_singleton.1 hl]; exact linePower_no)
    ⟨by decide, by decide⟩ (by decide) (by decide) ((clockName_iff _).1 (by decide)) (by decide) (by decide) (by decide)
    (by decide) rfl (by decide)).trans ?_
  show some (((decimal [0x33, 0x34, 0x32, 0x35, 0x30] : ℚ) / 10 ^ 1) * 1000000) = _
  have : decimal [0x33, 0x34, 0x32, 0x35, 0x30] = 34250 := by decide
  rw [this]
  norm_num

example : PowerClockRate plainScanf 100 (some (linePower ++ [0x0A])) = some (-1) :=
  (powerClock_absent (sc := plainScanf) (lines := [linePower])
    (fun l hl => by rw [List.mem_singleton.1 hl]; exact ⟨linePower_line, by decide⟩)
    (fun l hl => by rw [List.mem_singleton.1 hl]; exact linePower_no) (by decide)).1

/-- One line, of 199 times the letter a and then clock:5.0, is about no clock, but the clock rate is 5 MHz. -/
example : PowerClockRate plainScanf 100 (some (List.replicate 199 0x61 ++
    [0x63, 0x6c, 0x6f, 0x63, 0x6b, 0x3a, 0x35, 0x2e, 0x30, 0x0A])) = some 5000000 := by
  have h : IsLine (List.replicate 199 0x61) :=
    ⟨fun h => absurd (List.mem_replicate.1 h).2 (by decide), fun h => absurd (List.mem_replicate.1 h).2 (by decide)⟩
  have := powerClock_split (sc := plainScanf) (junk := List.replicate 199 0x61) (name := [0x63, 0x6c, 0x6f, 0x63, 0x6b])
    (a := [0x35]) (b := [0x30]) (r := []) (k := 0) (t := []) h List.length_replicate
    (fun name value e => by
      have : (0x3A : Byte) ∈ List.replicate 199 (0x61 : Byte) := by rw [e]; simp
      exact absurd (List.mem_replicate.1 this).2 (by decide))
    ⟨by decide, by decide⟩ (by decide) (by decide) ((clockName_iff _).1 (by decide)) (by decide) (by decide) (by decide)
    (by decide) (n := 100) (by decide)
  refine this.trans ?_
  show some (((decimal [0x35, 0x30] : ℚ) / 10 ^ 1) * 1000000) = _
  have : decimal [0x35, 0x30] = 50 := by decide
  rw [this]
  norm_num

end T1ha.Props
