import Verif.Model.HighwayArch
import Verif.Props.Examples
import Verif.Proofs.Bytes

/-!
# What HighwayHash knows about the processor: C91
-/

namespace T1ha.Props

open Model

variable {cfg : Cfg} {st : Stod}

/-! ## Targets -/

theorem lowest_bit (bits : U32) (k : Nat) (hk : k < 32) (h : bits.getLsbD k = true)
    (hz : ∀ j < k, bits.getLsbD j = false) : bits &&& (~~~bits + 1) = 1#32 <<< k := by
  rw [show ~~~bits + 1 = -bits from (BitVec.neg_eq_not_add bits).symm]
  refine BitVec.eq_of_getLsbD_eq fun i hi => ?_
  rw [BitVec.getLsbD_and, BitVec.getLsbD_neg, BitVec.getLsbD_shiftLeft]
  rcases Nat.lt_trichotomy i k with hik | rfl | hik
  · simp [hz i hik, hik]
  · have : ¬∃ j < i, bits.getLsbD j = true := fun ⟨j, a, b⟩ => by rw [hz j a] at b; cases b
    simp [h, hi, this]
  · have : ∃ j < i, bits.getLsbD j = true := ⟨k, hik, h⟩
    have h0 : ¬(i - k = 0) := by omega
    cases hb : bits.getLsbD i <;> simp [hi, this, h0]

theorem foreach_above (d k n : Nat) (bits : U32) (hk : k + d = 32) (hn : d ≤ n) (hz : ∀ j < k, bits.getLsbD j = false) :
    ForeachTarget n bits = some (((List.range' k d).filter bits.getLsbD).map (1#32 <<< ·)) := by
  induction d generalizing k n bits with
  | zero =>
    have : bits = 0 := BitVec.eq_of_getLsbD_eq fun i hi => by rw [hz i (by omega)]; simp
    subst this
    cases n <;> rfl
  | succ d ih =>
    rw [List.range'_succ, List.filter_cons]
    cases hb : bits.getLsbD k with
    | false =>
      exact ih (k + 1) n bits (by omega) (by omega) fun j hj => by
        rcases Nat.lt_or_ge j k with h | h
        · exact hz j h
        · rw [show j = k by omega, hb]
    | true =>
      obtain ⟨n, rfl⟩ : ∃ m, n = m + 1 := ⟨n - 1, by omega⟩
      have h0 : bits ≠ 0 := fun h => by subst h; simp at hb
      have hl := lowest_bit bits k (by omega) hb hz
      have hrest : ∀ j, (bits &&& ~~~(1#32 <<< k)).getLsbD j = (bits.getLsbD j && !decide (j = k)) := fun j => by
        by_cases hj : j < 32
        · rw [BitVec.getLsbD_and, BitVec.getLsbD_not, BitVec.getLsbD_shiftLeft]
          rcases Nat.lt_trichotomy j k with h | rfl | h
          · simp [hj, h, Nat.ne_of_lt h]
          · simp [hj]
          · have a : ¬(j - k = 0) := by omega
            have b : ¬(j = k) := by omega
            simp [hj, a, b]
        · rw [BitVec.getLsbD_of_ge _ _ (by omega), BitVec.getLsbD_of_ge bits j (by omega)]; rfl
      unfold ForeachTarget
      simp only [if_neg h0, hl]
      rw [ih (k + 1) n _ (by omega) (by omega) (fun j hj => by
        rw [hrest]
        rcases Nat.lt_or_ge j k with h | h
        · rw [hz j h]; rfl
        · rw [show j = k by omega]; simp)]
      have hf : (List.range' (k + 1) d).filter (bits &&& ~~~(1#32 <<< k)).getLsbD =
          (List.range' (k + 1) d).filter bits.getLsbD :=
        List.filter_congr fun j hj => by
          rw [List.mem_range'] at hj
          obtain ⟨i, -, rfl⟩ := hj
          rw [hrest]
          rw [decide_eq_false (by omega)]
          simp
      rw [hf]
      rfl

/-- C91: the function is called once for every bit which is set, and for no other, beginning with the lowest one; the
loop ends after at most 32 rounds. -/
theorem foreachTarget_correct (bits : U32) {n : Nat} (hn : 32 ≤ n) :
    ForeachTarget n bits = some (((List.range 32).filter bits.getLsbD).map (1#32 <<< ·)) := by
  rw [List.range_eq_range']
  exact foreach_above 32 0 n bits rfl hn fun j hj => absurd hj (by omega)

/-- C91: the four targets, and nothing else (no target, more than one, or other bits), have a name, and no two of them have
the same one. -/
theorem targetName_correct :
    (∀ a : U32, (TargetName a).isSome = true ↔ a ∈ ([1, 2, 4, 8] : List U32)) ∧
    ∀ (a b : U32) (name : String), TargetName a = some name → TargetName b = some name → a = b := by
  refine ⟨fun a => ?_, fun a b name ha hb => ?_⟩
  · unfold TargetName
    repeat' split
    all_goals simp_all
  · unfold TargetName at ha hb
    repeat' split at ha
    all_goals (repeat' split at hb)
    all_goals first
      | exact absurd (Option.some.inj (ha.trans hb.symm)) (by decide)
      | (subst_vars; rfl)
      | (cases hb; done)
      | (cases ha; done)

/-! ## The clock rate -/

theorem find_first {u hay : List Byte} {p : Nat} (hp : p ≤ hay.length) (h : u <+: hay.drop p)
    (first : ∀ i < p, ¬u <+: hay.drop i) : strFind u hay = some p := by
  unfold strFind
  rw [List.find?_range_eq_some]
  refine ⟨List.isPrefixOf_iff_prefix.2 h, List.mem_range.2 (by omega), fun j hj => ?_⟩
  have := first j hj
  rw [← List.isPrefixOf_iff_prefix, Bool.not_eq_true] at this
  rw [this]
  rfl

theorem find_none {u hay : List Byte} (h : ¬u <:+: hay) : strFind u hay = none := by
  unfold strFind
  rw [List.find?_eq_none]
  intro i _ hi
  rw [List.isPrefixOf_iff_prefix] at hi
  exact h (hi.isInfix.trans (List.drop_suffix i hay).isInfix)

theorem search_back {c : Byte} {pre word rest : List Byte} (hw : c ∉ word) (n : Nat) (hn : n ≤ word.length) :
    searchBack c (pre ++ c :: (word ++ rest)) (pre.length + n) = some pre.length := by
  induction n with
  | zero =>
    have : (pre ++ c :: (word ++ rest))[pre.length]? = some c := by simp
    cases hp : pre.length with
    | zero => rw [hp] at this; simp only [Nat.add_zero]; unfold searchBack; rw [if_pos this]
    | succ k => rw [hp] at this; simp only [Nat.add_zero]; unfold searchBack; rw [if_pos this]
  | succ n ih =>
    rw [← Nat.add_assoc]
    unfold searchBack
    rw [if_neg, ih (by omega)]
    rw [Nat.add_assoc, List.getElem?_append_right (by omega), Nat.add_sub_cancel_left, List.getElem?_cons_succ,
      List.getElem?_append_left (by omega)]
    intro h
    exact hw (List.mem_of_getElem? h)

/-- What is done with the word before the unit, if it is after a space. -/
theorem detect_word {pre word rest u : List Byte} {mult : ℚ} {before after : List (List Byte × ℚ)}
    (hfit : (pre ++ 0x20 :: (word ++ (u ++ rest))).length < 2 ^ cfg.bits)
    (hbefore : ∀ v ∈ before, ¬v.1 <:+: pre ++ 0x20 :: (word ++ (u ++ rest))) (hspace : 0x20 ∉ word)
    (hfirst : ∀ i < pre.length + 1 + word.length, ¬u <+: (pre ++ 0x20 :: (word ++ (u ++ rest))).drop i) :
    detectClockRate cfg st (pre ++ 0x20 :: (word ++ (u ++ rest))) (before ++ (u, mult) :: after) =
      (st.stod word).map fun d => st.fl (d * mult) := by
  induction before with
  | cons v before ih =>
    obtain ⟨v, c⟩ := v
    rw [List.cons_append]
    unfold detectClockRate
    rw [find_none (hbefore (v, c) (List.mem_cons_self ..))]
    exact ih fun v hv => hbefore v (List.mem_cons_of_mem _ hv)
  | nil =>
    have hlen : (pre ++ 0x20 :: (word ++ (u ++ rest))).length = pre.length + 1 + word.length + (u ++ rest).length := by
      simp only [List.length_append, List.length_cons]; omega
    have hdrop : (pre ++ 0x20 :: (word ++ (u ++ rest))).drop (pre.length + 1 + word.length) = u ++ rest := by
      rw [Nat.add_assoc, ← List.drop_drop, List.drop_left, Nat.add_comm 1, List.drop_succ_cons, List.drop_left]
    have hf := find_first (u := u) (hay := pre ++ 0x20 :: (word ++ (u ++ rest))) (p := pre.length + 1 + word.length)
      (by rw [hlen]; omega) (by rw [hdrop]; exact List.prefix_append _ _) hfirst
    rw [hlen] at hfit
    have e1 : szSub cfg (pre.length + 1 + word.length) 1 = pre.length + word.length := by
      unfold szSub
      rw [show 2 ^ cfg.bits + (pre.length + 1 + word.length) - 1 = pre.length + word.length + 2 ^ cfg.bits by omega,
        Nat.add_mod_right, Nat.mod_eq_of_lt (by omega)]
    have e2 : szSub cfg (pre.length + 1 + word.length) pre.length = word.length + 1 := by
      unfold szSub
      rw [show 2 ^ cfg.bits + (pre.length + 1 + word.length) - pre.length = word.length + 1 + 2 ^ cfg.bits by omega,
        Nat.add_mod_right, Nat.mod_eq_of_lt (by omega)]
    have e3 : szSub cfg (word.length + 1) 1 = word.length := by
      unfold szSub
      rw [show 2 ^ cfg.bits + (word.length + 1) - 1 = word.length + 2 ^ cfg.bits by omega,
        Nat.add_mod_right, Nat.mod_eq_of_lt (by omega)]
    have e4 : szAdd cfg pre.length 1 = pre.length + 1 := by
      unfold szAdd
      rw [Nat.mod_eq_of_lt (by omega)]
    have hr : strRfind 0x20 (pre ++ 0x20 :: (word ++ (u ++ rest))) (pre.length + word.length) = some pre.length := by
      unfold strRfind
      rw [Nat.min_eq_left (by rw [hlen]; omega)]
      exact search_back hspace word.length (Nat.le_refl _)
    rw [List.nil_append]
    unfold detectClockRate
    simp only [hf, e1, hr, e2, e3, e4]
    rw [← List.drop_drop, List.drop_left, List.drop_one, List.tail_cons, List.take_left]

theorem brand_length (cpuid : U32 → Abcd) : (BrandString cpuid).length ≤ 49 := by
  unfold BrandString
  split
  · exact Nat.zero_le _
  · refine (List.takeWhile_sublist _).length_le.trans ?_
    simp [leBytes_length]

/-- C91: the clock rate is the number before the first `MHz`, or, if there is none, before the first `GHz`, or `THz`, if
it is after a space and has digits before and after a point (tests/highwayhash/arch_specific.cc:99-115).
Missing: other formats, see `clockRate_throws`, `clockRate_unknown`. -/
theorem clockRate_correct_partial {cpuid : U32 → Abcd} {pre a b rest u : List Byte} {mult : ℚ}
    {before after : List (List Byte × ℚ)} (hu : clockUnits = before ++ (u, mult) :: after)
    (hbrand : BrandString cpuid = pre ++ 0x20 :: (a ++ 0x2E :: b ++ (u ++ rest)))
    (ha0 : a ≠ []) (ha : ∀ c ∈ a, IsDigit c) (hb : ∀ c ∈ b, IsDigit c)
    (hfit : (BrandString cpuid).length < 2 ^ cfg.bits) (hbefore : ∀ v ∈ before, ¬v.1 <:+: BrandString cpuid)
    (hfirst : ∀ i < pre.length + 1 + (a ++ 0x2E :: b).length, ¬u <+: (BrandString cpuid).drop i) :
    NominalClockRate cfg st cpuid = some (st.fl (st.fl (decimal (a ++ b) / 10 ^ b.length) * mult)) := by
  have hlen : (a ++ b).length ≤ 64 := by
    have := brand_length cpuid
    rw [hbrand] at this
    simp only [List.length_append, List.length_cons] at this ⊢
    omega
  unfold NominalClockRate
  rw [hbrand] at hfit hbefore hfirst
  have hs : (0x20 : Byte) ∉ a ++ 0x2E :: b := by
    intro h
    rcases List.mem_append.1 h with h | h
    · exact absurd (ha _ h) (by decide)
    · rcases List.mem_cons.1 h with h | h
      · exact absurd h (by decide)
      · exact absurd (hb _ h) (by decide)
  rw [hbrand, hu, detect_word hfit hbefore hs hfirst, st.number a b ha0 ha hb hlen]
  rfl

/-- C91 is false for other formats: if the word before the unit does not begin like a number, or there is none (there is a
space between the number and the unit), the program ends with an exception of `std::stod`. -/
theorem clockRate_throws {cpuid : U32 → Abcd} {pre word rest u : List Byte} {mult : ℚ}
    {before after : List (List Byte × ℚ)} (hu : clockUnits = before ++ (u, mult) :: after)
    (hbrand : BrandString cpuid = pre ++ 0x20 :: (word ++ (u ++ rest))) (hspace : 0x20 ∉ word)
    (hword : ∀ c ∈ word.head?, ¬MayBegin c)
    (hfit : (BrandString cpuid).length < 2 ^ cfg.bits) (hbefore : ∀ v ∈ before, ¬v.1 <:+: BrandString cpuid)
    (hfirst : ∀ i < pre.length + 1 + word.length, ¬u <+: (BrandString cpuid).drop i) :
    NominalClockRate cfg st cpuid = none := by
  unfold NominalClockRate
  rw [hbrand] at hfit hbefore hfirst
  rw [hbrand, hu, detect_word hfit hbefore hspace hfirst, st.refused word hword]
  rfl

/-- C91 is false for processors without a unit in their name: the clock rate is 0. -/
theorem clockRate_unknown {cpuid : U32 → Abcd} (h : ∀ v ∈ clockUnits, ¬v.1 <:+: BrandString cpuid) :
    NominalClockRate cfg st cpuid = some 0 := by
  unfold NominalClockRate
  revert h
  generalize clockUnits = l
  intro h
  induction l with
  | nil => rfl
  | cons v l ih =>
    obtain ⟨v, c⟩ := v
    unfold detectClockRate
    rw [find_none (h (v, c) (List.mem_cons_self ..))]
    exact ih fun v hv => h v (List.mem_cons_of_mem _ hv)

/-- The text `name`, and then zeros, is in the registers (Intel SDM, CPUID, leaves 80000002H to 80000004H). -/
def HasName (cpuid : U32 → Abcd) (name : List Byte) : Prop :=
  0x80000004 ≤ (cpuid 0x80000000).a ∧ ∀ i < 3,
    let word := fun r => leVal (((name ++ List.replicate 48 0).drop (16 * i + 4 * r)).take 4)
    let abcd := cpuid (0x80000002 + BitVec.ofNat 32 i)
    abcd.a.toNat = word 0 ∧ abcd.b.toNat = word 1 ∧ abcd.c.toNat = word 2 ∧ abcd.d.toNat = word 3

theorem slices (l : List Byte) (k : Nat) (h : k + 16 ≤ l.length) :
    leBytes 4 (leVal ((l.drop (k + 4 * 0)).take 4)) ++ leBytes 4 (leVal ((l.drop (k + 4 * 1)).take 4)) ++
      leBytes 4 (leVal ((l.drop (k + 4 * 2)).take 4)) ++ leBytes 4 (leVal ((l.drop (k + 4 * 3)).take 4)) =
      (l.drop k).take 16 := by
  have e : ∀ j, j + 4 ≤ l.length → leBytes 4 (leVal ((l.drop j).take 4)) = (l.drop j).take 4 := fun j hj => by
    have := leBytes_leVal ((l.drop j).take 4)
    rwa [List.length_take, List.length_drop, Nat.min_eq_left (by omega)] at this
  rw [e _ (by omega), e _ (by omega), e _ (by omega), e _ (by omega)]
  rw [show (16 : Nat) = 4 + (4 + (4 + 4)) from rfl, List.take_add, List.take_add, List.take_add]
  simp only [List.drop_drop, List.append_assoc, Nat.mul_zero, Nat.add_zero, Nat.mul_one, Nat.add_assoc]

theorem takeWhile_name {name : List Byte} (h0 : 0#8 ∉ name) (l : List Byte) :
    (name ++ 0#8 :: l).takeWhile (· != 0) = name := by
  rw [List.takeWhile_append_of_pos fun c hc => by simpa using fun h : c = 0#8 => h0 (h ▸ hc)]
  simp

/-- C91: the name of the processor is what it says, up to 48 characters; it is empty if the processor does not know its
name. -/
theorem brandString_correct (cpuid : U32 → Abcd) :
    (∀ name : List Byte, HasName cpuid name → 0#8 ∉ name → name.length ≤ 48 → BrandString cpuid = name) ∧
    ((cpuid 0x80000000).a < 0x80000004 → BrandString cpuid = []) := by
  refine ⟨fun name h h0 hn => ?_, fun h => if_pos h⟩
  obtain ⟨h1, h2⟩ := h
  unfold BrandString
  rw [if_neg (by rw [BitVec.not_lt]; exact h1)]
  have hl : (name ++ List.replicate 48 (0 : Byte)).length = name.length + 48 := by simp
  obtain ⟨a0, a1, a2, a3⟩ := h2 0 (by decide)
  obtain ⟨b0, b1, b2, b3⟩ := h2 1 (by decide)
  obtain ⟨c0, c1, c2, c3⟩ := h2 2 (by decide)
  have f0 := slices (name ++ List.replicate 48 0) (16 * 0) (by omega)
  have f1 := slices (name ++ List.replicate 48 0) (16 * 1) (by omega)
  have f2 := slices (name ++ List.replicate 48 0) (16 * 2) (by omega)
  simp only at a0 a1 a2 a3 b0 b1 b2 b3 c0 c1 c2 c3
  rw [← a0, ← a1, ← a2, ← a3] at f0
  rw [← b0, ← b1, ← b2, ← b3] at f1
  rw [← c0, ← c1, ← c2, ← c3] at f2
  simp only [List.flatMap_cons, List.flatMap_nil, List.append_nil]
  refine (congrArg (fun l => (l ++ [0#8]).takeWhile (· != 0)) (congrArg₂ (· ++ ·) f0 (congrArg₂ (· ++ ·) f1 f2))).trans ?_
  have e : List.take 16 ((name ++ List.replicate 48 0).drop (16 * 0)) ++
      (List.take 16 ((name ++ List.replicate 48 0).drop (16 * 1)) ++
        List.take 16 ((name ++ List.replicate 48 0).drop (16 * 2))) = (name ++ List.replicate 48 (0 : Byte)).take 48 := by
    rw [show (48 : Nat) = 16 + (16 + 16) from rfl, List.take_add, List.take_add, List.drop_drop]
    rfl
  show List.takeWhile (· != 0) ((_ ++ (_ ++ _)) ++ [0#8]) = name
  rw [e, List.take_append, List.take_of_length_le hn, List.take_replicate, List.append_assoc]
  have hz : List.replicate (min (48 - name.length) 48) (0 : Byte) ++ [0#8] =
      0#8 :: List.replicate (min (48 - name.length) 48) 0 := by
    exact (List.replicate_succ' (a := (0 : Byte))).symm.trans List.replicate_succ
  rw [hz]
  exact takeWhile_name h0 _

end T1ha.Props

/-! ## Examples -/

namespace T1ha.Examples

open Model

/-- A processor with a name -/
def cpuNamed (name : List Byte) (leaf : U32) : Abcd :=
  let padded := name ++ List.replicate 48 0
  let word := fun r => BitVec.ofNat 32 (leVal ((padded.drop (16 * (leaf - 0x80000002).toNat + 4 * r)).take 4))
  if leaf = 0x80000000 then ⟨0x80000008, 0, 0, 0⟩ else ⟨word 0, word 1, word 2, word 3⟩

/-- Intel(R) Core(TM) i7-4770 CPU @ 3.40GHz -/
def nameIntel : List Byte :=
  [0x49, 0x6e, 0x74, 0x65, 0x6c, 0x28, 0x52, 0x29, 0x20, 0x43, 0x6f, 0x72, 0x65, 0x28, 0x54, 0x4d, 0x29, 0x20, 0x69, 0x37, 0x2d,
   0x34, 0x37, 0x37, 0x30, 0x20, 0x43, 0x50, 0x55, 0x20, 0x40, 0x20, 0x33, 0x2e, 0x34, 0x30, 0x47, 0x48, 0x7a]

/-- VIA Nano processor U2250 (1.6GHz Capable) -/
def nameVia : List Byte :=
  [0x56, 0x49, 0x41, 0x20, 0x4e, 0x61, 0x6e, 0x6f, 0x20, 0x70, 0x72, 0x6f, 0x63, 0x65, 0x73, 0x73, 0x6f, 0x72, 0x20, 0x55, 0x32,
   0x32, 0x35, 0x30, 0x20, 0x28, 0x31, 0x2e, 0x36, 0x47, 0x48, 0x7a, 0x20, 0x43, 0x61, 0x70, 0x61, 0x62, 0x6c, 0x65, 0x29]

/-- AMD Ryzen 7 -/
def nameAmd : List Byte := [0x41, 0x4d, 0x44, 0x20, 0x52, 0x79, 0x7a, 0x65, 0x6e, 0x20, 0x37]

/-- The digits, a point and digits. -/
def plainStod (l : List Byte) : Option ℚ :=
  match l.dropWhile (fun c => decide (IsDigit c)) with
  | 0x2E#8 :: b =>
    let a := l.takeWhile fun c => decide (IsDigit c)
    if a ≠ [] ∧ ∀ c ∈ b, IsDigit c then some ((decimal (a ++ b) : ℚ) / 10 ^ b.length) else none
  | _ => none

theorem plainStod_number (a b : List Byte) (h0 : a ≠ []) (ha : ∀ c ∈ a, IsDigit c) (hb : ∀ c ∈ b, IsDigit c) :
    plainStod (a ++ 0x2E :: b) = some ((decimal (a ++ b) : ℚ) / 10 ^ b.length) := by
  have hp : ¬IsDigit (0x2E : Byte) := by decide
  have h1 : (a ++ 0x2E :: b).dropWhile (fun c => decide (IsDigit c)) = 0x2E :: b := by
    rw [List.dropWhile_append_of_pos fun c hc => by simpa using ha c hc, List.dropWhile_cons_of_neg (by simpa using hp)]
  have h2 : (a ++ 0x2E :: b).takeWhile (fun c => decide (IsDigit c)) = a := by
    rw [List.takeWhile_append_of_pos fun c hc => by simpa using ha c hc, List.takeWhile_cons_of_neg (by simpa using hp),
      List.append_nil]
  unfold plainStod
  rw [h1, h2]
  exact if_pos ⟨h0, hb⟩

/-- A `std::stod` which knows no other numbers, without rounding -/
def plain : Stod where
  fl := id
  stod := plainStod
  number := fun a b h0 ha hb _ => plainStod_number a b h0 ha hb
  refused := fun l h => by
    cases l with
    | nil => rfl
    | cons c l =>
      have hc : ¬MayBegin c := h c rfl
      have hd : ¬IsDigit c := fun h => hc (Or.inl h)
      have hp : c ≠ 0x2E := fun h => hc (Or.inr (by rw [h]; decide))
      unfold plainStod
      rw [List.dropWhile_cons_of_neg (by simpa using hd)]
      split
      · rename_i heq
        exact absurd (List.cons.inj heq).1 hp
      · rfl

end T1ha.Examples

namespace T1ha.Props

open Model Examples

theorem named_intel : BrandString (cpuNamed nameIntel) = nameIntel := by decide +kernel
theorem named_via : BrandString (cpuNamed nameVia) = nameVia := by decide +kernel
theorem named_amd : BrandString (cpuNamed nameAmd) = nameAmd := by decide +kernel

example : BrandString (cpuNamed nameIntel) = nameIntel :=
  (brandString_correct (cpuNamed nameIntel)).1 nameIntel (by unfold HasName; decide +kernel) (by decide +kernel)
    (by decide +kernel)

/-- 3.40GHz -/
example : NominalClockRate amd64 plain (cpuNamed nameIntel) = some 3400000000 := by
  rw [clockRate_correct_partial (cpuid := cpuNamed nameIntel) (pre := nameIntel.take 31) (a := [0x33]) (b := [0x34, 0x30])
    (rest := []) (before := [([0x4D, 0x48, 0x7A], 1000000)]) (u := [0x47, 0x48, 0x7A]) (mult := 1000000000) rfl
    (by rw [named_intel]; decide +kernel) (by decide) (by decide) (by decide) (by rw [named_intel]; decide +kernel)
    (fun v hv => by
      rw [named_intel]
      rw [List.mem_singleton] at hv
      subst hv
      decide +kernel) (by rw [named_intel]; decide +kernel)]
  have : decimal ([0x33] ++ [0x34, 0x30]) = 340 := rfl
  rw [this]
  show some ((340 : ℚ) / 10 ^ 2 * 1000000000) = _
  norm_num

/-- The program ends on a VIA Nano. -/
example : NominalClockRate amd64 plain (cpuNamed nameVia) = none :=
  clockRate_throws (cpuid := cpuNamed nameVia) (pre := nameVia.take 24) (word := [0x28, 0x31, 0x2e, 0x36])
    (rest := nameVia.drop 32) (before := [([0x4D, 0x48, 0x7A], 1000000)]) (u := [0x47, 0x48, 0x7A]) (mult := 1000000000) rfl
    (by rw [named_via]; decide +kernel) (by decide) (by decide) (by rw [named_via]; decide +kernel)
    (fun v hv => by
      rw [named_via]
      rw [List.mem_singleton] at hv
      subst hv
      decide +kernel) (by rw [named_via]; decide +kernel)

example : NominalClockRate amd64 plain (cpuNamed nameAmd) = some 0 :=
  clockRate_unknown fun v hv => by
    rw [named_amd]
    simp only [clockUnits, List.mem_cons, List.not_mem_nil, or_false] at hv
    rcases hv with rfl | rfl | rfl <;> decide +kernel

/-- Three targets -/
example : ForeachTarget 40 0x80000005 = some [1, 4, 0x80000000] := by
  rw [foreachTarget_correct _ (by decide)]
  decide +kernel

example : TargetName 4 = some "AVX2" ∧ TargetName 6 = none := by decide

end T1ha.Props
