import Verif.Props.Others
import Verif.Props.ToolVerify
import Verif.Proofs.HighwayVerify
import Verif.Proofs.OtherValues

/-!
# The tool `test`: the verification of the hash functions of other authors

C74.
-/

namespace T1ha.Props

open Model Examples

variable {cfg : Cfg} {w : World} {s : Sys} {data : Nat}

/-! ## HighwayHash -/

/-- C74: `HighwayHash64_verify` reports a failure exactly if one of the answers of the implementation to its 66 calls
(the messages of 0 to 64 bytes 0, 1, 2, ...; and 33 bytes 128, 129, ... with another key) is not the expected one; for
every implementation. It changes nothing in memory but its local array. -/
theorem highway_verify_correct {fn : HighwayFn} {answer : Quad → List Byte → U64} (code : HashesAt w data fn answer)
    (hw : Writable w data 65) (hf : data + 65 < 2 ^ cfg.bits) :
    ∃ failed s' t, Returns (HighwayHash64_verify cfg data fn) w s failed s' t ∧
      (failed = false ↔ HighwayPasses answer) ∧ ∀ a, a < data ∨ data + 65 ≤ a → s'.ov a = s.ov a :=
  returns_highwayVerify code hw hf s

theorem message_of_holds {m : List Byte} {ov : Overlay} (hm : m.length ≤ 512) (hh : Holds w ov data m)
    (hf : data + m.length < 2 ^ cfg.bits) : Message cfg w ov data m :=
  ⟨hh, hf, by have := bits_ge_32 cfg; omega⟩

/-- C74: HighwayHash in C passes the verification on every machine. -/
theorem highway_c_verified (hw : Writable w data 65) (hf : data + 65 < 2 ^ cfg.bits) :
    ∃ s' t, Returns (HighwayHash64_verify cfg data (HighwayC.HighwayHash64_pure_c cfg false)) w s false s' t := by
  have code : HashesAt w data (HighwayC.HighwayHash64_pure_c cfg false) Spec.highway64 := by
    intro key m s hm hh
    obtain ⟨s', t, h1, h2, -⟩ := (highway_c_correct_partial (cfg := cfg) (message_of_holds (by omega) hh (by omega))
      false (Or.inl rfl) key).1
    exact ⟨s', t, h1, h2⟩
  obtain ⟨failed, s', t, h1, h2, -⟩ := highway_verify_correct (s := s) code hw hf
  rw [h2.2 values_highway] at h1
  exact ⟨s', t, h1⟩

/-- C74: portable HighwayHash in C++ passes the verification on every little-endian machine, and fails it on every
big-endian one: the tool then reports that the verification failed, though all functions of t1ha are right. -/
theorem highway_cxx_verified_iff (strict : Bool) (hw : Writable w data 65) (hf : data + 65 < 2 ^ cfg.bits) :
    ∃ failed s' t, Returns (HighwayHash64_verify cfg data (HighwayPortable.HighwayHash64_Portable cfg strict)) w s failed
      s' t ∧ (failed = false ↔ cfg.endian = .little) := by
  have code : HashesAt w data (HighwayPortable.HighwayHash64_Portable cfg strict)
      (fun key m => Spec.highwayResult64 (Spec.highwayAbsorb (Spec.highwayStored cfg.endian) key m)) := by
    intro key m s hm hh
    obtain ⟨s', t, h1, h2, -⟩ := (highway_cxx_value (cfg := cfg) (message_of_holds (by omega) hh (by omega))
      strict key).1
    exact ⟨s', t, h1, h2⟩
  obtain ⟨failed, s', t, h1, h2, -⟩ := highway_verify_correct (s := s) code hw hf
  refine ⟨failed, s', t, h1, ?_⟩
  rw [h2]
  cases he : cfg.endian with
  | little =>
    have e : (fun key m => Spec.highwayResult64 (Spec.highwayAbsorb (Spec.highwayStored .little) key m)) =
        Spec.highway64 := by
      funext key m
      unfold Spec.highway64 Spec.highwayAll Spec.highwayAbsorb
      simp only [Spec.highwayRemainder, highwayStored_little]
    simp only [e, iff_true]
    exact values_highway
  | big =>
    simp only [reduceCtorEq, iff_false]
    exact wrong_highway

/-- An array on the stack. -/
example : ∃ s' t, Returns (HighwayHash64_verify mips32 5001 (HighwayC.HighwayHash64_pure_c mips32 false)) quiet start false
    s' t :=
  highway_c_verified (quiet_writable (by decide) (by decide)) (by decide)

/-- The verification of the C++ code succeeds on x86 and fails on MIPS. -/
example : (∃ s' t, Returns (HighwayHash64_verify amd64 5001 (HighwayPortable.HighwayHash64_Portable amd64 false)) quiet start
      false s' t) ∧
    ∃ s' t, Returns (HighwayHash64_verify mips32 5001 (HighwayPortable.HighwayHash64_Portable mips32 false)) quiet start
      true s' t := by
  obtain ⟨f, s1, t1, h1, h2⟩ := highway_cxx_verified_iff (cfg := amd64) (s := start) (data := 5001) false
    (quiet_writable (by decide) (by decide)) (by decide)
  obtain ⟨f', s2, t2, h3, h4⟩ := highway_cxx_verified_iff (cfg := mips32) (s := start) (data := 5001) false
    (quiet_writable (by decide) (by decide)) (by decide)
  rw [h2.2 rfl] at h1
  cases f' with
  | false => exact absurd (h4.1 rfl) (by decide)
  | true => exact ⟨⟨s1, t1, h1⟩, s2, t2, h3⟩

/-! ## StadtX, wyhash -/

theorem computes_of {hash : HashFn} {answer : Nat → U64} {pattern long refs : Nat} {table : List U64}
    (mem : CheckMem cfg w s.ov pattern long refs table)
    (ok : ∀ k < 81, ∀ (s : Sys), Message cfg w s.ov ((probeAt k).addr pattern long) (probeAt k).msg →
      (0 < (probeAt k).msg.length → pattern ≤ (probeAt k).addr pattern long ∨ long ≤ (probeAt k).addr pattern long) →
      ∃ s' t, Returns (hash ((probeAt k).addr pattern long) (probeAt k).msg.length (probeAt k).seed) w s (answer k) s' t ∧
        s'.ov = s.ov) : Computes w s.ov pattern long hash answer (fun _ => False) := by
  have h1 := mem.pattern_fits
  have h2 := mem.long_fits
  have hlen : ∀ k < 81, (probeAt k).msg.length ≤ 512 ∧
      ((probeAt k).base = .null → (probeAt k).msg.length = 0) ∧
      ((probeAt k).base = .pattern → (probeAt k).off + (probeAt k).msg.length ≤ 64) ∧
      ((probeAt k).base = .long → (probeAt k).off + (probeAt k).msg.length ≤ 512) := by decide +kernel
  intro k hk s' hl hh
  obtain ⟨g1, g2, g3, g4⟩ := hlen k hk
  have hbits := bits_ge_32 cfg
  have hfit : (probeAt k).addr pattern long + (probeAt k).msg.length < 2 ^ cfg.bits := by
    unfold Probe.addr
    cases hb : (probeAt k).base with
    | null => have := g2 hb; simp only []; omega
    | pattern => have := g3 hb; simp only []; omega
    | long => have := g4 hb; simp only []; omega
  obtain ⟨s2, t, h3, h4⟩ := ok k hk s' (message_of_holds g1 hh hfit) (by
    intro hpos
    unfold Probe.addr
    cases hb : (probeAt k).base with
    | null => have := g2 hb; omega
    | pattern => exact Or.inl (by simp only []; omega)
    | long => exact Or.inr (by simp only []; omega))
  exact ⟨s2, t, h3, fun a h => by rwa [h4] at h, fun a _ => by rw [h4]⟩

/-- C74: StadtX passes the verification of the test program on every machine. -/
theorem stadtx_verified {pattern long refs : Nat} (mem : CheckMem cfg w s.ov pattern long refs Ref.refval_StadtX)
    (above : cfg.proxy = true → 7 ≤ pattern ∧ 7 ≤ long) :
    ∃ s' t, Returns (toolVerify cfg pattern long (thunk_StadtX cfg) refs) w s false s' t := by
  have code : Computes w s.ov pattern long (thunk_StadtX cfg) stadtxAnswer (fun _ => False) := by
    refine computes_of mem fun k hk s' hm hpos => ?_
    obtain ⟨s2, t, h1, h2, -⟩ := stadtx_correct hm (fun hp hne => by
      have := hpos (List.length_pos_iff.2 hne)
      have := above hp
      omega) (probeAt k).seed
    exact ⟨s2, t, h1, h2⟩
  obtain ⟨failed, s', t, h1, h2, -⟩ := verify_correct mem code (fun a h => h.elim)
  rw [h2.2 values_stadtx] at h1
  exact ⟨s', t, h1⟩

/-- C74: wyhash passes the verification of the test program on every machine, with every compiler. -/
theorem wyhash_verified {pattern long refs : Nat} (mem : CheckMem cfg w s.ov pattern long refs Ref.refval_wyhash_v7)
    (mum : WyMum) :
    ∃ s' t, Returns (toolVerify cfg pattern long (thunk_wyhash_v7 cfg mum) refs) w s false s' t := by
  have code : Computes w s.ov pattern long (thunk_wyhash_v7 cfg mum) wyhashAnswer (fun _ => False) := by
    refine computes_of mem fun k hk s' hm hpos => ?_
    obtain ⟨s2, t, h1, h2, -⟩ := wyhash_v7_correct hm mum (probeAt k).seed
    exact ⟨s2, t, h1, h2⟩
  obtain ⟨failed, s', t, h1, h2, -⟩ := verify_correct mem code (fun a h => h.elim)
  rw [h2.2 values_wyhash] at h1
  exact ⟨s', t, h1⟩

end T1ha.Props

namespace T1ha.Examples

open Model Props

/-- A table at 4096, then the pattern. -/
def imageOf (cfg : Cfg) (table : List U64) : List Byte := flat cfg table ++ Ref.t1ha_test_pattern

theorem imageOf_mem (cfg : Cfg) {table : List U64} (size : table.length = 81) :
    CheckMem cfg (rom (imageOf cfg table)) start.ov 4744 20001 4096 table := by
  have hb := bits_ge cfg
  have hl : (flat cfg table).length = 648 := by rw [length_flat, size]
  have h : Holds (rom (imageOf cfg table)) start.ov 4096 (imageOf cfg table) :=
    rom_holds _ (by rw [imageOf, List.length_append, hl, length_pattern]; decide)
  have h1 := h.take (flat cfg table).length
  have h2 := h.drop (flat cfg table).length
  unfold imageOf at h1 h2
  rw [List.take_left' rfl] at h1
  rw [List.drop_left' rfl, hl] at h2
  refine ⟨size, arrayAt_flat _ _ h1, by omega, h2, by omega, rom_writable _ (by decide) (by decide), by omega, ?_⟩
  simp only [Model.Disjoint]
  omega

/-- The texts of the self-test of wyhash, one after the other, at 4096. -/
def texts : List Byte := wyhash_v7_cases.flatMap fun x => literal x.1

/-- Where they are; the first one, which is empty, at a null pointer. -/
def textAt (k : Nat) : Nat := [0, 4096, 4097, 4100, 4114, 4140, 4202].getD k 0

end T1ha.Examples

namespace T1ha.Props

open Model Examples

/-- x86 with 64 bits, and a big-endian MIPS with 32 bits. -/
example : (∃ s' t, Returns (toolVerify amd64 4744 20001 (thunk_StadtX amd64) 4096)
      (rom (imageOf amd64 Ref.refval_StadtX)) start false s' t) ∧
    (∃ s' t, Returns (toolVerify mips32 4744 20001 (thunk_StadtX mips32) 4096)
      (rom (imageOf mips32 Ref.refval_StadtX)) start false s' t) ∧
    ∃ s' t, Returns (toolVerify mips32 4744 20001 (thunk_wyhash_v7 mips32 .portable) 4096)
      (rom (imageOf mips32 Ref.refval_wyhash_v7)) start false s' t :=
  ⟨stadtx_verified (imageOf_mem _ (by decide +kernel)) (fun _ => by decide),
    stadtx_verified (imageOf_mem _ (by decide +kernel)) (fun _ => by decide),
    wyhash_verified (imageOf_mem _ (by decide +kernel)) _⟩

theorem selftest_returns (mum : WyMum) (at_ : Nat → Nat) (cases : List (String × U64 × U64)) (k : Nat) (failed : Bool)
    {s : Sys} (there : ∀ i x, cases[i]? = some x → Message cfg w s.ov (at_ (k + i)) (literal x.1))
    (size : ∀ x ∈ cases, x.1.utf8ByteSize = (literal x.1).length) :
    ∃ failed' s' t, Returns (wyhash_v7_selftest cfg mum at_ cases k failed) w s failed' s' t ∧ s'.ov = s.ov ∧
      (failed' = false ↔ failed = false ∧ ∀ x ∈ cases, Spec.wyhash Spec.wyp (literal x.1) x.2.1 = x.2.2) := by
  induction cases generalizing k s failed with
  | nil => exact ⟨failed, s, [], Returns.pure _, rfl, by simp⟩
  | cons x cases ih =>
    obtain ⟨text, seed, expected⟩ := x
    have hx := there 0 _ rfl
    obtain ⟨s1, t1, h1, h2, -⟩ := wyhash_v7_correct hx mum seed
    have hsz := size _ List.mem_cons_self
    simp only [] at hsz
    obtain ⟨failed', s2, t2, h3, h4, h5⟩ := ih (k + 1) (failed || Spec.wyhash Spec.wyp (literal text) seed != expected)
      (s := s1) (fun i x hi => by
        have := there (i + 1) x (by simpa using hi)
        rw [h2]
        rwa [show k + (i + 1) = k + 1 + i by omega] at this) (fun x hx => size x (List.mem_cons_of_mem _ hx))
    refine ⟨failed', s2, t2 ++ t1, ?_, h4.trans h2, ?_⟩
    · unfold wyhash_v7_selftest
      rw [← hsz] at h1
      exact Returns.bind h1 h3
    · rw [h5, List.forall_mem_cons]
      simp [and_assoc]

/-- C74: the self-test of wyhash, with any texts and any expected values, fails if and only if one of the values is not the
expected one. -/
theorem wyhash_selftest_correct (mum : WyMum) (at_ : Nat → Nat) (cases : List (String × U64 × U64))
    (there : ∀ i x, cases[i]? = some x → Message cfg w s.ov (at_ i) (literal x.1))
    (size : ∀ x ∈ cases, x.1.utf8ByteSize = (literal x.1).length) :
    ∃ failed s' t, Returns (wyhash_v7_selftest cfg mum at_ cases 0 false) w s failed s' t ∧ s'.ov = s.ov ∧
      (failed = false ↔ ∀ x ∈ cases, Spec.wyhash Spec.wyp (literal x.1) x.2.1 = x.2.2) := by
  obtain ⟨f, s', t, h1, h2, h3⟩ := selftest_returns (cfg := cfg) (w := w) (s := s) mum at_ cases 0 false
    (fun i x hi => by rw [Nat.zero_add]; exact there i x hi) size
  exact ⟨f, s', t, h1, h2, by simpa using h3⟩

/-- C74: the self-test of wyhash (its seven texts, each at any address) succeeds on every machine, with every
compiler. -/
theorem wyhash_selftest_succeeds (mum : WyMum) (at_ : Nat → Nat)
    (there : ∀ i x, wyhash_v7_cases[i]? = some x → Message cfg w s.ov (at_ i) (literal x.1)) :
    ∃ s' t, Returns (wyhash_v7_selftest cfg mum at_ wyhash_v7_cases 0 false) w s false s' t := by
  obtain ⟨f, s', t, h, -, hf⟩ := wyhash_selftest_correct (cfg := cfg) (w := w) (s := s) mum at_ wyhash_v7_cases there
    (by decide +kernel)
  have hf := hf.2 values_wyhash_texts
  subst hf
  exact ⟨s', t, h⟩

/-- All texts in memory. -/
example : ∃ s' t, Returns (wyhash_v7_selftest mips32 .portable textAt wyhash_v7_cases 0 false) (rom texts) start false
    s' t := by
  refine wyhash_selftest_succeeds _ _ fun i x hi => ?_
  have hall : ∀ i < 7, ∀ x ∈ wyhash_v7_cases[i]?, (literal x.1).length ≤ 80 ∧ textAt i ≤ 4202 ∧
      (literal x.1 = [] ∨ 4096 ≤ textAt i ∧
        (texts.drop (textAt i - 4096)).take (literal x.1).length = literal x.1) := by decide +kernel
  have hi7 : i < 7 := by
    rcases Nat.lt_or_ge i 7 with h | h
    · exact h
    · rw [List.getElem?_eq_none (by exact h)] at hi; exact absurd hi (by simp)
  obtain ⟨h1, h2, h3⟩ := hall i hi7 x hi
  refine message_of_holds (by omega) ?_ (Nat.lt_of_le_of_lt (Nat.add_le_add h2 h1) (by decide))
  rcases h3 with h3 | ⟨h3, h4⟩
  · rw [h3]; intro t j v hv; simp at hv
  · have := ((rom_holds texts (by decide +kernel)).drop (textAt i - 4096)).take (literal x.1).length
    rwa [h4, show 4096 + (textAt i - 4096) = textAt i by omega] at this

/-- A wrong expected value is noticed, also if it is not the last one. -/
example : ∃ s' t, Returns (wyhash_v7_selftest amd64 .portable (fun _ => 0) [("", 0, 0), ("", 0, 0x42bc986dc5eec4d3)] 0 false)
    (rom texts) start true s' t := by
  obtain ⟨f, s', t, h1, -, h3⟩ := wyhash_selftest_correct (cfg := amd64) (w := rom texts) (s := start) .portable (fun _ => 0)
    [("", 0, 0), ("", 0, 0x42bc986dc5eec4d3)] (fun i x hi => by
      have : x.1 = "" := by
        have := List.mem_of_getElem? hi
        simp only [List.mem_cons, List.not_mem_nil, or_false] at this
        rcases this with rfl | rfl <;> rfl
      rw [this]
      exact ⟨fun t j v hv => by simp [literal] at hv, by decide, by decide⟩) (by decide +kernel)
  have : f ≠ false := fun hf => absurd (h3.1 hf _ List.mem_cons_self) (by decide +kernel)
  rw [Bool.eq_true_of_not_eq_false this] at h1
  exact ⟨s', t, h1⟩

end T1ha.Props
