import Verif.Proofs.RaceTail

/-!
# No function reads a byte of its message twice

Each function starts when no byte at or above its pointer has been read, and this remains so while the
pointer moves on.
-/

namespace T1ha.Model

variable {w u : World} {B U : Nat → Prop} {α β : Type} {cfg : Cfg} {e : Endian} {al : Aligness} {p : Nat}

theorem Race.fetch64 (h : ∀ a, B a → range p 8 a → U a) :
    Race w u B U (Model.fetch64 cfg e al p) (Left U p 8) := by
  unfold Model.fetch64
  cases e <;> cases al <;> race_leaf

theorem Race.fetch32 (h : ∀ a, B a → range p 4 a → U a) :
    Race w u B U (Model.fetch32 cfg e al p) (Left U p 4) := by
  unfold Model.fetch32
  cases e <;> cases al <;> race_leaf

theorem Race.loadu (h : ∀ a, B a → range p 16 a → U a) : Race w u B U (Model.loadu p) (Left U p 16) := by
  unfold Model.loadu
  race

macro_rules | `(tactic| race_leaf) => `(tactic| (with_reducible refine Race.fetch64 ?_) <;> race_side)
macro_rules | `(tactic| race_leaf) => `(tactic| (with_reducible refine Race.fetch32 ?_) <;> race_side)
macro_rules | `(tactic| race_leaf) => `(tactic| (with_reducible refine Race.loadu ?_) <;> race_side)

theorem Race.lastTail64 {len : Nat} (hl : len < 2 ^ cfg.bits) (hb : e = .big → cfg.Buildable) :
    Race w u B (Above p) (Model.tail64 cfg e al p len) Gone :=
  Race.tail64 (k := if len % 8 = 0 then 8 else len % 8) (by split <;> omega) hl
    (fun a _ hr => hr.1) (by split <;> omega) (by split <;> omega) hb

theorem Race.lastTail64u {len : Nat} (hl : len < 2 ^ cfg.bits) :
    Race w u B (Above p) (Model.tail64_le_unaligned cfg p len) Gone :=
  Race.lastTail64 (e := .little) (al := .unaligned) hl (fun h => nomatch h)

theorem Race.lastTail32 {len : Nat} (hl : len < 2 ^ cfg.bits) :
    Race w u B (Above p) (Model.tail32 cfg e al p len) Gone :=
  Race.tail32 (k := if len % 4 = 0 then 4 else len % 4) (by split <;> omega) hl
    (fun a _ hr => hr.1) (by split <;> omega) (by split <;> omega)

/-! ## t1ha1 -/

theorem Race.t1ha1_loop (detent fuel : Nat) {x : T1ha1Vars} {v : Nat} (hv : x.v = v) :
    Race w u B (Above v) (Model.t1ha1_loop cfg e al detent fuel x) (fun y => Above y.v) := by
  subst hv
  induction fuel generalizing x with
  | zero => exact Race.fail
  | succ fuel ih =>
    unfold Model.t1ha1_loop
    race
    refine ih.pre ?_
    race_side

theorem Race.t1ha1_tail {a b : U64} {v len : Nat} (hl : len < 2 ^ cfg.bits) (hb : e = .big → cfg.Buildable) :
    Race w u B (Above v) (Model.t1ha1_tail cfg e al a b v len) Gone := by
  unfold Model.t1ha1_tail
  refine Race.bind (V := fun x => Above x.2) (by race) ?_
  rintro ⟨b, v⟩
  refine Race.bind (V := fun x => Above x.2) (by race) ?_
  rintro ⟨a, v⟩
  refine Race.bind (V := fun x => Above x.2) (by race) ?_
  rintro ⟨b, v⟩
  refine Race.bind (V := Gone) (Race.ite (fun _ => (Race.lastTail64 hl hb).bind fun _ => ?_) fun _ => ?_) fun _ => ?_
  all_goals race

theorem Race.t1ha1_body {data len : Nat} {seed : U64} (hl : len < 2 ^ cfg.bits) (hb : e = .big → cfg.Buildable) :
    Race w u B (Above data) (Model.t1ha1_body cfg e al data len seed) Gone := by
  unfold Model.t1ha1_body
  refine Race.ite (fun _ => ?_) fun _ => Race.t1ha1_tail hl hb
  refine Race.afterAdd <| Race.afterSub fun _ => Race.bind (Race.t1ha1_loop _ _ (v := data) ?_) fun x => ?_
  · rfl
  exact Race.t1ha1_tail (Nat.lt_of_le_of_lt Nat.and_le_left hl) hb

theorem Race.t1ha1 {data len : Nat} {seed : U64} (hl : len < 2 ^ cfg.bits) (hb : e = .big → cfg.Buildable) :
    Race w u B (Above data) (Model.t1ha1 cfg e data len seed) Gone := by
  unfold Model.t1ha1
  exact Race.ite (fun _ => Race.t1ha1_body hl hb) fun _ =>
    Race.ite (fun _ => Race.t1ha1_body hl hb) fun _ => Race.t1ha1_body hl hb

/-! ## t1ha0_32 -/

theorem Race.t1ha0_loop (detent fuel : Nat) {x : T1ha0Vars} {v : Nat} (hv : x.v = v) :
    Race w u B (Above v) (Model.t1ha0_loop cfg e al detent fuel x) (fun y => Above y.v) := by
  subst hv
  induction fuel generalizing x with
  | zero => exact Race.fail
  | succ fuel ih =>
    unfold Model.t1ha0_loop
    race
    refine ih.pre ?_
    race_side

theorem Race.t1ha0_tail {a b : U32} {v len : Nat} (hl : len < 2 ^ cfg.bits) :
    Race w u B (Above v) (Model.t1ha0_tail cfg e al a b v len) Gone := by
  unfold Model.t1ha0_tail
  refine Race.bind (V := fun x => Above x.2.2) (by race) ?_
  rintro ⟨a, b, v⟩
  refine Race.bind (V := fun x => Above x.2.2) (by race) ?_
  rintro ⟨a, b, v⟩
  refine Race.bind (V := fun x => Above x.2.2) (by race) ?_
  rintro ⟨a, b, v⟩
  refine Race.bind (V := Gone) (Race.ite (fun _ => (Race.lastTail32 hl).bind fun _ => ?_) fun _ => ?_) fun _ => ?_
  all_goals race

theorem Race.t1ha0_body {data len : Nat} {seed : U64} (hl : len < 2 ^ cfg.bits) :
    Race w u B (Above data) (Model.t1ha0_body cfg e al data len seed) Gone := by
  unfold Model.t1ha0_body
  refine Race.ite (fun _ => ?_) fun _ => Race.t1ha0_tail hl
  refine Race.afterAdd <| Race.afterSub fun _ => Race.bind (Race.t1ha0_loop _ _ (v := data) ?_) fun x => ?_
  · rfl
  exact Race.t1ha0_tail (Nat.lt_of_le_of_lt Nat.and_le_left hl)

theorem Race.t1ha0_32 {data len : Nat} {seed : U64} (hl : len < 2 ^ cfg.bits) :
    Race w u B (Above data) (Model.t1ha0_32 cfg e data len seed) Gone := by
  unfold Model.t1ha0_32
  exact Race.ite (fun _ => Race.t1ha0_body hl) fun _ =>
    Race.ite (fun _ => Race.t1ha0_body hl) fun _ => Race.t1ha0_body hl

/-! ## t1ha2 -/

theorem Race.t1ha2_UPDATE {s : State256} {v : Nat} (h : ∀ a, B a → range v 32 a → U a) :
    Race w u B U (Model.t1ha2_UPDATE cfg al s v) (Left U v 32) := by
  unfold Model.t1ha2_UPDATE
  race

macro_rules | `(tactic| race_leaf) => `(tactic| (with_reducible refine Race.t1ha2_UPDATE ?_) <;> race_side)

theorem Race.t1ha2_loop (detent fuel : Nat) (s : State256) (v : Nat) :
    Race w u B (Above v) (Model.t1ha2_loop cfg al detent fuel s v) (fun y => Above y.2) := by
  induction fuel generalizing s v with
  | zero => exact Race.fail
  | succ fuel ih =>
    unfold Model.t1ha2_loop
    race
    refine (ih _ _).pre ?_
    race_side

theorem Race.t1ha2_LOOP (s : State256) (data len : Nat) :
    Race w u B (Above data) (Model.t1ha2_LOOP cfg al s data len) (fun y => Above y.2) := by
  unfold Model.t1ha2_LOOP
  exact Race.afterAdd <| Race.afterSub fun _ => Race.t1ha2_loop _ _ _ _

theorem Race.t1ha2_TAIL_AB_mix {s : State256} {v len : Nat} (hl : len < 2 ^ cfg.bits) :
    Race w u B (Above v) (Model.t1ha2_TAIL_AB_mix cfg al s v len) Gone := by
  unfold Model.t1ha2_TAIL_AB_mix
  refine Race.bind (V := fun x => Above x.2) (by race) ?_
  rintro ⟨s, v⟩
  refine Race.bind (V := fun x => Above x.2) (by race) ?_
  rintro ⟨s, v⟩
  refine Race.bind (V := fun x => Above x.2) (by race) ?_
  rintro ⟨s, v⟩
  refine Race.ite (fun _ => (Race.lastTail64 (e := .little) hl (fun h => nomatch h)).bind fun _ => ?_) fun _ => ?_
  all_goals race

theorem Race.t1ha2_TAIL_ABCD_mix {s : State256} {v len : Nat} (hl : len < 2 ^ cfg.bits) :
    Race w u B (Above v) (Model.t1ha2_TAIL_ABCD_mix cfg al s v len) Gone := by
  unfold Model.t1ha2_TAIL_ABCD_mix
  refine Race.bind (V := fun x => Above x.2) (by race) ?_
  rintro ⟨s, v⟩
  refine Race.bind (V := fun x => Above x.2) (by race) ?_
  rintro ⟨s, v⟩
  refine Race.bind (V := fun x => Above x.2) (by race) ?_
  rintro ⟨s, v⟩
  refine Race.ite (fun _ => (Race.lastTail64 (e := .little) hl (fun h => nomatch h)).bind fun _ => ?_) fun _ => ?_
  all_goals race

theorem Race.t1ha2_TAIL_AB {s : State256} {v len : Nat} (hl : len < 2 ^ cfg.bits) :
    Race w u B (Above v) (Model.t1ha2_TAIL_AB cfg al s v len) Gone := by
  unfold Model.t1ha2_TAIL_AB
  refine (Race.t1ha2_TAIL_AB_mix hl).bind fun _ => ?_
  race

theorem Race.t1ha2_TAIL_ABCD {s : State256} {v len extra : Nat} (hl : len < 2 ^ cfg.bits) :
    Race w u B (Above v) (Model.t1ha2_TAIL_ABCD cfg al s v len extra) Gone := by
  unfold Model.t1ha2_TAIL_ABCD
  refine (Race.t1ha2_TAIL_ABCD_mix hl).bind fun _ => ?_
  race

theorem Race.t1ha2_atonce {g : State256} {data len : Nat} {seed : U64} (hl : len < 2 ^ cfg.bits) :
    Race w u B (Above data) (Model.t1ha2_atonce cfg g data len seed) Gone := by
  have body : ∀ al, Race w u B (Above data) (Model.t1ha2_atonce_body cfg al g data len seed) Gone := by
    intro al
    unfold Model.t1ha2_atonce_body
    refine Race.ite (fun _ => ?_) fun _ => Race.t1ha2_TAIL_AB hl
    refine (Race.t1ha2_LOOP _ _ _).bind ?_
    rintro ⟨s, v⟩
    exact Race.t1ha2_TAIL_AB (Nat.lt_of_le_of_lt Nat.and_le_left hl)
  unfold Model.t1ha2_atonce
  exact Race.ite (fun _ => body _) fun _ => Race.ite (fun _ => body _) fun _ => body _

theorem Race.t1ha2_atonce128 {g : State256} {extra data len : Nat} {seed : U64} (hl : len < 2 ^ cfg.bits) :
    Race w u B (Above data) (Model.t1ha2_atonce128 cfg g extra data len seed) Gone := by
  have body : ∀ al, Race w u B (Above data) (Model.t1ha2_atonce128_body cfg al g extra data len seed) Gone := by
    intro al
    unfold Model.t1ha2_atonce128_body
    refine Race.ite (fun _ => ?_) fun _ => Race.t1ha2_TAIL_ABCD hl
    refine (Race.t1ha2_LOOP _ _ _).bind ?_
    rintro ⟨s, v⟩
    exact Race.t1ha2_TAIL_ABCD (Nat.lt_of_le_of_lt Nat.and_le_left hl)
  unfold Model.t1ha2_atonce128
  exact Race.ite (fun _ => body _) fun _ => Race.ite (fun _ => body _) fun _ => body _

/-! ## The AES functions -/

theorem Race.aes_tail {a b : U64} {v len : Nat} (hl : len < 2 ^ cfg.bits) :
    Race w u B (Above v) (Model.aes_tail cfg a b v len) Gone := by
  unfold Model.aes_tail
  refine Race.bind (V := fun x => Above x.2.2) (by race) ?_
  rintro ⟨a, b, v⟩
  refine Race.bind (V := fun x => Above x.2.2) (by race) ?_
  rintro ⟨a, b, v⟩
  refine Race.bind (V := fun x => Above x.2.2) (by race) ?_
  rintro ⟨a, b, v⟩
  refine Race.bind (V := Gone) (Race.ite (fun _ => (Race.lastTail64u hl).bind fun _ => ?_) fun _ => ?_) fun _ => ?_
  all_goals race

theorem Race.aes_a_loop (detent fuel : Nat) (x y : U128) (v : Nat) :
    Race w u B (Above v) (Model.aes_a_loop cfg detent fuel x y v) (fun z => Above z.2.2) := by
  induction fuel generalizing x y v with
  | zero => exact Race.fail
  | succ fuel ih =>
    unfold Model.aes_a_loop
    race
    refine (ih _ _ _).pre ?_
    race_side

theorem Race.aes_pair (x y : U128) (v : Nat) :
    Race w u B (Above v) (Model.aes_pair cfg x y v) (fun z => Above z.2.2) := by
  unfold Model.aes_pair
  race

theorem Race.aes_a_rest (x y : U128) (v len : Nat) :
    Race w u B (Above v) (Model.aes_a_rest cfg x y v len) (fun z => Above z.2.2) := by
  unfold Model.aes_a_rest
  refine Race.bind (V := fun x => Above x.2.2) (Race.ite (fun _ => ?_) fun _ => ?_) ?_
  · refine (Race.aes_pair _ _ _).bind ?_
    rintro ⟨x, y, v⟩
    exact Race.aes_pair _ _ _
  · race
  rintro ⟨x, y, v⟩
  refine Race.bind (V := fun x => Above x.2.2) (Race.ite (fun _ => Race.aes_pair _ _ _) fun _ => ?_) ?_
  · race
  rintro ⟨x, y, v⟩
  race

theorem Race.t1ha0_ia32aes_a {ac : AesCfg} {data len : Nat} {seed : U64} (hl : len < 2 ^ cfg.bits) :
    Race w u B (Above data) (Model.t1ha0_ia32aes_a cfg ac data len seed) Gone := by
  unfold Model.t1ha0_ia32aes_a
  refine Race.ite (fun _ => ?_) fun _ => Race.aes_tail hl
  refine Race.afterAdd <| Race.afterSub fun _ => (Race.aes_a_loop _ _ _ _ _).bind ?_
  rintro ⟨x, y, v⟩
  refine (Race.aes_a_rest _ _ _ _).bind ?_
  rintro ⟨x, y, v⟩
  exact Race.aes_tail (Nat.lt_of_le_of_lt Nat.and_le_left hl)

variable {W : β → Nat → Prop}

theorem Race.afterDec {t : U128} {v : Nat} {k : U128 × Nat → M β}
    (hk : ∀ t, Race w u B (Above (v + 16)) (k (t, v + 16)) W) :
    Race w u B (Above v) (aes_b_dec cfg t v >>= k) W := by
  unfold Model.aes_b_dec
  simp only [bind_assoc, pure_bind]
  race
  refine (hk _).pre ?_
  race_side

theorem Race.afterPair {x y : U128} {v : Nat} {k : U128 × U128 × Nat → M β}
    (hk : ∀ x y, Race w u B (Above (v + 32)) (k (x, y, v + 32)) W) :
    Race w u B (Above v) (Model.aes_pair cfg x y v >>= k) W := by
  unfold Model.aes_pair
  simp only [bind_assoc, pure_bind]
  race
  refine (hk _ _).pre ?_
  race_side

theorem Race.aes_b_loop {detent fuel : Nat} {x y salt : U128} {v : Nat} (hv : v + 112 < detent)
    (hd : (detent - v) % 32 = 0) {k : U128 × U128 × Nat → M β}
    (hk : ∀ x y v, v ≤ detent → (detent - v) % 32 = 0 → Race w u B (Above v) (k (x, y, v)) W) :
    Race w u B (Above v) (Model.aes_b_loop cfg detent fuel x y salt v >>= k) W := by
  induction fuel generalizing x y salt v with
  | zero => exact Race.fail
  | succ fuel ih =>
    unfold Model.aes_b_loop
    simp only [bind_assoc]
    refine Race.iterate.bind fun _ => ?_
    refine Race.bind (V := Left (Above v) v 16) (Race.loadu (by race_side)) fun _ => Race.afterAdd ?_
    refine Race.pre (U := Above (v + 16)) ?_ (by race_side)
    refine Race.afterDec fun _ => ?_
    refine Race.afterDec fun _ => ?_
    refine Race.afterDec fun _ => ?_
    refine Race.afterDec fun _ => ?_
    refine Race.afterDec fun _ => ?_
    refine Race.afterDec fun _ => ?_
    refine Race.afterDec fun _ => Race.afterAdd ?_
    dsimp only
    split
    · exact ih (by omega) (by omega)
    · simp only [pure_bind]
      exact hk _ _ _ (by omega) (by omega)

theorem Race.aes_b_pairs {detent fuel : Nat} {x y : U128} {v : Nat} (hv : v ≤ detent)
    (hd : (detent - v) % 32 = 0) {k : U128 × U128 × Nat → M β}
    (hk : ∀ x y, Race w u B (Above detent) (k (x, y, detent)) W) :
    Race w u B (Above v) (Model.aes_b_pairs cfg detent fuel x y v >>= k) W := by
  induction fuel generalizing x y v with
  | zero => exact Race.fail
  | succ fuel ih =>
    unfold Model.aes_b_pairs
    split
    · simp only [bind_assoc]
      refine Race.iterate.bind fun _ => Race.afterPair fun _ _ => ?_
      exact ih (by omega) (by omega)
    · simp only [pure_bind]
      obtain rfl : v = detent := by omega
      exact hk _ _

theorem Race.t1ha0_ia32aes_avx2 {ac : AesCfg} {data len : Nat} {seed : U64} (hl : len < 2 ^ cfg.bits) :
    Race w u B (Above data) (Model.t1ha0_ia32aes_avx2 cfg ac data len seed) Gone := by
  unfold Model.t1ha0_ia32aes_avx2
  refine Race.ite (fun _ => Race.afterAdd ?_) fun _ => Race.aes_tail hl
  have hmask : (aes_b_mask cfg len) % 32 = if len &&& 16 ≠ 0 then 16 else 0 := by
    have h32 : len % 2 ^ (if cfg.ulong64 then 64 else 32) % 32 = len % 32 :=
      Nat.mod_mod_of_dvd _ (by split <;> decide)
    rw [aes_b_mask_eq, if_congr (and_16 len) rfl rfl]
    generalize len % 2 ^ (if cfg.ulong64 then 64 else 32) = n at *
    split <;> omega
  have hrest : ∀ (x y : U128) (v : Nat), v ≤ data + aes_b_mask cfg len →
      (data + aes_b_mask cfg len - v) % 32 = 0 → Race w u B (Above v) (do
        let v7 ← ptrAdd cfg v (7 * 16)
        let (x, y, v) ← (if v7 < data + aes_b_mask cfg len then
            Model.aes_b_loop cfg (data + aes_b_mask cfg len) (data + aes_b_mask cfg len - v) x y y v
          else Pure.pure (x, y, v))
        let (x, y, _) ← Model.aes_b_pairs cfg (data + aes_b_mask cfg len) (data + aes_b_mask cfg len - v + 1) x y v
        let x := X86.add64 (X86.aesdec x (X86.aesenc y x)) y
        let (a, b) := aes_extract ac x
        Model.aes_tail cfg a b (data + aes_b_mask cfg len) (len &&& 15)) Gone := by
    intro x y v hv hd
    refine Race.afterAdd ?_
    have hlast : ∀ (x y : U128) (v : Nat) (fuel : Nat), v ≤ data + aes_b_mask cfg len →
      (data + aes_b_mask cfg len - v) % 32 = 0 → Race w u B (Above v) (do
        let (x, y, _) ← Model.aes_b_pairs cfg (data + aes_b_mask cfg len) fuel x y v
        let x := X86.add64 (X86.aesdec x (X86.aesenc y x)) y
        let (a, b) := aes_extract ac x
        Model.aes_tail cfg a b (data + aes_b_mask cfg len) (len &&& 15)) Gone := fun x y v fuel hv hd =>
      Race.aes_b_pairs hv hd fun _ _ => Race.aes_tail (Nat.lt_of_le_of_lt Nat.and_le_left hl)
    split
    · exact Race.aes_b_loop (by omega) hd fun x y v hv hd => hlast x y v _ hv hd
    · exact hlast x y v _ hv hd
  dsimp only
  split
  · rename_i hc
    rw [if_pos hc] at hmask
    simp only [bind_assoc, pure_bind]
    refine Race.bind (V := Left (Above data) data 16) (Race.loadu (by race_side)) fun _ => Race.afterAdd ?_
    refine Race.pre (U := Above (data + 16)) ?_ (by race_side)
    exact hrest _ _ _ (by omega) (by omega)
  · rename_i hc
    rw [if_neg hc] at hmask
    exact hrest _ _ _ (by omega) (by omega)

/-- A one-shot function looks at each byte of its message for the first time when it reads it, and what it
reads a second time does not matter to it. -/
theorem OneShot.race (f : OneShot) {data len : Nat} {seed : U64} (hl : len < 2 ^ cfg.bits)
    (hb : f = .t1ha1_be → cfg.Buildable) : Race w u B (Above data) (f.run cfg data len seed) Gone := by
  cases f with
  | t1ha1_le => exact Race.t1ha1 hl (fun h => nomatch h)
  | t1ha1_be => exact Race.t1ha1 hl (fun _ => hb rfl)
  | t1ha2_atonce _ => exact Race.t1ha2_atonce hl
  | t1ha2_atonce128 _ _ => exact Race.t1ha2_atonce128 hl
  | t1ha0_32le => exact Race.t1ha0_32 hl
  | t1ha0_32be => exact Race.t1ha0_32 hl
  | t1ha0_ia32aes_noavx _ => exact Race.t1ha0_ia32aes_a hl
  | t1ha0_ia32aes_avx _ => exact Race.t1ha0_ia32aes_a hl
  | t1ha0_ia32aes_avx2 _ => exact Race.t1ha0_ia32aes_avx2 hl

end T1ha.Model
