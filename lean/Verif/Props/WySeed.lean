import Verif.Props.Others

/-!
# In wyhash, the seed is one more word of the message: C99
-/

namespace T1ha.Props

open Model Examples

variable {cfg cfg' : Cfg} {w w' : World} {s s' : Sys} {data data' : Nat}

/-- 8 bytes as a number -/
def wordOf (v : List Byte) : U64 := BitVec.ofNat 64 (leVal v)

theorem xor_exchange (a b c d : U64) : b ^^^ (a ^^^ d) = c ^^^ ((a ^^^ (c ^^^ b)) ^^^ d) := by
  rw [BitVec.xor_assoc a, BitVec.xor_assoc c, ← BitVec.xor_assoc a, BitVec.xor_comm a c, BitVec.xor_assoc c,
    ← BitVec.xor_assoc c c, BitVec.xor_self, BitVec.zero_xor, ← BitVec.xor_assoc a, BitVec.xor_comm a b, BitVec.xor_assoc]

theorem wyhash_exchange (k : Spec.WySecret) {u v v' r : List Byte} (hu : u.length = 8) (hv : v.length = 8)
    (hv' : v'.length = 8) (hr : r.length ≤ 48) (seed : U64) :
    Spec.wyhash k (u ++ v' ++ r) seed = Spec.wyhash k (u ++ v ++ r) (seed ^^^ (wordOf v ^^^ wordOf v')) := by
  have hlen : ∀ x : List Byte, x.length = 8 → (u ++ x ++ r).length = 16 + r.length := fun x hx => by
    simp only [List.length_append]; omega
  have hn : (16 + r.length - 1) / 64 = 0 := by omega
  unfold Spec.wyhash Spec.len64
  simp only [hlen v hv, hlen v' hv', hn, Nat.mul_zero, List.drop_zero, chunks, List.foldl_nil, if_true]
  rcases Nat.eq_zero_or_pos r.length with h0 | h0
  · obtain rfl : r = [] := List.length_eq_zero_iff.1 h0
    have hl : ∀ x : List Byte, x.length = 8 → Spec.wyLast (u ++ x ++ []) = (wordOf u, wordOf x) := fun x hx => by
      unfold Spec.wyLast
      rw [List.append_nil, List.length_append, if_pos (by omega), List.take_left' hu, hu, hx, List.drop_left' (by rw [hu])]
      rfl
    simp only [List.length_nil, Nat.add_zero, show (16 - 1) / 16 = 0 from rfl, chunks, List.foldl_nil, Nat.mul_zero,
      List.drop_zero, hl v hv, hl v' hv']
    rw [xor_exchange seed (wordOf v') (wordOf v)]
  · obtain ⟨j, hj⟩ : ∃ j, (16 + r.length - 1) / 16 = j + 1 := ⟨(16 + r.length - 1) / 16 - 1, by omega⟩
    have hw : ∀ x : List Byte, x.length = 8 → (u ++ x ++ r).take 16 = u ++ x ∧ (u ++ x ++ r).drop 16 = r := fun x hx =>
      ⟨List.take_left' (by rw [List.length_append]; omega), List.drop_left' (by rw [List.length_append]; omega)⟩
    have hd : ∀ x : List Byte, x.length = 8 → (u ++ x ++ r).drop (16 * (j + 1)) = r.drop (16 * j) := fun x hx => by
      rw [Nat.mul_succ, Nat.add_comm, ← List.drop_drop, (hw x hx).2]
    have hb : ∀ x : List Byte, x.length = 8 → ∀ t, Spec.wyAbsorb16 k t (u ++ x) =
        Spec.mux (wordOf u ^^^ k.s1) (wordOf x ^^^ t) := fun x hx t => by
      have e0 : Spec.word64 .little (u ++ x) 0 = wordOf u := by
        unfold Spec.word64
        rw [Nat.mul_zero, List.drop_zero, List.take_left' hu]
        rfl
      have e1 : Spec.word64 .little (u ++ x) 1 = wordOf x := by
        unfold Spec.word64
        rw [Nat.mul_one, List.drop_left' hu, List.take_of_length_le (by omega)]
        rfl
      unfold Spec.wyAbsorb16
      simp only [e0, e1]
    simp only [hj, chunks, List.foldl_cons, (hw v hv).1, (hw v hv).2, (hw v' hv').1, (hw v' hv').2, hd v hv, hd v' hv',
      hb v hv, hb v' hv']
    rw [xor_exchange seed (wordOf v') (wordOf v)]

/-- C99: for messages of 16 to 64 bytes, a change of the second word of 8 bytes is the same change of the seed, whatever
the seed, the secret numbers and the other bytes are. -/
theorem wyhash_seed_is_word {u v v' r : List Byte} (hu : u.length = 8) (hv : v.length = 8) (hv' : v'.length = 8)
    (hr : r.length ≤ 48) (h : Message cfg w s.ov data (u ++ v ++ r)) (h' : Message cfg' w' s'.ov data' (u ++ v' ++ r))
    (mum mum' : WyMum) (seed : U64) (secret : Fin 5 → U64) :
    ∃ y z t z' t',
      Returns (wyhash cfg mum data (u ++ v ++ r).length (seed ^^^ (wordOf v ^^^ wordOf v')) secret) w s y z t ∧
      Returns (wyhash cfg' mum' data' (u ++ v' ++ r).length seed secret) w' s' y z' t' := by
  obtain ⟨z, t, h1, _⟩ := wyhash_correct h mum (seed ^^^ (wordOf v ^^^ wordOf v')) secret
  obtain ⟨z', t', h2, _⟩ := wyhash_correct h' mum' seed secret
  rw [wyhash_exchange _ hu hv hv' hr] at h2
  exact ⟨_, z, t, z', t', h1, h2⟩

theorem wyhash_exchange_long (k : Spec.WySecret) {c c' r : List Byte} {d : U64} (hc : c.length = 64) (hc' : c'.length = 64)
    (hr : r ≠ []) (heven : ∀ i < 4, wordOf ((c'.drop (8 * (2 * i))).take 8) = wordOf ((c.drop (8 * (2 * i))).take 8))
    (hodd : ∀ i < 4, wordOf ((c'.drop (8 * (2 * i + 1))).take 8) = wordOf ((c.drop (8 * (2 * i + 1))).take 8) ^^^ d)
    (seed : U64) : Spec.wyhash k (c' ++ r) seed = Spec.wyhash k (c ++ r) (seed ^^^ d) := by
  have h0 : 0 < r.length := List.length_pos_iff.2 hr
  obtain ⟨j, hj⟩ : ∃ j, (64 + r.length - 1) / 64 = j + 1 := ⟨(64 + r.length - 1) / 64 - 1, by omega⟩
  have hlen : ∀ x : List Byte, x.length = 64 → (x ++ r).length = 64 + r.length := fun x hx => by
    rw [List.length_append, hx]
  have hd : ∀ x : List Byte, x.length = 64 → (x ++ r).drop (64 * (j + 1)) = r.drop (64 * j) := fun x hx => by
    rw [Nat.mul_succ, Nat.add_comm, ← List.drop_drop, List.drop_left' hx]
  have he : ∀ i < 4, Spec.word64 .little c' (2 * i) = Spec.word64 .little c (2 * i) := heven
  have ho : ∀ i < 4, Spec.word64 .little c' (2 * i + 1) = Spec.word64 .little c (2 * i + 1) ^^^ d := hodd
  have hx : ∀ a b : U64, a ^^^ d ^^^ (seed ^^^ b) = a ^^^ (seed ^^^ d ^^^ b) := fun a b => by
    rw [BitVec.xor_assoc a, ← BitVec.xor_assoc d, BitVec.xor_comm d]
  have hstep : Spec.wyAbsorb64 k (seed ^^^ k.s0, seed ^^^ k.s0) c' =
      Spec.wyAbsorb64 k (seed ^^^ d ^^^ k.s0, seed ^^^ d ^^^ k.s0) c := by
    unfold Spec.wyAbsorb64
    simp only [he 0 (by decide), he 1 (by decide), he 2 (by decide), he 3 (by decide), ho 0 (by decide), ho 1 (by decide),
      ho 2 (by decide), ho 3 (by decide), hx, Nat.mul_zero, Nat.mul_one, Nat.zero_add, show 2 * 2 = 4 from rfl,
      show 2 * 3 = 6 from rfl] at he ho ⊢
  unfold Spec.wyhash Spec.len64
  simp only [hlen c hc, hlen c' hc', hj, chunks, List.foldl_cons, List.take_left' hc, List.take_left' hc',
    List.drop_left' hc, List.drop_left' hc', hd c hc, hd c' hc', hstep]

/-- C99: for messages of more than 64 bytes, the same change of the second, fourth, sixth and eighth word is this change of
the seed. -/
theorem wyhash_seed_is_words {c c' r : List Byte} {d : U64} (hc : c.length = 64) (hc' : c'.length = 64) (hr : r ≠ [])
    (heven : ∀ i < 4, wordOf ((c'.drop (8 * (2 * i))).take 8) = wordOf ((c.drop (8 * (2 * i))).take 8))
    (hodd : ∀ i < 4, wordOf ((c'.drop (8 * (2 * i + 1))).take 8) = wordOf ((c.drop (8 * (2 * i + 1))).take 8) ^^^ d)
    (h : Message cfg w s.ov data (c ++ r)) (h' : Message cfg' w' s'.ov data' (c' ++ r))
    (mum mum' : WyMum) (seed : U64) (secret : Fin 5 → U64) :
    ∃ y z t z' t', Returns (wyhash cfg mum data (c ++ r).length (seed ^^^ d) secret) w s y z t ∧
      Returns (wyhash cfg' mum' data' (c' ++ r).length seed secret) w' s' y z' t' := by
  obtain ⟨z, t, h1, _⟩ := wyhash_correct h mum (seed ^^^ d) secret
  obtain ⟨z', t', h2, _⟩ := wyhash_correct h' mum' seed secret
  rw [wyhash_exchange_long _ hc hc' hr heven hodd] at h2
  exact ⟨_, z, t, z', t', h1, h2⟩

/-- 20 bytes -/
example (seed : U64) (secret : Fin 5 → U64) : ∃ y z t z' t',
    Returns (wyhash amd64 .int128 5001 20 (seed ^^^ 5) secret) (memory 4096 8192 5001 (msg 8 ++ [3, 0, 0, 0, 0, 0, 0, 0] ++ msg 4))
      start y z t ∧
    Returns (wyhash mips32 .portable 5001 20 seed secret) (memory 4096 8192 5001 (msg 8 ++ [6, 0, 0, 0, 0, 0, 0, 0] ++ msg 4))
      start y z' t' :=
  wyhash_seed_is_word (u := msg 8) (v := [3, 0, 0, 0, 0, 0, 0, 0]) (v' := [6, 0, 0, 0, 0, 0, 0, 0]) (r := msg 4) (by decide)
    (by decide) (by decide) (by decide) (message amd64 (by decide) (by decide) (by decide))
    (message mips32 (by decide) (by decide) (by decide)) .int128 .portable seed secret

/-- 65 bytes -/
example (seed : U64) (secret : Fin 5 → U64) : ∃ y z t z' t',
    Returns (wyhash amd64 .int128 5001 65 (seed ^^^ 7) secret) (memory 4096 8192 5001 (List.replicate 64 0 ++ [9])) start y z t ∧
    Returns (wyhash mips32 .portable 5001 65 seed secret)
      (memory 4096 8192 5001 ((List.replicate 4 (List.replicate 8 0 ++ [7, 0, 0, 0, 0, 0, 0, 0])).flatten ++ [9])) start y z' t' :=
  wyhash_seed_is_words (c := List.replicate 64 0) (r := [9])
    (c' := (List.replicate 4 (List.replicate 8 0 ++ [7, 0, 0, 0, 0, 0, 0, 0])).flatten) (by decide)
    (by decide) (by decide) (by decide +kernel) (by decide +kernel) (message amd64 (by decide) (by decide) (by decide))
    (message mips32 (by decide) (by decide) (by decide)) .int128 .portable seed secret

end T1ha.Props
