import Verif.Proofs.TallyStream
import Verif.Props.OneShot
import Verif.Props.Race

/-!
# How often each byte is read: C51

The functions make one pass over the message. Nothing here depends on what the memory holds, or on whether
it changes during the call.
-/

namespace T1ha.Props

open Model Examples

variable {cfg : Cfg} {w : World} {s s' : Sys} {page data len ctx : Nat} {v : U64} {t : List Ev} {x y : U64}
  {img fed m : List Byte}

theorem span_of_returns (f : OneShot) {a : Nat} {seed : U64} (fits : len < 2 ^ cfg.bits)
    (ulong : ∀ ac, f = .t1ha0_ia32aes_avx2 ac → len < 2 ^ (if cfg.ulong64 then 64 else 32))
    (ret : Returns (f.run cfg data len seed) w s v s' t) :
    Span cfg f.word a data (data + len) (readsOf a t : Nat) := by
  obtain ⟨t', h1, h2⟩ := (f.tally (x := a) fits ulong).run _ _ _ _ ret.1
  rw [ret.2] at h1
  rwa [List.append_cancel_right h1]

/-- C51: whenever a one-shot function returns, it has read each byte of the message once, but for the last
8 bytes (the last 4 ones, for the 32-bit functions), which it may have read twice; and it has read no other
byte twice. -/
theorem read_at_most_twice (f : OneShot) {seed : U64} (fits : len < 2 ^ cfg.bits)
    (ulong : ∀ ac, f = .t1ha0_ia32aes_avx2 ac → len < 2 ^ (if cfg.ulong64 then 64 else 32))
    (ret : Returns (f.run cfg data len seed) w s v s' t) (a : Nat) :
    (data ≤ a → a + f.word < data + len → readsOf a t = 1) ∧
    (data ≤ a → a < data + len → readsOf a t = 1 ∨ readsOf a t = 2) ∧
    (a < data ∨ data + len ≤ a → readsOf a t ≤ 1) := by
  have h := span_of_returns f (a := a) fits ulong ret
  generalize f.word = k at *
  generalize readsOf a t = n at *
  rcases h with ⟨_, h⟩ | ⟨z, n', h1, h2, h3, ⟨q, j, h4, h5, h6, _, rfl⟩, h⟩
  · unfold bel at h
    refine ⟨fun _ _ => ?_, fun _ _ => Or.inl ?_, fun _ => ?_⟩ <;> split at h <;> split at h <;> omega
  · unfold inr bel at h
    refine ⟨fun _ _ => ?_, fun _ _ => ?_, fun _ => ?_⟩ <;>
      (split at h <;> split at h <;> split at h <;> split at h <;> omega)

/-- C51: with `T1HA_USE_FAST_ONESHOT_READ` = 0 or under AddressSanitizer, each byte of the message is read
exactly once, and nothing else is read. -/
theorem read_once (f : OneShot) {seed : U64} (fits : len < 2 ^ cfg.bits)
    (ulong : ∀ ac, f = .t1ha0_ia32aes_avx2 ac → len < 2 ^ (if cfg.ulong64 then 64 else 32))
    (hsan : cfg.oneshot = false ∨ cfg.asan = true)
    (ret : Returns (f.run cfg data len seed) w s v s' t) (a : Nat) :
    readsOf a t = if data ≤ a ∧ a < data + len then 1 else 0 := by
  have h := span_of_returns f (a := a) fits ulong ret
  generalize readsOf a t = n at *
  rcases h with ⟨_, h⟩ | ⟨z, n', h1, h2, h3, ⟨q, j, h4, h5, h6, h7, rfl⟩, h⟩
  · unfold bel at h
    split at h <;> split at h <;> split <;> omega
  · obtain ⟨e1, e2⟩ := h7 hsan
    unfold inr bel at h
    split at h <;> split at h <;> split at h <;> split at h <;> split <;> omega

/-- C51 for `t1ha2_update`: each byte of the piece is read exactly once, and nothing outside of the context
is read besides. -/
theorem update_reads_once (past : History cfg x y img fed) (here : Ctx cfg w s.ov ctx img)
    (piece : Piece cfg w s.ov ctx data m) :
    ∃ s' t, Returns (t1ha2_update cfg ctx data m.length) w s () s' t ∧
      ∀ a, a < ctx ∨ ctx + ctxSize cfg ≤ a →
        readsOf a t = if data ≤ a ∧ a < data + m.length then 1 else 0 := by
  obtain ⟨s', t, _, h1, _, _, h4, _⟩ := t1ha2_update_returns past here piece
  refine ⟨s', t, h1, fun a ha => ?_⟩
  have hfit := piece.fits
  obtain ⟨t', g1, q, g2, g3, g4⟩ := (tally_t1ha2_update (x := a) ha (data := data) (len := m.length)
    (by omega)).run _ _ _ _ h1.1
  rw [h1.2] at g1
  rw [← List.append_cancel_right g1] at g4
  have hpos : data ≤ a → a < data + m.length → 0 < readsOf a t := by
    intro h5 h6
    obtain ⟨p, n, h7, h8, h9⟩ := h4 (a - data) (by omega)
    exact List.countP_pos_iff.2 ⟨_, h7, decide_eq_true (by omega)⟩
  generalize readsOf a t = n at *
  unfold bel at g4
  split at g4 <;> split at g4 <;> split <;> omega

/-! ## The hypotheses can be met -/

/-- `read_at_most_twice`: 100 bytes which other threads change all the time. -/
example (f : OneShot) (hf : f.output = none) (seed : U64) : ∃ v s' t,
    Returns (f.run mips32 9003 100 seed) quiet start v s' t ∧ ∀ i, i < 92 → readsOf (9003 + i) t = 1 := by
  obtain ⟨m, _, s', t, _, _, h3, _⟩ := racing_call (s := start) (page := 4096) (cfg := mips32) f
    (quiet_writable (p := 9003) (n := 100) (by decide) (by decide)).1 (by decide) quiet_paged (pageOk _ rfl)
    (by decide)
    ⟨fun _ => Or.inr (quiet_writable (by decide) (by decide)).1, fun _ => by decide,
      fun p hp => (by rw [hf] at hp; exact (nomatch hp)), fun _ _ _ => by decide, fun _ _ _ => by decide,
      fun _ _ => by decide⟩ seed
  refine ⟨_, s', t, h3, fun i hi => (read_at_most_twice f (by decide) (fun _ _ => by decide) h3 _).1 (by omega) ?_⟩
  have : f.word ≤ 8 := by unfold OneShot.word; split <;> decide
  omega

/-- `read_once`: 43 bytes at the end of the page. -/
example (f : OneShot) (ho : f.output = none) :
    ∃ v s' t, Returns (f.run arm32 (8192 - 43) (msg 43).length 7) (atEnd 43) start v s' t ∧
      readsOf 8191 t = 1 ∧ readsOf 8148 t = 0 := by
  obtain ⟨v, s', t, h, _⟩ := sanitizer_safe (s := start) f (buf_atEnd arm32 rfl 43 (by decide))
    (ready_atEnd f arm32 43 (by decide) (by decide) (by decide) (by simp [ho])) (Or.inl rfl) 7
  have hr := read_once f (by rw [length_msg]; decide) (fun _ _ => by rw [length_msg]; decide) (Or.inl rfl) h
  exact ⟨v, s', t, h, by rw [hr, length_msg, if_pos (by decide)], by rw [hr, length_msg, if_neg (by decide)]⟩

/-- `update_reads_once`: a third piece. -/
example : ∃ s s' t, Returns (t1ha2_update mips32 4096 7001 77) quiet s () s' t ∧ readsOf 7050 t = 1 ∧
    readsOf 7078 t = 0 := by
  obtain ⟨s, img, h1, h2, h3⟩ := history_quiet mips32 5 6
  obtain ⟨s', t, h4, h5⟩ := update_reads_once h1 h2 
    (piece_quiet mips32 (p := 7001) (n := 77) (by decide) (by decide) h3)
  rw [length_quietBytes] at h4 h5
  exact ⟨s, s', t, h4, by rw [h5 _ (by decide)]; decide, by rw [h5 _ (by decide)]; decide⟩

/-! ## Bytes are read twice -/

/-- C51, the exception is real: of a message of 11 bytes, `t1ha1_le` and `t1ha0_32le` on amd64 read bytes
twice. -/
theorem read_twice : ∃ v s' t v' s'' t',
    Returns (OneShot.t1ha1_le.run amd64 5000 11 7) (memory 4096 8192 5000 (msg 11)) start v s' t ∧
    (∀ i, i < 11 → readsOf (5000 + i) t = if 3 ≤ i ∧ i < 8 then 2 else 1) ∧
    Returns (OneShot.t1ha0_32le.run amd64 5000 11 7) (memory 4096 8192 5000 (msg 11)) start v' s'' t' ∧
    (∀ i, i < 11 → readsOf (5000 + i) t' = if i = 7 then 2 else 1) := by
  have key : (match OneShot.t1ha1_le.run amd64 5000 11 7 (memory 4096 8192 5000 (msg 11)) start with
      | .ok (_, s') => decide (∀ i : Fin 11, readsOf (5000 + i) s'.log = if 3 ≤ i.val ∧ i.val < 8 then 2 else 1)
      | .error _ => false) = true := by
    decide +kernel
  have key' : (match OneShot.t1ha0_32le.run amd64 5000 11 7 (memory 4096 8192 5000 (msg 11)) start with
      | .ok (_, s') => decide (∀ i : Fin 11, readsOf (5000 + i) s'.log = if i.val = 7 then 2 else 1)
      | .error _ => false) = true := by
    decide +kernel
  split at key
  · split at key'
    · rename_i s₁ h _ _ s₂ h'
      exact ⟨_, _, s₁.log, _, _, s₂.log, ⟨h, by simp [start]⟩, fun i hi => of_decide_eq_true key ⟨i, hi⟩,
        ⟨h', by simp [start]⟩, fun i hi => of_decide_eq_true key' ⟨i, hi⟩⟩
    · exact nomatch key'
  · exact nomatch key

end T1ha.Props
