import Verif.Proofs.Exec
import Verif.Spec

/-!
# The `switch` over the tail, in general
-/

namespace T1ha

theorem length_chunks (k n : Nat) (m : List Byte) : (chunks k n m).length = n := by
  induction n generalizing m with
  | zero => rfl
  | succ n ih => simp [chunks, ih]

theorem chunks_append (k a b : Nat) (m : List Byte) :
    chunks k (a + b) m = chunks k a m ++ chunks k b (m.drop (k * a)) := by
  induction a generalizing m with
  | zero => simp [chunks]
  | succ a ih =>
    rw [Nat.succ_add]
    simp only [chunks, ih, List.cons_append, List.drop_drop]
    rw [Nat.mul_succ, Nat.add_comm]

/-- Fold over a list, where the function is told how many elements follow. -/
def tailFold {σ α : Type} (f : Nat → σ → α → σ) : List α → σ → σ
  | [], s => s
  | x :: xs, s => tailFold f xs (f xs.length s x)

namespace Model

variable {w : World} {ov : Overlay} {cfg : Cfg} {P : Ev → Prop} {σ α : Type}

/-- A `switch` with fall through: `n` optional words and the tail. -/
def steps (cfg : Cfg) (k : Nat) (fetch : Nat → M α) (tail : Nat → Nat → M α) (f : Nat → σ → α → σ)
    (len : Nat) : Nat → σ → Nat → M σ
  | 0, s, v => if 0 < len then do
      let x ← tail v len
      pure (f 0 s x)
    else pure s
  | n + 1, s, v => do
    let (s, v) ← (if (n + 1) * k < len then do
        let x ← fetch v
        let v ← ptrAdd cfg v k
        pure (f (n + 1) s x, v)
      else pure (s, v))
    steps cfg k fetch tail f len n s v

theorem reads_steps {k v0 e0 len : Nat} {fetch : Nat → M α} {tail : Nat → Nat → M α}
    {f : Nat → σ → α → σ} {word : List Byte → α} (hk : 0 < k) (he : e0 < 2 ^ cfg.bits)
    (hfetch : ∀ j x, x.length = k → Holds w ov (v0 + k * j) x → v0 + k * j + k ≤ e0 →
      Reads w ov P (range (v0 + k * j) k) 0 (fetch (v0 + k * j)) (word x))
    (hptr : ∀ a, v0 ≤ a → a ≤ e0 → P (.ptr a))
    (htail : ∀ j x, 1 ≤ x.length → x.length ≤ k → Holds w ov (v0 + k * j) x →
      v0 + k * j + x.length = e0 → len % k = x.length % k →
      Reads w ov P (range (v0 + k * j) x.length) 0 (tail (v0 + k * j) len) (word x))
    (n : Nat) (s : σ) (j v : Nat) (r : List Byte) (hv : v = v0 + k * j) (hh : Holds w ov v r)
    (hend : v + r.length = e0)
    (h1 : r.length ≤ (n + 1) * k) (h2 : r.length ≤ len) (h3 : len % k = r.length % k)
    (h4 : r.length = len ∨ n * k < r.length) :
    Reads w ov P (range v r.length) 0 (steps cfg k fetch tail f len n s v)
      (tailFold f ((chunks k ((r.length + (k - 1)) / k) r).map word) s) := by
  induction n generalizing s j v r with
  | zero =>
    unfold steps
    by_cases hr : 0 < r.length
    · rw [if_pos (by omega)]
      have hc : (r.length + (k - 1)) / k = 1 := by
        apply Nat.div_eq_of_lt_le <;> omega
      rw [hc]
      have ht : r.take k = r := List.take_of_length_le (by omega)
      simp only [chunks, List.map_cons, List.map_nil, tailFold, List.length_nil, ht]
      subst hv
      exact Exec.cov (Reads.bind (htail j r (by omega) (by omega) hh hend h3)
        (Exec.pure _ ⟨rfl, rfl⟩)) (fun a h => Or.inl h) rfl
    · have hr0 : r.length = 0 := by omega
      rw [if_neg (by omega)]
      have hc : (r.length + (k - 1)) / k = 0 := by
        apply Nat.div_eq_of_lt; omega
      rw [hc]
      exact Exec.cov (Reads.pure _) (fun a h => by simp only [range, nowhere] at *; omega) rfl
  | succ n ih =>
    unfold steps
    have e1 : (n + 1) * k = n * k + k := Nat.succ_mul n k
    have e2 : (n + 1 + 1) * k = n * k + k + k := by rw [Nat.succ_mul, e1]
    rw [e2] at h1
    by_cases hr : (n + 1) * k < r.length
    · rw [if_pos (by omega)]
      have hr' : k < r.length := by
        have : k ≤ (n + 1) * k := Nat.le_mul_of_pos_left k (by omega)
        omega
      have hd : (r.drop k).length = r.length - k := List.length_drop
      have hc : (r.length + (k - 1)) / k = ((r.drop k).length + (k - 1)) / k + 1 := by
        rw [hd, ← Nat.add_div_right _ hk]
        congr 1; omega
      have hq : ((r.drop k).length + (k - 1)) / k = n + 1 := by
        rw [hd]
        apply Nat.div_eq_of_lt_le
        · omega
        · rw [e2]; omega
      have hlen : ((chunks k (((r.drop k).length + (k - 1)) / k) (r.drop k)).map word).length
          = n + 1 := by
        rw [List.length_map, length_chunks, hq]
      rw [hc]
      simp only [chunks, List.map_cons, tailFold, hlen]
      rw [bind_assoc]
      have hf : Reads w ov P (range v k) 0 (fetch v) (word (r.take k)) := by
        subst hv
        exact hfetch j _ (by rw [List.length_take]; omega) (hh.take k) (by omega)
      refine Exec.cov (Reads.bind (C₂ := range (v + k) (r.drop k).length) hf ?_) (fun a h => ?_)
        (Nat.zero_add 0)
      · rw [bind_assoc]
        refine Exec.bindR (Reads.ptrAdd (by omega) (hptr _ (by subst hv; omega) (by omega))) ?_
        rw [pure_bind]
        exact ih (f (n + 1) s (word (r.take k))) (j + 1) (v + k) (r.drop k)
          (by rw [Nat.mul_succ]; omega) (hh.drop k) (by omega) (by omega) (by omega)
          (by rw [h3, hd]; exact Nat.mod_eq_sub_mod (by omega)) (by omega)
      · simp only [range, hd] at *
        omega
    · have hre : r.length = len := by omega
      rw [if_neg (by omega), pure_bind]
      exact ih s j v r hv hh hend (by omega) h2 h3 (Or.inl hre)

end Model

end T1ha
