import Verif.Proofs.TallyFn
import Verif.Model.Stream

/-!
# How often each byte is read by `t1ha2_update`
-/

namespace T1ha.Model

variable {x : Nat} {cfg : Cfg} {ctx : Nat} (hx : x < ctx ∨ ctx + ctxSize cfg ≤ x)
include hx

/-- What is read in the context does not count. -/
theorem inr_ctx {o n : Nat} (h : o + n ≤ ctxSize cfg) : inr x (ctx + o) n = 0 := by
  unfold inr bel
  rcases hx with hx | hx
  · rw [if_pos (by omega), if_pos (by omega)]; rfl
  · rw [if_neg (by omega), if_neg (by omega)]; rfl

theorem costs_readInt_ctx {o n : Nat} (h : o + n ≤ ctxSize cfg) : Costs x (readInt cfg (ctx + o) n) 0 := by
  rw [← inr_ctx hx h]
  exact costs_readInt _ _

omit hx in
theorem ctxSize_ge : 76 ≤ ctxSize cfg ∧ 64 + szBytes cfg ≤ offTotal cfg := by
  unfold ctxSize offTotal szBytes Cfg.bits
  cases cfg.ptr64 <;> cases cfg.u64Align4 <;> simp

theorem costs_readU64_ctx {o : Nat} (h : o + 8 ≤ ctxSize cfg) : Costs x (readU64 cfg (ctx + o)) 0 :=
  Tally.after (costs_readInt_ctx hx h) fun _ => Tally.pure rfl

theorem costs_readPartial : Costs x (readPartial cfg ctx) 0 := by
  have := ctxSize_ge (cfg := cfg)
  exact costs_readInt_ctx hx (by unfold offPartial ctxSize; omega)

omit hx in
theorem costs_writePartial {v : Nat} : Costs x (writePartial cfg ctx v) 0 := costs_writeInt _ _ _

omit hx in
theorem costs_writeU64 {p : Nat} {v : U64} : Costs x (writeU64 cfg p v) 0 := costs_writeInt _ _ _

theorem costs_readState : Costs x (readState cfg (ctx + offState)) 0 := by
  have := ctxSize_ge (cfg := cfg)
  unfold readState offState
  simp only [Nat.add_assoc]
  exact Tally.after (costs_readU64_ctx hx (by omega)) fun _ => Tally.after (costs_readU64_ctx hx (by omega)) fun _ =>
    Tally.after (costs_readU64_ctx hx (by omega)) fun _ => Tally.after (costs_readU64_ctx hx (by omega)) fun _ =>
    Tally.pure rfl

omit hx in
theorem costs_writeState {p : Nat} {s : State256} : Costs x (writeState cfg p s) 0 :=
  Tally.after costs_writeU64 fun _ => Tally.after costs_writeU64 fun _ => Tally.after costs_writeU64 fun _ =>
    Tally.last costs_writeU64 fun _ => rfl

theorem costs_t1ha2_UPDATE_mem {al : Aligness} {v : Nat} :
    Costs x (t1ha2_UPDATE_mem cfg al (ctx + offState) v) (inr x v 32) := by
  refine Tally.after (costs_readState hx) fun _ => Tally.after costs_t1ha2_UPDATE fun _ =>
    Tally.last costs_writeState fun _ => ?_
  omega

theorem tally_t1ha2_loop_mem {al : Aligness} {detent fuel v : Nat} (h : v < detent) :
    Tally x (t1ha2_loop_mem cfg al (ctx + offState) detent fuel v) fun v' => Looped 32 x v detent v' := by
  induction fuel generalizing v with
  | zero => exact Tally.fail
  | succ fuel ih =>
    unfold t1ha2_loop_mem
    refine Tally.after costs_iterate fun _ => Tally.afterAdd (Tally.after (costs_t1ha2_UPDATE_mem hx) fun _ => ?_)
    refine Tally.ite (fun h' => ?_) fun h' => Tally.pure ?_
    · exact (ih h').post fun _ n hn => hn.cons (by tally_sum)
    · exact Looped.one h (by omega) (by tally_sum)

theorem tally_t1ha2_LOOP_mem {al : Aligness} {data len : Nat} (h : 32 ≤ len) :
    Tally x (t1ha2_LOOP_mem cfg al (ctx + offState) data len) fun v' n =>
      v' + len % 32 = data + len ∧ n = bel x v' - bel x data := by
  unfold t1ha2_LOOP_mem
  refine Tally.afterAdd (Tally.afterSub fun hd => ?_)
  refine (tally_t1ha2_loop_mem hx (by omega)).post fun v' n hn => ?_
  exact ⟨hn.stop (by decide) h, hn.2.2.2.2⟩

omit hx in
theorem costs_memcpy {dst src n : Nat} : Costs x (memcpy dst src n) (inr x src n) :=
  Tally.ite (fun _ => Tally.fail) fun _ => Tally.after (costs_load _ _) fun _ =>
    Tally.last (costs_store _ _) fun _ => Int.add_zero _

theorem tally_t1ha2_update_rest {data len : Nat} :
    Tally x (t1ha2_update_rest cfg ctx data len) fun _ n => n = inr x data len := by
  unfold t1ha2_update_rest
  refine Tally.bind (Q := fun r n => r.1 + r.2 = data + len ∧ n = bel x r.1 - bel x data) ?_ ?_
  · refine Tally.ite (fun h => ?_) fun h => Tally.pure ⟨rfl, by simp⟩
    refine Tally.bind (Q := fun v' n => v' + len % 32 = data + len ∧ n = bel x v' - bel x data) ?_ ?_
    · exact Tally.ite (fun _ => tally_t1ha2_LOOP_mem hx h) fun _ =>
        Tally.ite (fun _ => tally_t1ha2_LOOP_mem hx h) fun _ => tally_t1ha2_LOOP_mem hx h
    · rintro v' n ⟨h1, h2⟩
      rw [and31]
      exact Tally.pure ⟨h1, by dsimp only; omega⟩
  · rintro ⟨v', r⟩ n ⟨h1, h2⟩
    dsimp only at h1 h2 ⊢
    refine Tally.ite (fun h => ?_) fun h => ?_
    · refine Tally.after costs_writePartial fun _ => Tally.last costs_memcpy fun _ => ?_
      unfold inr
      rw [h1]
      omega
    · obtain rfl : r = 0 := by omega
      refine Tally.pure ?_
      unfold inr
      rw [← h1, Nat.add_zero]
      omega

/-- `t1ha2_update` reads the bytes up to some `q` once, and no others. -/
theorem tally_t1ha2_update {data len : Nat} (hl : len < 2 ^ cfg.bits) :
    Tally x (t1ha2_update cfg ctx data len) fun _ n =>
      ∃ q, data ≤ q ∧ q ≤ data + len ∧ n = bel x q - bel x data := by
  have hc := ctxSize_ge (cfg := cfg)
  unfold t1ha2_update
  refine Tally.after (costs_readU64_ctx hx (Nat.le_refl _)) fun _ => Tally.after costs_writeU64 fun _ =>
    Tally.after (costs_readPartial hx) fun part => Tally.ite (fun _ => ?_) fun _ => ?_
  · dsimp only
    generalize szSub cfg 32 part = left
    have hle : (if left ≤ len then left else len) ≤ len := by split <;> omega
    generalize (if left ≤ len then left else len) = chunk at hle
    refine Tally.after costs_memcpy fun _ => Tally.after (costs_readPartial hx) fun _ =>
      Tally.after costs_writePartial fun _ => Tally.after (costs_readPartial hx) fun _ =>
      Tally.ite (fun _ => ?_) fun _ => ?_
    · refine Tally.last (costs_cassert _) fun _ => ⟨data + chunk, by omega, by omega, ?_⟩
      tally_sum
    · refine Tally.after costs_writePartial fun _ => Tally.afterAdd ?_
      refine Tally.after (costs_t1ha2_UPDATE_mem hx) fun _ => (tally_t1ha2_update_rest hx).post fun _ n hn => ?_
      rw [hn, inr_ctx hx (by unfold offBuffer; omega),
        show szSub cfg len chunk = len - chunk by
          unfold szSub
          rw [show 2 ^ cfg.bits + len - chunk = 2 ^ cfg.bits + (len - chunk) by omega, Nat.add_mod_left,
            Nat.mod_eq_of_lt (by omega)]]
      refine ⟨data + len, by omega, by omega, ?_⟩
      unfold inr
      rw [show data + chunk + (len - chunk) = data + len by omega]
      omega
  · refine (tally_t1ha2_update_rest hx).post fun _ n hn => ⟨data + len, by omega, by omega, ?_⟩
    rw [hn]
    unfold inr
    omega

end T1ha.Model
