import Verif.Props.Dispatch
import Verif.Props.Pairs

/-!
# `t1ha0` from the point of view of its callers: C48
-/

namespace T1ha.Props

open Model Examples

variable {w w' : World} {s s' : Sys} {page page' : Nat} {m : List Byte}

instance (cpu : Cpu) : Decidable (HasAes cpu) := by unfold HasAes; infer_instance
instance (cpu : Cpu) : Decidable (HasOsxsave cpu) := by unfold HasOsxsave; infer_instance
instance (cpu : Cpu) : Decidable (HasAvx cpu) := by unfold HasAvx; infer_instance
instance (cpu : Cpu) : Decidable (HasAvx2 cpu) := by unfold HasAvx2; infer_instance
instance (b : Build) : Decidable (Build.LooksForAes b) := by unfold Build.LooksForAes; infer_instance

/-- What `t1ha0` computes on a machine: the build and the processor decide. -/
def machineHash (b : Build) (cpu : Cpu) (m : List Byte) (seed : U64) : U64 :=
  if Build.LooksForAes b ∧ HasAes cpu then
    if HasAvx cpu ∧ HasOsxsave cpu ∧ HasAvx2 cpu then Spec.t1ha0_aesB m seed
    else Spec.t1ha0_aesA m seed
  else if b.cfg.word64 ∧ ¬ b.no1 then Spec.t1ha1 b.cfg.endian m seed
  else if b.cfg.word64 ∧ ¬ b.no2 then Spec.t1ha2_atonce m seed
  else Spec.t1ha0_32 b.cfg.endian m seed

theorem portable_hash (b : Build) (stack : State256) (ac : AesCfg) (m : List Byte) (seed : U64) :
    ((portableChoice b).oneShot stack ac).hash m seed =
      if b.cfg.word64 ∧ ¬ b.no1 then Spec.t1ha1 b.cfg.endian m seed
      else if b.cfg.word64 ∧ ¬ b.no2 then Spec.t1ha2_atonce m seed
      else Spec.t1ha0_32 b.cfg.endian m seed := by
  unfold portableChoice
  cases b.cfg.endian <;> cases b.cfg.word64 <;> cases b.no1 <;> cases b.no2 <;> simp [Fn.oneShot, OneShot.hash]

theorem resolved_hash (b : Build) (cpu : Cpu) (stack : State256) (ac : AesCfg) (m : List Byte) (seed : U64) :
    ((t1ha0_resolve b cpu).oneShot stack ac).hash m seed = machineHash b cpu m seed := by
  obtain ⟨h1, h2, h3, h4⟩ := resolve_correct b cpu
  unfold machineHash
  by_cases ha : Build.LooksForAes b ∧ HasAes cpu
  · rw [if_pos ha]
    by_cases hx : HasAvx cpu ∧ HasOsxsave cpu ∧ HasAvx2 cpu
    · rw [if_pos hx, h1.2 ⟨ha.1, ha.2, hx⟩]
      rfl
    · rw [if_neg hx]
      by_cases hy : HasAvx cpu ∧ HasOsxsave cpu
      · rw [h2.2 ⟨ha.1, ha.2, hy.1, hy.2, fun h => hx ⟨hy.1, hy.2, h⟩⟩]
        rfl
      · rw [h3.2 ⟨ha.1, ha.2, hy⟩]
        rfl
  · rw [if_neg ha, h4 ha]
    exact portable_hash b stack ac m seed

/-- C48: a call of `t1ha0`, made in whatever thread and at whatever time, executes a function which returns
`machineHash` of the message and the seed. -/
theorem t1ha0_value {b : Build} {cpu : Cpu} {binding : Binding} {c : Conc}
    (run : Steps binding (t1ha0_resolve b cpu) (Conc.ready binding (t1ha0_resolve b cpu)) c)
    {d : Done} (call : d ∈ c.done) (len : d.args.len = m.length) (stack : State256) (ac : AesCfg)
    (buffer : Buf b.cfg w s.ov page d.args.data m)
    (ready : (d.executed.oneShot stack ac).Ready b.cfg w d.args.data m.length) :
    ∃ s₁ t, Returns ((d.executed.oneShot stack ac).run b.cfg d.args.data d.args.len d.args.seed) w s
      (machineHash b cpu m d.args.seed) s₁ t := by
  obtain ⟨t, h, -⟩ := (d.executed.oneShot stack ac).returns buffer ready d.args.seed
  rw [← len] at h
  rw [← resolved_hash b cpu stack ac, ← ((dispatch_correct binding _ run).1 d call).1]
  exact ⟨_, t, h⟩

/-- C48: with the selection by the header (`T1HA0_RUNTIME_SELECT` = 0), on a machine on which no AES-NI function
can be selected, the same. -/
theorem t1ha0_static_value {b : Build} {cpu : Cpu} {data : Nat} (noaes : ¬ (Build.LooksForAes b ∧ HasAes cpu))
    (stack : State256) (ac : AesCfg) (buffer : Buf b.cfg w s.ov page data m)
    (ready : ((t1ha0_static b).oneShot stack ac).Ready b.cfg w data m.length) (seed : U64) :
    ∃ s₁ t, Returns (((t1ha0_static b).oneShot stack ac).run b.cfg data m.length seed) w s
      (machineHash b cpu m seed) s₁ t := by
  obtain ⟨t, h, -⟩ := ((t1ha0_static b).oneShot stack ac).returns buffer ready seed
  unfold machineHash
  rw [if_neg noaes, ← portable_hash b stack ac, ← (static_agrees b cpu).1]
  exact ⟨_, t, h⟩

/-- C48: so two calls of `t1ha0` on a machine, in one program or in two programs of the same build (which may bind
`t1ha0` in different ways), return the same value for equal messages and seeds, wherever the messages are. -/
theorem t1ha0_same_machine {b : Build} {cpu : Cpu} {binding binding' : Binding} {c c' : Conc}
    (run : Steps binding (t1ha0_resolve b cpu) (Conc.ready binding (t1ha0_resolve b cpu)) c)
    (run' : Steps binding' (t1ha0_resolve b cpu) (Conc.ready binding' (t1ha0_resolve b cpu)) c')
    {d d' : Done} (call : d ∈ c.done) (call' : d' ∈ c'.done)
    (len : d.args.len = m.length) (len' : d'.args.len = m.length) (seed : d'.args.seed = d.args.seed)
    (stack stack' : State256) (ac ac' : AesCfg)
    (buffer : Buf b.cfg w s.ov page d.args.data m) (buffer' : Buf b.cfg w' s'.ov page' d'.args.data m)
    (ready : (d.executed.oneShot stack ac).Ready b.cfg w d.args.data m.length)
    (ready' : (d'.executed.oneShot stack' ac').Ready b.cfg w' d'.args.data m.length) :
    ∃ v s₁ s₁' t t',
      Returns ((d.executed.oneShot stack ac).run b.cfg d.args.data d.args.len d.args.seed) w s v s₁ t ∧
      Returns ((d'.executed.oneShot stack' ac').run b.cfg d'.args.data d'.args.len d'.args.seed) w' s' v s₁' t' := by
  obtain ⟨s₁, t, h⟩ := t1ha0_value run call len stack ac buffer ready
  obtain ⟨s₁', t', h'⟩ := t1ha0_value run' call' len' stack' ac' buffer' ready'
  rw [seed] at h' ⊢
  exact ⟨_, _, _, _, _, h, h'⟩

/-- C48: all machines on which an AES-NI function is selected agree about keys of up to 32 bytes, and with
`t1ha2_atonce`, which all machines have. -/
theorem aes_machines_agree {b b' : Build} {cpu cpu' : Cpu} (aes : Build.LooksForAes b ∧ HasAes cpu)
    (aes' : Build.LooksForAes b' ∧ HasAes cpu') (short : m.length ≤ 32) (seed : U64) :
    machineHash b cpu m seed = Spec.t1ha2_atonce m seed ∧
    machineHash b' cpu' m seed = machineHash b cpu m seed := by
  have key : ∀ {b cpu}, Build.LooksForAes b ∧ HasAes cpu → machineHash b cpu m seed = Spec.t1ha2_atonce m seed := by
    intro b cpu h
    unfold machineHash
    rw [if_pos h]
    have hn : ¬ m.length > 32 := by omega
    split <;> simp only [Spec.t1ha2_atonce, Spec.t1ha0_aesA, Spec.t1ha0_aesB, if_neg hn]
  exact ⟨key aes, (key aes').trans (key aes).symm⟩

/-- A processor without AES-NI, one with AES-NI and AVX, and one with AVX2. -/
def plainCpu : Cpu := someCpu 13 0 0
def avxCpu : Cpu := someCpu 13 0x1A000000 0
def avx2Cpu : Cpu := someCpu 13 0x1A000000 0x20

/-- C48: but values of `t1ha0` must not leave the machine: they differ between processors with and without AES-NI,
with and without AVX2, between 32-bit and 64-bit builds, and between byte orders. -/
theorem machines_differ :
    (∃ m seed, machineHash linux64 plainCpu m seed ≠ machineHash linux64 avxCpu m seed) ∧
    (∃ m seed, machineHash linux64 avxCpu m seed ≠ machineHash linux64 avx2Cpu m seed) ∧
    (∃ m seed, machineHash linux64 plainCpu m seed ≠
      machineHash { linux64 with cfg := { amd64 with ptr64 := false, ulong64 := false } } plainCpu m seed) ∧
    (∃ m seed, machineHash { linux64 with arch := .other } plainCpu m seed ≠
      machineHash { linux64 with arch := .other, cfg := { amd64 with endian := .big } } plainCpu m seed) := by
  refine ⟨⟨msg 1, 1, ?_⟩, ⟨msg 33, 0, ?_⟩, ⟨msg 1, 1, ?_⟩, ⟨msg 2, 0, ?_⟩⟩ <;> decide +kernel

/-- The hypotheses can be met: a thread calls `t1ha0` on a machine with AVX2, which goes through the proxy. -/
example (stack : State256) (ac : AesCfg) : ∃ c, ∃ d ∈ c.done,
    Steps .proxy (t1ha0_resolve linux64 avx2Cpu) (Conc.ready .proxy (t1ha0_resolve linux64 avx2Cpu)) c ∧
    d.trips = 1 ∧ d.args = ⟨8192 - 300, 300, 7⟩ ∧
    ∃ s₁ t, Returns ((d.executed.oneShot stack ac).run amd64 (8192 - 300) 300 7) (atEnd 300) start
      (Spec.t1ha0_aesB (msg 300) 7) s₁ t := by
  let a : Args := ⟨8192 - 300, 300, 7⟩
  have s0 := Steps.refl (binding := .proxy) (resolve := t1ha0_resolve linux64 avx2Cpu)
    (Conc.ready .proxy (t1ha0_resolve linux64 avx2Cpu))
  have s1 := s0.tail (.call 3 a rfl)
  have s2 := s1.tail (.readFirst 3 _ _ rfl rfl)
  have s3 := s2.tail (.enter 3 _ _ rfl)
  have s4 := s3.tail (.write 3 _ _ _ rfl)
  have s5 := s4.tail (.readWritten 3 _ _ _ rfl (List.mem_cons_self ..))
  have run := s5.tail (.run 3 _ _ _ rfl)
  refine ⟨_, ⟨3, a, t1ha0_resolve linux64 avx2Cpu, 1⟩, List.mem_cons_self .., run, rfl, rfl, ?_⟩
  have noOut : ∀ p, ((t1ha0_resolve linux64 avx2Cpu).oneShot stack ac).output ≠ some p := by
    rw [show t1ha0_resolve linux64 avx2Cpu = .t1ha0_ia32aes_avx2 by decide +kernel]
    exact fun _ => nofun
  have spec : machineHash linux64 avx2Cpu (msg 300) 7 = Spec.t1ha0_aesB (msg 300) 7 := by
    unfold machineHash
    rw [if_pos (by decide +kernel), if_pos (by decide +kernel)]
  rw [← spec]
  exact t1ha0_value (m := msg 300) run (List.mem_cons_self ..) (length_msg 300).symm stack ac
    (buf_atEnd amd64 rfl 300 (by decide))
    (ready_atEnd _ amd64 300 (by decide) (by decide) (by decide) fun p h => absurd h (noOut p))

end T1ha.Props
