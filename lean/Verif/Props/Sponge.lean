import Verif.Props.Session

/-!
# Going on after `t1ha2_final`: the vocabulary of the theorems
-/

namespace T1ha.Spec

/-- What a context contains: the state, the bytes which wait for their block, and the number of bytes. -/
structure Sponge where
  state : State
  pend : List Byte
  total : U64

/-- After `t1ha2_init`. -/
def Sponge.start (x y : U64) : Sponge := ⟨init x y, [], 0⟩

/-- After `t1ha2_update` with the bytes `m`. -/
def Sponge.feed (s : Sponge) (m : List Byte) : Sponge where
  state := absorbAll s.state (blocks 32 (s.pend ++ m))
  pend := rest 32 (s.pend ++ m)
  total := s.total + BitVec.ofNat 64 m.length

/-- After the length block. -/
def Sponge.pad (s : Sponge) : Sponge := s.feed (leBytes 8 (s.total <<< 3 ^^^ 1#64 <<< 63).toNat)

/-- After `t1ha2_final` (`wide`: both halves of the result were asked for). -/
def Sponge.finish (s : Sponge) (wide : Bool) : Sponge :=
  let p := s.pad
  let tail := words64 .little p.pend
  { p with
    state :=
      if wide then tailABCD tail p.state
      else
        let q := squash p.state
        let ab := tailAB tail (q.a, q.b)
        ⟨ab.1, ab.2, q.c, q.d⟩ }

/-- What `t1ha2_final` returns. -/
def Sponge.result (s : Sponge) (wide : Bool) : U64 :=
  let f := (s.finish wide).state
  if wide then (final128 f).1 else final64 (f.a, f.b)

/-- The second half, if it was asked for. -/
def Sponge.high (s : Sponge) : U64 := (final128 (s.finish true).state).2

/-- `done`: the bytes fed before each call of `t1ha2_final` (and whether both halves were asked for);
`fed`: the bytes fed since. -/
def sponge (x y : U64) (done : List (List Byte × Bool)) (fed : List Byte) : Sponge :=
  (done.foldl (fun s p => (s.feed p.1).finish p.2) (Sponge.start x y)).feed fed

end T1ha.Spec

namespace T1ha.Model

/-- `Reuse cfg x y img done fed`: a context with contents `img` can be the result of `t1ha2_init` with the
seeds `x`, `y`, and of calls of `t1ha2_update` and `t1ha2_final` in any order. As in `History`, the calls
may be made in different memories and with the context at different addresses. The second half of a result
is not stored in the context itself. -/
inductive Reuse (cfg : Cfg) (x y : U64) : List Byte → List (List Byte × Bool) → List Byte → Prop
  | init {w : World} {s s' : Sys} {ctx : Nat} {before img : List Byte} {t : List Ev}
      (here : Ctx cfg w s.ov ctx before)
      (call : Returns (t1ha2_init cfg ctx x y) w s () s' t)
      (there : Ctx cfg w s'.ov ctx img) :
      Reuse cfg x y img [] []
  | update {w : World} {s s' : Sys} {ctx data : Nat} {img img' fed m : List Byte}
      {done : List (List Byte × Bool)} {t : List Ev}
      (past : Reuse cfg x y img done fed)
      (here : Ctx cfg w s.ov ctx img)
      (piece : Piece cfg w s.ov ctx data m)
      (call : Returns (t1ha2_update cfg ctx data m.length) w s () s' t)
      (there : Ctx cfg w s'.ov ctx img') :
      Reuse cfg x y img' done (fed ++ m)
  | final {w : World} {s s' : Sys} {ctx slot : Nat} {extra : Option Nat} {v : U64}
      {img img' fed : List Byte} {done : List (List Byte × Bool)} {t : List Ev}
      (past : Reuse cfg x y img done fed)
      (here : Ctx cfg w s.ov ctx img)
      (out : Out cfg w ctx extra slot)
      (apart : ∀ p, extra = some p → p + 8 ≤ ctx ∨ ctx + ctxSize cfg ≤ p)
      (call : Returns (t1ha2_final cfg ctx extra slot) w s v s' t)
      (there : Ctx cfg w s'.ov ctx img') :
      Reuse cfg x y img' (done ++ [(fed, extra.isSome)]) []

end T1ha.Model
