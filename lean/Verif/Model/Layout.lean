import Verif.Model.Dispatch
import Verif.Model.Stream

/-!
# The layout of `t1ha_context_t`

t1ha.h:367-378, 406-420, and the rules of C compilers for the layout of structures and unions: members follow one
another, each at the next address which its alignment allows; a structure or union is aligned as its members
require (or as an attribute says, if this is more), and its size is a multiple of its alignment.
-/

namespace T1ha.Model

/-- The least multiple of `a` which is not less than `n`. -/
def roundUp (n a : Nat) : Nat := (n + a - 1) / a * a

/-- Size and alignment of a type. -/
structure Ty where
  size : Nat
  align : Nat
  deriving DecidableEq, Repr

/-- Offsets of the members of a structure, and the end of the last one. `at_` is where the next member can start. -/
def offsets : Nat → List Ty → List Nat × Nat
  | at_, [] => ([], at_)
  | at_, t :: ts =>
    let o := roundUp at_ t.align
    let r := offsets (o + t.size) ts
    (o :: r.1, r.2)

/-- The strictest alignment of the members. -/
def maxAlign (ts : List Ty) : Nat := ts.foldr (fun t a => max t.align a) 1

/-- A structure. -/
def structTy (ts : List Ty) : Ty := ⟨roundUp (offsets 0 ts).2 (maxAlign ts), maxAlign ts⟩

/-- A union with an attribute which asks for the alignment `attr` (1 if there is none). -/
def unionTy (attr : Nat) (ts : List Ty) : Ty :=
  let a := max attr (maxAlign ts)
  ⟨roundUp (ts.foldr (fun t n => max t.size n) 0) a, a⟩

/-- How the ABI aligns the integer types within structures. -/
structure Abi where
  /-- `uint32_t` -/
  u32 : Nat
  /-- `uint64_t` -/
  u64 : Nat
  /-- `size_t` -/
  size : Nat
  deriving DecidableEq, Repr

/-- `T1HA_ALIGN_PREFIX` and `T1HA_ALIGN_SUFFIX` (t1ha.h:367-378): 32 if one of them asks for it, else 1. -/
def Build.attrAlign (b : Build) : Nat :=
  if (b.compiler = .msvc ∧ b.arch = .ia32) ∨ (b.compiler = .gnuc ∧ b.arch = .ia32) then 32 else 1

/-- `t1ha_state256_t` (t1ha.h:406-413): a union of `bytes`, `u32`, `u64`, and of the structure `n`. -/
def state256Ty (b : Build) (abi : Abi) : Ty :=
  unionTy b.attrAlign [⟨32, 1⟩, ⟨32, abi.u32⟩, ⟨32, abi.u64⟩,
    structTy [⟨8, abi.u64⟩, ⟨8, abi.u64⟩, ⟨8, abi.u64⟩, ⟨8, abi.u64⟩]]

/-- The members of `t1ha_context_t` (t1ha.h:416-419): `state`, `buffer`, `partial`, `total` -/
def contextMembers (b : Build) (abi : Abi) : List Ty :=
  [state256Ty b abi, state256Ty b abi, ⟨szBytes b.cfg, abi.size⟩, ⟨8, abi.u64⟩]

/-- `t1ha_context_t` (t1ha.h:415-420): `sizeof` and `alignof` -/
def contextTy (b : Build) (abi : Abi) : Ty := structTy (contextMembers b abi)

end T1ha.Model
