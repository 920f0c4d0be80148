import Verif.Model.Layout
import Verif.Model.Xxh3

/-!
# tests/xxhash/xxh3.h: states of XXH3 which the library allocates

`malloc` and `free` belong to the C library: `malloc` is given as a function from the number of bytes to the address
which it returns this time (0 stands for a null pointer), and what `free` is called with is part of the result.
-/

namespace T1ha.Model

/-- `XXH3_state_t` (tests/xxhash/xxhash.h:531-571); `attr` is 64 if `XXH_ALIGN` has an effect, else 1. Pointers and
`size_t` have the size of `cfg.bits`. -/
def xxh3StateMembers (cfg : Cfg) (abi : Abi) (attr : Nat) : List Ty :=
  [⟨64, max attr abi.u64⟩, ⟨192, attr⟩, ⟨256, attr⟩, ⟨4, abi.u32⟩, ⟨4, abi.u32⟩, ⟨cfg.bits / 8, abi.size⟩,
    ⟨cfg.bits / 8, abi.size⟩, ⟨cfg.bits / 8, abi.size⟩, ⟨8, abi.u64⟩, ⟨8, abi.u64⟩, ⟨8, abi.u64⟩, ⟨cfg.bits / 8, abi.size⟩]

/-- `XXH_alignedMalloc` (tests/xxhash/xxh3.h:1859-1886) -/
def XXH_alignedMalloc (cfg : Cfg) (x : Xxh3) (malloc : Nat → Nat) (s align : Nat) : M Nat := do
  XXH_ASSERT x (align ≤ 128 && 8 ≤ align)
  XXH_ASSERT x (align &&& (align - 1) == 0)
  XXH_ASSERT x (s != 0 && s < szAdd cfg s align)
  let base := malloc (szAdd cfg s align)
  if base ≠ 0 then do
    let offset := szSub cfg align (base &&& (align - 1))
    let ptr ← ptrAdd cfg base offset
    XXH_ASSERT x (ptr % align == 0)
    let last ← ptrSub cfg ptr 1
    store last [BitVec.ofNat 8 offset]
    pure ptr
  else pure 0

/-- `XXH_alignedFree` (tests/xxhash/xxh3.h:1891-1901): what `free` is called with, if it is called -/
def XXH_alignedFree (cfg : Cfg) (p : Nat) : M (Option Nat) :=
  if p ≠ 0 then do
    let last ← ptrSub cfg p 1
    let bs ← load last 1
    let offset := bs.getD 0 0
    let base ← ptrSub cfg p offset.toNat
    pure (some base)
  else pure none

/-- `XXH3_createState` (tests/xxhash/xxh3.h:1902-1905) -/
def XXH3_createState (cfg : Cfg) (abi : Abi) (attr : Nat) (x : Xxh3) (malloc : Nat → Nat) : M Nat :=
  XXH_alignedMalloc cfg x malloc (structTy (xxh3StateMembers cfg abi attr)).size 64

/-- `XXH3_freeState` (tests/xxhash/xxh3.h:1907-1911): also what `free` is called with -/
def XXH3_freeState (cfg : Cfg) (p : Nat) : M (XXH_errorcode × Option Nat) := do
  let freed ← XXH_alignedFree cfg p
  pure (.ok, freed)

end T1ha.Model
