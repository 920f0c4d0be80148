import Verif.Model.Highway
import Verif.Model.Selfcheck
import Verif.Model.OthersTables

/-!
# The verification of the implementations of HighwayHash

tests/highwayhash/verifier.c, without what it prints.
-/

namespace T1ha.Model

/-- `HighwayHash64_t` (tests/common.h:144-145): a function of `key`, `data`, `size`. The array
`key` is passed by value. -/
abbrev HighwayFn := Quad → Nat → Nat → M U64

/-- `kTestKey1` (tests/highwayhash/verifier.c:8-10) -/
def kTestKey1 : Quad := ⟨0x0706050403020100, 0x0F0E0D0C0B0A0908, 0x1716151413121110, 0x1F1E1D1C1B1A1918⟩

/-- `kTestKey2` (tests/highwayhash/verifier.c:12) -/
def kTestKey2 : Quad := ⟨1, 2, 3, 4⟩

/-- `TestHash64` (tests/highwayhash/verifier.c:38-50) -/
def TestHash64 (fn : HighwayFn) (expected : U64) (data size : Nat) (key : Quad) : M Bool := do
  let hash ← fn key data size
  if expected ≠ hash then pure true else pure false

/-- `kExpected64[i]` (tests/highwayhash/verifier.c:14-36) -/
def expectedAt (i : Nat) : M U64 :=
  match Ref.kExpected64[i]? with
  | some v => pure v
  | none => fail .fault

/-- The first loop of `HighwayHash64_verify` (tests/highwayhash/verifier.c:59-62): the new `failed`; `i <= kMaxSize`
is `i < 65` here. -/
def highwayVerifySizes (cfg : Cfg) (fn : HighwayFn) (data : Nat) (failed : Bool) : M Bool :=
  forLoop 65 (fun i failed => do
    let p ← ptrAdd cfg data i
    store p [BitVec.ofNat 8 i]
    let expected ← expectedAt i
    let r ← TestHash64 fn expected data i kTestKey1
    pure (failed || r)) 66 0 failed

/-- The second loop of `HighwayHash64_verify` (tests/highwayhash/verifier.c:64-66) -/
def highwayVerifyFill (cfg : Cfg) (data : Nat) : M Unit :=
  forLoop 33 (fun i _ => do
    let p ← ptrAdd cfg data i
    store p [BitVec.ofNat 8 (128 + i)]) 34 0 ()

/-- `HighwayHash64_verify` (tests/highwayhash/verifier.c:52-76). `data` is the address of the local array of this
name (65 bytes). -/
def HighwayHash64_verify (cfg : Cfg) (data : Nat) (fn : HighwayFn) : M Bool := do
  let failed := false
  store data (List.replicate 65 0#8)
  let failed ← highwayVerifySizes cfg fn data failed
  highwayVerifyFill cfg data
  let r ← TestHash64 fn 0x53c516cce478cad7 data 33 kTestKey2
  pure (failed || r)

end T1ha.Model
