import Verif.Model.WyFloat

/-!
# HighwayHash: what is known about the processor

tests/highwayhash/arch_specific.h and arch_specific.cc, for x86-64 and POWER.
-/

namespace T1ha.Model

/-- What `Cpuid` (tests/highwayhash/arch_specific.cc:71-87) puts into `abcd` -/
structure Abcd where
  a : U32
  b : U32
  c : U32
  d : U32
  deriving DecidableEq

/-- `TargetName` (tests/highwayhash/arch_specific.cc:32-45); `none` is the null pointer. -/
def TargetName (target_bit : U32) : Option String :=
  if target_bit = 1 then some "Portable"
  else if target_bit = 2 then some "SSE41"
  else if target_bit = 4 then some "AVX2"
  else if target_bit = 8 then some "VSX"
  else none

/-- `ForeachTarget` (tests/highwayhash/arch_specific.h:123-129): the arguments `func` is called with, in this order. No
result, if there are more than `n` rounds. -/
def ForeachTarget : Nat → U32 → Option (List U32)
  | 0, bits => if bits = 0 then some [] else none
  | n + 1, bits =>
    if bits = 0 then some []
    else
      let lowest := bits &&& (~~~bits + 1)
      (ForeachTarget n (bits &&& ~~~lowest)).map (lowest :: ·)

/-- `BrandString` (tests/highwayhash/arch_specific.cc:51-67). `cpuid` is the instruction, with 0 in `ecx`; the machine is
little-endian. The constructor of `std::string` stops at the first zero byte. -/
def BrandString (cpuid : U32 → Abcd) : List Byte :=
  if (cpuid 0x80000000).a < 0x80000004 then []
  else
    let brand_string := [0, 1, 2].flatMap fun i =>
      let abcd := cpuid (0x80000002 + i)
      leBytes 4 abcd.a.toNat ++ leBytes 4 abcd.b.toNat ++ leBytes 4 abcd.c.toNat ++ leBytes 4 abcd.d.toNat
    (brand_string ++ [0]).takeWhile (· != 0)

/-- `ApicId` (tests/highwayhash/arch_specific.cc:89-93) -/
def ApicId (cpuid : U32 → Abcd) : U32 := (cpuid 1).b >>> 24

/-- `std::string::find(needle)`, as in tests/highwayhash/arch_specific.cc:107; `none` is `npos`. -/
def strFind (needle hay : List Byte) : Option Nat :=
  (List.range (hay.length + 1)).find? fun i => needle.isPrefixOf (hay.drop i)

/-- Looking for a character from a position on backwards. -/
def searchBack (c : Byte) (hay : List Byte) : Nat → Option Nat
  | 0 => if hay[0]? = some c then some 0 else none
  | n + 1 => if hay[n + 1]? = some c then some (n + 1) else searchBack c hay n

/-- `std::string::rfind(c, pos)`, as in tests/highwayhash/arch_specific.cc:109 -/
def strRfind (c : Byte) (hay : List Byte) (pos : Nat) : Option Nat := searchBack c hay (min pos hay.length)

/-- The number which digits are -/
def decimal (l : List Byte) : Nat := l.foldl (fun n c => 10 * n + (c.toNat - 48)) 0

/-- Whether it is one of `0` to `9` -/
def IsDigit (c : Byte) : Prop := 48 ≤ c.toNat ∧ c.toNat ≤ 57

instance (c : Byte) : Decidable (IsDigit c) := inferInstanceAs (Decidable (_ ∧ _))

/-- The characters with which a number may begin: digits, `.`, a sign, white space, and the first letters of `inf` and
`nan` -/
def MayBegin (c : Byte) : Prop :=
  IsDigit c ∨ c ∈ ([0x2E, 0x2B, 0x2D, 0x20, 9, 10, 11, 12, 13, 0x69, 0x49, 0x6E, 0x4E] : List Byte)

instance (c : Byte) : Decidable (MayBegin c) := inferInstanceAs (Decidable (_ ∨ _))

/-- `std::stod`, as in tests/highwayhash/arch_specific.cc:113: `none` is an exception. It is a function of the standard
library; only what is needed is said about it (a number of 64 digits is in the range of `double`). `fl` is the rounding. -/
structure Stod where
  fl : ℚ → ℚ
  stod : List Byte → Option ℚ
  number : ∀ a b : List Byte, a ≠ [] → (∀ c ∈ a, IsDigit c) → (∀ c ∈ b, IsDigit c) →
    (a ++ b).length ≤ 64 → stod (a ++ 0x2E :: b) = some (fl (decimal (a ++ b) / 10 ^ b.length))
  refused : ∀ l : List Byte, (∀ c ∈ l.head?, ¬MayBegin c) → stod l = none

/-- `prefixes` and `multipliers` (tests/highwayhash/arch_specific.cc:104-105): MHz, GHz, THz -/
def clockUnits : List (List Byte × ℚ) :=
  [([0x4D, 0x48, 0x7A], 1000000), ([0x47, 0x48, 0x7A], 1000000000), ([0x54, 0x48, 0x7A], 1000000000000)]

/-- The loop of `DetectNominalClockRate` (tests/highwayhash/arch_specific.cc:106-116); `none` is an exception. -/
def detectClockRate (cfg : Cfg) (st : Stod) (brand_string : List Byte) : List (List Byte × ℚ) → Option ℚ
  | [] => some 0
  | (u, multiplier) :: units =>
    match strFind u brand_string with
    | none => detectClockRate cfg st brand_string units
    | some pos_prefix =>
      match strRfind 0x20 brand_string (szSub cfg pos_prefix 1) with
      | none => detectClockRate cfg st brand_string units
      | some pos_space =>
        let digits := (brand_string.drop (szAdd cfg pos_space 1)).take (szSub cfg (szSub cfg pos_prefix pos_space) 1)
        (st.stod digits).map fun d => st.fl (d * multiplier)

/-- `NominalClockRate` (tests/highwayhash/arch_specific.cc:153-157), for x86-64, with `DetectNominalClockRate`
(tests/highwayhash/arch_specific.cc:99-149) -/
def NominalClockRate (cfg : Cfg) (st : Stod) (cpuid : U32 → Abcd) : Option ℚ :=
  detectClockRate cfg st (BrandString cpuid) clockUnits

end T1ha.Model
