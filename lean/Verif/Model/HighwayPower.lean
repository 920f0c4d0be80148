import Verif.Model.HighwayArch

/-!
# HighwayHash: the clock rate on POWER

The part of tests/highwayhash/arch_specific.cc for POWER. Not modelled: `InvariantTicksPerSecond`, which is a call of a
function of the C library there.
-/

namespace T1ha.Model

/-- `fgets` (tests/highwayhash/arch_specific.cc:125) with room for `n` characters and the zero: what is read, with the line feed, if there was room for it, and the
rest of the file. The null pointer, at the end of the file, is the empty list. -/
def fgetsText : Nat → List Byte → List Byte × List Byte
  | 0, file => ([], file)
  | _ + 1, [] => ([], [])
  | n + 1, c :: file => if c = 0x0A then ([c], file) else (c :: (fgetsText n file).1, (fgetsText n file).2)

/-- `tolower`, in the locale "C" -/
def lower (c : Byte) : Byte := if 65 ≤ c.toNat ∧ c.toNat ≤ 90 then c + 32 else c

/-- `sscanf(value, "%lf", &freq)`, as in tests/highwayhash/arch_specific.cc:138; `none` is a result other than 1. Only what
is needed is said about it, as for `Stod`; `fl` is the rounding. -/
structure Scanf where
  fl : ℚ → ℚ
  scan : List Byte → Option ℚ
  number : ∀ a b r : List Byte, a ≠ [] → (∀ c ∈ a, IsDigit c) → (∀ c ∈ b, IsDigit c) →
    (∀ c ∈ r.head?, ¬IsDigit c ∧ c ≠ 0x65 ∧ c ≠ 0x45) → (a ++ b).length ≤ 200 →
    scan (a ++ 0x2E :: b ++ r) = some (fl (decimal (a ++ b) / 10 ^ b.length))
  refused : ∀ l : List Byte, (∀ c ∈ l.head?, ¬MayBegin c) → scan l = none

/-- The body of the loop of `DetectNominalClockRate` for POWER (tests/highwayhash/arch_specific.cc:126-138); `none`, if
the loop goes on. The string ends at the first zero byte. -/
def clockLine (sc : Scanf) (line : List Byte) : Option ℚ :=
  let line := line.takeWhile (· != 0)
  if 0x3A ∈ line then
    let name := line.takeWhile (· != 0x3A)
    let value := (line.dropWhile (· != 0x3A)).drop 1
    let value := value.dropWhile (· == 0x20)
    let value := value.takeWhile (· != 0x0A)
    if (name.take 5).map lower = [0x63, 0x6C, 0x6F, 0x63, 0x6B] then sc.scan value else none
  else none

/-- The loop of `DetectNominalClockRate` for POWER (tests/highwayhash/arch_specific.cc:125-142) with `return freq` (144).
No result, if there are more than `n` rounds. -/
def clockLoop (sc : Scanf) : Nat → List Byte → Option ℚ
  | 0, _ => none
  | n + 1, file =>
    let (line, file) := fgetsText 199 file
    if line = [] then some (-1)
    else
      match clockLine sc line with
      | some freq => some (sc.fl (freq * 1000000))
      | none => clockLoop sc n file

/-- `DetectNominalClockRate` for POWER (tests/highwayhash/arch_specific.cc:118-148). `file` is `/proc/cpuinfo`; `none`, if
it cannot be opened. -/
def PowerClockRate (sc : Scanf) (n : Nat) (file : Option (List Byte)) : Option ℚ :=
  match file with
  | none => some 0
  | some file => clockLoop sc n file

end T1ha.Model
