import Verif.Basic

/-!
# Vocabulary for relations between hash values
-/

namespace T1ha

/-- The message in which each word of `k` bytes (and the last one, which may be shorter) is reversed. -/
def mirror (k : Nat) (m : List Byte) : List Byte :=
  ((chunks k ((m.length + (k - 1)) / k) m).map List.reverse).flatten

/-- Two strings of bytes, xored byte by byte. -/
def xorBytes (xs ys : List Byte) : List Byte := List.zipWith (· ^^^ ·) xs ys

end T1ha
