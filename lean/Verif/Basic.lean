/-!
# Words, bytes and byte order

Vocabulary shared by the specification and by the model.  Nothing here is t1ha-specific.
-/

namespace T1ha

abbrev Byte := BitVec 8
abbrev U16 := BitVec 16
abbrev U32 := BitVec 32
abbrev U64 := BitVec 64
abbrev U128 := BitVec 128

/-- A byte order. -/
inductive Endian
  | little
  | big
  deriving DecidableEq, Repr

/-- Value of a byte string read with the least significant byte first. -/
def leVal : List Byte → Nat
  | [] => 0
  | b :: bs => b.toNat + 256 * leVal bs

/-- Value of a byte string read with the most significant byte first. -/
def beVal (bs : List Byte) : Nat :=
  bs.foldl (fun acc b => acc * 256 + b.toNat) 0

/-- Value of a byte string in a given byte order. -/
def Endian.val : Endian → List Byte → Nat
  | .little => leVal
  | .big => beVal

/-- The `n` bytes of a number, least significant byte first. -/
def leBytes : Nat → Nat → List Byte
  | 0, _ => []
  | n + 1, v => BitVec.ofNat 8 v :: leBytes n (v / 256)

/-- The `n` bytes of a number in a given byte order. -/
def Endian.bytes : Endian → Nat → Nat → List Byte
  | .little, n, v => leBytes n v
  | .big, n, v => (leBytes n v).reverse

/-- Cut the first `n * k` bytes of a string into `n` pieces of `k` bytes
(the last pieces are shorter when the string is too short). -/
def chunks (k : Nat) : Nat → List Byte → List (List Byte)
  | 0, _ => []
  | n + 1, m => m.take k :: chunks k n (m.drop k)

end T1ha
