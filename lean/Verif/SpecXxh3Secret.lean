import Verif.SpecXxh3

/-!
# Specification of hashes of 128 bits as values, and of the secrets which `XXH3_generateSecret` makes
-/

namespace T1ha

namespace Spec

/-- A hash of 128 bits as a number. -/
def Hash128.number (h : Hash128) : Nat := h.high64.toNat * 2 ^ 64 + h.low64.toNat

/-- The 16 bytes of this number, most significant first. -/
def canonical128 (h : Hash128) : List Byte := canonical64 h.high64 ++ canonical64 h.low64

/-- 96 bytes: those of the message, again and again. -/
def xxh3Seeds (m : List Byte) : List Byte := (List.range 96).map fun i => m.getD (i % m.length) 0

/-- 12 hashes: the first one is that of the message, the other ones are hashes of the first one, with 8 bytes of the message
and the number of the hash as the seed. -/
def xxh3Generated (m : List Byte) : List Byte :=
  if m = [] then xxh3Secret
  else
    let first := canonical128 (xxh3_128WithSeed m 0)
    (List.range 12).flatMap fun i =>
      if i = 0 then first
      else canonical128 (xxh3_128WithSeed first (at64 (xxh3Seeds m) (8 * i) + BitVec.ofNat 64 i))

end Spec

end T1ha
