import Verif.X86

/-!
# The AES tables against the algebraic definition (FIPS-197, section 5.1.1)
-/

namespace T1ha.X86

/-- Multiplication in GF(2^8) modulo x^8 + x^4 + x^3 + x + 1: the first `n` bits of `b`. -/
def gmul : Nat → Byte → Byte → Byte
  | 0, _, _ => 0
  | n + 1, a, b => (if b.getLsbD 0 then a else 0) ^^^ gmul n (xtime a) (b >>> 1)

/-- The affine transformation of FIPS-197, equation 5.1. -/
def affine (i : Byte) : Byte :=
  i ^^^ i.rotateLeft 1 ^^^ i.rotateLeft 2 ^^^ i.rotateLeft 3 ^^^ i.rotateLeft 4 ^^^ 0x63

/-- Its inverse. -/
def unaffine (i : Byte) : Byte :=
  i.rotateLeft 1 ^^^ i.rotateLeft 3 ^^^ i.rotateLeft 6 ^^^ 0x05

/-- The S-box is the affine transformation of the multiplicative inverse (of 0 for 0). -/
theorem sbox_algebraic (b : Byte) :
    ∃ i, sbox b = affine i ∧ (b = 0 → i = 0) ∧ (b ≠ 0 → gmul 8 b i = 1) := by
  have : ∀ n : Fin 256, sbox ⟨n⟩ = affine (unaffine (sbox ⟨n⟩)) ∧
      ((⟨n⟩ : Byte) = 0 → unaffine (sbox ⟨n⟩) = 0) ∧
      ((⟨n⟩ : Byte) ≠ 0 → gmul 8 ⟨n⟩ (unaffine (sbox ⟨n⟩)) = 1) := by
    decide +kernel
  exact ⟨_, this b.toFin⟩

/-- The tables are inverse to each other. -/
theorem invSbox_sbox : ∀ b : Byte, invSbox (sbox b) = b := by
  have : ∀ n : Fin 256, invSbox (sbox ⟨n⟩) = ⟨n⟩ := by decide +kernel
  exact fun b => this b.toFin

theorem sbox_invSbox : ∀ b : Byte, sbox (invSbox b) = b := by
  have : ∀ n : Fin 256, sbox (invSbox ⟨n⟩) = ⟨n⟩ := by decide +kernel
  exact fun b => this b.toFin

end T1ha.X86
