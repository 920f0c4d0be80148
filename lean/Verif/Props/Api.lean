import Verif.Contract
import Verif.Spec
import Verif.Model.T1ha0
import Verif.Model.T1ha1
import Verif.Model.T1ha2
import Verif.Model.Aes

/-!
# The one-shot hash functions of the library, side by side with what they should compute
-/

namespace T1ha.Model

/-- The one-shot functions. Parameters which are not arguments of the C function: the initial contents
of an uninitialised local variable (`stack`), and what the compiler knows about the CPU (`ac`). -/
inductive OneShot
  | t1ha1_le
  | t1ha1_be
  | t1ha2_atonce (stack : State256)
  | t1ha2_atonce128 (stack : State256) (extra_result : Nat)
  | t1ha0_32le
  | t1ha0_32be
  | t1ha0_ia32aes_noavx (ac : AesCfg)
  | t1ha0_ia32aes_avx (ac : AesCfg)
  | t1ha0_ia32aes_avx2 (ac : AesCfg)
  deriving DecidableEq

namespace OneShot

/-- The C code: a call with arguments `data`, `len`, `seed`. -/
def run (f : OneShot) (cfg : Cfg) (data len : Nat) (seed : U64) : M U64 :=
  match f with
  | t1ha1_le => Model.t1ha1_le cfg data len seed
  | t1ha1_be => Model.t1ha1_be cfg data len seed
  | t1ha2_atonce stack => Model.t1ha2_atonce cfg stack data len seed
  | t1ha2_atonce128 stack extra => Model.t1ha2_atonce128 cfg stack extra data len seed
  | t1ha0_32le => Model.t1ha0_32le cfg data len seed
  | t1ha0_32be => Model.t1ha0_32be cfg data len seed
  | t1ha0_ia32aes_noavx ac => Model.t1ha0_ia32aes_noavx cfg ac data len seed
  | t1ha0_ia32aes_avx ac => Model.t1ha0_ia32aes_avx cfg ac data len seed
  | t1ha0_ia32aes_avx2 ac => Model.t1ha0_ia32aes_avx2 cfg ac data len seed

/-- The hash value which the call should return for the message `m`. -/
def hash (f : OneShot) (m : List Byte) (seed : U64) : U64 :=
  match f with
  | t1ha1_le => Spec.t1ha1 .little m seed
  | t1ha1_be => Spec.t1ha1 .big m seed
  | t1ha2_atonce _ => Spec.t1ha2_atonce m seed
  | t1ha2_atonce128 _ _ => (Spec.t1ha2_atonce128 m seed).1
  | t1ha0_32le => Spec.t1ha0_32 .little m seed
  | t1ha0_32be => Spec.t1ha0_32 .big m seed
  | t1ha0_ia32aes_noavx _ => Spec.t1ha0_aesA m seed
  | t1ha0_ia32aes_avx _ => Spec.t1ha0_aesA m seed
  | t1ha0_ia32aes_avx2 _ => Spec.t1ha0_aesB m seed

/-- The functions which read the message in 64-bit words. -/
def words64 : OneShot → Bool
  | t1ha0_32le | t1ha0_32be => false
  | _ => true

/-- The functions which use the AES instructions. -/
def aes : OneShot → Bool
  | t1ha0_ia32aes_noavx _ | t1ha0_ia32aes_avx _ | t1ha0_ia32aes_avx2 _ => true
  | _ => false

/-- Where the call may store something: the address of 8 bytes. -/
def output : OneShot → Option Nat
  | t1ha2_atonce128 _ extra => some extra
  | _ => none

/-- Number of whole blocks which the loops of the function go through. -/
def blocks (f : OneShot) (len : Nat) : Nat :=
  match f with
  | t1ha1_le | t1ha1_be | t1ha2_atonce _ | t1ha2_atonce128 _ _ => if 32 < len then len / 32 else 0
  | t1ha0_32le | t1ha0_32be => if 16 < len then len / 16 else 0
  | t1ha0_ia32aes_noavx _ | t1ha0_ia32aes_avx _ => len / 128
  -- after an odd 16-byte vector: blocks of 128 bytes, then pairs of vectors
  | t1ha0_ia32aes_avx2 _ => if 32 < len then len / 32 / 4 + len / 32 % 4 else 0

/-- What a call needs besides a readable buffer. -/
structure Ready (f : OneShot) (cfg : Cfg) (w : World) (data len : Nat) : Prop where
  /-- 32-bit builds without efficient unaligned access and with one-shot reads may read past the end
  of the page (see `Cfg.SafeTail`); then the next 8 bytes must be mapped. -/
  slack : f.words64 = true → cfg.SafeTail ∨ Mapped w (data + len) 8
  /-- The big-endian version must compile. -/
  builds : f = t1ha1_be → cfg.Buildable
  /-- The second result has a place to go to. -/
  output : ∀ p, f.output = some p → Writable w p 8
  /-- The buffer is not at the very bottom of the address space: the code forms the pointer
  `data + len - 127`. -/
  bottom : ∀ ac, f = t1ha0_ia32aes_noavx ac ∨ f = t1ha0_ia32aes_avx ac → 32 < len → 127 ≤ data + len
  /-- The buffer is not at the very top of the address space: the code forms pointers up to 112 bytes
  past its end. -/
  top : ∀ ac, f = t1ha0_ia32aes_avx2 ac → 32 < len → data + len + 112 < 2 ^ cfg.bits
  /-- The length fits in `unsigned long`. -/
  ulong : ∀ ac, f = t1ha0_ia32aes_avx2 ac → len < 2 ^ (if cfg.ulong64 then 64 else 32)

end OneShot

/-- A call of `m` returned `v` in state `s'`, and `t` lists the events it caused. -/
def Returns {α : Type} (m : M α) (w : World) (s : Sys) (v : α) (s' : Sys) (t : List Ev) : Prop :=
  m w s = .ok (v, s') ∧ s'.log = t ++ s.log

end T1ha.Model
