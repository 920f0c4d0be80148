import Verif.Basic

/-!
# Build configuration

The preprocessor inputs which change the code of the library.
-/

namespace T1ha.Model

/-- `T1HA_SYS_UNALIGNED_ACCESS` (src/t1ha_bits.h:73-89). -/
inductive Unaligned
  /-- `T1HA_UNALIGNED_ACCESS__UNABLE` -/
  | unable
  /-- `T1HA_UNALIGNED_ACCESS__SLOW` -/
  | slow
  /-- `T1HA_UNALIGNED_ACCESS__EFFICIENT` -/
  | efficient
  deriving DecidableEq, Repr

/-- Which `bswap16/32/64` the compiler gets: an intrinsic (src/t1ha_bits.h:179-183, 255-257,
365-368, 382-385, 395-398) or the C code (src/t1ha_bits.h:370-377, 387-390, 400). -/
inductive BswapImpl
  | builtin
  | portable
  deriving DecidableEq, Repr

/-- Which `add64carry_*` the compiler gets: comparisons in C (src/t1ha_bits.h:1003-1004, 1017-1018,
1031), an add-with-carry intrinsic (src/t1ha_bits.h:201-227, 265-270, 999-1001, 1013-1015, 1027-1029)
or the pair of 32-bit add-with-carry of 32-bit MSVC (src/t1ha_bits.h:290-329). -/
inductive CarryImpl
  | plain
  | builtin
  | msvc32
  deriving DecidableEq, Repr

/-- Which `mul_64x64_128` the compiler gets: native 128-bit integers (src/t1ha_bits.h:1043-1046),
the MSVC intrinsic `_umul128` (src/t1ha_bits.h:264), a high-multiply intrinsic
(src/t1ha_bits.h:1048-1049), or four 32-bit multiplications (src/t1ha_bits.h:1052-1064). -/
inductive MulImpl
  | int128
  | umul128
  | high
  | portable
  deriving DecidableEq, Repr

/-- A build configuration. -/
structure Cfg where
  /-- `__BYTE_ORDER__` (src/t1ha_bits.h:68-71: only these two are supported) -/
  endian : Endian
  /-- `T1HA_SYS_UNALIGNED_ACCESS` -/
  unaligned : Unaligned
  /-- `T1HA_USE_FAST_ONESHOT_READ` (src/t1ha_bits.h:54-60) -/
  oneshot : Bool
  /-- `__SANITIZE_ADDRESS__` (src/t1ha_bits.h:121-123) -/
  asan : Bool
  /-- `PAGESIZE` (src/t1ha_bits.h:99-101) -/
  pageSize : Nat
  /-- pointers, `uintptr_t` and `size_t` have 64 bits (else 32 bits) -/
  ptr64 : Bool
  /-- `unsigned long` has 64 bits (else 32 bits) -/
  ulong64 : Bool
  /-- `NDEBUG`: `assert` does nothing -/
  ndebug : Bool
  /-- which `bswap64` -/
  bswap : BswapImpl
  /-- which `bswap32` -/
  bswap32 : BswapImpl
  /-- which `bswap16` (GCC 4.4 to 4.7 have builtins for the other two only) -/
  bswap16 : BswapImpl
  carry : CarryImpl
  mul : MulImpl
  /-- `fetch32_be_aligned` and `fetch64_be_aligned` are the big-endian load instructions of Elbrus
  (src/t1ha_bits.h:229-230) -/
  beLoad : Bool
  /-- on 32-bit targets: `uint64_t` is aligned to 4 bytes only within structures (as on i386 Linux) -/
  u64Align4 : Bool
  /-- `read_unaligned` goes by way of a packed structure (src/t1ha_bits.h:414-424, 430-444), unless
  unaligned access is efficient; not so on x86 and with MSVC (src/t1ha_bits.h:404-411, 425-429) -/
  packed : Bool
  deriving DecidableEq, Repr

namespace Cfg

/-- Width of pointers and of `size_t`. -/
def bits (cfg : Cfg) : Nat := if cfg.ptr64 then 64 else 32

/-- `UINTPTR_MAX > 0xffffFFFFul || ULONG_MAX > 0xffffFFFFul`
(src/t1ha_bits.h:93, 687, 911, src/t1ha0.c:404, 415) -/
def word64 (cfg : Cfg) : Bool := cfg.ptr64 || cfg.ulong64

/-- `ALIGNMENT_64` (src/t1ha_bits.h:93-97) -/
def alignment64 (cfg : Cfg) : Nat := if cfg.word64 then 8 else 4

/-- `T1HA_USE_FAST_ONESHOT_READ && !defined(__SANITIZE_ADDRESS__)`
(src/t1ha_bits.h:607, 850, src/t1ha0.c:51, 151) -/
def alignedOneshot (cfg : Cfg) : Bool := cfg.oneshot && !cfg.asan

/-- Whether the macro `can_read_underside` is defined (src/t1ha_bits.h:676-678). -/
def canReadUnderside (cfg : Cfg) : Bool :=
  cfg.oneshot && decide (cfg.unaligned ≠ .unable) && decide (42 < cfg.pageSize) && !cfg.asan

/-- Whether `read_unaligned` is used, and goes by way of a packed structure
(src/t1ha_bits.h:404-445): its last member is what is read, so that a pointer to the start of the
structure, before what is read, is computed. -/
def proxy (cfg : Cfg) : Bool := cfg.packed && decide (cfg.unaligned = .slow)

/-- How far before the message the pointers may be which are computed for reading words of `n` bytes:
because of `can_read_underside`, and because of the packed structure. -/
def below (cfg : Cfg) (n : Nat) : Nat :=
  (if cfg.canReadUnderside then n - 1 else 0) + (if cfg.proxy then n - 1 else 0)

/-- Whether the code compiles. The only combination that does not: `tail64_be_unaligned` calls
`fetch32_be`, which is defined nowhere (src/t1ha_bits.h:938), in the branch of
src/t1ha_bits.h:927-948. (The `inline` function is compiled even if it is never called.) -/
def Buildable (cfg : Cfg) : Prop :=
  ¬ (cfg.endian = .big ∧ cfg.unaligned = .efficient ∧ ¬ (cfg.canReadUnderside ∧ cfg.word64))

instance (cfg : Cfg) : Decidable cfg.Buildable := by unfold Buildable; infer_instance

/-- Configurations in which no one-shot read of 64 bits can leave the page of the buffer; in the other
ones (32-bit builds with slow or no unaligned access and one-shot reads) `tail64_le_aligned` and
`tail64_be_aligned` read 8 bytes at an address which is a multiple of 4 only. -/
def SafeTail (cfg : Cfg) : Prop :=
  cfg.word64 = true ∨ cfg.unaligned = .efficient ∨ cfg.alignedOneshot = false

instance (cfg : Cfg) : Decidable cfg.SafeTail := by unfold SafeTail; infer_instance

end Cfg

end T1ha.Model
