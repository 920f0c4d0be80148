import Verif.Model.Dispatch

/-!
# The preprocessor: which configuration a compiler gets

t1ha.h:174-315, 380-396, 459-467, 592-617 and src/t1ha_bits.h:54-107, 121-123, 154-344, 363-402, 676-681,
993-1071: the conditions on macros, as functions of the macros which are defined.
-/

namespace T1ha.Model

/-- What the preprocessor sees. The macros are those which the compiler predefines and those given on its
command line. Simplified: macros which are not integers have some integer as value here (only whether they
are defined matters); the choice of a header in t1ha.h:254-271 is not modelled, only its effect. -/
structure Target where
  /-- value of a macro, if it is defined -/
  macros : String → Option Nat
  /-- macros which are defined by the headers of t1ha.h:219-227, 254-271 -/
  header : String → Option Nat
  /-- `__has_builtin` (0 if the compiler does not have it: src/t1ha_bits.h:105-107) -/
  hasBuiltin : String → Bool
  /-- `__has_attribute` (0 if the compiler does not have it: t1ha.h:174-176) -/
  hasAttribute : String → Bool
  /-- `__has_feature(address_sanitizer)` (src/t1ha_bits.h:113-115, 121) -/
  asanFeature : Bool
  /-- `UINTPTR_MAX`; `size_t` has the same width -/
  uintptrMax : Nat
  /-- `ULONG_MAX` -/
  ulongMax : Nat
  /-- the ABI aligns `uint64_t` to 4 bytes in structures -/
  u64Align4 : Bool

namespace Target

/-- `defined(x)` -/
def defd (t : Target) (x : String) : Bool := (t.macros x).isSome

/-- The value of `x` in a condition: 0 if it is not defined. -/
def num (t : Target) (x : String) : Nat := (t.macros x).getD 0

/-- `defined(x)` after the header of t1ha.h:254-271 has been included -/
def defdH (t : Target) (x : String) : Bool := (t.header x).isSome || t.defd x

/-- The value of `x` after the header of t1ha.h:254-271 has been included. -/
def numH (t : Target) (x : String) : Nat := (t.header x).getD (t.num x)

/-- One of the macros is defined. -/
def any (t : Target) (l : List String) : Bool := l.any t.defd

/-- One of the macros is defined after the header has been included. -/
def anyH (t : Target) (l : List String) : Bool := l.any t.defdH

/-- `__GNUC_PREREQ(maj, min)` (t1ha.h:182-189). Simplified: a `__GNUC_PREREQ` of the system headers means
the same. -/
def gnucPrereq (t : Target) (maj min : Nat) : Bool :=
  t.defd "__GNUC__" && t.defd "__GNUC_MINOR__" &&
    decide ((maj <<< 16) + min ≤ (t.num "__GNUC__" <<< 16) + t.num "__GNUC_MINOR__")

/-- `__ia32__` (t1ha.h:229-239). (The `|` in line 231 has the effect of `||`.) -/
def ia32 (t : Target) : Bool :=
  t.any ["__ia32__", "i386", "__386", "__i386", "__i386__", "i486", "__i486", "__i486__", "i586", "__i586",
    "__i586__", "i686", "__i686", "__i686__", "_M_IX86", "_X86_", "__THW_INTEL__", "__I86__", "__INTEL__",
    "__x86_64", "__x86_64__", "__amd64__", "__amd64", "_M_X64", "_M_AMD64", "__IA32__"]

/-- `__amd64__` (t1ha.h:241-245) -/
def amd64 (t : Target) : Bool :=
  t.any ["__amd64__", "__x86_64", "__x86_64__", "__amd64", "_M_X64"]

/-- The byte order which a triple of macros means (src/t1ha_bits.h:68-71). Simplified: a header which gives
the same value to both orders is not supported here. -/
def order (cur little big : Nat) : Option Endian :=
  if little = big then none
  else if cur = little then some .little
  else if cur = big then some .big
  else none

/-- t1ha.h:286-296 -/
def littleList (t : Target) : Bool :=
  t.defdH "__LITTLE_ENDIAN__" || (t.defdH "_LITTLE_ENDIAN" && !t.defdH "_BIG_ENDIAN") ||
  t.anyH ["__ARMEL__", "__THUMBEL__", "__AARCH64EL__", "__MIPSEL__", "_MIPSEL", "__MIPSEL", "_M_ARM",
    "_M_ARM64", "__e2k__", "__elbrus_4c__", "__elbrus_8c__", "__bfin__", "__BFIN__", "__ia64__", "_IA64",
    "__IA64__", "__ia64", "_M_IA64", "__itanium__"] || t.ia32 ||
  t.anyH ["__CYGWIN__", "_WIN64", "_WIN32", "__TOS_WIN__", "__WINDOWS__"]

/-- t1ha.h:299-307 -/
def bigList (t : Target) : Bool :=
  t.defdH "__BIG_ENDIAN__" || (t.defdH "_BIG_ENDIAN" && !t.defdH "_LITTLE_ENDIAN") ||
  t.anyH ["__ARMEB__", "__THUMBEB__", "__AARCH64EB__", "__MIPSEB__", "_MIPSEB", "__MIPSEB", "__m68k__",
    "M68000", "__hppa__", "__hppa", "__HPPA__", "__sparc__", "__sparc", "__370__", "__THW_370__", "__s390__",
    "__s390x__", "__SYSC_ZARCH__"]

/-- `__BYTE_ORDER__` (t1ha.h:248-315, src/t1ha_bits.h:68-71): `none` where an `#error` is -/
def byteOrder (t : Target) : Option Endian :=
  if t.defd "__BYTE_ORDER__" && t.defd "__ORDER_LITTLE_ENDIAN__" && t.defd "__ORDER_BIG_ENDIAN__" then
    order (t.num "__BYTE_ORDER__") (t.num "__ORDER_LITTLE_ENDIAN__") (t.num "__ORDER_BIG_ENDIAN__")
  else if t.defdH "__BYTE_ORDER" && t.defdH "__LITTLE_ENDIAN" && t.defdH "__BIG_ENDIAN" then
    order (t.numH "__BYTE_ORDER") (t.numH "__LITTLE_ENDIAN") (t.numH "__BIG_ENDIAN")
  else if t.defdH "_BYTE_ORDER" && t.defdH "_LITTLE_ENDIAN" && t.defdH "_BIG_ENDIAN" then
    order (t.numH "_BYTE_ORDER") (t.numH "_LITTLE_ENDIAN") (t.numH "_BIG_ENDIAN")
  else if t.littleList then some .little
  else if t.bigList then some .big
  else none

/-- `T1HA_SYS_UNALIGNED_ACCESS` (src/t1ha_bits.h:73-89). Simplified: values other than 0, 1, 2 given by
the user are taken for 0. -/
def unaligned (t : Target) : Unaligned :=
  if t.defd "T1HA_SYS_UNALIGNED_ACCESS" then
    (if t.num "T1HA_SYS_UNALIGNED_ACCESS" = 2 then .efficient
    else if t.num "T1HA_SYS_UNALIGNED_ACCESS" = 1 then .slow
    else .unable)
  else if t.defd "CONFIG_HAVE_EFFICIENT_UNALIGNED_ACCESS" then .efficient
  else if t.ia32 then .efficient
  else if t.defd "__e2k__" then .slow
  else if t.defd "__ARM_FEATURE_UNALIGNED" then .efficient
  else .unable

/-- The branch for GCC and clang is taken (src/t1ha_bits.h:154). -/
def gnuBranch (t : Target) : Bool := t.gnucPrereq 4 4 || t.defd "__clang__"

/-- The branch for MSVC is taken (src/t1ha_bits.h:234). -/
def mscBranch (t : Target) : Bool := !t.gnuBranch && t.defd "_MSC_VER"

/-- Which `bswap64` (src/t1ha_bits.h:179, 255, 363-379). The macros of the system are taken to be right. -/
def bswap64Impl (t : Target) : BswapImpl :=
  if t.gnuBranch || t.mscBranch || t.defdH "bswap_64" || t.defdH "__bswap_64" then .builtin else .portable

/-- Which `bswap32` (src/t1ha_bits.h:180, 256, 381-392). -/
def bswap32Impl (t : Target) : BswapImpl :=
  if t.gnuBranch || t.mscBranch || t.defdH "bswap_32" || t.defdH "__bswap_32" then .builtin else .portable

/-- Which `bswap16` (src/t1ha_bits.h:181-183, 257, 394-402). -/
def bswap16Impl (t : Target) : BswapImpl :=
  if (t.gnuBranch && (t.gnucPrereq 4 8 || t.hasBuiltin "__builtin_bswap16")) || t.mscBranch ||
    t.defdH "bswap_16" || t.defdH "__bswap_16" then .builtin else .portable

/-- Elbrus, with its intrinsics (src/t1ha_bits.h:195-232). -/
def e2kBranch (t : Target) : Bool := t.gnuBranch && t.defd "__e2k__"

/-- Which `add64carry_*` (src/t1ha_bits.h:201-227, 262-271, 281-329, 993-1034). -/
def carryImpl (t : Target) : CarryImpl :=
  if t.e2kBranch && decide (5 ≤ t.num "__iset__") then .builtin
  else if t.mscBranch && (t.defd "_M_X64" || t.defd "_M_IA64") then .builtin
  else if t.mscBranch && t.defd "_M_IX86" && decide (1915 ≤ t.num "_MSC_VER") then .msvc32
  else if t.hasBuiltin "__builtin_addcll" then .builtin
  else .plain

/-- Which `mul_64x64_128` (src/t1ha_bits.h:197-199, 262-276, 1036-1067). -/
def mulImpl (t : Target) : MulImpl :=
  if t.mscBranch && (t.defd "_M_X64" || t.defd "_M_IA64") then .umul128
  else if (t.defd "__SIZEOF_INT128__" ||
      (t.defd "_INTEGRAL_MAX_BITS" && decide (128 ≤ t.num "_INTEGRAL_MAX_BITS"))) &&
      (!t.defd "__LCC__" || t.num "__LCC__" ≠ 124) then .int128
  else if (t.e2kBranch && decide (3 ≤ t.num "__iset__")) || (t.mscBranch && t.defd "_M_ARM64") then .high
  else .portable

/-- The configuration for a byte order (src/t1ha_bits.h:54-107, 121-123, 404-445). -/
def cfg (t : Target) (e : Endian) : Cfg where
  endian := e
  unaligned := t.unaligned
  oneshot := if t.defd "T1HA_USE_FAST_ONESHOT_READ" then t.num "T1HA_USE_FAST_ONESHOT_READ" ≠ 0 else true
  asan := t.defd "__SANITIZE_ADDRESS__" || t.asanFeature
  pageSize := if t.defdH "PAGESIZE" then t.numH "PAGESIZE" else 4096
  ptr64 := 0xffffFFFF < t.uintptrMax
  ulong64 := 0xffffFFFF < t.ulongMax
  ndebug := t.defd "NDEBUG"
  bswap := t.bswap64Impl
  bswap32 := t.bswap32Impl
  bswap16 := t.bswap16Impl
  carry := t.carryImpl
  mul := t.mulImpl
  beLoad := t.e2kBranch
  u64Align4 := t.u64Align4
  packed := !t.ia32 && (t.defd "__GNUC__" || t.hasAttribute "__packed__" || !t.defd "_MSC_VER")

/-- Why a build fails. -/
inductive BuildError
  /-- `#error` of t1ha.h:311 or src/t1ha_bits.h:70 -/
  | byteOrder
  /-- `#error` of src/t1ha_bits.h:245-247 -/
  | msvcTooOld
  /-- a call of a function which is not declared: `fetch32_be` (src/t1ha_bits.h:938) -/
  | undeclared
  deriving DecidableEq, Repr

/-- The configuration, if t1ha1.c, t1ha2.c and t1ha0.c compile. (All of them include `t1ha_bits.h`, which
defines `tail64_be_unaligned`.) -/
def config (t : Target) : Except BuildError Cfg :=
  match t.byteOrder with
  | none => .error .byteOrder
  | some e =>
    if t.mscBranch && decide (t.num "_MSC_FULL_VER" < 180040629) then .error .msvcTooOld
    else if (t.cfg e).Buildable then .ok (t.cfg e)
    else .error .undeclared

/-- The inputs of the selection of `t1ha0` (t1ha.h:459-467, 592-617). Simplified: `__e2k__` and `__ia32__`
are not defined together. -/
def build (t : Target) (cfg : Cfg) : Build where
  cfg := cfg
  arch := if t.ia32 then .ia32 else if t.defd "__e2k__" then .e2k else .other
  compiler := if t.defd "__GNUC__" then .gnuc else if t.defd "_MSC_VER" then .msvc else .other
  oldMsvc32 := t.defd "_M_IX86" && !decide (1800 < t.num "_MSC_VER")
  aesni := (t.macros "T1HA0_AESNI_AVAILABLE").map (· ≠ 0)
  runtime := (t.macros "T1HA0_RUNTIME_SELECT").map (· ≠ 0)
  useDefine := if t.defd "T1HA0_USE_DEFINE" then t.num "T1HA0_USE_DEFINE" ≠ 0 else t.defd "__LCC__"
  no0 := t.defd "T1HA0_DISABLED"
  no1 := t.defd "T1HA1_DISABLED"
  no2 := t.defd "T1HA2_DISABLED"

/-- `T1HA_USE_INDIRECT_FUNCTIONS` (t1ha.h:380-396) -/
def indirect (t : Target) : Bool :=
  if t.defd "T1HA_USE_INDIRECT_FUNCTIONS" then t.num "T1HA_USE_INDIRECT_FUNCTIONS" ≠ 0
  else t.defd "__ELF__" && t.amd64 &&
    (t.hasAttribute "__ifunc__" ||
      (!t.defd "__clang__" && t.defd "__GNUC__" && decide (4 ≤ t.num "__GNUC__") &&
        !t.defd "__SANITIZE_ADDRESS__" && !t.defd "__SSP_ALL__"))

/-- How `t1ha0` reaches its implementation (src/t1ha0.c:428-459). -/
def binding (t : Target) : Binding :=
  if t.indirect then .ifunc
  else if t.gnucPrereq 4 0 || t.hasAttribute "__constructor__" then .constructor
  else .proxy

end Target

end T1ha.Model
