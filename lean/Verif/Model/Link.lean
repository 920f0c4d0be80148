import Verif.Model.Target

/-!
# The linker: which file defines and which file needs which symbol

The external symbols of src/*.c, the declarations of t1ha.h, and the lists of files in Makefile, meson.build
and the projects for Visual Studio.
-/

namespace T1ha.Model

/-- External symbols. -/
inductive Symbol
  | t1ha0 | t1ha0_funcptr | t1ha0_resolve | t1ha0_32le | t1ha0_32be
  | t1ha0_ia32aes_noavx | t1ha0_ia32aes_avx | t1ha0_ia32aes_avx2 | t1ha_ia32cpu_features
  | t1ha1_le | t1ha1_be
  | t1ha2_atonce | t1ha2_atonce128 | t1ha2_init | t1ha2_update | t1ha2_final
  | t1ha_selfcheck | t1ha_test_pattern | t1ha_selfcheck__all_enabled
  | t1ha_selfcheck__t1ha2_atonce | t1ha_selfcheck__t1ha2_atonce128 | t1ha_selfcheck__t1ha2_stream
  | t1ha_selfcheck__t1ha2
  | t1ha_selfcheck__t1ha1_le | t1ha_selfcheck__t1ha1_be | t1ha_selfcheck__t1ha1
  | t1ha_selfcheck__t1ha0_32le | t1ha_selfcheck__t1ha0_32be | t1ha_selfcheck__t1ha0
  | t1ha_selfcheck__t1ha0_ia32aes_noavx | t1ha_selfcheck__t1ha0_ia32aes_avx
  | t1ha_selfcheck__t1ha0_ia32aes_avx2
  | t1ha_refval_2atonce | t1ha_refval_2atonce128 | t1ha_refval_2stream | t1ha_refval_2stream128
  | t1ha_refval_64le | t1ha_refval_64be | t1ha_refval_32le | t1ha_refval_32be
  | t1ha_refval_ia32aes_a | t1ha_refval_ia32aes_b
  deriving DecidableEq, Repr

/-- The files of src/ which are compiled. -/
inductive Src
  | t1ha0 | t1ha1 | t1ha2 | t1ha0_ia32aes_noavx | t1ha0_ia32aes_avx | t1ha0_ia32aes_avx2
  | t1ha0_selfcheck | t1ha1_selfcheck | t1ha2_selfcheck | t1ha_selfcheck | t1ha_selfcheck_all
  deriving DecidableEq, Repr

/-- The symbol of a hash function. -/
def Fn.symbol : Fn → Symbol
  | .t1ha0_ia32aes_avx2 => .t1ha0_ia32aes_avx2
  | .t1ha0_ia32aes_avx => .t1ha0_ia32aes_avx
  | .t1ha0_ia32aes_noavx => .t1ha0_ia32aes_noavx
  | .t1ha1_be => .t1ha1_be
  | .t1ha1_le => .t1ha1_le
  | .t1ha2_atonce => .t1ha2_atonce
  | .t1ha0_32be => .t1ha0_32be
  | .t1ha0_32le => .t1ha0_32le

/-- What the conditional sections depend on. -/
structure Sections where
  /-- `T1HA0_DISABLED` -/
  no0 : Bool
  /-- `T1HA1_DISABLED` -/
  no1 : Bool
  /-- `T1HA2_DISABLED` -/
  no2 : Bool
  /-- `T1HA0_AESNI_AVAILABLE` -/
  aesni : Bool
  arch : Arch
  /-- `T1HA0_RUNTIME_SELECT` -/
  runtime : Bool
  /-- how `t1ha0` is bound if the implementation is selected at run time -/
  binding : Binding
  /-- `UINTPTR_MAX > 0xffffFFFFul || ULONG_MAX > 0xffffFFFFul` -/
  word64 : Bool
  /-- the function which is used if there is no AES-NI -/
  portable : Fn
  /-- the function to which the header binds `t1ha0` if the implementation is not selected at run time -/
  bound : Fn

/-- The sections which a build has. -/
def Build.sections (b : Build) (k : Binding) : Sections where
  no0 := b.no0
  no1 := b.no1
  no2 := b.no2
  aesni := b.aesniAvailable
  arch := b.arch
  runtime := b.runtimeSelect
  binding := k
  word64 := b.cfg.word64
  portable := t1ha0_resolve_portable b
  bound := t1ha0_static b

/-- `l` in a section which is compiled if `c`. -/
def sect {α : Type} (c : Bool) (l : List α) : List α := if c then l else []

/-- What src/t1ha0.c defines (lines 44, 328, 343, 360-361, 389-391, 428-459). -/
def defines0 (k : Sections) : List Symbol :=
  sect (!k.no0) <|
    [.t1ha0_32le, .t1ha0_32be] ++
    sect (k.aesni && k.arch = .ia32) [.t1ha_ia32cpu_features] ++
    sect k.runtime ([.t1ha0_resolve] ++
      match k.binding with
      | .ifunc => [.t1ha0]
      | .constructor => [.t1ha0_funcptr]
      | .proxy => [.t1ha0_funcptr])

/-- The symbols of other files which src/t1ha0.c needs (lines 391-426: `t1ha0_resolve`). -/
def refers0 (k : Sections) : List Symbol :=
  sect (!k.no0 && k.runtime) <|
    sect (k.aesni && k.arch = .ia32) [.t1ha0_ia32aes_avx2, .t1ha0_ia32aes_avx, .t1ha0_ia32aes_noavx] ++
    [k.portable.symbol]

/-- What src/t1ha0_selfcheck.c defines (lines 44, 51-143, 148-202). -/
def defines0_selfcheck (k : Sections) : List Symbol :=
  sect (!k.no0) <|
    [.t1ha_refval_32le, .t1ha_refval_32be] ++
    sect k.aesni [.t1ha_refval_ia32aes_a, .t1ha_refval_ia32aes_b] ++
    [.t1ha_selfcheck__t1ha0_32le, .t1ha_selfcheck__t1ha0_32be] ++
    sect k.aesni ([.t1ha_selfcheck__t1ha0_ia32aes_noavx, .t1ha_selfcheck__t1ha0_ia32aes_avx] ++
      sect (k.arch ≠ .e2k) [.t1ha_selfcheck__t1ha0_ia32aes_avx2]) ++
    [.t1ha_selfcheck__t1ha0]

/-- The symbols of other files which src/t1ha0_selfcheck.c needs (lines 148-202). -/
def refers0_selfcheck (k : Sections) : List Symbol :=
  sect (!k.no0) <|
    [.t1ha_selfcheck, .t1ha0_32le, .t1ha0_32be] ++
    sect k.aesni ([.t1ha0_ia32aes_noavx, .t1ha0_ia32aes_avx] ++ sect (k.arch ≠ .e2k) [.t1ha0_ia32aes_avx2]) ++
    sect (k.word64 && (!k.no1 || !k.no2))
      (if k.no1 then [.t1ha_selfcheck__t1ha2] else [.t1ha_selfcheck__t1ha1]) ++
    sect (k.aesni && k.arch ≠ .e2k) [.t1ha_ia32cpu_features]

/-- What a file defines. src/t1ha0.c and src/t1ha0_selfcheck.c: see above. src/t1ha1.c:44, 129, 145;
src/t1ha2.c:44, 202, 254, 305, 312, 367; src/t1ha0_ia32aes_{noavx,avx,avx2}.c with src/t1ha0_ia32aes_a.h:47-49 and
src/t1ha0_ia32aes_b.h:47-49; src/t1ha1_selfcheck.c:44-110; src/t1ha2_selfcheck.c:44-185;
src/t1ha_selfcheck.c:47-97; src/t1ha_selfcheck_all.c:47. -/
def Src.defines (k : Sections) : Src → List Symbol
  | .t1ha0 => defines0 k
  | .t1ha1 => sect (!k.no1) [.t1ha1_le, .t1ha1_be]
  | .t1ha2 => sect (!k.no2) [.t1ha2_atonce, .t1ha2_atonce128, .t1ha2_init, .t1ha2_update, .t1ha2_final]
  | .t1ha0_ia32aes_noavx => sect (!k.no0 && k.aesni) [.t1ha0_ia32aes_noavx]
  | .t1ha0_ia32aes_avx => sect (!k.no0 && k.aesni) [.t1ha0_ia32aes_avx]
  | .t1ha0_ia32aes_avx2 => sect (!k.no0 && k.aesni) [.t1ha0_ia32aes_avx2]
  | .t1ha0_selfcheck => defines0_selfcheck k
  | .t1ha1_selfcheck => sect (!k.no1) [.t1ha_refval_64le, .t1ha_refval_64be, .t1ha_selfcheck__t1ha1_le,
      .t1ha_selfcheck__t1ha1_be, .t1ha_selfcheck__t1ha1]
  | .t1ha2_selfcheck => sect (!k.no2) [.t1ha_refval_2atonce, .t1ha_refval_2atonce128, .t1ha_refval_2stream,
      .t1ha_refval_2stream128, .t1ha_selfcheck__t1ha2_atonce, .t1ha_selfcheck__t1ha2_atonce128,
      .t1ha_selfcheck__t1ha2_stream, .t1ha_selfcheck__t1ha2]
  | .t1ha_selfcheck => [.t1ha_test_pattern, .t1ha_selfcheck]
  | .t1ha_selfcheck_all => [.t1ha_selfcheck__all_enabled]

/-- The symbols of other files which a file needs. src/t1ha0.c and src/t1ha0_selfcheck.c: see above.
src/t1ha1_selfcheck.c:100-110; src/t1ha2_selfcheck.c:146-185; src/t1ha_selfcheck_all.c:47-63. The other ones
need nothing. -/
def Src.refers (k : Sections) : Src → List Symbol
  | .t1ha0 => refers0 k
  | .t1ha0_selfcheck => refers0_selfcheck k
  | .t1ha1_selfcheck => sect (!k.no1) [.t1ha_selfcheck, .t1ha1_le, .t1ha1_be]
  | .t1ha2_selfcheck => sect (!k.no2) [.t1ha_selfcheck, .t1ha2_atonce, .t1ha2_atonce128, .t1ha2_init,
      .t1ha2_update, .t1ha2_final]
  | .t1ha_selfcheck_all => sect (!k.no2) [.t1ha_selfcheck__t1ha2] ++ sect (!k.no1) [.t1ha_selfcheck__t1ha1] ++
      sect (!k.no0) [.t1ha_selfcheck__t1ha0]
  | _ => []

/-- What a program refers to when it calls `t1ha0` (t1ha.h:627-709). -/
def callsT1ha0 (k : Sections) : List Symbol :=
  sect (!k.no0) (if k.runtime then
      match k.binding with
      | .ifunc => [.t1ha0]
      | .constructor => [.t1ha0_funcptr]
      | .proxy => [.t1ha0_funcptr]
    else [k.bound.symbol])

/-- The declarations of t1ha.h with `T1HA_API`: lines 439-476, 493-524, 541-549, 627-636. -/
def declaredApi (k : Sections) : List Symbol :=
  [.t1ha_selfcheck__all_enabled] ++
  sect (!k.no2) [.t1ha_selfcheck__t1ha2_atonce, .t1ha_selfcheck__t1ha2_atonce128,
    .t1ha_selfcheck__t1ha2_stream, .t1ha_selfcheck__t1ha2] ++
  sect (!k.no1) [.t1ha_selfcheck__t1ha1_le, .t1ha_selfcheck__t1ha1_be, .t1ha_selfcheck__t1ha1] ++
  sect (!k.no0) ([.t1ha_selfcheck__t1ha0_32le, .t1ha_selfcheck__t1ha0_32be, .t1ha_selfcheck__t1ha0] ++
    sect k.aesni ([.t1ha_selfcheck__t1ha0_ia32aes_noavx, .t1ha_selfcheck__t1ha0_ia32aes_avx] ++
      sect (k.arch ≠ .e2k) [.t1ha_selfcheck__t1ha0_ia32aes_avx2])) ++
  sect (!k.no2) [.t1ha2_atonce, .t1ha2_atonce128, .t1ha2_init, .t1ha2_update, .t1ha2_final] ++
  sect (!k.no1) [.t1ha1_le, .t1ha1_be] ++
  sect (!k.no0 && k.runtime) ([.t1ha0_resolve] ++
    match k.binding with
    | .ifunc => [.t1ha0]
    | .constructor => [.t1ha0_funcptr]
    | .proxy => [.t1ha0_funcptr])

/-- The declarations of t1ha.h without `T1HA_API`: lines 587-590, 619-625. -/
def declaredPlain (k : Sections) : List Symbol :=
  sect (!k.no0) ([.t1ha0_32le, .t1ha0_32be] ++
    sect k.aesni ([.t1ha0_ia32aes_noavx, .t1ha0_ia32aes_avx] ++ sect (k.arch ≠ .e2k) [.t1ha0_ia32aes_avx2]))

/-- A line begins with the word, in upper or lower case (`grep -i '^word'`, Makefile:27-28). -/
def beginsWith (word line : List Char) : Bool := word.isPrefixOf (line.map Char.toLower)

/-- A line contains the word, in upper or lower case (`grep -i word`, Makefile:27-28). -/
def hasWord (word : List Char) : List Char → Bool
  | [] => word.isEmpty
  | c :: line => beginsWith word (c :: line) || hasWord word line

/-- `TARGET_ARCH` (Makefile:27-45), from the lines of `$(CC) --version` and `$(CC) -v`. The pattern of
Makefile:28 finds lines which begin with `Target: x86_64`, and lines which contain `i386-`, `i486-`, `i586-` or
`i686-`. -/
def makefileTarget (lines : List (List Char)) : Arch :=
  if lines.any (hasWord "e2k".toList) then .e2k
  else if lines.any (fun l => beginsWith "target: x86_64".toList l ||
      ["i386-", "i486-", "i586-", "i686-"].any (fun x => hasWord x.toList l)) then .ia32
  else .other

/-- `OBJ_LIST` of Makefile:31-45. `target` is `TARGET_ARCH`. -/
def makefile (target : Arch) : List Src :=
  [.t1ha0, .t1ha1, .t1ha2, .t1ha0_selfcheck, .t1ha1_selfcheck, .t1ha2_selfcheck, .t1ha_selfcheck,
    .t1ha_selfcheck_all] ++
  match target with
  | .e2k => [.t1ha0_ia32aes_noavx, .t1ha0_ia32aes_avx]
  | .ia32 => [.t1ha0_ia32aes_noavx, .t1ha0_ia32aes_avx, .t1ha0_ia32aes_avx2]
  | .other => []

/-- The files of meson.build:6-9, 28-58. `x86`: the name of the processor family begins with `x86`. -/
def meson (x86 : Bool) : List Src :=
  [.t1ha0, .t1ha1, .t1ha2] ++ sect x86 [.t1ha0_ia32aes_noavx, .t1ha0_ia32aes_avx, .t1ha0_ia32aes_avx2]

/-- The files of t1ha-static.vcxproj:321-375 and of t1ha-dll.vcxproj:303-357. -/
def visualStudio : List Src :=
  [.t1ha0, .t1ha0_ia32aes_avx, .t1ha0_ia32aes_avx2, .t1ha0_ia32aes_noavx, .t1ha0_selfcheck, .t1ha1,
    .t1ha1_selfcheck, .t1ha2, .t1ha2_selfcheck, .t1ha_selfcheck, .t1ha_selfcheck_all]

/-- ELF visibility: a hidden symbol can only be used within the program or shared library whose object files
define it. -/
inductive Visibility
  | default | hidden
  deriving DecidableEq, Repr

/-- The attribute of `T1HA_API` (t1ha.h:319-364) on systems which use ELF. Simplified: nobody has defined
`T1HA_API`, `__dll_export` or `__dll_import`. -/
def Target.apiAttribute (t : Target) : Option Visibility :=
  if t.defd "t1ha_EXPORTS" || t.defd "t1ha_IMPORTS" then
    (if t.defd "__GNUC__" || t.hasAttribute "__visibility__" then some .default else none)
  else none

/-- The visibility of declarations without attribute (`#pragma GCC visibility push(hidden)`, t1ha.h:398-400).
The pragma is for declarations of external symbols as well, unlike `-fvisibility=hidden`. -/
def Target.pragmaVisibility (t : Target) : Visibility := if t.gnucPrereq 4 0 then .hidden else .default

/-- The visibility which a symbol has in an object file whose source includes t1ha.h, whether the file defines
the symbol or needs it. Simplified: symbols which t1ha.h does not declare are hidden (src/t1ha_bits.h:520-522,
`-fvisibility=hidden` of Makefile:49 and meson.build:21-26). -/
def visibility (t : Target) (k : Sections) (s : Symbol) : Visibility :=
  if s ∈ declaredApi k then t.apiAttribute.getD t.pragmaVisibility
  else if s ∈ declaredPlain k then t.pragmaVisibility
  else .hidden

/-- The symbols which a shared library shows to programs. -/
def exported (t : Target) (files : List Src) (k : Sections) : List Symbol :=
  (files.flatMap (Src.defines k)).filter (fun s => visibility t k s = .default)

end T1ha.Model
