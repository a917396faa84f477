/-!
# Configuration by the preprocessor (option.hpp 18-69, 120-164, 170-233, 263-273, 2523-2529)

The inputs are the macros that the conditions look at; `none` means that a macro is not defined.
-/

namespace Opt.Build

/-! ## Compiler and standard library -/

/-- the predefined macros that identify the compiler and the library -/
structure Predefined where
  /-- `__INTEL_COMPILER` -/
  intel : Bool
  /-- `_MSC_VER` -/
  msc : Bool
  /-- `__clang__` -/
  clang : Bool
  /-- `__GNUC__` or `__GNUG__` -/
  gnu : Bool
  /-- `_LIBCPP_VERSION` -/
  libcpp : Bool
  /-- `__GLIBCXX__` -/
  glibcxx : Bool
deriving DecidableEq, Repr

/-- `OPTION_CLANG`, `OPTION_GCC`, `OPTION_MSVC`, `OPTION_INTEL` -/
structure Compiler where
  clang : Bool
  gcc : Bool
  msvc : Bool
  intel : Bool
deriving DecidableEq, Repr

/-- 18-47 -/
def compiler (p : Predefined) : Compiler :=
  if p.intel then ⟨false, false, false, true⟩
  else if p.msc then ⟨p.clang, false, true, false⟩
  else if p.clang then ⟨true, false, false, false⟩
  else if p.gnu then ⟨false, true, false, false⟩
  else ⟨false, false, false, false⟩

/-- `OPTION_LIBCPP`, `OPTION_LIBSTDCPP`, `OPTION_STL`, `OPTION_UNKNOWN_STD` -/
structure StdLib where
  libcpp : Bool
  libstdcpp : Bool
  stl : Bool
  unknown : Bool
deriving DecidableEq, Repr

/-- 49-69 -/
def stdLib (p : Predefined) : StdLib :=
  if p.libcpp then ⟨true, false, false, false⟩
  else if p.glibcxx then ⟨false, true, false, false⟩
  else if p.msc then ⟨false, false, true, false⟩
  else ⟨false, false, false, true⟩

/-- `OPTION_CAN_REFLECT_ENUM` (257-261, 269-273) -/
def canReflectEnum (p : Predefined) : Bool :=
  (compiler p).gcc || (compiler p).clang || (compiler p).msvc

/-! ## The reflection library -/

/-- where the names of the library are looked up -/
inductive PfrSpace where
  /-- `::boost::pfr::` -/
  | boost
  /-- `::pfr::` -/
  | plain
deriving DecidableEq, Repr

/-- what the conditions about the reflection library look at.  Headers: whether they exist; macros: as they are after the
header in question has been included -/
structure PfrInput where
  /-- `OPTION_USE_PFR` -/
  use : Option Bool
  /-- `OPTION_PFR_FILE` is defined -/
  fileDefined : Bool
  /-- `__has_include(OPTION_PFR_FILE)`, if it is defined -/
  fileExists : Bool
  /-- `__has_include(<boost/pfr.hpp>)` -/
  boostExists : Bool
  /-- `__has_include(<pfr.hpp>)` -/
  plainExists : Bool
  /-- `BOOST_PFR_ENABLED` -/
  boostEnabled : Option Bool
  /-- `PFR_ENABLED` -/
  plainEnabled : Option Bool
deriving DecidableEq, Repr

/-- the outcome: compilation stops, or the header goes on with or without the library (`OPTION_HAS_PFR`) and
`OPTION_PFR_NAMESPACE` defined or not -/
inductive PfrResult where
  | error
  | use (has : Bool) (space : Option PfrSpace)
deriving DecidableEq, Repr

/-- `#if M` for a macro that may be undefined: it counts as 0 -/
def isTrue : Option Bool → Bool
  | some b => b
  | none => false

/-- 120-164.  `__has_include(OPTION_PFR_FILE)` with `OPTION_PFR_FILE` undefined does not name a header: an error. -/
def pfr (i : PfrInput) : PfrResult :=
  match i.use with
  | some true =>
    if !i.fileDefined then .error
    else if i.fileExists then
      if i.boostEnabled.isSome then
        if isTrue i.boostEnabled then .use true (some .boost) else .use false none
      else if i.plainEnabled.isSome then
        if isTrue i.plainEnabled then .use true (some .plain) else .use false none
      else .error
    else .error
  | some false => .use false none
  | none =>
    if i.fileDefined then
      if i.fileExists then
        if isTrue i.boostEnabled then .use true none else .use false none
      else .use false none
    else if i.boostExists then
      if isTrue i.boostEnabled then .use true (some .boost) else .use false none
    else if i.plainExists then
      if isTrue i.plainEnabled then .use true (some .plain) else .use false none
    else .use false none

/-- Does the rest of the header compile: with `OPTION_HAS_PFR`, `pfr_is_option_reflectable` (835-836) names something in
`OPTION_PFR_NAMESPACE` -/
def PfrResult.compiles : PfrResult → Bool
  | .error => false
  | .use has space => !has || space.isSome

/-! ## `OPTION_VERIFY` -/

/-- what the conditions about `OPTION_VERIFY` look at -/
structure VerifyInput where
  /-- `OPTION_VERIFY` is already defined -/
  user : Bool
  ndebug : Bool
  /-- `OPTION_USE_LIBASSERT` -/
  useLibassert : Option Bool
  /-- `__has_include(OPTION_LIBASSERT_FILE)` -/
  libassertExists : Bool
  compiler : Compiler
  /-- `__GNUC__ >= 13` -/
  gnuc13 : Bool
deriving DecidableEq, Repr

/-- what `OPTION_VERIFY(e, message)` expands to -/
inductive Verify where
  | user
  /-- `LIBASSERT_ASSUME` -/
  | libassert
  /-- message, then `__builtin_trap()` -/
  | trap
  /-- message, then `__builtin_debugtrap()` or `__debugbreak()` -/
  | debugBreak
  /-- message, then `raise(SIGTRAP)`, or `raise(SIGABRT)` if the former is not defined -/
  | signal
  /-- `__assume`, `__builtin_assume`, `[[assume]]` -/
  | assume
  /-- `if (e) {} else { __builtin_unreachable(); }` -/
  | unreachable
  /-- nothing -/
  | nothing
deriving DecidableEq, Repr

/-- `OPTION_HAS_LIBASSERT` (174-188); `none`: `#error` -/
def hasLibassert (i : VerifyInput) : Option Bool :=
  match i.useLibassert with
  | some true => if i.libassertExists then some true else none
  | some false => some false
  | none => some i.libassertExists

/-- 190-233 -/
def verify (i : VerifyInput) : Option Verify :=
  match hasLibassert i with
  | none => none
  | some lib => some <|
    if i.user then .user
    else if !i.ndebug then
      if lib then .libassert
      else if i.compiler.clang then .debugBreak
      else if i.compiler.msvc || i.compiler.intel then .debugBreak
      else if i.compiler.gcc then .trap
      else .signal
    else if i.compiler.msvc then .assume
    else if i.compiler.clang then .assume
    else if i.compiler.gcc then
      if i.gnuc13 then .assume else .unreachable
    else .nothing

/-- what happens when the expression is false -/
inductive OnFalse where
  /-- control does not come back -/
  | stops
  /-- control comes back only if a debugger resumes the program or a handler for the signal returns -/
  | mayContinue
  /-- undefined behaviour -/
  | undefined
  /-- control comes back as if there were no check -/
  | continues
  /-- decided outside of the library -/
  | external
deriving DecidableEq, Repr

/-- a failed `OPTION_VERIFY` -/
def Verify.onFalse : Verify → OnFalse
  | .user => .external
  | .libassert => .external
  | .trap => .stops
  | .debugBreak => .mayContinue
  | .signal => .mayContinue
  | .assume => .undefined
  | .unreachable => .undefined
  | .nothing => .continues

/-- what `throw_bad_access()` does -/
inductive BadAccess where
  /-- throws `bad_access` -/
  | throws
  /-- does not come back -/
  | stops
  /-- undefined behaviour for certain -/
  | undefined
  /-- undefined if control comes back from the break or signal, since the function is `[[noreturn]]` -/
  | undefinedIfResumed
  | external
deriving DecidableEq, Repr

/-- `throw_bad_access()` (2523-2529); `exceptions`: `__cpp_exceptions >= 199711L`.  Control that reaches the end of a
`[[noreturn]]` function is undefined behaviour. -/
def throwBadAccess (exceptions : Bool) (v : Verify) : BadAccess :=
  if exceptions then .throws
  else match v.onFalse with
    | .stops => .stops
    | .mayContinue => .undefinedIfResumed
    | .undefined => .undefined
    | .continues => .undefined
    | .external => .external

end Opt.Build
