import Verif.Model.Build

/-!
# C66: the configuration macros do what docs/macros.md says

All inputs are finite; every theorem is about all of them.
-/

namespace Opt.Build

/-! ## Specification -/

/-- the library that an included header brings, if it is enabled -/
def PfrInput.space (i : PfrInput) : Option PfrSpace :=
  if i.boostEnabled = some true then some .boost
  else if i.plainEnabled = some true then some .plain
  else none

/-- a library that is enabled is used under its own namespace; otherwise the header goes on without it -/
def PfrInput.withLibrary (i : PfrInput) : PfrResult :=
  match i.space with
  | some s => .use true (some s)
  | none => .use false none

/-- What docs/macros.md 46-64 says: the user can turn the library off; a file named by the user is used, and it is an error if
it does not exist or is not such a library; otherwise `<boost/pfr.hpp>` or `<pfr.hpp>` is used if there is one. -/
def PfrInput.documented (i : PfrInput) : PfrResult :=
  if i.use = some false then .use false none
  else if i.fileDefined then
    if !i.fileExists || (i.boostEnabled.isNone && i.plainEnabled.isNone) then .error else i.withLibrary
  else if i.boostExists || i.plainExists then i.withLibrary
  else .use false none

/-- A header belongs to at most one of the two libraries and says so by defining its macro; the two that are looked for are the
libraries they are named after. -/
def PfrInput.Coherent (i : PfrInput) : Prop :=
  (i.boostEnabled = none ∨ i.plainEnabled = none) ∧
  (i.fileDefined = false → i.boostExists = true → i.boostEnabled ≠ none) ∧
  (i.fileDefined = false → i.boostExists = false → i.plainExists = true → i.plainEnabled ≠ none)

instance (i : PfrInput) : Decidable i.Coherent := by unfold PfrInput.Coherent; infer_instance

/-- **C66**, reflection library: exactly when the header does what the documentation says.
Missing: `OPTION_USE_PFR` set without a file, and a file without `OPTION_USE_PFR` unless it is a disabled library. -/
theorem C66_pfr_partial (i : PfrInput) (h : i.Coherent) :
    pfr i = i.documented ↔
      i.use = some false ∨ (i.use = some true ∧ i.fileDefined = true) ∨ (i.use = none ∧ i.fileDefined = false) ∨
      (i.use = none ∧ i.fileExists = true ∧ (i.boostEnabled = some false ∨ i.plainEnabled = some false)) := by
  revert h
  rcases i with ⟨_ | _ | _, _ | _, _ | _, _ | _, _ | _, _ | _ | _, _ | _ | _⟩ <;> decide

example : pfr ⟨none, false, false, true, false, some true, none⟩ = .use true (some .boost) :=
  (C66_pfr_partial ⟨none, false, false, true, false, some true, none⟩ (by decide)).2 (by decide)

/-- **C66** is violated by a file named without `OPTION_USE_PFR`: a working Boost.PFR there is used without a namespace, so that
nothing compiles; a working stand-alone library there is ignored; a missing file is no error.  It is violated too by
`OPTION_USE_PFR` set without a file: that is an error although the libraries can be found. -/
theorem C66_violated_pfr (i : PfrInput) :
    (i.use = none → i.fileDefined = true → i.fileExists = true → i.boostEnabled = some true →
      pfr i = .use true none ∧ (pfr i).compiles = false) ∧
    (i.use = none → i.fileDefined = true → i.boostEnabled = none → i.plainEnabled = some true → pfr i = .use false none) ∧
    (i.use = none → i.fileDefined = true → i.fileExists = false → pfr i = .use false none) ∧
    (i.use = some true → i.fileDefined = false → pfr i = .error) := by
  refine ⟨?_, ?_, ?_, ?_⟩ <;> rcases i with ⟨_ | _ | _, _ | _, _ | _, _ | _, _ | _, _ | _ | _, _ | _ | _⟩ <;> decide

example : pfr ⟨none, true, true, true, true, some true, none⟩ = .use true none ∧
    (PfrInput.documented ⟨none, true, true, true, true, some true, none⟩) = .use true (some .boost) :=
  ⟨((C66_violated_pfr ⟨none, true, true, true, true, some true, none⟩).1 rfl rfl rfl rfl).1, rfl⟩

/-- **C66**: that is the only case in which the library is used without a namespace. -/
theorem C66_pfr_compiles (i : PfrInput) (hn : pfr i ≠ .error) :
    (pfr i).compiles = false ↔
      i.use = none ∧ i.fileDefined = true ∧ i.fileExists = true ∧ i.boostEnabled = some true := by
  revert hn
  rcases i with ⟨_ | _ | _, _ | _, _ | _, _ | _, _ | _, _ | _ | _, _ | _ | _⟩ <;> decide

example : (pfr ⟨some true, true, true, false, false, none, some true⟩).compiles = true := by
  have := (C66_pfr_compiles ⟨some true, true, true, false, false, none, some true⟩ (by decide))
  simpa using this

/-! ## Compiler, library, checks -/

/-- **C66**: exactly one standard library is assumed; at most one compiler is, except Clang with the Microsoft headers, which is
both; each compiler is recognised by its macro, Intel before the others and GCC after them; enumerations can be reflected
exactly on the three compilers whose function names are understood. -/
theorem C66_compiler (p : Predefined) :
    ((compiler p).intel = p.intel ∧ (compiler p).msvc = (!p.intel && p.msc) ∧ (compiler p).clang = (!p.intel && p.clang) ∧
      (compiler p).gcc = (!p.intel && !p.msc && !p.clang && p.gnu)) ∧
    ((stdLib p).libcpp = p.libcpp ∧ (stdLib p).libstdcpp = (!p.libcpp && p.glibcxx) ∧
      (stdLib p).stl = (!p.libcpp && !p.glibcxx && p.msc)) ∧
    ((stdLib p).libcpp.toNat + (stdLib p).libstdcpp.toNat + (stdLib p).stl.toNat + (stdLib p).unknown.toNat = 1) ∧
    ((compiler p).clang.toNat + (compiler p).gcc.toNat + (compiler p).msvc.toNat + (compiler p).intel.toNat ≤
      1 + (p.msc && p.clang).toNat) ∧
    (canReflectEnum p = true ↔ p.intel = false ∧ (p.msc = true ∨ p.clang = true ∨ p.gnu = true)) := by
  rcases p with ⟨_ | _, _ | _, _ | _, _ | _, _ | _, _ | _⟩ <;> decide

example : canReflectEnum ⟨false, false, true, true, true, false⟩ = true :=
  (C66_compiler ⟨false, false, true, true, true, false⟩).2.2.2.2.2 ⟨rfl, .inr (.inl rfl)⟩

theorem gcc_alone (p : Predefined) :
    (compiler p).gcc = true → (compiler p).clang = false ∧ (compiler p).msvc = false ∧ (compiler p).intel = false := by
  rcases p with ⟨_ | _, _ | _, _ | _, _ | _, _, _⟩ <;> simp [compiler]

/-- **C66**, `OPTION_VERIFY` (docs/macros.md 12-15), the part that holds: without a definition by the user and without libassert, a
debug build prints and breaks on every compiler; a release build makes the failing case undefined on GCC, Clang and MSVC.  It
says what happens elsewhere: in a release build of another compiler (Intel) the check disappears.
Missing: those compilers. -/
theorem C66_verify_partial (i : VerifyInput) (p : Predefined) (hc : i.compiler = compiler p) (hu : i.user = false) {v : Verify}
    (hv : verify i = some v) :
    (i.ndebug = false → hasLibassert i = some false → v.onFalse = .stops ∨ v.onFalse = .mayContinue) ∧
    (i.ndebug = true → (v.onFalse = .undefined ↔ canReflectEnum p = true)) ∧
    (i.ndebug = true → canReflectEnum p = false → v.onFalse = .continues) := by
  rcases i with ⟨u, nd, ul, le, c, g⟩
  have hc : c = compiler p := hc
  subst hc
  cases hu
  revert hv
  simp only [canReflectEnum]
  generalize compiler p = c
  rcases c with ⟨_ | _, _ | _, _ | _, c4⟩ <;> cases nd <;> rcases ul with _ | _ | _ <;> cases le <;> cases g <;> cases c4 <;>
    rintro ⟨⟩ <;> decide

example : verify ⟨false, true, none, false, compiler ⟨false, false, false, true, false, true⟩, true⟩ = some .assume := rfl

/-- **C66**, docs/macros.md 12-15 and 66-76: a definition of `OPTION_VERIFY` by the user is never replaced; libassert is used
exactly in debug builds without such a definition, if it is there and not switched off; and the header is rejected exactly if
libassert is demanded and missing. -/
theorem C66_verify_choice (i : VerifyInput) :
    (verify i = some .user ↔ i.user = true ∧ verify i ≠ none) ∧
    (verify i = some .libassert ↔ i.user = false ∧ i.ndebug = false ∧ i.useLibassert ≠ some false ∧ i.libassertExists = true) ∧
    (verify i = none ↔ i.useLibassert = some true ∧ i.libassertExists = false) := by
  rcases i with ⟨u, nd, ul, le, ⟨c1, c2, c3, c4⟩, g⟩
  refine ⟨?_, ?_, ?_⟩ <;>
    cases u <;> cases nd <;> rcases ul with _ | _ | _ <;> cases le <;> cases c1 <;> cases c2 <;> cases c3 <;> cases c4 <;>
      cases g <;> decide

example : verify ⟨true, false, some true, true, compiler ⟨false, false, false, true, false, true⟩, true⟩ = some .user :=
  (C66_verify_choice ⟨true, false, some true, true, compiler ⟨false, false, false, true, false, true⟩, true⟩).1.2
    ⟨rfl, nofun⟩

/-- **C66**: a debug build on GCC is the only configuration of the library's own in which a failing check never comes back; on Clang
and MSVC it can, under a debugger. -/
theorem C66_verify_stops (i : VerifyInput) {v : Verify} (hv : verify i = some v) :
    v.onFalse = .stops ↔ i.user = false ∧ i.ndebug = false ∧ hasLibassert i = some false ∧ i.compiler.gcc = true ∧
      i.compiler.clang = false ∧ i.compiler.msvc = false ∧ i.compiler.intel = false := by
  rcases i with ⟨u, nd, ul, le, ⟨c1, c2, c3, c4⟩, g⟩
  revert hv
  cases u <;> cases nd <;> rcases ul with _ | _ | _ <;> cases le <;> cases c1 <;> cases c2 <;> cases c3 <;> cases c4 <;> cases g <;>
    rintro ⟨⟩ <;> decide

example : Verify.trap.onFalse = .stops ∧
    verify ⟨false, false, none, false, compiler ⟨false, false, false, true, false, true⟩, true⟩ = some .trap := ⟨rfl, rfl⟩

/-- **C66** is violated in release builds of other compilers: `OPTION_VERIFY` is documented to make the failing case unreachable, and
is nothing at all. -/
theorem C66_violated_intel : ∃ (i : VerifyInput) (p : Predefined), i.compiler = compiler p ∧ i.user = false ∧ i.ndebug = true ∧
    (verify i).map Verify.onFalse = some .continues :=
  ⟨⟨false, true, none, false, compiler ⟨true, false, false, true, false, true⟩, false⟩,
    ⟨true, false, false, true, false, true⟩, rfl, rfl, rfl, rfl⟩

/-- **C66**, `value()` on an empty option: with exceptions `bad_access` is thrown in every configuration.  Without exceptions,
and without definitions of the user or libassert, the program stops exactly in debug builds on GCC; in every release
build the call is undefined behaviour, also where the check itself is nothing, because a `[[noreturn]]` function returns. -/
theorem C66_bad_access (i : VerifyInput) (p : Predefined) (hc : i.compiler = compiler p) {v : Verify} (hv : verify i = some v) :
    throwBadAccess true v = .throws ∧
    (i.user = false → i.ndebug = true → throwBadAccess false v = .undefined) ∧
    (i.user = false → i.ndebug = false → hasLibassert i = some false →
      throwBadAccess false v = if (compiler p).gcc then .stops else .undefinedIfResumed) := by
  rcases i with ⟨u, nd, ul, le, c, g⟩
  have hc : c = compiler p := hc
  subst hc
  have hx := gcc_alone p
  revert hv hx
  generalize compiler p = c
  rcases c with ⟨_ | _, _ | _, _ | _, _ | _⟩ <;> cases u <;> cases nd <;> rcases ul with _ | _ | _ <;> cases le <;>
    cases g <;> rintro ⟨⟩ <;> decide

example : throwBadAccess false .nothing = .undefined :=
  (C66_bad_access ⟨false, true, none, false, compiler ⟨true, false, false, true, false, true⟩, false⟩
    ⟨true, false, false, true, false, true⟩ rfl rfl).2.1 rfl rfl

end Opt.Build
