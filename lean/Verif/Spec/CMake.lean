import Verif.Model.CMake

/-!
# What the documentation says about the CMake variables

docs/cmake_variables.md, README.md 172-208.
-/

namespace Opt.CMake

open Run (Text)

/-- the variable that asks for the item, and its default: docs/cmake_variables.md 7-72 -/
def documented (top : Bool) : Item → Option (Var × Bool)
  | .test => some (.test, top)
  | .examples => some (.examples, top)
  | .optionExamples => some (.examples, top)
  | .sanitizer => some (.useSanitizer, true)
  | .install => some (.install, false)
  | .natvis => some (.useNatvis, true)
  | .natstepfilter => some (.useNatstepfilter, true)
  | .libassert => some (.useLibassert, true)
  | _ => none

/-- items that concern `option-test`, which has to be there -/
def ofTest : Item → Bool
  | .sanitizer => true
  | .libassert => true
  | _ => false

/-- the item is there if and only if its variable is true, or is not defined and has the default `true` -/
def AsDocumented (top : Bool) (m : Machine) (d : Defs) (x : Item) : Prop :=
  ∀ v dflt, documented top x = some (v, dflt) →
    (x ∈ configure top m d ↔ (d v).getD dflt = true ∧ (ofTest x = true → Item.test ∈ configure top m d))

/-- there is a file in or below the directory -/
def DirThere (files : List Text) (dir : Text) : Prop := ∃ f ∈ files, ∃ rest, f = join dir rest

/-- A target can be generated with the package, and its sources can include the header, when only these files are there: CMake stops with an error if
a directory in the INTERFACE_INCLUDE_DIRECTORIES of an imported target or a source file does not exist. -/
def Usable (files : List Text) (pkg : Package) : Prop :=
  (∃ dir ∈ pkg.includeDirs, join dir (txt"opt/option.hpp") ∈ files) ∧ (∀ dir ∈ pkg.includeDirs, DirThere files dir) ∧ ∀ s ∈ pkg.sources, s ∈ files

end Opt.CMake
