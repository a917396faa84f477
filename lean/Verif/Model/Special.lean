/-!
# Selection of the special members of `option<T>` (option.hpp 2134-2399, 2793-2803)

`option_base` and `enable_copy_move` are families of partial specialisations over booleans.  A specialisation is a
pattern: a fixed boolean or a template parameter (`none`) in each position.
-/

namespace Opt

/-- one boolean template argument of a partial specialisation: a literal, or a deduced parameter -/
def argMatches : Option Bool → Bool → Bool
  | none, _ => true
  | some b, c => b == c

/-- How a special member is provided: `= default` (with a trivial base: bitwise), written out by the library, or
`= delete`. -/
inductive Impl where
  | default
  | manual
  | deleted
deriving DecidableEq, Repr

/-- the four special members -/
structure Members where
  copyCtor : Impl
  copyAssign : Impl
  moveCtor : Impl
  moveAssign : Impl
deriving DecidableEq, Repr

/-- a partial specialisation with pattern `(CopyCtor, CopyAssignment, MoveCtor, MoveAssignment, is_reference)` -/
structure Spec5 where
  cc : Option Bool
  ca : Option Bool
  mc : Option Bool
  ma : Option Bool
  ref : Option Bool
  members : Members
deriving DecidableEq, Repr

/-- does the specialisation match these template arguments -/
def Spec5.matches (s : Spec5) (cc ca mc ma ref : Bool) : Bool :=
  argMatches s.cc cc && argMatches s.ca ca && argMatches s.mc mc && argMatches s.ma ma && argMatches s.ref ref

/-- Class template partial specialisation: the primary template if nothing matches, the matching specialisation if there
is one, `none` (ill-formed) if several match.  (C++ would also accept several matches one of which is more specialised
than the others; that never occurs here, see `C18_unique`, `C19_unique`.) -/
def selectSpec (primary : Members) (specs : List Spec5) (cc ca mc ma ref : Bool) : Option Members :=
  match specs.filter (fun s => s.matches cc ca mc ma ref) with
  | [] => some primary
  | [s] => some s.members
  | _ => none

/-- the primary templates (2134-2144, 2333-2334) declare nothing: all members are implicit, i.e. defaulted -/
def implicitMembers : Members := ⟨.default, .default, .default, .default⟩

/-- the partial specialisations of `option_base` (option.hpp 2146-2280 and 2285-2329), in source order -/
def optionBaseSpecs : List Spec5 := [
  -- 2147-2161: <T, false, TrivialCopyAssignment, true, true, false>
  ⟨some false, none, some true, some true, some false, ⟨.manual, .manual, .default, .default⟩⟩,
  -- 2162-2174: <T, true, false, true, true, false>
  ⟨some true, some false, some true, some true, some false, ⟨.default, .manual, .default, .default⟩⟩,
  -- 2176-2190: <T, true, true, false, TrivialMoveAssignment, false>
  ⟨some true, some true, some false, none, some false, ⟨.default, .default, .manual, .manual⟩⟩,
  -- 2193-2212: <T, false, TrivialCopyAssignment, false, TrivialMoveAssignment, false>
  ⟨some false, none, some false, none, some false, ⟨.manual, .manual, .manual, .manual⟩⟩,
  -- 2214-2232: <T, true, false, false, TrivialMoveAssignment, false>
  ⟨some true, some false, some false, none, some false, ⟨.default, .manual, .manual, .manual⟩⟩,
  -- 2233-2245: <T, true, true, true, false, false>
  ⟨some true, some true, some true, some false, some false, ⟨.default, .default, .default, .manual⟩⟩,
  -- 2247-2264: <T, false, TrivialCopyAssignment, true, false, false>
  ⟨some false, none, some true, some false, some false, ⟨.manual, .manual, .default, .manual⟩⟩,
  -- 2265-2280: <T, true, false, true, false, false>
  ⟨some true, some false, some true, some false, some false, ⟨.default, .manual, .default, .manual⟩⟩,
  -- 2285-2329: <T, TrivialCopyCtor, ..., is_reference = true>: declares no special members
  ⟨none, none, none, none, some true, implicitMembers⟩]

/-- `option_base<T>` with its default arguments (option.hpp 2134-2144): the assignment flags are and-ed with
`is_trivially_destructible_v<T>`. -/
def optionBase (trivCopyCtor trivCopyAssign trivMoveCtor trivMoveAssign trivDtor isRef : Bool) : Option Members :=
  selectSpec implicitMembers optionBaseSpecs trivCopyCtor (trivCopyAssign && trivDtor) trivMoveCtor
    (trivMoveAssign && trivDtor) isRef

/-- the partial specialisations of `enable_copy_move` (option.hpp 2336-2399), in source order -/
def enableCopyMoveSpecs : List Spec5 := [
  -- 2336-2343
  ⟨some true, some false, some true, some true, some false, ⟨.default, .deleted, .default, .default⟩⟩,
  -- 2344-2351
  ⟨some false, none, some true, some true, some false, ⟨.deleted, .deleted, .default, .default⟩⟩,
  -- 2352-2359
  ⟨some true, some true, some false, none, some false, ⟨.default, .default, .deleted, .deleted⟩⟩,
  -- 2360-2367
  ⟨some false, none, some false, none, some false, ⟨.deleted, .deleted, .deleted, .deleted⟩⟩,
  -- 2368-2375
  ⟨some true, some false, some false, none, some false, ⟨.default, .deleted, .deleted, .deleted⟩⟩,
  -- 2376-2383
  ⟨some true, some true, some true, some false, some false, ⟨.default, .default, .default, .deleted⟩⟩,
  -- 2384-2391
  ⟨some false, none, some true, some false, some false, ⟨.deleted, .deleted, .default, .deleted⟩⟩,
  -- 2392-2399
  ⟨some true, some false, some true, some false, some false, ⟨.default, .deleted, .default, .deleted⟩⟩]

/-- `enable_copy_move<Tag, is_copy_constructible_v<T>, ...>` (option.hpp 2796-2803) -/
def enableCopyMove (copyCtor copyAssign moveCtor moveAssign isRef : Bool) : Option Members :=
  selectSpec implicitMembers enableCopyMoveSpecs copyCtor copyAssign moveCtor moveAssign isRef

/-- The special members of `option<T>`: the class derives from both bases and defaults all four members
(option.hpp 2838-2840, 2909-2911), so each is deleted if one of the bases deletes it and is otherwise as in
`option_base` (`enable_copy_move` is an empty class, its members are trivial). -/
def optionMembers (trivCopyCtor trivCopyAssign trivMoveCtor trivMoveAssign trivDtor copyCtor copyAssign moveCtor
    moveAssign isRef : Bool) : Option Members :=
  match optionBase trivCopyCtor trivCopyAssign trivMoveCtor trivMoveAssign trivDtor isRef,
    enableCopyMove copyCtor copyAssign moveCtor moveAssign isRef with
  | some b, some e =>
    let pick (x y : Impl) : Impl := if y = .deleted then .deleted else x
    some ⟨pick b.copyCtor e.copyCtor, pick b.copyAssign e.copyAssign, pick b.moveCtor e.moveCtor,
      pick b.moveAssign e.moveAssign⟩
  | _, _ => none

/-- What an expression such as `option<T>(std::move(o))` calls: a move constructor that is defaulted and defined as
deleted does not take part in overload resolution ([over.match.funcs]/8), so the copy constructor is chosen.  Returns
the member used and whether it is the copy form. -/
def resolveMove (copyForm moveForm : Impl) : Impl × Bool :=
  if moveForm = .deleted then (copyForm, true) else (moveForm, false)

end Opt
