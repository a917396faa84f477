import Verif.Model.Special

/-!
# C18, C19: which special members `option<T>` has and which are bitwise
-/

namespace Opt

/-- What the documentation promises for one special member (docs/reference.md 62-63, 84-85, 260-264, 295-299):
deleted unless `T` is a reference or has the needed operations, trivial for references or when all the needed operations
are trivial, otherwise written out. -/
def documented (isRef available trivial : Bool) : Impl :=
  if isRef then .default else if !available then .deleted else if trivial then .default else .manual

/-- C18, C19: for every combination of the ten traits the special members of `option<T>` are exactly the documented
ones; in particular one specialisation of each base is selected. -/
theorem C18_special_members (tcc tca tmc tma td cc ca mc ma r : Bool) :
    optionMembers tcc tca tmc tma td cc ca mc ma r = some
      ⟨documented r cc tcc, documented r (cc && ca) (tcc && tca && td), documented r mc tmc,
       documented r (mc && ma) (tmc && tma && td)⟩ := by
  revert tcc tca tmc tma td cc ca mc ma r
  decide

/-- a type whose copy assignment is not trivial and which is not move assignable -/
example : optionMembers true false true false true true true true false false =
    some ⟨.default, .manual, .default, .deleted⟩ := C18_special_members ..

/-- C18: no two partial specialisations of `option_base` match the same arguments, and none of them is needed exactly
when everything is trivial. -/
theorem C18_unique (cc ca mc ma r : Bool) :
    (optionBaseSpecs.filter (fun s => s.matches cc ca mc ma r)).length =
      if cc && ca && mc && ma && !r then 0 else 1 := by
  revert cc ca mc ma r
  decide

example : optionMembers true false true true true true true true true false =
    some ⟨.default, .manual, .default, .default⟩ := by decide

/-- C19: `option<T>` declares a usable copy constructor, copy assignment, move constructor and move assignment exactly
when `T` (not a reference) has the operations the documentation names. -/
theorem C19_deleted (tcc tca tmc tma td cc ca mc ma : Bool) :
    ∃ m, optionMembers tcc tca tmc tma td cc ca mc ma false = some m ∧
      (m.copyCtor = .deleted ↔ cc = false) ∧
      (m.copyAssign = .deleted ↔ ¬ (cc = true ∧ ca = true)) ∧
      (m.moveCtor = .deleted ↔ mc = false) ∧
      (m.moveAssign = .deleted ↔ ¬ (mc = true ∧ ma = true)) := by
  refine ⟨_, C18_special_members .., ?_⟩
  revert tcc tca tmc tma td cc ca mc ma
  decide

/-- a type like `std::unique_ptr` -/
example : ∃ m, optionMembers false false false false false false false true true false = some m ∧
    m.copyCtor = .deleted ∧ m.copyAssign = .deleted ∧ m.moveCtor ≠ .deleted ∧ m.moveAssign ≠ .deleted :=
  let ⟨m, h, h1, h2, h3, h4⟩ := C19_deleted false false false false false false false true true
  ⟨m, h, h1.2 rfl, h2.2 (by decide), fun k => absurd (h3.1 k) (by decide), fun k => h4.1 k (by decide)⟩

/-- C19: no two partial specialisations of `enable_copy_move` match the same arguments. -/
theorem C19_unique (cc ca mc ma r : Bool) :
    (enableCopyMoveSpecs.filter (fun s => s.matches cc ca mc ma r)).length =
      if (cc && ca && mc && ma) || r then 0 else 1 := by
  revert cc ca mc ma r
  decide

example : (enableCopyMoveSpecs.filter (fun s => s.matches true false true true false)).length = 1 := C19_unique ..

/-- C19, what a user observes when moving (partial): for a `T` that cannot be moved and cannot be copied either,
`option<T>` cannot be move constructed; for a movable `T` the move constructor is the one that runs. -/
theorem C19_move_expression_partial (tcc tca tmc tma td cc ca mc ma : Bool) (h : mc = true ∨ cc = false) :
    ∃ m, optionMembers tcc tca tmc tma td cc ca mc ma false = some m ∧
      ((resolveMove m.copyCtor m.moveCtor).1 = .deleted ↔ mc = false) := by
  refine ⟨_, C18_special_members .., ?_⟩
  revert tcc tca tmc tma td cc ca mc ma
  decide

/-- a type like `std::mutex` -/
example : ∃ m, optionMembers false false false false false false false false false false = some m ∧
    (resolveMove m.copyCtor m.moveCtor).1 = .deleted :=
  let ⟨m, h, h1⟩ := C19_move_expression_partial false false false false false false false false false (.inr rfl)
  ⟨m, h, h1.2 rfl⟩

/-- C19 is violated for a `T` with a copy constructor and a deleted move constructor: the documentation says the move
constructor of `option<T>` is deleted, but since it is a defaulted one the expression silently copies. -/
theorem C19_violated_copy_only :
    ∃ m, optionMembers false false false false true true true false false false = some m ∧
      m.moveCtor = .deleted ∧ resolveMove m.copyCtor m.moveCtor = (.manual, true) := by
  decide

example : enableCopyMove true false true true false = some ⟨.default, .deleted, .default, .default⟩ := by decide

end Opt
