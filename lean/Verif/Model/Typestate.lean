import Verif.Spec.History

/-!
# Typestate annotations (option.hpp 280-293, 2794, 2832-2915, 3001-3035, 3059-3120)

With `OPTION_CONSUMED_ANNOTATION_CHECKING` the members carry Clang's consumed annotations: `consumed` stands for an option with
a value, `unconsumed` for an empty one.  The annotations are data here, together with the rules by which the analysis follows the
states of variables along straight-line code.

Simplification: of the analysis only the rules for annotated and unannotated calls on variables are modelled (no temporaries, no
branches; `test_typestate` on `has_value` matters only for branches).
-/

namespace Opt

inductive Typestate where
  /-- the option has a value -/
  | consumed
  /-- the option is empty -/
  | unconsumed
  | unknown
deriving DecidableEq, Repr

/-- Calls as the annotations distinguish them: `operator=(none_t)` and `reset()` do the same (2904-2907) but only the former is
annotated. -/
inductive Call (Val : Type) where
  | op (o : Op Val)
  | assignNone (i : Nat)

namespace Call

variable {Val : Type}

/-- what the call does: `operator=(none_t)` calls `reset()` -/
def toOp : Call Val → Op Val
  | .op o => o
  | .assignNone i => .reset i

/-- `OPTION_RETURN_TYPESTATE` and `OPTION_SET_TYPESTATE`: 2832 and 2835 (default constructor and from `none`), 2843-2870 and 3329-3339
(constructors from values and `make_option`), 2903 (`operator=(none_t)`), 2915 (`operator=(U&&)`), 3001 (`emplace`), 3009
(`try_emplace`), 3035 (`take`).  Nothing else is annotated. -/
def annotated : Call Val → List (Nat × Typestate)
  | .op (.ctorDefault i) => [(i, .unconsumed)]
  | .op (.ctorValue i _) => [(i, .consumed)]
  | .op (.assignValue i _) => [(i, .consumed)]
  | .op (.emplace i _) => [(i, .consumed)]
  | .op (.tryEmplace i _) => [(i, .consumed)]
  | .op (.take i r) => [(i, .unconsumed), (r, .unknown)]
  | .assignNone i => [(i, .unconsumed)]
  | _ => []

/-- the variable that is given as an rvalue reference -/
def movedArg : Call Val → Option Nat
  | .op (.ctorFrom _ j true) => some j
  | .op (.assignFrom _ j true) => some j
  | _ => none

end Call

/-- `OPTION_CONSUMABLE(unconsumed)` (2794): the state assumed for what an unannotated function returns -/
def classTypestate : Typestate := .unconsumed

namespace Prog

variable {Val : Type} (P : Prog Val)

/-- The states after a call.  An annotation is believed.  Otherwise the copy and move constructors copy the state of the source,
other results get the state of the class, variables given as a non-const lvalue reference (the argument of `swap`, 3253) become
`unknown`, and the others keep their states.  `marksMoved`: whether a variable given as an rvalue
reference is assumed `consumed` afterwards, which is Clang's rule (it takes `consumed` for "moved from"). -/
def track (marksMoved : Bool) (c : Call Val) (σ : Nat → Typestate) (k : Nat) : Typestate :=
  match c.annotated.lookup k with
  | some t => t
  | none =>
    if marksMoved && c.movedArg == some k then .consumed
    else match c with
      | .op (.ctorFrom i j _) => if k = i then (if P.cls i = P.cls j then σ j else classTypestate) else σ k
      | .op (.dtor i) => if k = i then .unknown else σ k
      | .op (.swap _ j) => if k = j then .unknown else σ k
      | _ => if k ∈ c.toOp.makes then classTypestate else σ k

/-- along a sequence of calls -/
def trackAll (marksMoved : Bool) : List (Call Val) → (Nat → Typestate) → Nat → Typestate
  | [], σ => σ
  | c :: cs, σ => trackAll marksMoved cs (P.track marksMoved c σ)

end Prog

end Opt
