import Verif.Model.History

/-!
# Which options an operation may change
-/

namespace Opt

namespace Src

variable {Val : Type}

/-- a source that is moved from -/
def movedOut : Src Val → List Nat
  | .opt j true => [j]
  | _ => []

end Src

namespace Op

variable {Val : Type}

/-- the operand if it is an rvalue -/
def ifMoved (j : Nat) (mv : Bool) : List Nat := if mv then [j] else []

/-- The options a C++ programmer expects an operation to change: the object of a modifier, the operands given as rvalues, the
option whose contents a callable gets by reference, and the results.  Operands that are only read are not in the list. -/
def changes : Op Val → List Nat
  | .ctorDefault i => [i]
  | .ctorValue i src => i :: src.movedOut
  | .ctorFrom i j mv => i :: ifMoved j mv
  | .dtor i => [i]
  | .reset i => [i]
  | .assignFrom i j mv => i :: ifMoved j mv
  | .assignValue i src => i :: src.movedOut
  | .emplace i src => i :: src.movedOut
  | .tryEmplace i src => i :: src.movedOut
  | .swap i j => [i, j]
  | .take i r => [i, r]
  | .takeIf i r _ => [i, r]
  | .hasValue _ => []
  | .get _ => []
  | .getUnchecked _ => []
  | .valueOrThrow _ => []
  | .ptrOrNull _ => []
  | .valueOr i mv d => ifMoved i mv ++ d.movedOut
  | .hasValueAnd i _ => [i]
  | .inspect i _ => [i]
  | .mapOr i _ _ => [i]
  | .mapOrElse i _ _ => [i]
  | .map i r _ => [i, r]
  | .andThen i r _ => [i, r]
  | .orElse i r mv _ => r :: ifMoved i mv
  | .filter i r _ _ => [i, r]
  | .orOp i j r mi mj => r :: ifMoved i mi ++ ifMoved j mj
  | .orAssignValue i src => i :: src.movedOut
  | .orAssignFrom i j mv => i :: ifMoved j mv
  | .andOp _ j r mv => r :: ifMoved j mv
  | .xorOp i j r mi mj => r :: ifMoved i mi ++ ifMoved j mj
  | .zip is r _ => r :: (is.filter (·.2)).map (·.1)
  | .zipWith _ r _ => [r]
  | .ioWrite _ _ => []
  | .ioRead i _ _ => [i]
  | .cmp _ _ _ _ => []
  | .cmpNone _ _ => []
  | .noneCmp _ _ => []
  | .cmpVal _ _ _ _ => []
  | .valCmp _ _ _ _ => []
  | .hash _ _ => []
  | .forEach i _ => [i]
  | .unzipArray _ i mv rs => rs ++ ifMoved i mv
  | .unzipTuple _ i mv ts ms => ts ++ ms.map (·.1) ++ ms.map (·.2) ++ ifMoved i mv

end Op

/-- every option object outside `S`: the same storage with the same bytes, the same lifetime of its contents -/
def Untouched (S : List Nat) (w w' : World) : Prop := ∀ k, k ∉ S → w'.mem k = w.mem k

/-- however it ends, nothing outside `S` has been touched -/
def LeavesAlone {α : Type} (S : List Nat) (w : World) : Out World α → Prop
  | .ok _ w' => Untouched S w w'
  | .throw w' => Untouched S w w'
  | _ => True

end Opt
