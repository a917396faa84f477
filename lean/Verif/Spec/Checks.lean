import Verif.Spec.History

/-!
# What a client dereferences
-/

namespace Opt

variable {Val : Type}

/-- the options an operation dereferences by itself or by its argument `*oj` -/
def Op.derefs : Op Val → List Nat
  | .get i => [i]
  | .ctorValue _ (.opt j _) => [j]
  | .assignValue _ (.opt j _) => [j]
  | .emplace _ (.opt j _) => [j]
  | .tryEmplace _ (.opt j _) => [j]
  | .valueOr _ _ (.opt j _) => [j]
  | .orAssignValue _ (.opt j _) => [j]
  | _ => []

/-- Along a history from state `w` the client meets its obligations: it uses options that exist, makes options where there are none
(`Op.Allowed`), and dereferences only options that hold a value. -/
def Prog.Obeys (P : Prog Val) : List (Op Val) → World → Prop
  | [], _ => True
  | op :: ops, w => op.Allowed (P.view w) ∧ (∀ i ∈ op.derefs, P.view w i ≠ some none) ∧
    match Prog.catch_ (P.runOp op) w with
    | .ok _ w' => P.Obeys ops w'
    | _ => True

/-- along a history from state `w`, failing constructors that work in the storage of an option leave the sentinel bytes there -/
def Prog.Tidy (P : Prog Val) : List (Op Val) → World → Prop
  | [], _ => True
  | op :: ops, w => op.Harmless P ⟨P.view w, w.env⟩ ∧
    match Prog.catch_ (P.runOp op) w with
    | .ok _ w' => P.Tidy ops w'
    | _ => True

end Opt
