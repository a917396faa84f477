import Verif.Spec.StdOptional
import Verif.Spec.Reentrant

/-!
# Programs that differ only in how values and empty states are stored
-/

namespace Opt

/-- Two programs with the same options, the same user code and the same values.  Not compared: the width of pointers, the layout
of the element types and hence where the empty state is stored (a flag, or levels from the traits of the library or of the user;
`OPTION_USE_BUILTIN_TRAITS`, option.hpp 166-168), the bytes values have, and what is in storage without a value.  `cxx20` is not
compared here either. -/
structure Prog.Alike {Val : Type} (P Q : Prog Val) : Prop where
  cls : ∀ i, P.cls i = Q.cls i
  dtor : ∀ c, (P.elemOf c).trivDtor = (Q.elemOf c).trivDtor
  copyCtor : ∀ c, (P.elemOf c).trivCopyCtor = (Q.elemOf c).trivCopyCtor
  copyAssign : ∀ c, (P.elemOf c).trivCopyAssign = (Q.elemOf c).trivCopyAssign
  moveCtor : ∀ c, (P.elemOf c).trivMoveCtor = (Q.elemOf c).trivMoveCtor
  moveAssign : ∀ c, (P.elemOf c).trivMoveAssign = (Q.elemOf c).trivMoveAssign
  scalar : ∀ c, (P.elemOf c).scalar = (Q.elemOf c).scalar
  throwsAt : ∀ n, P.throwsAt n = Q.throwsAt n
  moved : ∀ f i n v, P.moved f i n v = Q.moved f i n v
  selfMoved : ∀ i n v, P.selfMoved i n v = Q.selfMoved i n v
  broken : ∀ i n u v, P.broken i n u v = Q.broken i n u v
  conv : ∀ c d v, P.conv c d v = Q.conv c d v

/-- Two programs end the same way: both return the same, or both throw, or both fail a check of the library; then the options hold
the same values, and user code was called in the same order.  Undefined behaviour is not the same as anything. -/
def Prog.SameEnd {Val α : Type} (P Q : Prog Val) : Out World α → Out World α → Prop
  | .ok x w, .ok y w' => x = y ∧ P.view w = Q.view w' ∧ w.env = w'.env
  | .throw w, .throw w' => P.view w = Q.view w' ∧ w.env = w'.env
  | .verify, .verify => True
  | _, _ => False

end Opt
