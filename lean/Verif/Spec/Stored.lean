import Verif.Model.History

/-!
# Values that look empty

An option without a flag recognises the empty state by the bytes of the value.  A client that stores a value with these bytes
breaks the contract of the traits (`opt::sentinel<int, -1>` holding -1).  What is asked here holds for every program, lawful or
not: functions that store a value do not return with an option that shows no value.
-/

namespace Opt.Stored

variable {Val : Type}

/-- `has_value()` of option `i` says yes -/
def Shows (P : Prog Val) (i : Nat) (w : World) : Prop := P.hasValue i w = .ok true w

/-- the option that has a value after the operation, whatever was before -/
def stores : Op Val → Option Nat
  | .ctorValue i _ => some i
  | .assignValue i _ => some i
  | .emplace i _ => some i
  | .tryEmplace i _ => some i
  | .orAssignValue i _ => some i
  | _ => none

/-- operands and the option that has a value afterwards if all the operands had one -/
def passes (P : Prog Val) : Op Val → Option (List Nat × Nat)
  | .ctorFrom i j _ => some ([j], i)
  | .assignFrom i j _ => if P.cls i = P.cls j then none else some ([j], i)
  | .take i r => some ([i], r)
  | .map i r _ => some ([i], r)
  | .orElse i r _ _ => some ([i], r)
  | .orOp i _ r _ _ => some ([i], r)
  | .orAssignFrom i _ _ => some ([i], i)
  | .andOp i j r _ => some ([i, j], r)
  | .zip is r _ => some (is.map (·.1), r)
  | .zipWith is r _ => some (is, r)
  | _ => none

/-- a value outside the options -/
def outside : Src Val → Option Val
  | .args v => some v
  | .copy v => some v
  | .move v => some v
  | .opt _ _ => none

/-- the option and the value given to it -/
def given : Op Val → Option (Nat × Val)
  | .ctorValue i src => (outside src).map (i, ·)
  | .assignValue i src => (outside src).map (i, ·)
  | .emplace i src => (outside src).map (i, ·)
  | _ => none

/-- objects of this value in option `i` have bytes that mean "empty" -/
def LooksEmpty (P : Prog Val) (i : Nat) (v : Val) : Prop :=
  ∀ (n : Nat) (old bs : Bytes), (P.elem i).T.hasValue P.pw (wr bs 0 (P.build i n v old)) = false

/-- A small program.  Options with even addresses contain a class with a destructor, one byte large, whose sentinel is 255; options with odd
addresses contain an `unsigned char`.  `left`: what a moved-from object of the class holds.  `conv`: the conversion of `unsigned char` to
the class. -/
def handles (left : Byte → Byte) (conv : Byte → Byte) : Prog Byte where
  pw := 64
  cxx20 := true
  cls := fun i => i % 2
  elemOf := fun c =>
    if c = 0 then
      { T := .sentinelOpt 1 1 (fun a b => a.take 1 == b.take 1) [255], decode := fun bs => bs.getD 0 0, trivDtor := false, trivCopyCtor := false,
        trivCopyAssign := false, trivMoveCtor := false, trivMoveAssign := false, scalar := false }
    else
      { T := .plain 1 1, decode := fun bs => bs.getD 0 0, trivDtor := true, trivCopyCtor := true, trivCopyAssign := true,
        trivMoveCtor := true, trivMoveAssign := true, scalar := true }
  throwsAt := fun _ => false
  garbage := fun i _ => if i % 2 = 0 then [0] else [0, 0]
  build := fun _ _ v _ => [v]
  partial_ := fun _ _ _ old => old
  dead := fun _ _ old => old
  moved := fun _ i _ v => if i % 2 = 0 then left v else v
  selfMoved := fun _ _ v => v
  broken := fun _ _ _ v => v
  conv := fun c _ v => if c = 0 then conv v else v

/-- at most 254 -/
def cap (v : Byte) : Byte := if v = 255 then 254 else v

/-- no option exists yet -/
def start : World := ⟨fun _ => none, ⟨0, []⟩⟩

/-- results and log of a history that completes -/
def outcome (P : Prog Val) (ops : List (Op Val)) : Option (List (Ret Val) × List Event) :=
  match P.run ops start with
  | .ok rs w => some (rs, w.env.log)
  | _ => none

end Opt.Stored
