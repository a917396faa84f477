import Verif.Model.ConstEval

/-!
# What options in constant expressions should do

`Plain` is the meaning of the operations on plain optional values.  `allowed` says, in terms of those values alone, which
steps the language accepts.  Neither mentions unions, flags or levels.
-/

namespace Opt.ConstEval

variable {V : Type}

/-- a value that the option can hold: it is not one of the type's sentinels -/
def Cls.legal (c : Cls V) (v : V) : Bool :=
  match c.storage with
  | .assign _ isSent => !isSent v
  | _ => true

/-- what holds for every type: a trivial constructor is only found with a trivial destructor, a trivial move changes
nothing in the source, scalars and references are trivial, the sentinel is recognised, and moving from a value does not
make a sentinel of it -/
structure Cls.WF (c : Cls V) : Prop where
  copy : c.trivCopyCtor = true → c.trivDtor = true
  move : c.trivMoveCtor = true → c.trivDtor = true
  same : c.trivMoveCtor = true → ∀ v, c.moved v = v
  ref : c.storage = .ref → c.trivCopyCtor = true ∧ c.trivMoveCtor = true ∧ c.trivCopyAssign = true ∧ c.trivMoveAssign = true
  sent : ∀ w i, c.storage = .assign w i → i w = true
  left : ∀ v, c.legal v = true → c.legal (c.moved v) = true

/-- two operands have the types the operation asks for, and are different objects where one of them is changed -/
def Op.Typed (cls : Nat → Cls V) : Op V → Prop
  | .ctorCopy d a => cls d = cls a
  | .ctorMove d a => cls d = cls a
  | .assignCopy a b => cls a = cls b
  | .assignMove a b => cls a = cls b ∧ a ≠ b
  | .assignConv _ a b _ => a ≠ b
  | .take d a => cls d = cls a
  | .takeIf d a _ => cls d = cls a
  | .filter _ d a _ => cls d = cls a
  | .orElse _ d a _ => cls d = cls a
  | .swap a b => cls a = cls b ∧ a ≠ b
  | _ => True

/-! ## The meaning -/

/-- a new content for an option of the class: not a sentinel -/
def checked (c : Cls V) : Option V → Option (Option V)
  | none => some none
  | some v => if c.legal v then some (some v) else none

/-- One operation on optional values; `none` if its contract is broken. -/
def Plain.step (cls : Nat → Cls V) (p : Store (Option V)) : Op V → Option (Store (Option V) × Obs V)
  | .ctorNone d => do return (← p.new d none, .unit)
  | .ctorValue d v => do return (← p.new d (← checked (cls d) (some v)), .unit)
  | .ctorCopy d a => do return (← p.new d (← p a), .unit)
  | .ctorMove d a => do
    let x ← p a
    return (← (p.set a (some (x.map (cls a).moved))).new d x, .unit)
  | .ctorConv mv d a f => do
    let x ← p a
    let y ← checked (cls d) (x.map f)
    return (← (p.set a (some (if mv then x.map (cls a).moved else x))).new d y, .unit)
  | .reset a => do
    let _ ← p a
    return (p.set a (some none), .unit)
  | .assignCopy a b => do
    let _ ← p a
    return (p.set a (some (← p b)), .unit)
  | .assignMove a b => do
    let _ ← p a
    let x ← p b
    return ((p.set b (some (x.map (cls b).moved))).set a (some x), .unit)
  | .assignValue a v => do
    let _ ← p a
    return (p.set a (some (← checked (cls a) (some v))), .unit)
  | .assignConv mv a b f => do
    let _ ← p a
    let x ← p b
    let y ← checked (cls a) (x.map f)
    return ((p.set b (some (if mv then x.map (cls b).moved else x))).set a (some y), .unit)
  | .emplace a v => do
    let _ ← p a
    return (p.set a (some (← checked (cls a) (some v))), .val v)
  | .tryEmplace a v => do
    match ← p a with
    | some w => return (p.set a (some (some w)), .val w)
    | none => return (p.set a (some (← checked (cls a) (some v))), .val v)
  | .hasValue a => do return (p, .bool (← p a).isSome)
  | .get a => do return (p, .val (← (← p a)))
  | .getUnchecked a => do return (p, .val (← (← p a)))
  | .valueOr a v => do return (p, .val ((← p a).getD v))
  | .valueOrThrow a => do return (p, .val (← (← p a)))
  | .take d a => do
    let x ← p a
    return (← (p.set a (some none)).new d x, .unit)
  | .takeIf d a q => do
    let x ← p a
    if x.any q then
      return (← (p.set a (some none)).new d x, .unit)
    else
      return (← p.new d none, .unit)
  | .filter mv d a q => do
    let x ← p a
    if x.any q then
      return (← (p.set a (some (if mv then x.map (cls a).moved else x))).new d x, .unit)
    else
      return (← p.new d none, .unit)
  | .map d a f => do return (← p.new d (← checked (cls d) ((← p a).map f)), .unit)
  | .andThen d a f => do return (← p.new d (← checked (cls d) ((← p a).bind f)), .unit)
  | .orElse mv d a f => do
    match ← p a with
    | some w => return (← (p.set a (some (some (if mv then (cls a).moved w else w)))).new d (some w), .unit)
    | none => return (← p.new d (← checked (cls d) f), .unit)
  | .inspect a => do return (p, .opt (← p a))
  | .swap a b => do
    let x ← p a
    let y ← p b
    return ((p.set a (some y)).set b (some x), .unit)
  | .eq a b r => do
    match ← p a, ← p b with
    | some v, some w => return (p, .bool (r v w))
    | x, y => return (p, .bool (x.isSome == y.isSome))
  | .destroy a => do
    let _ ← p a
    return (p.set a none, .unit)

def Plain.run (cls : Nat → Cls V) (p : Store (Option V)) : List (Op V) → Option (Store (Option V) × List (Obs V))
  | [] => some (p, [])
  | op :: ops => do
    let (p, x) ← Plain.step cls p op
    let (p, xs) ← Plain.run cls p ops
    return (p, x :: xs)

/-! ## What the language accepts

`u a` says that the storage of the option at `a` has been used: there is a value in it, or one that was left behind by
`reset()`. -/

/-- an option that is empty can be created -/
def bornOk (k : Cfg) (c : Cls V) : Bool :=
  (k.cxx20 || c.trivDtor) && (match c.storage with | .flag => true | .ref => true | _ => false)

/-- a value can be put into the storage of an option -/
def fillOk (k : Cfg) (c : Cls V) (used : Bool) : Bool :=
  match c.storage with
  | .ref => true
  | _ => k.cxx20 || (c.trivMoveAssign && used)

/-- an option can be made empty -/
def resetOk (c : Cls V) (full : Bool) : Bool :=
  match c.storage with
  | .assign _ _ => c.trivDtor || !full
  | _ => true

/-- a copy or a move of an option can be created -/
def copyOk (k : Cfg) (c : Cls V) (triv full : Bool) : Bool :=
  if triv then k.cxx20 || c.trivDtor else bornOk k c && (!full || fillOk k c false)

/-- an option with this content can be created from it -/
def makeOk (k : Cfg) (c : Cls V) (full : Bool) : Bool :=
  if full then k.cxx20 || c.trivDtor else bornOk k c

/-- the option at an address contains a value -/
def full (p : Store (Option V)) (a : Nat) : Bool :=
  match p a with
  | some (some _) => true
  | _ => false

/-- the content of the option at an address -/
def content (p : Store (Option V)) (a : Nat) : Option V := (p a).join

/-- copy assignment of the option is the defaulted one: it copies the whole object -/
def wholeCopy (c : Cls V) : Bool := c.trivCopyAssign && c.trivDtor && c.trivCopyCtor

/-- the same for move assignment -/
def wholeMove (c : Cls V) : Bool := c.trivMoveAssign && c.trivDtor && c.trivMoveCtor

def allowed (k : Cfg) (cls : Nat → Cls V) (p : Store (Option V)) (u : Nat → Bool) : Op V → Bool
  | .ctorNone d => bornOk k (cls d)
  | .ctorValue d _ => makeOk k (cls d) true
  | .ctorCopy d a => copyOk k (cls d) (cls d).trivCopyCtor (full p a)
  | .ctorMove d a => copyOk k (cls d) (cls d).trivMoveCtor (full p a)
  | .ctorConv _ d a _ => copyOk k (cls d) false (full p a)
  | .reset a => resetOk (cls a) (full p a)
  | .assignCopy a b => wholeCopy (cls a) ||
    (if full p b then full p a || fillOk k (cls a) (u a) else resetOk (cls a) (full p a))
  | .assignMove a b => wholeMove (cls a) ||
    (if full p b then full p a || fillOk k (cls a) (u a) else resetOk (cls a) (full p a))
  | .assignValue a _ => (full p a && !(cls a).scalar) || fillOk k (cls a) (u a)
  | .assignConv _ a b _ => if full p b then full p a || fillOk k (cls a) (u a) else resetOk (cls a) (full p a)
  | .emplace a _ => resetOk (cls a) (full p a) && fillOk k (cls a) (u a)
  | .tryEmplace a _ => full p a || fillOk k (cls a) (u a)
  | .take d a => copyOk k (cls d) (cls d).trivMoveCtor (full p a) && resetOk (cls a) (full p a)
  | .takeIf d a q =>
    if (content p a).any q then copyOk k (cls d) (cls d).trivMoveCtor (full p a) && resetOk (cls a) (full p a)
    else bornOk k (cls d)
  | .filter _ d a q => makeOk k (cls d) ((content p a).any q)
  | .map d a _ => makeOk k (cls d) (full p a)
  | .andThen d a f => makeOk k (cls d) ((content p a).bind f).isSome
  | .orElse mv d a f =>
    if full p a then copyOk k (cls d) (if mv then (cls d).trivMoveCtor else (cls d).trivCopyCtor) true
    else makeOk k (cls d) f.isSome
  | .swap a b =>
    if full p a && full p b then k.cxx20 || (cls a).ownSwap
    else if full p a then fillOk k (cls b) (u b) && resetOk (cls a) true
    else if full p b then fillOk k (cls a) (u a) && resetOk (cls b) true
    else true
  | _ => true

/-- the storage that is used after the operation -/
def after (cls : Nat → Cls V) (p : Store (Option V)) (u : Nat → Bool) (op : Op V) : Nat → Bool :=
  let to (d : Nat) (b : Bool) : Nat → Bool := fun a => if a = d then b else u a
  match op with
  | .ctorNone d => to d false
  | .ctorValue d _ => to d true
  | .ctorCopy d a => to d ((cls d).trivCopyCtor && u a)
  | .ctorMove d a => to d ((cls d).trivMoveCtor && u a)
  | .ctorConv _ d _ _ => to d false
  | .assignCopy a b => if wholeCopy (cls a) then to a (u b) else u
  | .assignMove a b => if wholeMove (cls a) then to a (u b) else u
  | .take d a => to d ((cls d).trivMoveCtor && u a)
  | .takeIf d a q => to d ((content p a).any q && (cls d).trivMoveCtor && u a)
  | .filter _ d a q => to d ((content p a).any q)
  | .map d a _ => to d (full p a)
  | .andThen d a f => to d ((content p a).bind f).isSome
  | .orElse _ d a f => to d (full p a || f.isSome)
  | _ => u

/-- a program: its steps are accepted one after the other -/
def allowedRun (k : Cfg) (cls : Nat → Cls V) : Store (Option V) → (Nat → Bool) → List (Op V) → Bool
  | _, _, [] => true
  | p, u, op :: ops => allowed k cls p u op &&
    (match Plain.step cls p op with
      | some (p', _) => allowedRun k cls p' (after cls p u op) ops
      | none => true)

/-- the operation checks what it needs -/
def Op.isChecked : Op V → Bool
  | .getUnchecked _ => false
  | _ => true

end Opt.ConstEval
