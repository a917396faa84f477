import Verif.Spec.History

/-!
# Options when nothing throws

Without exceptions an option variable is empty, or holds a value, or holds some value nobody promises anything about because
it was moved from.  `Calm.step` says what every operation does to such variables and what it gives back: no bytes, flags,
levels, lifetimes, call numbers or events, only values.  It gives no answer to uses the library does not allow, to
questions about values that are not known, and to an option that is its own source.
-/

namespace Opt.Calm

/-- what is known of an option variable -/
inductive Slot (Val : Type) where
  | empty
  | full (v : Val)
  /-- engaged; the value was moved from -/
  | moved

variable {Val : Type}

/-- the option variables; `none`: no variable there -/
abbrev Mem (Val : Type) : Type := Nat → Option (Slot Val)

/-- the variable at an address becomes this -/
def set (m : Mem Val) (i : Nat) (x : Slot Val) : Mem Val := fun a => if a = i then some x else m a

/-- no variable at the address -/
def del (m : Mem Val) (i : Nat) : Mem Val := fun a => if a = i then none else m a

/-- is there a value -/
def Slot.engaged : Slot Val → Bool
  | .empty => false
  | _ => true

/-- an optional value -/
def Slot.of : Option Val → Slot Val
  | none => .empty
  | some v => .full v

/-- what a variable with content `x` gives to another one; `f` converts the value -/
def Slot.map (f : Val → Val) : Slot Val → Slot Val
  | .empty => .empty
  | .full v => .full (f v)
  | .moved => .moved

/-- the variable `j` with content `x` was copied or (`mv`) moved from -/
def spend (m : Mem Val) (j : Nat) (mv : Bool) (x : Slot Val) : Mem Val :=
  match x with
  | .empty => m
  | _ => if mv then set m j .moved else m

/-- what the source gives to variable `i`, which is not itself the source -/
def source (conv : Nat → Nat → Val → Val) (m : Mem Val) (i : Nat) : Src Val → Option (Slot Val)
  | .args v => some (.full v)
  | .copy v => some (.full v)
  | .move v => some (.full v)
  | .opt j _ =>
    if j = i then none
    else
      match m j with
      | some (.full v) => some (.full (conv i j v))
      | some .moved => some .moved
      | _ => none

/-- the variables after the source was used -/
def spent (m : Mem Val) : Src Val → Mem Val
  | .opt j true => set m j .moved
  | _ => m

/-- the listed variables exist and none is empty -/
def allFull (m : Mem Val) : List Nat → Option Bool
  | [] => some true
  | i :: is =>
    match m i, allFull m is with
    | some x, some b => some (x.engaged && b)
    | _, _ => none

/-- the values of the listed variables, some of them moved away -/
def values (m : Mem Val) : List (Nat × Bool) → Option (Mem Val × List Val)
  | [] => some (m, [])
  | (i, mv) :: is =>
    match m i with
    | some (.full v) =>
      match values (if mv then set m i .moved else m) is with
      | some (m', vs) => some (m', v :: vs)
      | none => none
    | _ => none

/-- no variable exists at the listed addresses -/
def vacant (m : Mem Val) (rs : List Nat) : Bool := rs.all fun r => (m r).isNone

/-- new variables for the elements of a tuple -/
def parts (q : Parts Val) (v : Val) : Mem Val → List (Nat × Nat) → Mem Val
  | m, [] => m
  | m, (k, r) :: ps => parts q v (set m r (.full (q.part k v))) ps

/-- new empty variables -/
def empties : Mem Val → List Nat → Mem Val
  | m, [] => m
  | m, r :: rs => empties (set m r .empty) rs

/-- `unzip` of an lvalue -/
def unzip (q : Parts Val) (m : Mem Val) (i : Nat) (rs : List Nat) : Option (Mem Val) :=
  match m i with
  | some (.full v) => some (parts q v m (Prog.indexed rs))
  | some .empty => some (empties m rs)
  | _ => none

/-- new variables moved from others -/
def moves (conv : Nat → Nat → Val → Val) : Mem Val → List (Nat × Nat) → Option (Mem Val)
  | m, [] => some m
  | m, (r, t) :: ps =>
    match m t with
    | some x => moves conv (set (spend m t true x) r (x.map (conv r t))) ps
    | none => none

/-- the listed variables end -/
def dels : Mem Val → List Nat → Mem Val
  | m, [] => m
  | m, r :: rs => dels (del m r) rs

/-- what an operation does and gives back -/
def step (conv : Nat → Nat → Val → Val) (m : Mem Val) : Op Val → Option (Mem Val × Ret Val)
  | .ctorDefault i =>
    match m i with
    | none => some (set m i .empty, .unit)
    | _ => none
  | .ctorValue i src =>
    match m i, source conv m i src with
    | none, some x => some (set (spent m src) i x, .unit)
    | _, _ => none
  | .ctorFrom i j mv =>
    match m i, m j with
    | none, some x => some (set (spend m j mv x) i (x.map (conv i j)), .unit)
    | _, _ => none
  | .dtor i =>
    match m i with
    | some _ => some (del m i, .unit)
    | none => none
  | .reset i =>
    match m i with
    | some _ => some (set m i .empty, .unit)
    | none => none
  | .assignFrom i j mv =>
    if i = j then none
    else
      match m i, m j with
      | some _, some x => some (set (spend m j mv x) i (x.map (conv i j)), .unit)
      | _, _ => none
  | .assignValue i src =>
    match m i, source conv m i src with
    | some _, some x => some (set (spent m src) i x, .unit)
    | _, _ => none
  | .emplace i src =>
    match m i, source conv m i src with
    | some _, some x => some (set (spent m src) i x, .unit)
    | _, _ => none
  | .tryEmplace i src =>
    match m i, source conv m i src with
    | some .empty, some x => some (set (spent m src) i x, .unit)
    | some _, some _ => some (m, .unit)
    | _, _ => none
  | .swap i j =>
    if i = j then none
    else
      match m i, m j with
      | some x, some y => some (set (set m i (y.map (conv i j))) j (x.map (conv j i)), .unit)
      | _, _ => none
  | .take i r =>
    match m i, m r with
    | some x, none => some (set (set m i .empty) r (x.map (conv r i)), .unit)
    | _, _ => none
  | .takeIf i r f =>
    match m i, m r with
    | some .empty, none => some (set m r .empty, .unit)
    | some (.full v), none =>
      if f.ret v then some (set (set m i .empty) r (.full (conv r i (f.after v))), .unit)
      else some (set (set m i (.full (f.after v))) r .empty, .unit)
    | _, _ => none
  | .hasValue i =>
    match m i with
    | some x => some (m, .bool x.engaged)
    | none => none
  | .get i =>
    match m i with
    | some (.full v) => some (m, .val v)
    | _ => none
  | .getUnchecked i =>
    match m i with
    | some (.full v) => some (m, .val v)
    | _ => none
  | .valueOrThrow i =>
    match m i with
    | some (.full v) => some (m, .val v)
    | some .empty => some (m, .threw)
    | _ => none
  | .ptrOrNull i =>
    match m i with
    | some (.full v) => some (m, .opt (some v))
    | some .empty => some (m, .opt none)
    | _ => none
  | .valueOr i mv d =>
    match m i, source conv m i d with
    | some (.full v), some _ => some (if mv then set m i .moved else m, .val v)
    | some .empty, some (.full u) => some (spent m d, .val u)
    | _, _ => none
  | .hasValueAnd i f =>
    match m i with
    | some (.full v) => some (set m i (.full (f.after v)), .bool (f.ret v))
    | some .empty => some (m, .bool false)
    | _ => none
  | .inspect i f =>
    match m i with
    | some (.full v) => some (set m i (.full (f.after v)), .unit)
    | some .empty => some (m, .unit)
    | _ => none
  | .forEach i f =>
    match m i with
    | some (.full v) => some (set m i (.full (f.after v)), .unit)
    | some .empty => some (m, .unit)
    | _ => none
  | .mapOr i d f =>
    match m i with
    | some (.full v) => some (set m i (.full (f.after v)), .val (f.ret v))
    | some .empty => some (m, .val d)
    | _ => none
  | .mapOrElse i d f =>
    match m i with
    | some (.full v) => some (set m i (.full (f.after v)), .val (f.ret v))
    | some .empty => some (m, .val d)
    | _ => none
  | .map i r f =>
    match m i, m r with
    | some (.full v), none => some (set (set m i (.full (f.after v))) r (.full (f.ret v)), .unit)
    | some .empty, none => some (set m r .empty, .unit)
    | _, _ => none
  | .andThen i r f =>
    match m i, m r with
    | some (.full v), none => some (set (set m i (.full (f.after v))) r (.of (f.ret v)), .unit)
    | some .empty, none => some (set m r .empty, .unit)
    | _, _ => none
  | .orElse i r mv x =>
    match m i, m r with
    | some .empty, none => some (set m r (.of x), .unit)
    | some y, none => some (set (spend m i mv y) r (y.map (conv r i)), .unit)
    | _, _ => none
  | .filter i r mv f =>
    match m i, m r with
    | some (.full v), none =>
      if f.ret v then
        some (set (if mv then set m i .moved else set m i (.full (f.after v))) r (.full (conv r i (f.after v))), .unit)
      else some (set (set m i (.full (f.after v))) r .empty, .unit)
    | some .empty, none => some (set m r .empty, .unit)
    | _, _ => none
  | .orOp i j r mi mj =>
    match m i, m j, m r with
    | some .empty, some y, none => some (set (spend m j mj y) r (y.map (conv r j)), .unit)
    | some x, some _, none => some (set (spend m i mi x) r (x.map (conv r i)), .unit)
    | _, _, _ => none
  | .orAssignValue i src =>
    match m i, source conv m i src with
    | some .empty, some x => some (set (spent m src) i x, .unit)
    | some _, some _ => some (m, .unit)
    | _, _ => none
  | .orAssignFrom i j mv =>
    if i = j then none
    else
      match m i, m j with
      | some .empty, some y => some (set (spend m j mv y) i (y.map (conv i j)), .unit)
      | some _, some _ => some (m, .unit)
      | _, _ => none
  | .andOp i j r mv =>
    match m i, m j, m r with
    | some .empty, some _, none => some (set m r .empty, .unit)
    | some _, some y, none => some (set (spend m j mv y) r (y.map (conv r j)), .unit)
    | _, _, _ => none
  | .xorOp i j r mi mj =>
    match m i, m j, m r with
    | some .empty, some y, none => some (set (spend m j mj y) r (y.map (conv r j)), .unit)
    | some x, some .empty, none => some (set (spend m i mi x) r (x.map (conv r i)), .unit)
    | some _, some _, none => some (set m r .empty, .unit)
    | _, _, _ => none
  | .zip is r g =>
    match m r, allFull m (is.map (·.1)) with
    | none, some true =>
      match values m is with
      | some (m', vs) => some (set m' r (.full (g vs)), .unit)
      | none => none
    | none, some false => some (set m r .empty, .unit)
    | _, _ => none
  | .zipWith is r g =>
    match m r, allFull m is with
    | none, some true =>
      match values m (is.map (·, false)) with
      | some (_, vs) => some (set m r (.full (g vs)), .unit)
      | none => none
    | none, some false => some (set m r .empty, .unit)
    | _, _ => none
  | .ioWrite i d =>
    match m i with
    | some (.full v) => some (m, .opt (some v))
    | some .empty => some (m, .opt d)
    | _ => none
  | .ioRead i d v =>
    match m i with
    | some .empty => some (m, .val v)
    | some _ => some (set m i (.full v), .val d)
    | none => none
  | .cmp o rel i j =>
    match m i, m j with
    | some (.full a), some (.full b) => some (m, .bool (rel o a b))
    | some .empty, some .empty => some (m, .bool (below rel o none none))
    | some (.full a), some .empty => some (m, .bool (below rel o (some a) none))
    | some .empty, some (.full b) => some (m, .bool (below rel o none (some b)))
    | _, _ => none
  | .cmpNone o i =>
    match m i with
    | some .empty => some (m, .bool (below (fun _ (_ _ : Unit) => false) o none none))
    | some _ => some (m, .bool (below (fun _ _ _ => false) o (some ()) none))
    | none => none
  | .noneCmp o i =>
    match m i with
    | some .empty => some (m, .bool (below (fun _ (_ _ : Unit) => false) o none none))
    | some _ => some (m, .bool (below (fun _ _ _ => false) o none (some ())))
    | none => none
  | .cmpVal o rel i v =>
    match m i with
    | some (.full a) => some (m, .bool (rel o a v))
    | some .empty => some (m, .bool (below rel o none (some v)))
    | _ => none
  | .valCmp o rel v i =>
    match m i with
    | some (.full b) => some (m, .bool (rel o v b))
    | some .empty => some (m, .bool (below rel o (some v) none))
    | _ => none
  | .hash i h =>
    match m i with
    | some (.full v) => some (m, .word (h v))
    | some .empty => some (m, .word 0)
    | _ => none
  | .unzipArray q i mv rs =>
    if mv || !vacant m rs || !decide rs.Nodup then none
    else (unzip q m i rs).map (·, .unit)
  | .unzipTuple q i mv ts ms =>
    if mv || !vacant m (ts ++ ms.map (·.1)) || !decide (ts ++ ms.map (·.1)).Nodup || !ms.all (fun p => ts.contains p.2) then none
    else
      match unzip q m i ts with
      | some m1 => (moves conv m1 ms).map fun m2 => (dels m2 ts.reverse, .unit)
      | none => none

/-- a program -/
def run (conv : Nat → Nat → Val → Val) : Mem Val → List (Op Val) → Option (Mem Val × List (Ret Val))
  | m, [] => some (m, [])
  | m, op :: ops =>
    match step conv m op with
    | some (m', r) =>
      match run conv m' ops with
      | some (m'', rs) => some (m'', r :: rs)
      | none => none
    | none => none

/-- no variables -/
def nothing : Mem Val := fun _ => none

/-- what is known agrees with what is there -/
def Fits : Option (Slot Val) → Option (Option Val) → Prop
  | none, none => True
  | some .empty, some none => True
  | some (.full v), some (some u) => u = v
  | some .moved, some (some _) => True
  | _, _ => False

/-- everything that is known is true -/
def Sees (m : Mem Val) (mem : Nat → Option (Option Val)) : Prop := ∀ i, Fits (m i) (mem i)

/-- the options whose values are shown to the client or to its functions -/
def reads : Op Val → List Nat
  | .takeIf i _ _ => [i]
  | .get i => [i]
  | .getUnchecked i => [i]
  | .valueOrThrow i => [i]
  | .ptrOrNull i => [i]
  | .valueOr i _ d => i :: Op.srcUses d
  | .hasValueAnd i _ => [i]
  | .inspect i _ => [i]
  | .forEach i _ => [i]
  | .mapOr i _ _ => [i]
  | .mapOrElse i _ _ => [i]
  | .map i _ _ => [i]
  | .andThen i _ _ => [i]
  | .filter i _ _ _ => [i]
  | .zip is _ _ => is.map (·.1)
  | .zipWith is _ _ => is
  | .ioWrite i _ => [i]
  | .cmp _ _ i j => [i, j]
  | .cmpVal _ _ i _ => [i]
  | .valCmp _ _ _ i => [i]
  | .hash i _ => [i]
  | .unzipArray _ i _ _ => [i]
  | .unzipTuple _ i _ _ _ => [i]
  | _ => []

/-- the options that have to be engaged -/
def needs : Op Val → List Nat
  | .ctorValue _ src => Op.srcUses src
  | .assignValue _ src => Op.srcUses src
  | .emplace _ src => Op.srcUses src
  | .tryEmplace _ src => Op.srcUses src
  | .orAssignValue _ src => Op.srcUses src
  | .valueOr _ _ d => Op.srcUses d
  | .get i => [i]
  | .getUnchecked i => [i]
  | _ => []

/-- no option is its own source, none is moved from twice, tuples are not moved from -/
def apart : Op Val → Prop
  | .ctorValue i src => src.isSelf i = false
  | .assignFrom i j _ => i ≠ j
  | .assignValue i src => src.isSelf i = false
  | .emplace i src => src.isSelf i = false
  | .tryEmplace i src => src.isSelf i = false
  | .orAssignValue i src => src.isSelf i = false
  | .valueOr i _ d => d.isSelf i = false
  | .swap i j => i ≠ j
  | .orAssignFrom i j _ => i ≠ j
  | .zip is _ _ => (is.map (·.1)).Nodup
  | .unzipArray _ _ mv _ => mv = false
  | .unzipTuple _ _ mv ts ms => mv = false ∧ ∀ p ∈ ms, p.2 ∈ ts
  | _ => True

/-- an operation that is allowed and whose outcome is known -/
structure Clear (m : Mem Val) (op : Op Val) : Prop where
  uses : ∀ i ∈ op.uses, m i ≠ none
  makes : ∀ r ∈ op.makes, m r = none
  nodup : op.makes.Nodup
  reads : ∀ i ∈ reads op, m i ≠ some .moved
  needs : ∀ i ∈ needs op, m i ≠ some .empty
  apart : apart op

end Opt.Calm
