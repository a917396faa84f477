import Verif.Spec.History

/-!
# `std::optional` as the standard describes it

A second specification, independent of the first one: the effects of the members of `std::optional` as the working draft
(C++23, [optional]; the range members are those of P3168) words them.  An optional object is a flag "contains a value" and
storage in which a `T` may be within its lifetime.  Breaking a precondition of the standard, using storage without a `T`, or
constructing over a `T` is the outcome `ub`; so are the operations that `std::optional` does not have.
-/

namespace Opt.Std

/-- a `std::optional` object: the flag, and the `T` in the storage if one is within its lifetime -/
structure Obj (Val : Type) where
  engaged : Bool
  val : Option Val

/-- all objects -/
structure State (Val : Type) where
  obj : Nat → Option (Obj Val)
  env : Env

variable {Val : Type} (P : Prog Val)

/-- access to an object that exists -/
def obj (i : Nat) : M (State Val) (Obj Val) := fun s =>
  match s.obj i with
  | some o => .ok o s
  | none => .ub

/-- write an object -/
def store (i : Nat) (o : Obj Val) : M (State Val) Unit := fun s => .ok () { s with obj := upd s.obj i (some o) }

/-- the object ends -/
def free (i : Nat) : M (State Val) Unit := fun s => .ok () { s with obj := upd s.obj i none }

/-- set the flag -/
def flag (i : Nat) (b : Bool) : M (State Val) Unit := do
  let o ← obj i
  store i { o with engaged := b }

/-- a call of user code: its number and whether it throws -/
def user (okEv failEv : Event) : M (State Val) (Nat × Bool) := fun s =>
  .ok (s.env.tick, P.throwsAt s.env.tick)
    { s with env := ⟨s.env.tick + 1, s.env.log ++ [if P.throwsAt s.env.tick then failEv else okEv]⟩ }

/-! ## The operations of `T` on the storage -/

/-- the `T` in the storage -/
def deref (i : Nat) : M (State Val) Val := do
  let o ← obj i
  match o.val with
  | some v => pure v
  | none => M.bad

/-- the `T` in the storage gets another value -/
def write (i : Nat) (v : Val) : M (State Val) Unit := do
  let o ← obj i
  store i { o with val := some v }

/-- the value an expression gives to a `T` of object `i` -/
def operand (i : Nat) : Src Val → M (State Val) Val
  | .args v => pure v
  | .copy v => pure v
  | .move v => pure v
  | .opt j _ => do
    let v ← deref j
    pure (P.convFrom i j v)

/-- a `T` that was moved from -/
def drained (fail : Bool) (n : Nat) : Src Val → M (State Val) Unit
  | .opt j true => do
    let v ← deref j
    write j (P.moved fail j n v)
  | _ => pure ()

/-- direct-non-list-initialisation of the `T` in the storage of `i` -/
def construct (i : Nat) (src : Src Val) : M (State Val) Unit := do
  let o ← obj i
  if o.val.isSome then M.bad
  else do
    let v ← operand P i src
    if (P.elem i).ctorTriv (P.kind i src) then write i v
    else do
      let (n, thr) ← user P (.ctor i (P.kind i src)) (.ctorFail i (P.kind i src))
      drained P thr n src
      if thr then M.raise else write i v

/-- assignment to the `T` in the storage of `i` -/
def assignT (i : Nat) (src : Src Val) : M (State Val) Unit := do
  let old ← deref i
  let v ← operand P i src
  if (P.elem i).assignTriv (P.kind i src) then write i v
  else do
    let (n, thr) ← user P (.assign i (P.kind i src) true) (.assign i (P.kind i src) false)
    if thr then do
      drained P true n src
      write i (P.broken i n old v)
      M.raise
    else if src.isSelf i then
      match src with
      | .opt _ true => write i (P.selfMoved i n old)
      | _ => write i old
    else do
      drained P false n src
      write i v

/-- `val->T::~T()` -/
def destroyT (i : Nat) : M (State Val) Unit := do
  let _ ← deref i
  if (P.elem i).trivDtor then pure () else fun s => .ok () { s with env := { s.env with log := s.env.log ++ [.dtor i] } }
  let o ← obj i
  store i { o with val := none }

/-- `swap(*val, *rhs.val)` -/
def swapT (i j : Nat) : M (State Val) Unit := do
  let vi ← deref i
  let vj ← deref j
  let (n, thr) ← user P (.swap i j true) (.swap i j false)
  if thr then do
    write i (P.broken i n vi (P.convFrom i j vj))
    write j (P.broken j n vj (P.convFrom j i vi))
    M.raise
  else do
    write i (P.convFrom i j vj)
    write j (P.convFrom j i vi)

/-- a `T` that is returned -/
def returnT (i : Nat) (src : Src Val) : M (State Val) Val := do
  let v ← operand P i src
  if (P.elem i).ctorTriv (P.kind i src) then pure v
  else do
    let (n, thr) ← user P (.tmpCtor (P.kind i src) true) (.tmpCtor (P.kind i src) false)
    drained P thr n src
    if thr then M.raise else pure v

/-- `invoke(f, *val)` -/
def invoke {β : Type} (i : Nat) (f : Prog.Fn Val β) : M (State Val) β := do
  let v ← deref i
  let (_, thr) ← user P (.call i true) (.call i false)
  if thr then do
    write i (f.afterThrow v)
    M.raise
  else do
    write i (f.after v)
    pure (f.ret v)

/-- a call of an operator or of a callable without argument -/
def invoke0 {β : Type} (b : β) : M (State Val) β := do
  let (_, thr) ← user P (.call0 true) (.call0 false)
  if thr then M.raise else pure b

/-! ## The members of `std::optional` -/

/-- [optional.ctor] default and `nullopt_t` constructors: "does not contain a value" -/
def ctorNull (i : Nat) : M (State Val) Unit := store i ⟨false, none⟩

/-- [optional.ctor] `optional(U&&)`, `optional(in_place_t, Args&&...)`: "direct-non-list-initializes the contained value";
afterwards "`*this` contains a value".  An object whose constructor throws does not exist. -/
def ctorValue (i : Nat) (src : Src Val) : M (State Val) Unit := do
  ctorNull i
  M.onThrow (construct P i src) (free i)
  flag i true

/-- [optional.ctor] copy, move and converting constructors: "If `rhs` contains a value, direct-non-list-initializes the
contained value with `*rhs`" (or with the moved value).  "`rhs.has_value()` is unchanged." -/
def ctorFrom (i j : Nat) (mv : Bool) : M (State Val) Unit := do
  let o ← obj j
  if o.engaged then ctorValue P i (.opt j mv) else ctorNull i

/-- [optional.assign] `operator=(nullopt_t)`, [optional.mod] `reset()`: "If `*this` contains a value, calls `val->T::~T()`";
afterwards "`*this` does not contain a value". -/
def reset (i : Nat) : M (State Val) Unit := do
  let o ← obj i
  if o.engaged then destroyT P i else pure ()
  flag i false

/-- [optional.dtor] -/
def dtor (i : Nat) : M (State Val) Unit := do
  let o ← obj i
  if o.engaged then destroyT P i else pure ()
  free i

/-- [optional.assign] copy, move and converting assignment: the table of the four cases.  "If any exception is thrown, the
result of the expression `this->has_value()` remains unchanged." -/
def assignFrom (i j : Nat) (mv : Bool) : M (State Val) Unit := do
  let o ← obj i
  let rhs ← obj j
  if rhs.engaged then
    if o.engaged then assignT P i (.opt j mv)
    else do
      construct P i (.opt j mv)
      flag i true
  else reset P i

/-- [optional.assign] `operator=(U&&)`: "If `*this` contains a value, assigns `std::forward<U>(v)` to the contained value;
otherwise direct-non-list-initializes the contained value". -/
def assignValue (i : Nat) (src : Src Val) : M (State Val) Unit := do
  let o ← obj i
  if o.engaged then assignT P i src
  else do
    construct P i src
    flag i true

/-- [optional.assign] `emplace`: "Calls `*this = nullopt`.  Then direct-non-list-initializes the contained value" -/
def emplace (i : Nat) (src : Src Val) : M (State Val) Unit := do
  reset P i
  construct P i src
  flag i true

/-- [optional.swap]: the table of the four cases -/
def swap (i j : Nat) : M (State Val) Unit := do
  let o ← obj i
  let rhs ← obj j
  if o.engaged then
    if rhs.engaged then swapT P i j
    else do
      construct P j (.opt i true)
      flag j true
      destroyT P i
      flag i false
  else
    if rhs.engaged then do
      construct P i (.opt j true)
      flag i true
      destroyT P j
      flag j false
    else pure ()

/-- [optional.observe] `has_value()`, `operator bool` -/
def hasValue (i : Nat) : M (State Val) Bool := do
  let o ← obj i
  pure o.engaged

/-- [optional.observe] `operator*`, `operator->`: "Preconditions: `*this` contains a value." -/
def star (i : Nat) : M (State Val) Val := do
  let o ← obj i
  if o.engaged then deref i else M.bad

/-- [optional.observe] `value()`: `return has_value() ? *val : throw bad_optional_access();` -/
def value (i : Nat) : M (State Val) Val := do
  let o ← obj i
  if o.engaged then deref i else M.raise

/-- [optional.observe] `value_or(U&&)`: `return has_value() ? **this : static_cast<T>(std::forward<U>(v));` -/
def valueOr (i : Nat) (mv : Bool) (d : Src Val) : M (State Val) Val := do
  let o ← obj i
  if o.engaged then returnT P i (.opt i mv) else returnT P i d

/-- a returned `optional` of a given value -/
def returnOpt (r : Nat) : Option Val → M (State Val) Unit
  | some v => ctorValue P r (.args v)
  | none => ctorNull r

/-- [optional.monadic] `and_then`: `if (*this) return invoke(f, *val); else return remove_cvref_t<U>();` -/
def andThen (i r : Nat) (f : Prog.Fn Val (Option Val)) : M (State Val) Unit := do
  let o ← obj i
  if o.engaged then do
    let x ← invoke P i f
    returnOpt P r x
  else ctorNull r

/-- [optional.monadic] `transform`: "if `*this` contains a value, an `optional<U>` object whose contained value is
direct-non-list-initialized with `invoke(f, *val)`; otherwise `optional<U>()`" -/
def transform (i r : Nat) (f : Prog.Fn Val Val) : M (State Val) Unit := do
  let o ← obj i
  if o.engaged then do
    let v ← invoke P i f
    ctorValue P r (.args v)
  else ctorNull r

/-- [optional.monadic] `or_else`: `if (*this) return *this; else return std::forward<F>(f)();` -/
def orElse (i r : Nat) (mv : Bool) (x : Option Val) : M (State Val) Unit := do
  let o ← obj i
  if o.engaged then ctorFrom P r i mv
  else do
    let y ← invoke0 P x
    returnOpt P r y

/-- [optional.relops] -/
def compare (op : CmpOp) (rel : CmpOp → Val → Val → Bool) (i j : Nat) : M (State Val) Bool := do
  let x ← obj i
  let y ← obj j
  let both : M (State Val) Bool := do
    let a ← deref i
    let b ← deref j
    invoke0 P (rel op a b)
  match op with
  | .eq => if x.engaged != y.engaged then pure false else if !x.engaged then pure true else both
  | .ne => if x.engaged != y.engaged then pure true else if !x.engaged then pure false else both
  | .lt => if !y.engaged then pure false else if !x.engaged then pure true else both
  | .gt => if !x.engaged then pure false else if !y.engaged then pure true else both
  | .le => if !x.engaged then pure true else if !y.engaged then pure false else both
  | .ge => if !y.engaged then pure true else if !x.engaged then pure false else both

/-- [optional.nullops] `x op nullopt`: `==` is `!x`; the others through `x.has_value() <=> false` -/
def compareNull (op : CmpOp) (i : Nat) : M (State Val) Bool := do
  let x ← obj i
  match op with
  | .eq => pure !x.engaged
  | .ne => pure x.engaged
  | .lt => pure false
  | .gt => pure x.engaged
  | .le => pure !x.engaged
  | .ge => pure true

/-- [optional.nullops] `nullopt op x` -/
def nullCompare (op : CmpOp) (i : Nat) : M (State Val) Bool := do
  let x ← obj i
  match op with
  | .eq => pure !x.engaged
  | .ne => pure x.engaged
  | .lt => pure x.engaged
  | .gt => pure false
  | .le => pure true
  | .ge => pure !x.engaged

/-- [optional.comp.with.t] `x op v` -/
def compareVal (op : CmpOp) (rel : CmpOp → Val → Val → Bool) (i : Nat) (v : Val) : M (State Val) Bool := do
  let x ← obj i
  if x.engaged then do
    let a ← deref i
    invoke0 P (rel op a v)
  else match op with
    | .eq => pure false
    | .ne => pure true
    | .lt => pure true
    | .gt => pure false
    | .le => pure true
    | .ge => pure false

/-- [optional.comp.with.t] `v op x` -/
def valCompare (op : CmpOp) (rel : CmpOp → Val → Val → Bool) (v : Val) (i : Nat) : M (State Val) Bool := do
  let x ← obj i
  if x.engaged then do
    let a ← deref i
    invoke0 P (rel op v a)
  else match op with
    | .eq => pure false
    | .ne => pure true
    | .lt => pure false
    | .gt => pure true
    | .le => pure false
    | .ge => pure true

/-- [optional.hash]: the hash of `*o`; without a value "it evaluates to an unspecified value", here `h0` -/
def hash (h0 : U64) (h : Val → U64) (i : Nat) : M (State Val) U64 := do
  let x ← obj i
  if x.engaged then do
    let a ← deref i
    invoke0 P (h a)
  else pure h0

/-- P3168: a range of zero or one elements -/
def forEach (i : Nat) (f : Prog.Fn Val Unit) : M (State Val) Unit := do
  let x ← obj i
  if x.engaged then invoke P i f else pure ()

/-- an argument `*oj` must have a value -/
def starred : Src Val → M (State Val) Unit
  | .opt j _ => do
    let _ ← star j
    pure ()
  | _ => pure ()

/-- one operation; what `std::optional` does not have is `ub` -/
def body (h0 : U64) : Op Val → M (State Val) (Ret Val)
  | .ctorDefault i => Prog.asRet (fun _ => .unit) (ctorNull i)
  | .ctorValue i src => Prog.asRet (fun _ => .unit) (do starred src; ctorValue P i src)
  | .ctorFrom i j mv => Prog.asRet (fun _ => .unit) (ctorFrom P i j mv)
  | .dtor i => Prog.asRet (fun _ => .unit) (dtor P i)
  | .reset i => Prog.asRet (fun _ => .unit) (reset P i)
  | .assignFrom i j mv => Prog.asRet (fun _ => .unit) (assignFrom P i j mv)
  | .assignValue i src => Prog.asRet (fun _ => .unit) (do starred src; assignValue P i src)
  | .emplace i src => Prog.asRet (fun _ => .unit) (do starred src; emplace P i src)
  | .swap i j => Prog.asRet (fun _ => .unit) (swap P i j)
  | .hasValue i => Prog.asRet .bool (hasValue i)
  | .get i => Prog.asRet .val (star i)
  | .valueOrThrow i => Prog.asRet .val (value i)
  | .valueOr i mv d => Prog.asRet .val (do starred d; valueOr P i mv d)
  | .map i r f => Prog.asRet (fun _ => .unit) (transform P i r f)
  | .andThen i r f => Prog.asRet (fun _ => .unit) (andThen P i r f)
  | .orElse i r mv x => Prog.asRet (fun _ => .unit) (orElse P i r mv x)
  | .cmp o rel i j => Prog.asRet .bool (compare P o rel i j)
  | .cmpNone o i => Prog.asRet .bool (compareNull o i)
  | .noneCmp o i => Prog.asRet .bool (nullCompare o i)
  | .cmpVal o rel i v => Prog.asRet .bool (compareVal P o rel i v)
  | .valCmp o rel v i => Prog.asRet .bool (valCompare P o rel v i)
  | .hash i h => Prog.asRet .word (hash P h0 h i)
  | .forEach i f => Prog.asRet (fun _ => .unit) (forEach P i f)
  | _ => M.bad

/-- operands exist and the places of new objects are free; otherwise the program has no meaning -/
def Present (op : Op Val) (s : State Val) : Bool :=
  op.uses.all (fun i => (s.obj i).isSome) && op.makes.all (fun r => (s.obj r).isNone)

/-- one operation -/
def runOp (h0 : U64) (op : Op Val) : M (State Val) (Ret Val) := fun s =>
  if Present op s then body P h0 op s else .ub

/-- a history -/
def run (h0 : U64) : List (Op Val) → M (State Val) (List (Ret Val))
  | [] => pure []
  | op :: ops => do
    let r ← Prog.catch_ (runOp P h0 op)
    let rs ← run h0 ops
    pure (r :: rs)

/-- nothing exists, no calls yet -/
def start : State Val := ⟨fun _ => none, ⟨0, []⟩⟩

/-! ## Comparing the calls of user code -/

/-- a call of user code, without the difference between building a `T` in place and building a temporary -/
inductive Call where
  | made (k : Kind) (ok : Bool)
  | ended (i : Nat)
  | assigned (i : Nat) (k : Kind) (ok : Bool)
  | swapped (i j : Nat) (ok : Bool)
  | called (i : Nat) (ok : Bool)
  | called0 (ok : Bool)
deriving DecidableEq, Repr

/-- What counts of a logged call.  The destructor of a temporary does not count.  For a scalar `T`, converting the operand
and storing it counts as making a `T`, whether the standard says "assigns" or "initializes". -/
def plain : Event → Option Call
  | .ctor _ k => some (.made k true)
  | .ctorFail _ k => some (.made k false)
  | .dtor i => some (.ended i)
  | .assign i k b => if (P.elem i).scalar then some (.made k b) else some (.assigned i k b)
  | .swap i j b => some (.swapped i j b)
  | .call i b => some (.called i b)
  | .call0 b => some (.called0 b)
  | .tmpCtor k b => some (.made k b)
  | .tmpDtor => none

end Opt.Std

namespace Opt

/-- the built-in assignment of a scalar does not begin if the conversion of its operand throws -/
def Prog.ScalarsKeep {Val : Type} (P : Prog Val) : Prop :=
  ∀ i n u v, (P.elem i).scalar = true → P.broken i n u v = u

end Opt
