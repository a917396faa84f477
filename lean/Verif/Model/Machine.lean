import Verif.Model.Mon
import Verif.Model.Special
import Verif.Model.Traits

/-!
# The lifetime machine: storage, special members and modifiers of `option<T>` (option.hpp 1898-2280, 2793-3270)

A program manipulates option objects at addresses `0, 1, 2, ...`.  The static type of the object at address `i` is the
class `cls i`; two addresses of the same class are of the same type `option<T>`.  Every option object is its bytes
(object representation, including the flag byte when there is one) and a ghost bit `alive` that tells whether a `T` is
within its lifetime in the union member `value`.

The element type's own operations are user code.  They are parameters: which call throws, which bytes they leave, which
value a moved-from object has.  `tick` numbers the calls of user code, `log` records them.

Breaking a rule of the language is the outcome `ub`: using an object that does not exist, reading or destroying a `T`
outside its lifetime, constructing over a live `T` whose destructor is not trivial, reading a `bool` flag whose byte is
neither 0 nor 1.
-/

namespace Opt

/-- how a `T` is initialised or assigned: from other arguments, from a `const T&`, from a `T&&`, from the value of an
option of another class -/
inductive Kind where
  | args | copy | move | conv
deriving DecidableEq, Repr

/-- calls of user code -/
inductive Event where
  /-- a constructor of the `T` in option `i` completed -/
  | ctor (i : Nat) (k : Kind)
  /-- a constructor of the `T` in option `i` threw -/
  | ctorFail (i : Nat) (k : Kind)
  /-- the destructor of the `T` in option `i` -/
  | dtor (i : Nat)
  /-- an assignment operator of the `T` in option `i` completed or threw -/
  | assign (i : Nat) (k : Kind) (ok : Bool)
  /-- `swap(T&, U&)` completed or threw -/
  | swap (i j : Nat) (ok : Bool)
  /-- a callable was invoked with the `T` in option `i` and completed or threw -/
  | call (i : Nat) (ok : Bool)
  /-- a callable was invoked without argument and completed or threw -/
  | call0 (ok : Bool)
  /-- constructor of a temporary or of a returned `T` -/
  | tmpCtor (k : Kind) (ok : Bool)
  /-- destructor of a temporary `T` -/
  | tmpDtor
deriving DecidableEq, Repr

/-- An element type: its representation (`Ty`, which determines `option_traits`), the abstract value of a
representation, and the type traits the library asks for. -/
structure Elem (Val : Type) where
  T : Ty
  decode : Bytes → Val
  trivDtor : Bool
  trivCopyCtor : Bool
  trivCopyAssign : Bool
  trivMoveCtor : Bool
  trivMoveAssign : Bool
  /-- `std::is_scalar_v<T>` -/
  scalar : Bool

/-- The program around the options: platform, language mode, static types, behaviour of user code. -/
structure Prog (Val : Type) where
  /-- width of a pointer in bits -/
  pw : Nat
  /-- `OPTION_IS_CXX20` -/
  cxx20 : Bool
  /-- class of the option at an address -/
  cls : Nat → Nat
  /-- element type of a class -/
  elemOf : Nat → Elem Val
  /-- does the `n`-th call of user code throw -/
  throwsAt : Nat → Bool
  /-- contents of fresh storage -/
  garbage : Nat → Nat → Bytes
  /-- `build i n v old`: representation of a `T` in option `i` that call `n` gave the value `v`, over bytes `old` -/
  build : Nat → Nat → Val → Bytes → Bytes
  /-- bytes left in the storage by a constructor that threw -/
  partial_ : Nat → Kind → Nat → Bytes → Bytes
  /-- bytes left by a destructor -/
  dead : Nat → Nat → Bytes → Bytes
  /-- value of the `T` in option `i` after call `n` moved from it (`fail`: the call threw) -/
  moved : (fail : Bool) → Nat → Nat → Val → Val
  /-- value after a self-move-assignment -/
  selfMoved : Nat → Nat → Val → Val
  /-- value of the target after an assignment or swap that threw: old value, new value -/
  broken : Nat → Nat → Val → Val → Val
  /-- conversion of a value of class `d` (second) to class `c` (first) -/
  conv : Nat → Nat → Val → Val

/-- an option object -/
structure Obj where
  bytes : Bytes
  alive : Bool

/-- bookkeeping of user code -/
structure Env where
  tick : Nat
  log : List Event

/-- all option objects -/
structure World where
  mem : Nat → Option Obj
  env : Env

/-- replace the entry at `i` -/
def upd {α : Type} (f : Nat → α) (i : Nat) (x : α) : Nat → α := fun k => if k = i then x else f k

/-- Where the initialiser or right operand comes from: an expression outside any option (`args`: other arguments that
produce value `v`; `copy` / `move`: an lvalue / rvalue `T` of value `v`), or the `T` inside option `j` as an lvalue
(`mv = false`) or rvalue (`mv = true`). -/
inductive Src (Val : Type) where
  | args (v : Val)
  | copy (v : Val)
  | move (v : Val)
  | opt (j : Nat) (mv : Bool)

/-- does the source live in option `i` itself -/
def Src.isSelf {Val : Type} (i : Nat) : Src Val → Bool
  | .opt j _ => j == i
  | _ => false

namespace Elem

variable {Val : Type}

/-- `option_traits<T>::max_level > 0` (option.hpp 1900): the empty state is a level of `T`; otherwise a flag -/
def sent (pw : Nat) (E : Elem Val) : Bool := decide ((E.T.traits pw).maxLevel ≥ 1)

/-- the special members of `option<T>` -/
def members (E : Elem Val) : Members :=
  (optionBase E.trivCopyCtor E.trivCopyAssign E.trivMoveCtor E.trivMoveAssign E.trivDtor false).getD implicitMembers

/-- is initialising a `T` in this way a bitwise copy -/
def ctorTriv (E : Elem Val) : Kind → Bool
  | .copy => E.trivCopyCtor
  | .move => E.trivMoveCtor
  | _ => false

/-- is assigning to a `T` in this way a bitwise copy -/
def assignTriv (E : Elem Val) : Kind → Bool
  | .copy => E.trivCopyAssign
  | .move => E.trivMoveAssign
  | _ => false

end Elem

namespace Prog

variable {Val : Type} (P : Prog Val)

/-- element type of the option at address `i` -/
def elem (i : Nat) : Elem Val := P.elemOf (P.cls i)

/-- the kind of initialisation of a `T` of option `i` from a source -/
def kind (i : Nat) : Src Val → Kind
  | .args _ => .args
  | .copy _ => .copy
  | .move _ => .move
  | .opt j mv => if P.cls i = P.cls j then (if mv then .move else .copy) else .conv

/-- the value a source gives to a `T` of option `i`, if the contained object has value `v` -/
def convFrom (i j : Nat) (v : Val) : Val := if P.cls i = P.cls j then v else P.conv (P.cls i) (P.cls j) v

/-! ## Memory -/

/-- the option object at `i` -/
def obj (i : Nat) : M World Obj := fun w =>
  match w.mem i with
  | some o => .ok o w
  | none => .ub

/-- write the option object at `i` -/
def setObj (i : Nat) (o : Obj) : M World Unit := fun w => .ok () { w with mem := upd w.mem i (some o) }

/-- end of the storage of option `i` -/
def delObj (i : Nat) : M World Unit := fun w => .ok () { w with mem := upd w.mem i none }

/-- fresh storage for option `i` -/
def newObj (i : Nat) : M World Unit := fun w =>
  match w.mem i with
  | some _ => .ub -- an object already lives there
  | none => .ok () { w with mem := upd w.mem i (some ⟨P.garbage i w.env.tick, false⟩) }

/-- call number and whether the call throws; logs the call -/
def userOp (okEv failEv : Event) : M World (Nat × Bool) := fun w =>
  .ok (w.env.tick, P.throwsAt w.env.tick)
    { w with env := ⟨w.env.tick + 1, w.env.log ++ [if P.throwsAt w.env.tick then failEv else okEv]⟩ }

/-- record something that cannot throw -/
def note (e : Event) : M World Unit := fun w => .ok () { w with env := { w.env with log := w.env.log ++ [e] } }

/-- the current call number -/
def now : M World Nat := fun w => .ok w.env.tick w

/-- the bytes of `value` -/
def payload (i : Nat) (o : Obj) : Bytes := (P.elem i).T.payload P.pw o.bytes

/-- write the bytes of `value` and the ghost bit -/
def setPayload (i : Nat) (b : Bytes) (alive : Bool) : M World Unit := do
  let o ← obj i
  setObj i ⟨wr o.bytes 0 b, alive⟩

/-- `has_value_flag = b` -/
def setFlag (i : Nat) (b : Bool) : M World Unit := do
  let o ← obj i
  setObj i { o with bytes := st 8 o.bytes ((P.elem i).T.size P.pw) (if b then 1 else 0) }

/-- `traits::set_level(addressof(value), 0)`: overwrites (part of) the bytes of `value` -/
def setLevel0 (i : Nat) : M World Unit := do
  let o ← obj i
  match ((P.elem i).T.traits P.pw).setLevel o.bytes 0 with
  | .ok b => setObj i ⟨b, false⟩
  | .throw => M.raise
  | .verify => M.check false
  | .ub => M.bad

/-! ## Operations of the element type -/

/-- the value of the live `T` in option `j`; `ub` outside its lifetime -/
def readT (j : Nat) : M World Val := do
  let o ← obj j
  if o.alive then pure ((P.elem j).decode (P.payload j o)) else M.bad

/-- user code gives the live `T` in option `j` the value `v` in place -/
def writeT (j n : Nat) (v : Val) : M World Unit := do
  let o ← obj j
  if o.alive then setPayload j (P.build j n v (P.payload j o)) true else M.bad

/-- evaluate the source for a `T` of option `i` -/
def srcVal (i : Nat) : Src Val → M World Val
  | .args v => pure v
  | .copy v => pure v
  | .move v => pure v
  | .opt j _ => do
    let v ← P.readT j
    pure (P.convFrom i j v)

/-- what happens to a source after it was moved from -/
def srcAfter (fail : Bool) (n : Nat) : Src Val → M World Unit
  | .opt j true => do
    let v ← P.readT j
    P.writeT j n (P.moved fail j n v)
  | _ => pure ()

/-- the bytes a bitwise copy of the source has -/
def srcBytes (i : Nat) (v : Val) (old : Bytes) : Src Val → M World Bytes
  | .opt j _ => do
    let o ← obj j
    pure (P.payload j o)
  | _ => do
    let n ← now
    pure (P.build i n v old)

/-- `T(args...)` directly in the storage `value` of option `i` (placement new, `std::construct_at`, or a member
initialiser).  The initialiser of a scalar is evaluated before anything is stored; the constructor of a class type works
on the storage and may leave anything there when it throws. -/
def constructInPlace (i : Nat) (src : Src Val) : M World Unit := do
  let E := P.elem i
  let o ← obj i
  if o.alive && !E.trivDtor then M.bad
  else if src.isSelf i && !E.scalar then M.bad -- the storage of the source is being reused
  else do
    let v ← P.srcVal i src
    if E.ctorTriv (P.kind i src) then do
      let b ← P.srcBytes i v (P.payload i o) src
      setPayload i b true
    else do
      let (n, thr) ← P.userOp (.ctor i (P.kind i src)) (.ctorFail i (P.kind i src))
      if thr then do
        P.srcAfter true n src
        if E.scalar then M.raise
        else do
          setPayload i (P.partial_ i (P.kind i src) n (P.payload i o)) false
          M.raise
      else do
        P.srcAfter false n src
        setPayload i (P.build i n v (P.payload i o)) true

/-- `*ptr = T(args...)` of the C++17 `construct_at` for trivially move assignable `T` (option.hpp 652-658): a temporary
is built, copied bitwise into the storage and destroyed.  When the destructor is trivial only the constructor of the
temporary is observable, and it is attributed to the destination. -/
def constructByAssign (i : Nat) (src : Src Val) : M World Unit := do
  let E := P.elem i
  let o ← obj i
  let v ← P.srcVal i src
  if E.ctorTriv (P.kind i src) then do
    let b ← P.srcBytes i v (P.payload i o) src
    setPayload i b true
  else if E.trivDtor then do
    let (n, thr) ← P.userOp (.ctor i (P.kind i src)) (.ctorFail i (P.kind i src))
    P.srcAfter thr n src
    if thr then M.raise
    else setPayload i (P.build i n v (P.payload i o)) true
  else do
    let (n, thr) ← P.userOp (.tmpCtor (P.kind i src) true) (.tmpCtor (P.kind i src) false)
    P.srcAfter thr n src
    if thr then M.raise
    else do
      setPayload i (P.build i n v (P.payload i o)) true
      note .tmpDtor

/-- `impl::construct_at(addressof(value), args...)` (option.hpp 649-668): in place in C++20 and for types that are not
trivially move assignable. -/
def constructAt (i : Nat) (src : Src Val) : M World Unit :=
  if P.cxx20 || !(P.elem i).trivMoveAssign then P.constructInPlace i src else P.constructByAssign i src

/-- `value.~T()` -/
def destroyT (i : Nat) : M World Unit := do
  let o ← obj i
  if o.alive then do
    note (.dtor i)
    let n ← now
    setPayload i (P.dead i n (P.payload i o)) false
  else M.bad

/-- `value = src` with `T`'s assignment operator; the target must be alive -/
def assignT (i : Nat) (src : Src Val) : M World Unit := do
  let E := P.elem i
  let o ← obj i
  if !o.alive then M.bad
  else if E.assignTriv (P.kind i src) then do
    let v ← P.srcVal i src
    let b ← P.srcBytes i v (P.payload i o) src
    setPayload i b true
  else do
    let old ← P.readT i
    let v ← P.srcVal i src
    let (n, thr) ← P.userOp (.assign i (P.kind i src) true) (.assign i (P.kind i src) false)
    if thr then do
      P.srcAfter true n src
      P.writeT i n (P.broken i n old v)
      M.raise
    else if src.isSelf i then
      match src with
      | .opt _ true => P.writeT i n (P.selfMoved i n old)
      | _ => P.writeT i n old
    else do
      P.srcAfter false n src
      P.writeT i n v

/-- `swap(a, b)` on the two contained objects (found by argument-dependent lookup or `std::swap`, option.hpp 3254,
3259) -/
def swapT (i j : Nat) : M World Unit := do
  let vi ← P.readT i
  let vj ← P.readT j
  let (n, thr) ← P.userOp (.swap i j true) (.swap i j false)
  if thr then do
    P.writeT i n (P.broken i n vi (P.convFrom i j vj))
    P.writeT j n (P.broken j n vj (P.convFrom j i vi))
    M.raise
  else do
    P.writeT i n (P.convFrom i j vj)
    P.writeT j n (P.convFrom j i vi)

/-! ## `option_destruct_base` (option.hpp 1908-2107) -/

/-- `has_value()` (1933-1935, 1985-1987, 2038-2040, 2096-2098).  A flag byte other than 0 and 1 is not a `bool`. -/
def hasValue (i : Nat) : M World Bool := do
  let E := P.elem i
  let o ← obj i
  if !E.sent P.pw && (ld 8 o.bytes (E.T.size P.pw) != 0) && (ld 8 o.bytes (E.T.size P.pw) != 1) then M.bad
  else pure (E.T.hasValue P.pw o.bytes)

/-- default constructor (1916-1917, 1956-1957, 2010-2014, 2061-2065) -/
def ctorDefault (i : Nat) : M World Unit := do
  P.newObj i
  if (P.elem i).sent P.pw then do
    setPayload i [0] false -- `dummy{}` zeroes the `char`
    P.setLevel0 i
    let h ← P.hasValue i
    M.check (!h)
  else P.setFlag i false

/-- in-place constructors, also from an invocation (1919-1932, 1959-1972, 2015-2034, 2066-2085).  If `T`'s constructor
throws the option object never exists. -/
def ctorArg (i : Nat) (src : Src Val) : M World Unit := do
  P.newObj i
  M.onThrow (P.constructInPlace i src) (delObj i)
  if (P.elem i).sent P.pw then do
    let h ← P.hasValue i
    M.check h
  else P.setFlag i true

/-- `construct` (1936-1940, 1988-1992, 2041-2045, 2099-2103) -/
def construct (i : Nat) (src : Src Val) : M World Unit := do
  P.constructAt i src
  if (P.elem i).sent P.pw then do
    let h ← P.hasValue i
    M.check h
  else P.setFlag i true

/-- `reset` in its four variants: (trivially destructible, flag) 1930-1932, (not, flag) 1979-1984, (trivially
destructible, levels) 2034-2037 unconditional, (not, levels) 2089-2095. -/
def reset (i : Nat) : M World Unit := do
  let E := P.elem i
  if E.trivDtor then
    if E.sent P.pw then do
      P.setLevel0 i
      let h ← P.hasValue i
      M.check (!h)
    else P.setFlag i false
  else do
    let h ← P.hasValue i
    if h then do
      P.destroyT i
      if E.sent P.pw then do
        P.setLevel0 i
        let h ← P.hasValue i
        M.check (!h)
      else P.setFlag i false
    else pure ()

/-- destructor (1973-1977, 2083-2087); trivial when `T`'s is. Then the storage is gone. -/
def dtor (i : Nat) : M World Unit := do
  if (P.elem i).trivDtor then do
    let _ ← obj i
    delObj i
  else do
    let h ← P.hasValue i
    if h then do
      P.destroyT i
      delObj i
    else delObj i

/-! ## `option_base` and the class `option` -/

/-- bitwise copy of the whole option object `j` into fresh storage `i` (defaulted trivial constructor) -/
def copyBytesNew (i j : Nat) : M World Unit := do
  let o ← obj j
  P.newObj i
  setObj i o

/-- bitwise copy of the whole option object `j` over option `i` (defaulted trivial assignment) -/
def copyBytes (i j : Nat) : M World Unit := do
  let o ← obj j
  let _ ← obj i
  setObj i o

/-- `get()` on option `j` used as a source: the check (option.hpp 3059-3094) -/
def getCheck (j : Nat) : M World Unit := do
  let h ← P.hasValue j
  M.check h

/-- `option_construct_from_option` (option.hpp 2124-2129) and the bodies of the converting constructors
(option.hpp 2874-2901, where the source is read through `get()`).  When the body throws, the already constructed base
is destroyed. -/
def ctorManual (i j : Nat) (mv : Bool) : M World Unit := do
  P.ctorDefault i
  M.onThrow
    (do
      let h ← P.hasValue j
      if h then do
        if P.cls i = P.cls j then pure () else P.getCheck j
        P.construct i (.opt j mv)
      else pure ())
    (P.dtor i)

/-- copy / move constructor (option.hpp 2838-2840 and `option_base`), converting constructors (2874-2901) -/
def ctorFrom (i j : Nat) (mv : Bool) : M World Unit :=
  if P.cls i = P.cls j then
    if (if mv then (P.elem i).members.moveCtor else (P.elem i).members.copyCtor) = .default then P.copyBytesNew i j
    else P.ctorManual i j mv
  else P.ctorManual i j mv

/-- `option_assign_from_option` (option.hpp 2112-2123) and the converting assignments (option.hpp 2932-2977, which
read through `get()` and check afterwards) -/
def assignManual (i j : Nat) (mv : Bool) : M World Unit := do
  let hj ← P.hasValue j
  if hj then do
    let hi ← P.hasValue i
    if hi then do
      if P.cls i = P.cls j then P.assignT i (.opt j mv)
      else do
        P.getCheck j
        P.assignT i (.opt j mv)
        P.getCheck i
    else do
      if P.cls i = P.cls j then pure () else P.getCheck j
      P.construct i (.opt j mv)
  else P.reset i

/-- copy / move assignment (option.hpp 2909-2911 and `option_base`), converting assignments (2932-2977) -/
def assignFrom (i j : Nat) (mv : Bool) : M World Unit :=
  if P.cls i = P.cls j then
    if (if mv then (P.elem i).members.moveAssign else (P.elem i).members.copyAssign) = .default then copyBytes i j
    else P.assignManual i j mv
  else P.assignManual i j mv

/-- evaluate an argument expression `*oj` / `std::move(*oj)`: `operator*` checks (option.hpp 3105-3124) -/
def evalArg : Src Val → M World Unit
  | .opt j _ => P.getCheck j
  | _ => pure ()

/-- `option(U&&)`, `option(First, Second, ...)`, `option(in_place, ...)` (option.hpp 2842-2872), `make_option` (3328-3342,
which returns such an option) -/
def ctorValue (i : Nat) (src : Src Val) : M World Unit := do
  P.evalArg src
  P.ctorArg i src

/-- `operator=(U&&)` (option.hpp 2913-2930) -/
def assignValue (i : Nat) (src : Src Val) : M World Unit := do
  P.evalArg src
  if (P.elem i).scalar then P.construct i src
  else do
    let h ← P.hasValue i
    if h then do
      P.assignT i src
      P.getCheck i
    else P.construct i src

/-- `emplace` (option.hpp 3002-3008) -/
def emplace (i : Nat) (src : Src Val) : M World Unit := do
  P.evalArg src
  P.reset i
  P.construct i src
  P.getCheck i

/-- `try_emplace` (option.hpp 3010-3016) -/
def tryEmplace (i : Nat) (src : Src Val) : M World Unit := do
  P.evalArg src
  let h ← P.hasValue i
  if h then P.getCheck i
  else do
    P.construct i src
    P.getCheck i

/-- `swap` (option.hpp 3252-3269), same and different element types; the free `swap` (3401-3404) calls it -/
def swap (i j : Nat) : M World Unit := do
  let hi ← P.hasValue i
  let hj ← P.hasValue j
  if !hi && !hj then pure ()
  else if hi && hj then P.swapT i j
  else if hi then do
    P.getCheck i
    P.construct j (.opt i true)
    P.reset i
  else do
    P.getCheck j
    P.construct i (.opt j true)
    P.reset j

/-- `take` (option.hpp 3036-3040) with the result object at `r`; the local `tmp` is the result object (named return
value optimisation, which every supported compiler performs) -/
def take (i r : Nat) : M World Unit := do
  P.ctorFrom r i true
  P.reset i

/-- A callable applied to the contained `T`: what it returns, the value it leaves in the `T` when it completes and when
it throws (it gets a reference and may modify or move from it). -/
structure Fn (Val β : Type) where
  ret : Val → β
  after : Val → Val
  afterThrow : Val → Val

/-- `invoke(f, get())` (option.hpp 613-647) -/
def callT {β : Type} (i : Nat) (f : Fn Val β) : M World β := do
  P.getCheck i
  let v ← P.readT i
  let (n, thr) ← P.userOp (.call i true) (.call i false)
  if thr then do
    P.writeT i n (f.afterThrow v)
    M.raise
  else do
    P.writeT i n (f.after v)
    pure (f.ret v)

/-- `take_if` (option.hpp 3042-3048) with the result object at `r` -/
def takeIf (i r : Nat) (pred : Fn Val Bool) : M World Unit := do
  let h ← P.hasValue i
  if h then do
    let b ← P.callT i pred
    if b then P.take i r else P.ctorDefault r
  else P.ctorDefault r

end Prog

end Opt
