/-!
# Options in constant expressions

What a compiler may do with the library while it evaluates a constant expression: it knows which member of a union is
active and which objects are alive, and it rejects every step that looks elsewhere (C++17 and C++20, [expr.const],
[class.union]).  The contained type is assumed to be usable in constant expressions itself: its own constructors,
assignments, comparisons and destructor are `constexpr`.  `none` is an expression that is not a constant expression.

Two rules matter most.

* An assignment through a pointer does not change the active member of a union, also not in C++20: only an assignment
  that names the member, or `std::construct_at`, does.
* Copying a union with a trivial copy constructor or assignment copies the active member, whichever it is.
-/

namespace Opt.ConstEval

variable {V : Type}

/-- how an option of a type knows that it is empty -/
inductive Storage (V : Type) where
  /-- `has_value_flag` (1908-1948, 1949-1995) -/
  | flag
  /-- a pointer, for `T&` (2285-2329) -/
  | ref
  /-- levels kept with plain reads and assignments through the pointer that the traits get: `sentinel_option_traits` (1774-1786),
  `SENTINEL` (1542-1558), `sentinel` and wrappers (3930-4050), and aggregates that use one of those (1280-1362, 1596-1612).
  `sent` is the value written for level 0, `isSent` the comparison. -/
  | assign (sent : V) (isSent : V → Bool)
  /-- levels kept with `std::memcpy`, `reinterpret_cast` or functions that are not `constexpr`: all the other traits
  (769-795, 1156-1278, 1362-1540, 1559-1595, 1613-1757, 3275-3321) -/
  | opaque

/-- what matters about the contained type -/
structure Cls (V : Type) where
  storage : Storage V
  /-- `std::is_trivially_copy_constructible_v<T>` and so on; all true for a reference -/
  trivCopyCtor : Bool
  trivCopyAssign : Bool
  trivMoveCtor : Bool
  trivMoveAssign : Bool
  trivDtor : Bool
  /-- `std::is_scalar_v<T>` -/
  scalar : Bool
  /-- there is a `swap` for the type that is `constexpr` in C++17 -/
  ownSwap : Bool
  /-- what is left in a value after it was moved from -/
  moved : V → V

/-- the configuration -/
structure Cfg where
  /-- `OPTION_IS_CXX20` (246-248) -/
  cxx20 : Bool
  /-- whether `OPTION_VERIFY(e)` evaluates `e` (190-233): it does in debug builds and with GCC before 13, it does not where it is
  `__assume`, `__builtin_assume`, the attribute `assume`, or nothing -/
  evalVerify : Bool
deriving DecidableEq, Repr

/-- `option_base` has trivial special members (2134-2280) -/
def Cls.copyCtorTriv (c : Cls V) : Bool := c.trivCopyCtor
def Cls.copyAssignTriv (c : Cls V) : Bool := c.trivCopyAssign && c.trivDtor && c.trivCopyCtor
def Cls.moveCtorTriv (c : Cls V) : Bool := c.trivMoveCtor
def Cls.moveAssignTriv (c : Cls V) : Bool := c.trivMoveAssign && c.trivDtor && c.trivMoveCtor

/-- the union of an option: the active member, if there is one that is alive.  For `T&`: `dummy` is the null pointer. -/
inductive Act (V : Type) where
  | dummy
  | value (v : V)
  | dead

/-- an option during constant evaluation; `flag` is not there unless the storage is `flag` -/
structure Obj (V : Type) where
  act : Act V
  flag : Bool

/-- reading the contained value: the member must be active -/
def Act.read : Act V → Option V
  | .value v => some v
  | .dummy => none
  | .dead => none

/-- `OPTION_VERIFY(e)` (190-233); calling `std::fprintf` or a trap is not a constant expression -/
def verify (k : Cfg) (e : Option Bool) : Option Unit :=
  if k.evalVerify then (match e with | some true => some () | some false => none | none => none) else some ()

/-- `has_value()` (1938-1940, 1986-1988, 2041-2043, 2099-2101, 2318-2320) -/
def hasValue (c : Cls V) (o : Obj V) : Option Bool :=
  match c.storage with
  | .flag => some o.flag
  | .ref => match o.act with
    | .value _ => some true
    | .dummy => some false
    | .dead => some false
  | .assign _ isSent => o.act.read.map fun v => !isSent v
  | .opaque => none

/-- `traits::set_level(&value, 0)`: an assignment to `*value`, whose target has to be alive; or not a constant expression -/
def setLevel0 (c : Cls V) (a : Act V) : Option (Act V) :=
  match c.storage with
  | .assign sent _ => match a with
    | .value _ => some (.value sent)
    | .dummy => none
    | .dead => none
  | .flag => none
  | .ref => none
  | .opaque => none

/-- `impl::construct_at(&value, ...)` (649-668): `std::construct_at` in C++20; an assignment through the pointer in C++17 if that is
trivial for the type, else a placement `new`, which is not a constant expression -/
def constructAt (k : Cfg) (c : Cls V) (a : Act V) (v : V) : Option (Act V) :=
  if k.cxx20 then some (.value v)
  else if c.trivMoveAssign then
    match a with
    | .value _ => some (.value v)
    | .dummy => none
    | .dead => none
  else none

/-- `construct(...)` (1941-1945, 1989-1993, 2044-2048, 2102-2106, 2324-2328) -/
def construct (k : Cfg) (c : Cls V) (o : Obj V) (v : V) : Option (Obj V) :=
  match c.storage with
  | .ref => some { o with act := .value v }
  | .flag => do
    let a ← constructAt k c o.act v
    return ⟨a, true⟩
  | _ => do
    let a ← constructAt k c o.act v
    let o : Obj V := { o with act := a }
    verify k (hasValue c o)
    return o

/-- the type can have objects in constant expressions: C++17 asks for a trivial destructor, C++20 for a `constexpr` one (1974, 2086) -/
def literal (k : Cfg) (c : Cls V) : Bool := k.cxx20 || c.trivDtor

/-- the default constructors (1916-1918, 1955-1957, 2010-2014, 2061-2065, 2303-2304) -/
def defaultInit (k : Cfg) (c : Cls V) : Option (Obj V) :=
  if literal k c then
    match c.storage with
    | .flag => some ⟨.dummy, false⟩
    | .ref => some ⟨.dummy, false⟩
    | _ => do
      let a ← setLevel0 c .dummy
      let o : Obj V := ⟨a, false⟩
      verify k ((hasValue c o).map (!·))
      return o
  else none

/-- the constructors that initialise `value` (1919-1934, 1958-1973, 2015-2035, 2066-2085, 2306-2316) -/
def initValue (k : Cfg) (c : Cls V) (v : V) : Option (Obj V) :=
  if literal k c then
    match c.storage with
    | .flag => some ⟨.value v, true⟩
    | .ref => some ⟨.value v, false⟩
    | _ => do
      let o : Obj V := ⟨.value v, false⟩
      verify k (hasValue c o)
      return o
  else none

/-- `value.~T()` -/
def destroyAct (a : Act V) : Option (Act V) :=
  match a with
  | .value _ => some .dead
  | .dummy => none
  | .dead => none

/-- `reset()` (1935-1937, 1980-1985, 2037-2040, 2092-2098, 2321-2323) -/
def reset (k : Cfg) (c : Cls V) (o : Obj V) : Option (Obj V) :=
  match c.storage with
  | .flag =>
    if c.trivDtor then some { o with flag := false }
    else if o.flag then do
      let a ← destroyAct o.act
      return ⟨a, false⟩
    else some o
  | .ref => some { o with act := .dummy }
  | _ =>
    if c.trivDtor then do
      let a ← setLevel0 c o.act
      let o : Obj V := { o with act := a }
      verify k ((hasValue c o).map (!·))
      return o
    else do
      if ← hasValue c o then
        let a ← destroyAct o.act
        let a ← setLevel0 c a
        let o : Obj V := { o with act := a }
        verify k ((hasValue c o).map (!·))
        return o
      else
        return o

/-- the destructors (1974-1978, 2086-2090; trivial otherwise) -/
def destroy (c : Cls V) (o : Obj V) : Option Unit :=
  if c.trivDtor then some ()
  else match c.storage with
    | .flag => if o.flag then (destroyAct o.act).map fun _ => () else some ()
    | .ref => some ()
    | _ => do
      if ← hasValue c o then
        let _ ← destroyAct o.act
        return ()
      else
        return ()

/-- `get()` followed by a use of the value (3059-3094, 3104-3124) -/
def get (k : Cfg) (c : Cls V) (o : Obj V) : Option V := do
  verify k (hasValue c o)
  o.act.read

/-- the object after its value, if it has one, was moved from -/
def leave (c : Cls V) (o : Obj V) : Obj V :=
  match hasValue c o, o.act with
  | some true, .value v => { o with act := .value (c.moved v) }
  | _, _ => o

/-- the copy constructor: defaulted, or `option_construct_from_option` after the default constructor (2124-2129, 2152-2154) -/
def copyCtor (k : Cfg) (c : Cls V) (src : Obj V) : Option (Obj V) :=
  if c.copyCtorTriv then (if literal k c then some src else none)
  else do
    let o ← defaultInit k c
    if ← hasValue c src then
      construct k c o (← src.act.read)
    else
      return o

/-- the move constructor (2183-2185); the new object and what is left in the source -/
def moveCtor (k : Cfg) (c : Cls V) (src : Obj V) : Option (Obj V × Obj V) :=
  if c.moveCtorTriv then (if literal k c then some (src, src) else none)
  else do
    let o ← defaultInit k c
    if ← hasValue c src then
      let o ← construct k c o (← src.act.read)
      return (o, leave c src)
    else
      return (o, src)

/-- `value = v` by name, after `has_value()` was true -/
def assignAct (a : Act V) (v : V) : Option (Act V) :=
  match a with
  | .value _ => some (.value v)
  | .dummy => none
  | .dead => none

/-- the copy assignment: defaulted, or `option_assign_from_option` (2112-2123, 2155-2158) -/
def assignCopy (k : Cfg) (c : Cls V) (self src : Obj V) : Option (Obj V) :=
  if c.copyAssignTriv then some src
  else do
    if ← hasValue c src then
      let v ← src.act.read
      if ← hasValue c self then
        let a ← assignAct self.act v
        return { self with act := a }
      else
        construct k c self v
    else
      reset k c self

/-- the move assignment (2186-2189) -/
def assignMove (k : Cfg) (c : Cls V) (self src : Obj V) : Option (Obj V × Obj V) :=
  if c.moveAssignTriv then some (src, src)
  else do
    if ← hasValue c src then
      let v ← src.act.read
      if ← hasValue c self then
        let a ← assignAct self.act v
        return ({ self with act := a }, leave c src)
      else
        return (← construct k c self v, leave c src)
    else
      return (← reset k c self, src)

/-- `operator=(U&&)` (2915-2933) -/
def assignValue (k : Cfg) (c : Cls V) (self : Obj V) (v : V) : Option (Obj V) :=
  match c.storage with
  | .ref => some { self with act := .value v }
  | _ =>
    if c.scalar then construct k c self v
    else do
      if ← hasValue c self then
        let a ← assignAct self.act v
        let o : Obj V := { self with act := a }
        verify k (hasValue c o)
        return o
      else
        construct k c self v

/-- `operator=(const option<U>&)` and `operator=(option<U>&&)` (2935-2977); `cu` is the class of `U`, `f` the conversion -/
def assignConv (k : Cfg) (c cu : Cls V) (self other : Obj V) (f : V → V) : Option (Obj V) := do
  if ← hasValue cu other then
    match c.storage with
    | .ref => return { self with act := .value (f (← get k cu other)) }
    | _ =>
      if ← hasValue c self then
        let a ← assignAct self.act (f (← get k cu other))
        let o : Obj V := { self with act := a }
        verify k (hasValue c o)
        return o
      else
        construct k c self (f (← get k cu other))
  else
    reset k c self

/-- the converting constructors (2872-2901) -/
def ctorConv (k : Cfg) (c cu : Cls V) (other : Obj V) (f : V → V) : Option (Obj V) := do
  let o ← defaultInit k c
  if ← hasValue cu other then
    construct k c o (f (← get k cu other))
  else
    return o

/-- `emplace(...)` (3002-3008); the result is used -/
def emplace (k : Cfg) (c : Cls V) (o : Obj V) (v : V) : Option (Obj V × V) := do
  let o ← reset k c o
  let o ← construct k c o v
  return (o, ← get k c o)

/-- `try_emplace(...)` (3010-3017) -/
def tryEmplace (k : Cfg) (c : Cls V) (o : Obj V) (v : V) : Option (Obj V × V) := do
  let o ← (do if ← hasValue c o then return o else construct k c o v)
  return (o, ← get k c o)

/-- `take()` (3036-3041): the local variable is moved into the result, since copies are not elided in constant expressions -/
def take (k : Cfg) (c : Cls V) (o : Obj V) : Option (Obj V × Obj V) := do
  let (tmp, o) ← moveCtor k c o
  let o ← reset k c o
  let (res, tmp) ← moveCtor k c tmp
  destroy c tmp
  return (res, o)

/-- `has_value() && bool(p(get()))` -/
def test (k : Cfg) (c : Cls V) (o : Obj V) (p : V → Bool) : Option Bool := do
  if ← hasValue c o then
    return p (← get k c o)
  else
    return false

/-- an option built by the caller's function -/
def build (k : Cfg) (c : Cls V) : Option V → Option (Obj V)
  | some v => initValue k c v
  | none => defaultInit k c

/-- `swap(option<U>&)` (3252-3269) for options of the same type; `std::swap` is `constexpr` since C++20 -/
def swap (k : Cfg) (c : Cls V) (x y : Obj V) : Option (Obj V × Obj V) := do
  let hx ← hasValue c x
  let hy ← hasValue c y
  if !hx && !hy then return (x, y)
  if hx && hy then
    if k.cxx20 || c.ownSwap then
      let v ← x.act.read
      let w ← y.act.read
      return ({ x with act := .value w }, { y with act := .value v })
    else none
  else if hx then
    let y ← construct k c y (← get k c x)
    let x ← reset k c (leave c x)
    return (x, y)
  else
    let x ← construct k c x (← get k c y)
    let y ← reset k c (leave c y)
    return (x, y)

/-! ## Programs -/

/-- the operations; `dst` is the address of a new option -/
inductive Op (V : Type) where
  | ctorNone (dst : Nat)
  | ctorValue (dst : Nat) (v : V)
  | ctorCopy (dst a : Nat)
  | ctorMove (dst a : Nat)
  | ctorConv (mv : Bool) (dst a : Nat) (f : V → V)
  | reset (a : Nat)
  | assignCopy (a b : Nat)
  | assignMove (a b : Nat)
  | assignValue (a : Nat) (v : V)
  | assignConv (mv : Bool) (a b : Nat) (f : V → V)
  | emplace (a : Nat) (v : V)
  | tryEmplace (a : Nat) (v : V)
  | hasValue (a : Nat)
  | get (a : Nat)
  | getUnchecked (a : Nat)
  | valueOr (a : Nat) (v : V)
  | valueOrThrow (a : Nat)
  | take (dst a : Nat)
  | takeIf (dst a : Nat) (p : V → Bool)
  | filter (mv : Bool) (dst a : Nat) (p : V → Bool)
  | map (dst a : Nat) (f : V → V)
  | andThen (dst a : Nat) (f : V → Option V)
  | orElse (mv : Bool) (dst a : Nat) (f : Option V)
  | inspect (a : Nat)
  | swap (a b : Nat)
  | eq (a b : Nat) (r : V → V → Bool)
  | destroy (a : Nat)

/-- what an operation tells -/
inductive Obs (V : Type) where
  | unit
  | bool (b : Bool)
  | val (v : V)
  | opt (x : Option V)
deriving DecidableEq, Repr

/-- objects by address -/
abbrev Store (α : Type) := Nat → Option α

def Store.set {α : Type} (s : Store α) (a : Nat) (x : Option α) : Store α := fun b => if b = a then x else s b

/-- a new object: its address must be free -/
def Store.new {α : Type} (s : Store α) (a : Nat) (x : α) : Option (Store α) :=
  match s a with
  | none => some (s.set a (some x))
  | some _ => none

/-- One operation.  `value()` (3164) throws on an empty option, which is not a constant expression. -/
def step (k : Cfg) (cls : Nat → Cls V) (s : Store (Obj V)) : Op V → Option (Store (Obj V) × Obs V)
  | .ctorNone d => do
    let o ← defaultInit k (cls d)
    return (← s.new d o, .unit)
  | .ctorValue d v => do
    let o ← initValue k (cls d) v
    return (← s.new d o, .unit)
  | .ctorCopy d a => do
    let o ← copyCtor k (cls d) (← s a)
    return (← s.new d o, .unit)
  | .ctorMove d a => do
    let (o, x) ← moveCtor k (cls d) (← s a)
    return (← (s.set a (some x)).new d o, .unit)
  | .ctorConv mv d a f => do
    let x ← s a
    let o ← ctorConv k (cls d) (cls a) x f
    return (← (s.set a (some (if mv then leave (cls a) x else x))).new d o, .unit)
  | .reset a => do
    let o ← reset k (cls a) (← s a)
    return (s.set a (some o), .unit)
  | .assignCopy a b => do
    let o ← assignCopy k (cls a) (← s a) (← s b)
    return (s.set a (some o), .unit)
  | .assignMove a b => do
    let (o, x) ← assignMove k (cls a) (← s a) (← s b)
    return ((s.set b (some x)).set a (some o), .unit)
  | .assignValue a v => do
    let o ← assignValue k (cls a) (← s a) v
    return (s.set a (some o), .unit)
  | .assignConv mv a b f => do
    let y ← s b
    let o ← assignConv k (cls a) (cls b) (← s a) y f
    return ((s.set b (some (if mv then leave (cls b) y else y))).set a (some o), .unit)
  | .emplace a v => do
    let (o, r) ← emplace k (cls a) (← s a) v
    return (s.set a (some o), .val r)
  | .tryEmplace a v => do
    let (o, r) ← tryEmplace k (cls a) (← s a) v
    return (s.set a (some o), .val r)
  | .hasValue a => do
    return (s, .bool (← hasValue (cls a) (← s a)))
  | .get a => do
    return (s, .val (← get k (cls a) (← s a)))
  | .getUnchecked a => do
    return (s, .val (← (← s a).act.read))
  | .valueOr a v => do
    let o ← s a
    if ← hasValue (cls a) o then
      return (s, .val (← get k (cls a) o))
    else
      return (s, .val v)
  | .valueOrThrow a => do
    let o ← s a
    if ← hasValue (cls a) o then
      return (s, .val (← get k (cls a) o))
    else
      none
  | .take d a => do
    let (r, o) ← take k (cls d) (← s a)
    return (← (s.set a (some o)).new d r, .unit)
  | .takeIf d a p => do
    let o ← s a
    if ← test k (cls a) o p then
      let (r, o) ← take k (cls d) o
      return (← (s.set a (some o)).new d r, .unit)
    else
      let r ← defaultInit k (cls d)
      return (← s.new d r, .unit)
  | .filter mv d a p => do
    let o ← s a
    if ← test k (cls a) o p then
      let r ← initValue k (cls d) (← get k (cls a) o)
      return (← (s.set a (some (if mv then leave (cls a) o else o))).new d r, .unit)
    else
      let r ← defaultInit k (cls d)
      return (← s.new d r, .unit)
  | .map d a f => do
    let o ← s a
    if ← hasValue (cls a) o then
      let r ← initValue k (cls d) (f (← get k (cls a) o))
      return (← s.new d r, .unit)
    else
      let r ← defaultInit k (cls d)
      return (← s.new d r, .unit)
  | .andThen d a f => do
    let o ← s a
    if ← hasValue (cls a) o then
      let r ← build k (cls d) (f (← get k (cls a) o))
      return (← s.new d r, .unit)
    else
      let r ← defaultInit k (cls d)
      return (← s.new d r, .unit)
  | .orElse mv d a f => do
    let o ← s a
    if ← hasValue (cls a) o then
      if mv then
        let (r, o) ← moveCtor k (cls d) o
        return (← (s.set a (some o)).new d r, .unit)
      else
        let r ← copyCtor k (cls d) o
        return (← s.new d r, .unit)
    else
      let r ← build k (cls d) f
      return (← s.new d r, .unit)
  | .inspect a => do
    let o ← s a
    if ← hasValue (cls a) o then
      return (s, .opt (some (← get k (cls a) o)))
    else
      return (s, .opt none)
  | .swap a b => do
    let (x, y) ← swap k (cls a) (← s a) (← s b)
    return ((s.set a (some x)).set b (some y), .unit)
  | .eq a b r => do
    let x ← s a
    let y ← s b
    let hx ← hasValue (cls a) x
    let hy ← hasValue (cls b) y
    if hx && hy then
      return (s, .bool (r (← get k (cls a) x) (← get k (cls b) y)))
    else
      return (s, .bool (hx == hy))
  | .destroy a => do
    destroy (cls a) (← s a)
    return (s.set a none, .unit)

/-- a program in a constant expression: what it tells, if it is one -/
def run (k : Cfg) (cls : Nat → Cls V) (s : Store (Obj V)) : List (Op V) → Option (Store (Obj V) × List (Obs V))
  | [] => some (s, [])
  | op :: ops => do
    let (s, x) ← step k cls s op
    let (s, xs) ← run k cls s ops
    return (s, x :: xs)

end Opt.ConstEval
