/-!
# Initialising an object with parentheses and with braces

The rules of the language that the library relies on when it makes a `T` from arguments ([dcl.init.general] 16,
[dcl.init.list] 3, [dcl.init.aggr]), for arithmetic types, classes with constructors and aggregates nested to any depth.
What the language looks up (user-defined conversions, constructors, which conversions narrow) is data.

Simplifications: every type can be copied; base classes, arrays, bit-fields and references as members of aggregates are left out;
empty initialisation `T()` and `T{}` give the same object.
-/

namespace Opt.Init

/-- types -/
inductive Ty where
  /-- an arithmetic type -/
  | arith (n : Nat)
  /-- a class that is no aggregate -/
  | cls (n : Nat)
  /-- an aggregate: its name and the types of its members -/
  | agg (n : Nat) (fs : List Ty)

mutual
def Ty.beq : Ty → Ty → Bool
  | .arith a, .arith b => a == b
  | .cls a, .cls b => a == b
  | .agg a fs, .agg b gs => a == b && Ty.beqs fs gs
  | _, _ => false
def Ty.beqs : List Ty → List Ty → Bool
  | [], [] => true
  | f :: fs, g :: gs => Ty.beq f g && Ty.beqs fs gs
  | _, _ => false
end

mutual
theorem Ty.beq_iff : ∀ a b : Ty, Ty.beq a b = true ↔ a = b
  | .arith a, b => by cases b <;> simp [Ty.beq]
  | .cls a, b => by cases b <;> simp [Ty.beq]
  | .agg a fs, b => by
    cases b with
    | agg b gs => simp [Ty.beq, Ty.beqs_iff fs gs]
    | _ => simp [Ty.beq]
theorem Ty.beqs_iff : ∀ a b : List Ty, Ty.beqs a b = true ↔ a = b
  | [], b => by cases b <;> simp [Ty.beqs]
  | f :: fs, b => by
    cases b with
    | nil => simp [Ty.beqs]
    | cons g gs => simp [Ty.beqs, Ty.beq_iff f g, Ty.beqs_iff fs gs]
end

instance : DecidableEq Ty := fun a b => decidable_of_iff _ (Ty.beq_iff a b)

/-- `std::is_aggregate_v` -/
def Ty.isAgg : Ty → Bool
  | .agg _ _ => true
  | _ => false

/-- an argument: a name for the expression and its type -/
structure Arg where
  id : Nat
  ty : Ty
deriving DecidableEq

/-- how an object is initialised -/
inductive How where
  /-- empty initialisation -/
  | dflt (T : Ty)
  /-- copy or move of the argument -/
  | copy (a : Arg)
  /-- arithmetic conversion -/
  | conv (a : Arg) (t : Nat)
  /-- implicit user-defined conversion -/
  | user (a : Arg) (T : Ty)
  /-- constructor -/
  | ctor (n : Nat) (as : List Arg)
  /-- member by member -/
  | members (hs : List How)

/-- what the language looks up -/
structure Env where
  /-- does the compiler initialise aggregates with parentheses (C++20, `__cpp_aggregate_paren_init`) -/
  parenInit : Bool
  /-- is the conversion between these arithmetic types narrowing -/
  narrow : Nat → Nat → Bool
  /-- is there an implicit user-defined conversion, by a conversion function of the source or a converting constructor of the
  destination (an aggregate has none) -/
  user : Ty → Ty → Bool
  /-- can the class be constructed from these arguments -/
  ctor : Nat → List Ty → Bool
  /-- can the class be default constructed -/
  dflt : Nat → Bool
  /-- can an expression of this type be assigned to the class -/
  assign : Nat → Ty → Bool

mutual
/-- can a `T` be made from nothing -/
def Ty.dfltOK (E : Env) : Ty → Bool
  | .arith _ => true
  | .cls n => E.dflt n
  | .agg _ fs => Ty.dfltsOK E fs
def Ty.dfltsOK (E : Env) : List Ty → Bool
  | [] => true
  | f :: fs => f.dfltOK E && Ty.dfltsOK E fs
end

/-- empty initialisation -/
def empty (E : Env) (T : Ty) : Option How := if T.dfltOK E then some (.dflt T) else none

/-- copy initialisation of a `T` from one expression: whether there is an implicit conversion, and which -/
def copyInit (E : Env) (a : Arg) (T : Ty) : Option How :=
  if a.ty = T then some (.copy a)
  else
    match T with
    | .arith t =>
      match a.ty with
      | .arith _ => some (.conv a t)
      | s => if E.user s (.arith t) then some (.user a (.arith t)) else none
    | T => if E.user a.ty T then some (.user a T) else none

/-- is this conversion narrowing -/
def narrows (E : Env) : How → Bool
  | .conv a t =>
    match a.ty with
    | .arith s => E.narrow s t
    | _ => false
  | _ => false

mutual
/-- [dcl.init.aggr]: one element of an aggregate takes what it needs from the list; `none` if the program is ill-formed -/
def element (E : Env) : Ty → List Arg → Option (How × List Arg)
  | T, [] => (empty E T).map (·, [])
  | .arith n, a :: as =>
    match copyInit E a (.arith n) with
    | some h => if narrows E h then none else some (h, as)
    | none => none
  | .cls n, a :: as =>
    match copyInit E a (.cls n) with
    | some h => some (h, as)
    | none => none
  | .agg n fs, a :: as =>
    match copyInit E a (.agg n fs) with
    | some h => some (h, as)
    -- brace elision; the expression has to initialise something
    | none =>
      match elements E fs (a :: as) with
      | some (hs, rest) => if rest.length < as.length + 1 then some (.members hs, rest) else none
      | none => none
/-- the elements one after the other -/
def elements (E : Env) : List Ty → List Arg → Option (List How × List Arg)
  | [], as => some ([], as)
  | f :: fs, as =>
    match element E f as with
    | some (h, rest) => (elements E fs rest).map fun (hs, rest) => (h :: hs, rest)
    | none => none
end

/-- `T{args...}` for an aggregate with members `fs` -/
def brace (E : Env) (n : Nat) (fs : List Ty) : List Arg → Option How
  | [] => empty E (.agg n fs)
  | a :: as =>
    if as = [] ∧ a.ty = .agg n fs then some (.copy a) -- CWG 1467
    else
      match elements E fs (a :: as) with
      | some (hs, []) => some (.members hs)
      | _ => none

/-- the members of an aggregate initialised with parentheses (C++20): no brace elision, narrowing allowed, the rest from nothing -/
def parenMembers (E : Env) : List Ty → List Arg → Option (List How)
  | [], [] => some []
  | [], _ :: _ => none
  | f :: fs, [] => (empty E f).bind fun h => (parenMembers E fs []).map (h :: ·)
  | f :: fs, a :: as => (copyInit E a f).bind fun h => (parenMembers E fs as).map (h :: ·)

/-- `T(args...)`, which is what `std::is_constructible` and `std::construct_at` mean -/
def paren (E : Env) : Ty → List Arg → Option How
  | T, [] => empty E T
  | .arith n, [a] => copyInit E a (.arith n)
  | .arith _, _ => none
  | .cls n, as =>
    match as with
    | [a] => if a.ty = .cls n then some (.copy a) else if E.ctor n [a.ty] then some (.ctor n [a]) else none
    | as => if E.ctor n (as.map (·.ty)) then some (.ctor n as) else none
  | .agg n fs, a :: as =>
    match (if as = [] then copyInit E a (.agg n fs) else none) with
    | some h => some h
    | none => if E.parenInit then (parenMembers E fs (a :: as)).map .members else none

/-- `x = a;` for an `x` of type `T`; assignment to an aggregate takes a `T`, so `a` is converted -/
def assignFrom (E : Env) (a : Arg) : Ty → Option How
  | .cls n => if E.assign n a.ty then some (if a.ty = .cls n then .copy a else .ctor n [a]) else none
  | T => copyInit E a T

end Opt.Init
