import Verif.Spec.Init

/-!
# How the library makes a `T` from arguments

Constructors, `emplace`, assignment and the others use braces for aggregates in some places and parentheses in others, and their
constraints ask again something else.
-/

namespace Opt.Init

variable (E : Env)

/-- `is_initializable_from` (1818-1840) -/
def initializable (cxx20 : Bool) (T : Ty) (as : List Arg) : Bool :=
  if cxx20 then (paren E T as).isSome
  else if (paren E T as).isSome then true
  else
    match T with
    | .agg n fs => (brace E n fs as).isSome
    | _ => false

/-- the constructors of `option_destruct_base` with `std::true_type` for aggregates (1919-1932, 1959-1972, 2015-2034, 2066-2085) -/
def baseCtor (T : Ty) (as : List Arg) : Option How :=
  match T with
  | .agg n fs => brace E n fs as
  | T => paren E T as

/-- `impl::construct_at` (649-668) as `construct` calls it (1940-1944, 1988-1992, 2043-2047, 2098-2102) -/
def constructAt (cxx20 : Bool) (T : Ty) (as : List Arg) : Option How :=
  if cxx20 then paren E T as
  else
    match T with
    | .agg n fs => brace E n fs as
    | T => paren E T as

/-- the operations that make a `T` -/
inductive Way where
  /-- `option<T>(x)` (2842-2849) -/
  | valueCtor
  /-- `option<T>(x, y, ...)` (2851-2855) -/
  | argsCtor
  /-- `option<T>(std::in_place, ...)`, `make_option<T>(...)` (2857-2867, 3333-3342) -/
  | inPlace
  /-- the result of `map` is what the callable returned (2869-2872) -/
  | map
  /-- `option<T>` from an `option<U>` (2874-2901) -/
  | convCtor
  /-- `emplace`, `try_emplace` (3002-3016) -/
  | emplace
  /-- `o = x` when `o` is empty, or when `T` is assigned by `construct` (2919-2931) -/
  | assignEmpty
  /-- `o = x` when `o` has a value -/
  | assignEngaged
  /-- `value_or_construct` of an empty option (2537-2548) -/
  | valueOrConstruct
deriving DecidableEq

/-- can the operation be called with these arguments at all -/
def Way.fits : Way → Ty → List Arg → Bool
  | .valueCtor, _, as => as.length == 1
  | .argsCtor, _, as => 2 ≤ as.length
  | .inPlace, _, _ => true
  | .map, T, as => match as with | [a] => decide (a.ty = T) | _ => false
  | .convCtor, T, as => match as with | [a] => decide (a.ty ≠ T) | _ => false
  | .emplace, _, _ => true
  | .assignEmpty, _, as => as.length == 1
  | .assignEngaged, _, as => as.length == 1
  | .valueOrConstruct, _, _ => true

/-- the constraint of the overload (2652-2739); those without one accept everything -/
def Way.enabled (cxx20 : Bool) : Way → Ty → List Arg → Bool
  | .map, _, _ => true
  | .emplace, _, _ => true
  | .valueOrConstruct, _, _ => true
  | .assignEmpty, T, as => initializable E cxx20 T as && as.all fun a => (assignFrom E a T).isSome
  | .assignEngaged, T, as => initializable E cxx20 T as && as.all fun a => (assignFrom E a T).isSome
  | _, T, as => initializable E cxx20 T as

/-- what the body of the operation does; `none` if it is ill-formed -/
def Way.body (cxx20 : Bool) : Way → Ty → List Arg → Option How
  | .valueCtor, T, as => baseCtor E T as
  | .argsCtor, T, as => baseCtor E T as
  | .inPlace, T, as => baseCtor E T as
  | .map, T, as => baseCtor E T as
  | .convCtor, T, as => constructAt E cxx20 T as
  | .emplace, T, as => constructAt E cxx20 T as
  | .assignEmpty, T, as => constructAt E cxx20 T as
  | .assignEngaged, T, as => match as with | [a] => assignFrom E a T | _ => none
  | .valueOrConstruct, T, as => baseCtor E T as

/-- what the client gets -/
inductive Verdict where
  /-- no such overload: the client can ask with `is_constructible` -/
  | rejected
  /-- an error inside the library -/
  | error
  | made (h : How)

/-- the call -/
def Way.call (cxx20 : Bool) (w : Way) (T : Ty) (as : List Arg) : Verdict :=
  if w.fits T as && w.enabled E cxx20 T as then
    match w.body E cxx20 T as with
    | some h => .made h
    | none => .error
  else .rejected

end Opt.Init
