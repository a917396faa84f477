import Verif.Model.Traits

/-!
# `opt::sentinel<T, Values...>` for integers (option.hpp 3930-3969)

The values are `auto` template parameters (3931): each has its own type, which need not be `T`.  `value == Value` (3936)
converts both operands to their common type, `value = Value` (3946) converts the value to `T`.  The same holds for
`sentinel_option_traits<T>::sentinel_value` (1780, 1784).

Simplification: an enumeration or floating-point value is not modelled here; `Model/Traits` has an arbitrary `==`.
-/

namespace Opt.IntSentinel

/-- an integer type ([basic.fundamental]); plain `char` and `wchar_t` are one of these; two types of the same width and
signedness (`long` and `long long`) convert alike -/
inductive IntTy where
  | bool
  | int (bits : Nat) (signed : Bool)
deriving DecidableEq, Repr

def IntTy.bits : IntTy → Nat
  | .bool => 1
  | .int w _ => w

/-- the types of the usual platforms -/
def IntTy.WF : IntTy → Prop
  | .bool => True
  | .int w _ => w = 8 ∨ w = 16 ∨ w = 32 ∨ w = 64

/-- the values of the type -/
def IntTy.Has : IntTy → Int → Prop
  | .bool, v => v = 0 ∨ v = 1
  | .int w false, v => 0 ≤ v ∧ v < 2 ^ w
  | .int w true, v => -2 ^ (w - 1) ≤ v ∧ v < 2 ^ (w - 1)

instance (t : IntTy) (v : Int) : Decidable (t.Has v) := by
  unfold IntTy.Has; split <;> infer_instance

/-- conversion to the type ([conv.integral], [conv.bool]); before C++20 the conversion to a signed type that cannot represent
the value is implementation-defined, and all implementations do this -/
def IntTy.conv : IntTy → Int → Int
  | .bool, v => if v = 0 then 0 else 1
  | .int w false, v => v % 2 ^ w
  | .int w true, v => if v % 2 ^ w < 2 ^ (w - 1) then v % 2 ^ w else v % 2 ^ w - 2 ^ w

/-- integral promotion ([conv.prom]), `int` has 32 bits -/
def IntTy.promote : IntTy → IntTy
  | .bool => .int 32 true
  | .int w s => if w < 32 then .int 32 true else .int w s

/-- the usual arithmetic conversions ([expr.arith.conv]) -/
def common (t u : IntTy) : IntTy :=
  match t.promote, u.promote with
  | .int w s, .int w' s' =>
    if s = s' then .int (max w w') s
    else if s then (if w' ≥ w then .int w' false else .int w true)
    else (if w ≥ w' then .int w false else .int w' true)
  | _, _ => .bool -- a promoted type is not `bool`

/-- `x == y` for `x` of type `t` and `y` of type `u` -/
def equal (t u : IntTy) (x y : Int) : Bool := decide ((common t u).conv x = (common t u).conv y)

/-- a template argument for `auto...`: its type and value -/
structure Const where
  ty : IntTy
  val : Int
deriving DecidableEq, Repr

variable (T : IntTy)

/-- `option_traits<sentinel<T, Values...>>::max_level` (option.hpp 3961) -/
def maxLevel (vs : List Const) : Nat := vs.length

/-- `option_traits<sentinel<T, Values...>>::get_level` (option.hpp 3963-3965, 3934-3943) -/
def getLevel (vs : List Const) (x : Int) : U64 := sentinelGet (fun x (c : Const) => equal T c.ty x c.val) vs 0 x

/-- `option_traits<sentinel<T, Values...>>::set_level` (option.hpp 3966-3968, 3944-3953) -/
def setLevel (vs : List Const) (l : U64) : Res Int := sentinelSet (vs.map (fun c => T.conv c.val)) 0 l

/-- `has_value` of `option<sentinel<T, Values...>>` (option.hpp 2041-2043) -/
def hasValue (vs : List Const) (x : Int) : Bool := getLevel T vs x ≠ 0

/-- the default constructor and `reset` of `option<sentinel<T, Values...>>` (option.hpp 2010-2014, 2037-2040): what is left in
the storage -/
def reset (vs : List Const) : Res Int := (setLevel T vs 0).bind fun x => verifyThen (!hasValue T vs x) (.ok x)

/-- the constructors of `option<sentinel<T, Values...>>` from a value `x` of `T`, and `construct` (option.hpp 2015-2024,
2044-2048) -/
def engage (vs : List Const) (x : Int) : Res Int := verifyThen (hasValue T vs x) (.ok x)

/-- `option_traits<T>::get_level` for a specialisation of `sentinel_option_traits` (option.hpp 1779-1781) -/
def traitGet (c : Const) (x : Int) : U64 := if equal T c.ty x c.val then 0 else 1

/-- `option_traits<T>::set_level` for a specialisation of `sentinel_option_traits` (option.hpp 1782-1785) -/
def traitSet (c : Const) (l : U64) : Res Int := if l = 0 then .ok (T.conv c.val) else .verify

end Opt.IntSentinel
