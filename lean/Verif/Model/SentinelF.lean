import Verif.Model.Traits

/-!
# `opt::sentinel_f<T, Compare, Set, Values...>` (option.hpp 3971-4010)

`Compare` says whether an object has the level of a value, `Set` gives it that level.  The function templates that look for the value name
others to go on with the next value, by the templates' names and arguments.  Whether that compiles depends on the kinds of the arguments.

Simplification: `Compare` and `Set` do not throw (they are called from `noexcept` functions) and change nothing but the object.
-/

namespace Opt.SentinelF

/-! ## Which templates compile -/

/-- a template argument: a type or a value -/
inductive Arg where
  | type
  | value
  deriving DecidableEq

/-- a template parameter: `class`, `auto` or `std::uintmax_t`, `auto...` -/
inductive Param where
  | type
  | value
  | values
  deriving DecidableEq

/-- the arguments fit the parameters ([temp.arg]) -/
def accepts : List Param → List Arg → Bool
  | [], as => as.isEmpty
  | [.values], as => as.all (· == .value)
  | .type :: ps, .type :: as => accepts ps as
  | .value :: ps, .value :: as => accepts ps as
  | _, _ => false

/-- the function templates -/
inductive Fun where
  /-- `sentinel_get_level_impl` (3934-3943) -/
  | get
  /-- `sentinel_set_level_impl` (3944-3953) -/
  | set
  /-- `sentinel_f_get_level_impl` (3975-3984) -/
  | getF
  /-- `sentinel_f_set_level_impl` (3985-3994) -/
  | setF
  deriving DecidableEq

/-- template parameters (3934, 3944, 3975, 3985) -/
def Fun.params : Fun → List Param
  | .get | .set => [.type, .value, .value, .values]
  | .getF | .setF => [.type, .type, .value, .value, .values]

/-- the call for the next value when `k` values are left (3939, 3949, 3980, 3990) -/
def Fun.next (k : Nat) : Fun → Fun × List Arg
  | .get => (.get, [.type, .value] ++ List.replicate k .value)
  | .set => (.set, [.type, .value] ++ List.replicate k .value)
  | .getF => (.get, [.type, .type, .value] ++ List.replicate k .value)
  | .setF => (.set, [.type, .type, .value] ++ List.replicate k .value)

/-- the template with these arguments compiles, and so does what it calls; each call has fewer arguments, `fuel` is more than there are -/
def compiles : Nat → Fun → List Arg → Bool
  | 0, _, _ => false
  | fuel + 1, f, as =>
    accepts f.params as &&
      -- `if constexpr (sizeof...(Values) > 0)`
      (as.length + 1 == f.params.length || compiles fuel (f.next (as.length + 1 - f.params.length)).1 (f.next (as.length + 1 - f.params.length)).2)

/-- `option_traits<sentinel<T, Values...>>::get_level` and `set_level` compile for `n` values (3964, 3967) -/
def sentinelCompiles (n : Nat) : Bool :=
  compiles (n + 5) .get ([.type, .value] ++ List.replicate n .value) && compiles (n + 5) .set ([.type, .value] ++ List.replicate n .value)

/-- `option_traits<sentinel_f<T, Compare, Set, Values...>>::get_level` and `set_level` compile for `n` values (4004, 4007) -/
def sentinelFCompiles (n : Nat) : Bool :=
  compiles (n + 5) .getF ([.type, .type, .value] ++ List.replicate n .value) && compiles (n + 5) .setF ([.type, .type, .value] ++ List.replicate n .value)

/-! ## What they do -/

variable {A V : Type}

/-- `sentinel_f_get_level_impl` (3975-3984), going on with the next value -/
def get (cmp : A → V → Bool) : List V → U64 → A → U64
  | [], _, _ => 0 -- does not compile
  | v :: vs, i, x =>
    if cmp x v then i
    else match vs with
      | [] => BitVec.allOnes 64
      | _ :: _ => get cmp vs (i + 1) x

/-- `sentinel_f_set_level_impl` (3985-3994), going on with the next value -/
def set (put : A → V → A) : List V → U64 → A → U64 → Res A
  | [], _, _, _ => .ub -- does not compile
  | v :: vs, i, x, l =>
    if l = i then .ok (put x v)
    else match vs with
      | [] => .verify
      | _ :: _ => set put vs (i + 1) x l

/-- `option_traits<sentinel_f<T, Compare, Set, Values...>>` (3996-4010), if the calls named the right templates -/
def meant (cmp : Bytes → V → Bool) (put : Bytes → V → Bytes) (vs : List V) : Traits where
  maxLevel := vs.length
  getLevel := get cmp vs 0
  setLevel := set put vs 0

/-- `option_traits<sentinel_f<T, Compare, Set, Values...>>` (3996-4010) as `option` uses it; `none`: does not compile.  Without values there
are no levels, and the functions are not used. -/
def traits (cmp : Bytes → V → Bool) (put : Bytes → V → Bytes) (vs : List V) : Option Traits :=
  if vs.length = 0 then some noTraits
  else if sentinelFCompiles vs.length then some (meant cmp put vs)
  else none

end Opt.SentinelF
