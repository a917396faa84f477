import Verif.Model.Traits

/-!
# Options of types with `const` parts (option.hpp 958-1138, 1281-1342, 1596-1611, 3275-3303)

`option<const T>` uses `option_traits<T>` (`std::remove_cv_t`, 1915, 2005), but a member of a pair, tuple or array and the contained
type of a nested option keep their `const`: `option_traits<const X>` is instantiated.  For `const X`

* the strategies found by a specialisation of `dispatch_specializations` (994-1056) are lost, because the specialisations are for
  unqualified types, and so are those of user specialisations of `option_traits` and of pointers to members (1464-1500);
* the strategies found by a property of the type (pointer, floating point, polymorphic, `PADDING`, enumeration: 1067-1125) stay, but
  `set_level` gets a `const X*` and its definition does not compile;
* pairs, tuples and arrays become tuple-like (1126, `std::tuple_size<const T>`), with const elements.

Simplifications: no `volatile`; a class is not reflectable by PFR; `tuple_like` classes other than these are like tuples.
-/

namespace Opt.ConstParts

mutual
/-- types, as far as `const` matters; `c` says that the part is declared const -/
inductive CTy where
  /-- no levels: integers, plain classes -/
  | plain
  /-- `n` levels found by a property of the type -/
  | seen (n : Nat)
  /-- `n` levels found by the name of the type -/
  | hidden (n : Nat)
  | pair (c1 : Bool) (t1 : CTy) (c2 : Bool) (t2 : CTy)
  | tuple (es : Elems)
  | array (c : Bool) (t : CTy) (n : Nat)
  /-- `opt::option<t>` or `opt::option<const t>` -/
  | option (c : Bool) (t : CTy)
inductive Elems where
  | nil
  | cons (c : Bool) (t : CTy) (es : Elems)
end

/-- what `option_traits` says: `max_level`, and whether `set_level` compiles -/
structure Info where
  levels : Nat
  sets : Bool
deriving DecidableEq, Repr

/-- no levels: `set_level` is never called -/
def Info.none : Info := ⟨0, true⟩

/-- `find_max_level` (option.hpp 815-831) -/
def findMax (xs : List Info) : Info :=
  match xs with
  | [] => .none
  | _ => (xs[indexOfMax (xs.map (·.levels))]?).getD .none

mutual
/-- `option_traits<t>`, or `option_traits<const t>` if `k` -/
def CTy.info (k : Bool) : CTy → Info
  | .plain => .none
  | .seen n => ⟨n, !k⟩
  | .hidden n => if k then .none else ⟨n, true⟩
  | .pair c1 t1 c2 t2 =>
    if k then findMax [t1.info true, t2.info true]                             -- tuple-like (1596-1611)
    else if (t1.info c1).levels > (t2.info c2).levels then t1.info c1          -- (1281-1310)
    else t2.info c2
  | .tuple es => findMax (es.infos k)                                          -- (1312-1327), const: tuple-like
  | .array c t n => if n = 0 then .none else t.info (k || c)                   -- (1329-1342), const: tuple-like, all elements alike
  | .option c t =>
    if k then .none
    -- `avaliable_option` (3278-3292): the traits of the contained type, with its const (3281)
    else if (t.info c).levels ≥ 1 then ⟨(t.info c).levels - 1, (t.info c).sets⟩
    -- `unavaliable_option` (3293-3306) names `has_value_flag`, which exists if the type without const has no levels
    else ⟨254, decide ((t.info false).levels = 0)⟩
def Elems.infos (k : Bool) : Elems → List Info
  | .nil => []
  | .cons c t es => t.info (k || c) :: es.infos k
end

/-- can `option<t>` (or `option<const t>`) be empty: its default constructor and `reset` (1920-1924, 1965-1968, 2010-2014, 2037-2040)
compile; an option with a flag does not call `set_level` -/
def emptyCompiles (t : CTy) : Bool := (t.info false).levels == 0 || (t.info false).sets

end Opt.ConstParts
