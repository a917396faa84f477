/-!
# How compilers print a list of candidate enum values

`max_enum_value_impl2<E(Max-1), ..., E(0)>` is printed with one item per candidate, in descending order.  A candidate
that is a declared enumerator is printed by its name, any other one as a cast of a number.
-/

namespace Opt.Enum

/-- the items of the candidates `n - 1, ..., 0`, each preceded by the separator -/
def itemsAfter (sep : List Char) (item : Nat → List Char) : Nat → List Char
  | 0 => []
  | n + 1 => sep ++ item n ++ itemsAfter sep item n

/-- the items of the candidates `n - 1, ..., 0` separated by `sep` -/
def items (sep : List Char) (item : Nat → List Char) : Nat → List Char
  | 0 => []
  | n + 1 => item n ++ itemsAfter sep item n

/-- GCC: `... [with auto ...Enumerators = {(E)255, (E)254, ..., E::b, (E)0}; ...]` -/
def gccText (pre suf : List Char) (item : Nat → List Char) (max : Nat) : List Char :=
  pre ++ '{' :: items [',', ' '] item max ++ '}' :: suf

/-- Clang: `... [Enumerators = <(E)255, (E)254, ..., E::b, (E)0>]` -/
def clangText (pre suf : List Char) (item : Nat → List Char) (max : Nat) : List Char :=
  pre ++ '<' :: items [',', ' '] item max ++ '>' :: suf

/-- MSVC: `...impl2<(enum E)0xff,(enum E)0xfe,...,E::b,(enum E)0x0>(...)` -/
def msvcText (pre suf : List Char) (item : Nat → List Char) (max : Nat) : List Char :=
  pre ++ '<' :: items [','] item max ++ '>' :: suf

/-- GCC items: names do not start with a parenthesis, casts do; no commas or closing braces inside (true for enums at
namespace or class scope, not for class templates with several arguments). -/
structure GccItems (declared : Nat → Bool) (item : Nat → List Char) : Prop where
  clean : ∀ v, ',' ∉ item v ∧ '}' ∉ item v
  cast : ∀ v, declared v = false → (item v).head? = some '('
  name : ∀ v, declared v = true → item v ≠ [] ∧ (item v).head? ≠ some '('

/-- MSVC items -/
structure MsvcItems (declared : Nat → Bool) (item : Nat → List Char) : Prop where
  clean : ∀ v, ',' ∉ item v
  cast : ∀ v, declared v = false → (item v).head? = some '('
  name : ∀ v, declared v = true → item v ≠ [] ∧ (item v).head? ≠ some '('

/-- Clang > 12 items: a cast is `(type)number`; a name is either `scope::name` or `(anonymous namespace)::name`. -/
structure ClangItems (declared : Nat → Bool) (item : Nat → List Char) : Prop where
  clean : ∀ v, ',' ∉ item v
  cast : ∀ v, declared v = false → ∃ ty num, item v = '(' :: ty ++ ')' :: num ∧ ')' ∉ ty ∧ num ≠ [] ∧
    num.head? ≠ some ':'
  name : ∀ v, declared v = true → item v ≠ [] ∧ ((item v).head? ≠ some '(' ∨
    ∃ ns rest, item v = '(' :: ns ++ ')' :: ':' :: rest ∧ ')' ∉ ns)

/-- Clang <= 12 items: an undeclared candidate is printed as a plain number, a name starts with no digit. -/
structure Clang12Items (declared : Nat → Bool) (item : Nat → List Char) : Prop where
  clean : ∀ v, ',' ∉ item v
  cast : ∀ v, declared v = false → ∃ c rest, item v = c :: rest ∧ '0' ≤ c ∧ c ≤ '9'
  name : ∀ v, declared v = true → ∃ c rest, item v = c :: rest ∧ ¬ ('0' ≤ c ∧ c ≤ '9')

/-- The largest declared candidate below `max`. -/
def IsLargestDeclared (declared : Nat → Bool) (max hi : Nat) : Prop :=
  declared hi = true ∧ hi < max ∧ ∀ v, v < max → declared v = true → v ≤ hi

end Opt.Enum
