import Verif.Model.Bytes

/-!
# Enum reflection (option.hpp 845-920)

`max_enum_value<E, Max>()` instantiates `max_enum_value_impl2` with the list of candidate values
`E(Max-1), E(Max-2), ..., E(0)` (option.hpp 911-914: `static_cast<E>(Max - 1 - Vals)...`) and scans the text of
`__PRETTY_FUNCTION__` / `__FUNCSIG__`.  A candidate that is a declared enumerator is printed by name, the others as a
cast `(E)n` (or, for clang <= 12, as a plain number).

Characters are modelled as Lean `Char`; a C string is a `List Char` and reading past its end is `none`
(undefined behaviour in C++, never reached on rendered names as proved in `Props/EnumReflect`).
-/

namespace Opt.Enum

open Opt

/-! ## The result of a scan, then rounding -/

/-- option.hpp 899-906: `current--; current |= current >> 1; ... >> 8; current++` in `std::uintmax_t`. -/
def roundUp (current : U64) : U64 :=
  let c := current - 1
  let c := c ||| (c >>> 1)
  let c := c ||| (c >>> 2)
  let c := c ||| (c >>> 4)
  let c := c ||| (c >>> 8)
  c + 1

/-- Abstract form of the scan: walk down from candidate `n - 1` to `0`, `declared v` telling whether candidate `v`
is printed by name; the result is one plus the first declared candidate met, 0 if there is none. -/
def scan (declared : Nat → Bool) : Nat → Nat
  | 0 => 0
  | n + 1 => if declared n then n + 1 else scan declared n

/-- `max_enum_value<E, Max>()` (option.hpp 915-920) over the abstract scan: 0 if the topmost candidate is declared
(option.hpp 856, 885) or none is (864, 891); otherwise the rounded result. -/
def maxEnumValue (declared : Nat → Bool) (max : Nat) : U64 :=
  if declared (max - 1) then 0
  else match scan declared (max - 1) with
    | 0 => 0
    | n + 1 => roundUp (BitVec.ofNat 64 (n + 1))

/-! ## The concrete scanners -/

/-- GCC branch, inner loop (option.hpp 890-892): advance to the next `','`; `none` encodes `return 0` on `'}'`
(or running off the end of the string). -/
def gccNextComma : List Char → Option (List Char)
  | [] => none
  | c :: cs => if c = ',' then some (c :: cs) else if c = '}' then none else gccNextComma cs

theorem gccNextComma_length {l l' : List Char} (h : gccNextComma l = some l') : l'.length ≤ l.length := by
  induction l with
  | nil => simp [gccNextComma] at h
  | cons c cs ih =>
    simp only [gccNextComma] at h
    split at h
    · cases h; exact Nat.le_refl _
    · split at h
      · cases h
      · have := ih h; simp only [List.length_cons]; omega

/-- GCC branch, outer loop (option.hpp 888-895).  `l` is the text from position `i`.  Returns `current` at the
`break`, or 0 for `return 0`. -/
def gccLoop (current : U64) (l : List Char) : Option U64 :=
  match h : gccNextComma l with
  | none => none
  | some l' =>
    let current := current - 1
    -- i += 2 (skip ", ")
    if (l'.drop 2).head? ≠ some '(' then some current
    else gccLoop current (l'.drop 2)
termination_by l.length
decreasing_by
  have := gccNextComma_length h
  have hne : l'.drop 2 ≠ [] := by
    intro h0; simp_all
  have : 0 < (l'.drop 2).length := List.length_pos_iff.mpr hne
  simp only [List.length_drop] at *
  omega

/-- option.hpp 881-884: find the first `'{'`; the text after it. -/
def gccAfterBrace : List Char → Option (List Char)
  | [] => none
  | c :: cs => if c = '{' then some cs else gccAfterBrace cs

/-- GCC branch of `max_enum_value_impl2` (option.hpp 881-908) on the text of `__PRETTY_FUNCTION__`. -/
def gccMaxEnum (name : List Char) (max : U64) : U64 :=
  match gccAfterBrace name with
  | none => 0
  | some body =>
    if body.head? ≠ some '(' then 0
    else match gccLoop max body with
      | none => 0
      | some current => roundUp current

/-- `__builtin_char_memchr(it, c, ...)`: the text from the first occurrence of `c`. -/
def memchr (c : Char) : List Char → Option (List Char)
  | [] => none
  | d :: ds => if d = c then some (d :: ds) else memchr c ds

theorem memchr_length {c : Char} {l l' : List Char} (h : memchr c l = some l') : l'.length ≤ l.length := by
  induction l with
  | nil => simp [memchr] at h
  | cons d ds ih =>
    simp only [memchr] at h
    split at h
    · cases h; exact Nat.le_refl _
    · have := ih h; simp only [List.length_cons]; omega

/-- Clang > 12 loop (option.hpp 860-879 with 869-874): find `','`, skip two characters, stop unless `'('`;
then find `')'` and stop if it is followed by `':'` (an `(anonymous namespace)::` prefix). -/
def clangLoop (current : U64) (l : List Char) : Option U64 :=
  match h : memchr ',' l with
  | none => none
  | some l1 =>
    let current := current - 1
    let it := l1.drop 2
    if it.head? ≠ some '(' then some current
    else match h2 : memchr ')' it with
      | none => none
      | some l2 =>
        if (l2.drop 1).head? = some ':' then some current
        else clangLoop current l2
termination_by l.length
decreasing_by
  have h1 := memchr_length h
  have h2' := memchr_length h2
  have hne : it ≠ [] := by
    intro h0; simp_all
  have : 0 < it.length := List.length_pos_iff.mpr hne
  simp only [it, List.length_drop] at *
  omega

/-- MSVC loop (option.hpp 860-879 with 876-877): find `','`, skip one character, stop unless `'('`. -/
def msvcLoop (current : U64) (l : List Char) : Option U64 :=
  match h : memchr ',' l with
  | none => none
  | some l1 =>
    let current := current - 1
    let it := l1.drop 1
    if it.head? ≠ some '(' then some current
    else msvcLoop current it
termination_by l.length
decreasing_by
  have h1 := memchr_length h
  have hne : it ≠ [] := by
    intro h0; simp_all
  have : 0 < it.length := List.length_pos_iff.mpr hne
  simp only [it, List.length_drop] at *
  omega

/-- is the character a decimal digit (option.hpp 854, 868) -/
def isDig (c : Option Char) : Bool :=
  match c with
  | some c => '0' ≤ c && c ≤ '9'
  | none => false

/-- Clang <= 12 loop (option.hpp 860-879 with 866-868): find `','`, skip two characters, stop unless a digit. -/
def clang12Loop (current : U64) (l : List Char) : Option U64 :=
  match h : memchr ',' l with
  | none => none
  | some l1 =>
    let current := current - 1
    let it := l1.drop 2
    if isDig it.head? = false then some current
    else clang12Loop current it
termination_by l.length
decreasing_by
  have h1 := memchr_length h
  have hne : it ≠ [] := by
    intro h0; simp_all [isDig]
  have : 0 < it.length := List.length_pos_iff.mpr hne
  simp only [it, List.length_drop] at *
  omega

/-- which non-GCC compiler -/
inductive Compiler where
  | clang | clang12 | msvc
deriving DecidableEq, Repr

/-- Non-GCC branch of `max_enum_value_impl2` (option.hpp 849-879, 897-908). -/
def otherMaxEnum (comp : Compiler) (name : List Char) (max : U64) : U64 :=
  match memchr '<' name with
  | none => 0
  | some l0 =>
    let start := l0.drop 1
    let good : Bool := match comp with
      | .clang12 => isDig start.head?
      | _ => start.head? == some '('
    if good = false then 0
    else
      let r := match comp with
        | .clang => clangLoop max start
        | .clang12 => clang12Loop max start
        | .msvc => msvcLoop max start
      match r with
      | none => 0
      | some current => roundUp current

end Opt.Enum
