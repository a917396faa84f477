import Verif.Spec.CodegenText
import Verif.Model.Examples

/-!
# What the check of the examples should find

A source is made of lines; in some of them a mark `//$` says what the program prints.  The program's output is made of lines.  The example is
good if the program ends well and prints one line for each mark, in order, each as the mark says.
-/

namespace Opt.Examples

open Opt.Run (Text join Digits value isDigit)

/-- the text made of these lines -/
def unlines (ls : List Text) : Text := ls.flatMap fun l => l ++ ['\n']

/-- `e` is `t` without the white space at its ends -/
def Trims (t e : Text) : Prop :=
  ∃ a b, t = a ++ e ++ b ∧ (∀ c ∈ a, isSpace c = true) ∧ (∀ c ∈ b, isSpace c = true) ∧ (∀ c ∈ e.head?, isSpace c = false) ∧
    ∀ c ∈ e.getLast?, isSpace c = false

/-- the mark of a line, and what is behind it; only the first mark counts -/
def Marked (l rest : Text) : Prop :=
  ∃ a, l = a ++ txt"//$" ++ rest ∧ ∀ a' rest', l = a' ++ txt"//$" ++ rest' → a.length ≤ a'.length

/-- no mark -/
def Unmarked (l : Text) : Prop := ∀ a rest, l ≠ a ++ txt"//$" ++ rest

/-- the marks of lines that are numbered from `n` on -/
inductive Expects : Nat → List Text → List (Nat × Text) → Prop where
  | nil {n} : Expects n [] []
  | skip {n l ls es} : Unmarked l → Expects (n + 1) ls es → Expects n (l :: ls) es
  | take {n l ls es rest e} : Marked l rest → Trims rest e → Expects (n + 1) ls es → Expects n (l :: ls) ((n, e) :: es)

/-- lines without the white space at their ends -/
inductive Prints : List Text → List Text → Prop where
  | nil : Prints [] []
  | cons {l ls r rs} : Trims l r → Prints ls rs → Prints (l :: ls) (r :: rs)

/-- a number as Python reads it: a sign or none, and groups of digits with underscores between them -/
def Numeral (t : Text) (x : Int) : Prop :=
  ∃ ds : List Text, ds ≠ [] ∧ (∀ d ∈ ds, Digits d) ∧
    ((t = join '_' ds ∧ x = value ds.flatten) ∨ (t = '+' :: join '_' ds ∧ x = value ds.flatten) ∨ (t = '-' :: join '_' ds ∧ x = -(value ds.flatten)))

/-- the line `r` is what `e` says -/
def Shows (e r : Text) : Prop :=
  e = r ∨ (e = txt"[number]" ∧ ∃ x, Numeral r x) ∨ (e = txt"[nullptr]" ∧ (Numeral r 0 ∨ r = txt"(nil)"))

/-- all lines are what they should be, and there are as many -/
inductive Agree : List (Nat × Text) → List Text → Prop where
  | nil : Agree [] []
  | cons {n e es r rs} : Shows e r → Agree es rs → Agree ((n, e) :: es) (r :: rs)

/-- a text in lines; the last may lack its end -/
structure Page where
  lines : List Text
  tail : Text

def Page.text (p : Page) : Text := unlines p.lines ++ p.tail

/-- all lines -/
def Page.all (p : Page) : List Text := p.lines ++ if p.tail = [] then [] else [p.tail]

/-- a source: lines have no line ends in them, and the last line, if it lacks its end, does not end in a mark -/
structure Page.Source (p : Page) : Prop where
  lines : ∀ l ∈ p.lines, '\n' ∉ l
  tail : '\n' ∉ p.tail
  bare : ¬ Marked p.tail []

/-- an output: there are no line ends but `\n` -/
structure Page.Output (p : Page) : Prop where
  lines : ∀ l ∈ p.lines, ∀ c ∈ l, isBreak c = false
  tail : ∀ c ∈ p.tail, isBreak c = false

/-- source and output fit -/
def Fits (src out : Page) : Prop := ∃ es rs, Expects 1 src.all es ∧ Prints out.all rs ∧ Agree es rs

/-- an example: its source, and the exit code and the output of its program -/
structure Example where
  src : Page
  rc : Int
  out : Page

structure Example.Ok (x : Example) : Prop where
  src : x.src.Source
  out : x.out.Output

def Example.Good (x : Example) : Prop := x.rc = 0 ∧ Fits x.src x.out

/-- these are the examples at these places -/
def Holds (S : Shell) (f t : Text) (x : Example) : Prop := S.file f = some x.src.text ∧ S.exec t = some (x.rc, x.out.text)

end Opt.Examples
