import Verif.Model.Examples

/-!
# The script that writes the sources of the benchmark (benchmark/generate.py)

Simplifications: those of `Model/Examples` for `int()` and `strip()`; the file can be written.
-/

namespace Opt.Benchmark

open Opt.Run (Text)
open Opt.Examples (strip tryInt)

/-- an entry of `generation_table` (generate.py 7-16) -/
structure Info where
  prologue : Text
  className : Text

/-- `generation_table.get(mode)` (generate.py 7-18) -/
def table (mode : Text) : Option Info :=
  if mode == txt"opt::option" then some ⟨txt"#include <opt/option.hpp>", txt"opt::option"⟩
  else if mode == txt"std::optional" then some ⟨txt"#include <optional>", txt"std::optional"⟩
  else none

/-- `f'{i}'` -/
def str (i : Nat) : Text := Nat.toDigits 10 i

/-- the two lines for one number (generate.py 29-30) -/
def lines (cls : Text) (i : Nat) : Text :=
  (txt"struct S" ++ str i ++ txt" { int x; };\n") ++ (cls ++ txt"<S" ++ str i ++ txt"> b" ++ str i ++ txt";\n")

/-- the loop over `range(iterations_number)` (generate.py 28-30) -/
def body (cls : Text) : Nat → Text
  | 0 => []
  | n + 1 => body cls n ++ lines cls n

/-- how the script ends -/
inductive Result where
  /-- an exception: too few arguments, or the third is no number -/
  | crash
  /-- `Invalid mode`, exit code 1 (generate.py 19-21) -/
  | invalid
  /-- the file is written -/
  | wrote (path text : Text)
  deriving DecidableEq

/-- the script with the arguments `sys.argv[1:]`; a negative number of iterations is none -/
def main : List Text → Result
  | mode :: path :: number :: _ =>
    match tryInt number with
    | none => .crash
    | some n =>
      match table (strip mode) with
      | none => .invalid
      | some i => .wrote (strip path) (i.prologue ++ txt"\n" ++ body i.className n.toNat)
  | _ => .crash

end Opt.Benchmark
