import Verif.Model.CodegenRun

/-!
# The script that checks the examples (examples/check.py)

It runs each example and compares what it prints with the comments `//$ ...` of its source.  Texts are lists of characters as
Python's text mode gives them: line ends are `\n`.

Simplifications: `int()` reads ASCII digits only, of any number.  What the messages say besides their numbers is left out.
-/

namespace Opt.Examples

open Opt.Run (Text after splitOn isDigit)

/-! ## Methods of `str` -/

/-- white space of `str.strip()` -/
def isSpace (c : Char) : Bool :=
  [0x09, 0x0a, 0x0b, 0x0c, 0x0d, 0x1c, 0x1d, 0x1e, 0x1f, 0x20, 0x85, 0xa0, 0x1680, 0x2000, 0x2001, 0x2002, 0x2003, 0x2004, 0x2005, 0x2006,
    0x2007, 0x2008, 0x2009, 0x200a, 0x2028, 0x2029, 0x202f, 0x205f, 0x3000].contains c.toNat

/-- line ends of `str.splitlines()` -/
def isBreak (c : Char) : Bool := [0x0a, 0x0b, 0x0c, 0x0d, 0x1c, 0x1d, 0x1e, 0x85, 0x2028, 0x2029].contains c.toNat

/-- `t.strip()` -/
def strip (t : Text) : Text := ((t.dropWhile isSpace).reverse.dropWhile isSpace).reverse

/-- `t.splitlines()` -/
def splitlines : Text → List Text
  | [] => []
  | c :: t =>
    if isBreak c then [] :: splitlines t
    else match splitlines t with
      | [] => [[c]]
      | l :: ls => (c :: l) :: ls

/-- `file.readlines()`: the line ends are kept -/
def readlines : Text → List Text
  | [] => []
  | c :: t =>
    if c == '\n' then ['\n'] :: readlines t
    else match readlines t with
      | [] => [[c]]
      | l :: ls => (c :: l) :: ls

def digit (c : Char) : Nat := c.toNat - '0'.toNat

/-- `int(t)` after a digit: single underscores may stand between digits -/
def intRest (n : Nat) : Text → Option Nat
  | [] => some n
  | [c] => if isDigit c then some (n * 10 + digit c) else none
  | c :: d :: t =>
    if isDigit c then intRest (n * 10 + digit c) (d :: t)
    else if c == '_' && isDigit d then intRest (n * 10 + digit d) t
    else none

/-- `int(t)` after the sign -/
def intStart : Text → Option Nat
  | [] => none
  | c :: t => if isDigit c then intRest (digit c) t else none

/-- `try_int` (check.py 11-13) -/
def tryInt (t : Text) : Option Int :=
  match strip t with
  | [] => none
  | c :: t =>
    if c == '+' then (intStart t).map fun n : Nat => (n : Int)
    else if c == '-' then (intStart t).map fun n : Nat => -(n : Int)
    else (intStart (c :: t)).map fun n : Nat => (n : Int)

/-! ## The script -/

/-- what is outside: contents of files, exit codes and outputs of programs; `none` if Python throws -/
structure Shell where
  file : Text → Option Text
  exec : Text → Option (Int × Text)

/-- messages -/
inductive Report where
  /-- `Error while running` (18) -/
  | failed (target : Text)
  /-- `Expected: ..., received: ...` (34) -/
  | differs (line : Nat) (expected received : Text)
  /-- `Abundance of n lines` (38) -/
  | abundance (n line : Nat)
  /-- `Lack of n lines` (41) -/
  | lack (n line : Nat)
  deriving DecidableEq

/-- the expected lines with their numbers (check.py 5, 24); an empty rest of a line is no expectation, `\n` is -/
def expectations (n : Nat) : List Text → List (Nat × Text)
  | [] => []
  | l :: ls =>
    if (after (txt"//$") l).isEmpty then expectations (n + 1) ls
    else (n, strip (after (txt"//$") l)) :: expectations (n + 1) ls

/-- one line is as expected (check.py 28-33) -/
def same (expected received : Text) : Bool :=
  if expected == txt"[number]" && (tryInt received).isSome then true
  else if expected == txt"[nullptr]" && (tryInt received == some 0 || received == txt"(nil)") then true
  else expected == received

/-- the loop over the lines (check.py 26-35) -/
def diffs : List (Nat × Text) → List Text → List Report
  | (n, e) :: es, r :: rs => if same e r then diffs es rs else .differs n e r :: diffs es rs
  | _, _ => []

/-- one example (check.py 16-42): the messages, and whether Python throws.  `expected_lines[-1]` throws if nothing is expected. -/
def one (S : Shell) (file target : Text) : List Report × Bool :=
  match S.exec target with
  | none => ([], true)
  | some (rc, out) =>
    if rc ≠ 0 then ([.failed target], false)
    else
      match S.file file with
      | none => ([], true)
      | some src =>
        let es := expectations 1 (readlines src)
        let rs := (splitlines out).map strip
        if es.length > rs.length then
          match es.getLast? with
          | some l => (diffs es rs ++ [.abundance (es.length - rs.length) l.1], false)
          | none => (diffs es rs, true)
        else if es.length < rs.length then
          match es.getLast? with
          | some l => (diffs es rs ++ [.lack (rs.length - es.length) l.1], false)
          | none => (diffs es rs, true)
        else (diffs es rs, false)

/-- how the script ends -/
inductive Verdict where
  /-- `Completed successfully` (check.py 47) -/
  | success
  /-- exit code 1 after messages (check.py 45) -/
  | errors (rs : List Report)
  /-- an exception after messages -/
  | crash (rs : List Report)
  deriving DecidableEq

/-- the loop over the examples (check.py 15-42) -/
def loop (S : Shell) (acc : List Report) : List (Text × Text) → Verdict
  | [] => if acc.isEmpty then .success else .errors acc
  | (f, t) :: ps =>
    match one S f t with
    | (rs, true) => .crash (acc ++ rs)
    | (rs, false) => loop S (acc ++ rs) ps

/-- the script; the arguments are lists separated by semicolons (check.py 7-8, 15) -/
def main (S : Shell) (files targets : Text) : Verdict := loop S [] ((splitOn ';' files).zip (splitOn ';' targets))

end Opt.Examples
