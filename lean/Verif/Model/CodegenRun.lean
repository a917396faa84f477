import Verif.Model.X86

/-!
# The driver of the code generation test (test/codegen/run.py)

Python strings are lists of characters.  `none` is an exception that ends the script.

Simplifications: digits, white space and word characters are those of ASCII; `int` accepts only digits (no sign, no underscore);
lines are given without their end.
-/

namespace Opt.Run

abbrev Text : Type := List Char

/-- `txt"abc"` is the list of the characters `a`, `b`, `c` -/
macro "txt" s:str : term => do
  let cs : Array (Lean.TSyntax `term) := s.getString.toList.toArray.map fun c => Lean.Syntax.mkCharLit c
  `(([$cs,*] : List Char))

/-! ## Methods of `str` -/

def isWs (c : Char) : Bool := c == ' ' || c == '\t' || c == '\n' || c == '\r' || c == '\x0b' || c == '\x0c'

def isDigit (c : Char) : Bool := '0'.toNat ≤ c.toNat && c.toNat ≤ '9'.toNat

/-- `\w` -/
def isWord (c : Char) : Bool :=
  isDigit c || c == '_' || ('a'.toNat ≤ c.toNat && c.toNat ≤ 'z'.toNat) || ('A'.toNat ≤ c.toNat && c.toNat ≤ 'Z'.toNat)

def lower (t : Text) : Text := t.map fun c => if 'A'.toNat ≤ c.toNat && c.toNat ≤ 'Z'.toNat then Char.ofNat (c.toNat + 32) else c

def lstrip (t : Text) : Text := t.dropWhile isWs
def rstrip (t : Text) : Text := (t.reverse.dropWhile isWs).reverse
def strip (t : Text) : Text := rstrip (lstrip t)

/-- `t.split(c)` -/
def splitOn (c : Char) : Text → List Text
  | [] => [[]]
  | x :: xs =>
    if x == c then [] :: splitOn c xs
    else match splitOn c xs with
      | [] => [[x]]
      | p :: ps => (x :: p) :: ps

/-- `t.partition(p)[2]` -/
def after (p : Text) : Text → Text
  | [] => []
  | x :: xs => if p.isPrefixOf (x :: xs) then (x :: xs).drop p.length else after p xs

/-- `t.partition(c)[0]` -/
def before (c : Char) (t : Text) : Text := t.takeWhile (· != c)

/-- `p in t` -/
def contains (p : Text) : Text → Bool
  | [] => p.isEmpty
  | x :: xs => p.isPrefixOf (x :: xs) || contains p xs

/-- `int(t)` -/
def parseInt (t : Text) : Option Nat :=
  if (strip t).isEmpty || !(strip t).all isDigit then none
  else some ((strip t).foldl (fun n c => n * 10 + (c.toNat - '0'.toNat)) 0)

/-! ## Versions and conditions -/

/-- `incomplete_parse_compiler_version` (run.py 86-87) -/
def parseShort (t : Text) : Option (List Nat) := (splitOn '.' t).mapM parseInt

/-- `parse_compiler_version` (run.py 82-84) -/
def parseVersion (t : Text) : Option (List Nat) :=
  (parseShort t).map fun v => v ++ List.replicate (4 - v.length) 0

/-- `<` of tuples -/
def lexLt : List Nat → List Nat → Bool
  | _, [] => false
  | [], _ :: _ => true
  | a :: as, b :: bs => decide (a < b) || (a == b && lexLt as bs)

/-- `[\d\.]+` -/
def isVer (t : Text) : Bool := !t.isEmpty && t.all fun c => isDigit c || c == '.'

/-- `<?([\d\.]+)$` -/
def rangeEnd (t : Text) : Option Text :=
  let r := match t with
    | '<' :: r => r
    | r => r
  if isVer r then some r else none

/-- `re.match(r'([\d\.]+)\.\.<?([\d\.]+)$', version)` (run.py 107): the first group is as long as possible -/
def range (t : Text) : Option (Text × Text) :=
  (List.range (t.length + 1)).reverse.findSome? fun k =>
    if isVer (t.take k) then
      match t.drop k with
      | '.' :: '.' :: r => (rangeEnd r).map fun e => (t.take k, e)
      | _ => none
    else none

/-- `check_version` (run.py 96-113) -/
def checkVersion (v : List Nat) (t : Text) : Option Bool :=
  match t with
  | [] => some true
  | '<' :: '=' :: r => (parseVersion r).map fun u => !lexLt u v
  | '>' :: '=' :: r => (parseVersion r).map fun u => !lexLt v u
  | '<' :: r => (parseVersion r).map fun u => lexLt v u
  | '>' :: r => (parseVersion r).map fun u => lexLt u v
  | t =>
    match range t with
    | some (a, b) => (parseVersion a).bind fun x => (parseVersion b).map fun y => !lexLt v x && lexLt v y
    | none => (parseShort t).map fun u => v.take u.length == u

/-- `t.rfind(' ')`; `none` for -1 -/
def rfindSpace (t : Text) : Option Nat := (List.range t.length).reverse.find? fun k => t[k]? == some ' '

/-- `find_condition_version` (run.py 90-94).  Without a space `idx` is -1: `cond[:idx]` is all but the last character. -/
def findVersion (t : Text) : Text × Text :=
  let start : Nat := match rfindSpace t with
    | some k => k + 1
    | none => 0
  match t[start]? with
  | some c =>
    if c == '<' || c == '>' || isDigit c then
      match rfindSpace t with
      | some k => (t.take k, strip (t.drop k))
      | none => (t.take (t.length - 1), strip (t.drop (t.length - 1)))
    else (t, [])
  | none => (t, [])

/-- one subcondition of `match_condition` (run.py 118-124); `some false`: go on -/
def matchOne (ids : List Text) (v : List Nat) (sub : Text) : Option Bool :=
  let (c, ver) := findVersion (strip sub)
  if ((splitOn '&' c).map strip).all fun x => ids.contains x then checkVersion v ver else some false

/-- the loop of `match_condition` -/
def matchAny (ids : List Text) (v : List Nat) : List Text → Option Bool
  | [] => some false
  | s :: ss =>
    match matchOne ids v s with
    | none => none
    | some true => some true
    | some false => matchAny ids v ss

/-- `match_condition` (run.py 115-125) -/
def matchCondition (ids : List Text) (version : Text) (conds : Text) : Option Bool :=
  (parseVersion version).bind fun v => matchAny ids v (splitOn ',' conds)

/-! ## The expected code -/

/-- `((idx, fn_name), compilers, lines)` (run.py 68) -/
structure Section where
  line : Nat
  name : Text
  conds : Option Text
  code : List Text
deriving DecidableEq

/-- `\s*:` -/
def colon (t : Text) : Bool :=
  match lstrip t with
  | ':' :: _ => true
  | _ => false

/-- `(.+)}\s*:`, after the opening brace -/
def braces (t : Text) : Option Text :=
  (List.range t.length).reverse.findSome? fun k =>
    if k == 0 then none
    else match t.drop k with
      | '}' :: r => if colon r then some (t.take k) else none
      | _ => none

/-- `\s*(?:{(.+)})?\s*:` -/
def headEnd (t : Text) : Option (Option Text) :=
  match lstrip t with
  | '{' :: r => (braces r).map some
  | ':' :: _ => some none
  | _ => none

/-- `re.match(r'@(.+?)\s*(?:{(.+)})?\s*:', exp)` (run.py 62): the shortest name -/
def head (t : Text) : Option (Text × Option Text) :=
  match t with
  | '@' :: r => (List.range r.length).findSome? fun k => (headEnd (r.drop (k + 1))).map fun c => (r.take (k + 1), c)
  | _ => none

/-- the loop of `parse_expected_disassembly` (run.py 54-74) over numbered lines; `cur` is the open section -/
def parseExpected (cur : Option Section) : List (Nat × Text) → Option (List Section)
  | [] => some cur.toList
  | (n, line) :: rest =>
    let exp := strip (after ['/', '/', '$'] line)
    if exp.isEmpty then parseExpected cur rest
    else match head exp with
      | some (name, c) => (parseExpected (some ⟨n, name, c.map lower, []⟩) rest).map fun ss => cur.toList ++ ss
      | none =>
        match cur with
        | none => none -- `section[2]` of `None`
        | some s => parseExpected (some { s with code := s.code ++ [exp] }) rest

/-! ## The disassembly -/

/-- `re.match(r'<.*?(\S+)\(.*\)>', line)` (run.py 39): the shortest skipped part, then the longest name -/
def funName (t : Text) : Option Text :=
  match t with
  | '<' :: r =>
    (List.range r.length).findSome? fun i =>
      (List.range (r.length + 1)).reverse.findSome? fun j =>
        let name := (r.drop i).take j
        if j == 0 || j > (r.drop i).length || name.any isWs then none
        else match (r.drop i).drop j with
          | '(' :: rest => if contains [')', '>'] rest then some name else none
          | _ => none
  | _ => none

/-- `re.sub(r'\s+', ' ', t)` -/
def squeeze : Text → Text
  | [] => []
  | c :: cs => if isWs c then (if (cs.head?.map isWs).getD false then squeeze cs else ' ' :: squeeze cs) else c :: squeeze cs

/-- `hex(n)` -/
def hexOf (n : Nat) : Text := '0' :: 'x' :: Nat.toDigits 16 n

/-- digits at the start that are followed by no word character: the number, and the rest -/
def number (t : Text) : Option (Nat × Text) :=
  let d := t.takeWhile isDigit
  let r := t.dropWhile isDigit
  if d.isEmpty || (r.head?.map isWord).getD false then none
  else some (d.foldl (fun n c => n * 10 + (c.toNat - '0'.toNat)) 0, r)

/-- `re.sub(r'(\W|\A)(\d+)(\W|\Z)', ...)` (run.py 48) from a place that is not the start; `fuel` is the length.  The character after a
number belongs to the match, so it cannot be the one before the next number. -/
def hexFrom : Nat → Text → Text
  | 0, t => t
  | _ + 1, [] => []
  | k + 1, c :: cs =>
    if isWord c then c :: hexFrom k cs
    else match number cs with
      | some (n, r :: rs) => c :: hexOf n ++ r :: hexFrom k rs
      | some (n, []) => c :: hexOf n
      | none => c :: hexFrom k cs

def hexAll (t : Text) : Text :=
  match number t with
  | some (n, r :: rs) => hexOf n ++ r :: hexFrom t.length rs
  | some (n, []) => hexOf n
  | none => hexFrom t.length t

/-- one line of code (run.py 41-50): `none` if it is skipped -/
def cleanLine (line : Text) : Option Text :=
  let i := strip line
  if i.isEmpty || (txt"Disassembly of section").isPrefixOf i then none
  else if contains (txt"endbr64") i || contains (txt"endbr32") i || contains (txt"nop") i then none
  else
    let c := strip (before '#' (squeeze i))
    if c.isEmpty then none else some (hexAll c)

/-- the loop of `parse_disassembly` (run.py 35-52); `cur` is the open function -/
def parseDisasm (cur : Option (Text × List Text)) : List Text → List (Text × List Text)
  | [] => cur.toList
  | line :: rest =>
    match funName line with
    | some name => cur.toList ++ parseDisasm (some (name, [])) rest
    | none =>
      match cur with
      | none => parseDisasm none rest
      | some (n, code) => parseDisasm (some (n, code ++ (cleanLine line).toList)) rest

/-- `dict(...)`: of several functions with the same name the last -/
def lookup (fs : List (Text × List Text)) (name : Text) : Option (List Text) :=
  (fs.reverse.find? fun f => f.1 == name).map (·.2)

/-! ## The comparison -/

/-- `compare_disassembly` (run.py 127-137) on one pair of lines: `ndiff` gives `- exp` and `+ rec` if they differ, blank lines are left
out -/
def differs (e r : Text) : Bool := e != r && !((strip e).isEmpty && (strip r).isEmpty)

/-- `itertools.zip_longest(..., fillvalue='')` -/
def mismatch : List Text → List Text → Bool
  | [], rs => rs.any fun r => differs [] r
  | e :: es, [] => differs e [] || mismatch es []
  | e :: es, r :: rs => differs e r || mismatch es rs

/-- how the script ends -/
inductive Verdict where
  | crash
  | unknown (name : Text)
  | failed
  | passed (checked : Nat)
deriving DecidableEq

/-- is the listing used for this compiler (run.py 148-153); `any` stops at the first match -/
def selected (all : List Section) (ids : List Text) (version : Text) (s : Section) : Option Bool :=
  match s.conds with
  | some c => matchCondition ids version c
  | none => (anyMatch all).map (!·)
where
  anyMatch : List Section → Option Bool
    | [] => some false
    | o :: os =>
      match o.conds with
      | some c =>
        if o.name == s.name then
          match matchCondition ids version c with
          | none => none
          | some true => some true
          | some false => anyMatch os
        else anyMatch os
      | none => anyMatch os

/-- the first line is `[disable]` (run.py 157) -/
def disabled (s : Section) : Bool :=
  match s.code with
  | l :: _ => strip l == (txt"[disable]")
  | [] => false

/-- the loop of `check_disassembly` (run.py 139-168); `good` and `n` are `is_successful` and `checked_function` -/
def checkLoop (all : List Section) (received : Text → Option (List Text)) (ids : List Text) (version : Text) :
    List Section → Bool → Nat → Verdict
  | [], good, n => if good then .passed n else .failed
  | s :: ss, good, n =>
    match received s.name with
    | none => .unknown s.name
    | some code =>
      match selected all ids version s with
      | none => .crash
      | some false => checkLoop all received ids version ss good n
      | some true =>
        if disabled s then checkLoop all received ids version ss good (n + 1)
        else checkLoop all received ids version ss (good && !mismatch s.code code) (n + 1)

/-- `main` (run.py 170-182): the lines of the source, the output of the disassembler, the conditions and the version -/
def run (source : List Text) (disasm : List Text) (conds : Text) (version : Text) : Verdict :=
  match parseExpected none (source.zipIdx.map fun x => (x.2 + 1, x.1)) with
  | none => .crash
  | some ss =>
    checkLoop ss (lookup (parseDisasm none disasm)) (splitOn ';' (lower conds)) (strip (lower version)) ss true 0

end Opt.Run
