import Verif.Model.CodegenRun

/-!
# What conditions and disassemblies mean

Conditions, versions and the output of a disassembler as data, how they are written, and what they mean.  Nothing here uses the functions of
the script; of `Model/CodegenRun` only the classes of characters are used.
-/

namespace Opt.Run

/-- `p1 c p2 c ... c pn` -/
def join (c : Char) : List Text → Text
  | [] => []
  | [p] => p
  | p :: q :: ps => p ++ c :: join c (q :: ps)

/-! ## Versions -/

/-- a number as written: at least one digit -/
def Digits (t : Text) : Prop := t ≠ [] ∧ ∀ c ∈ t, isDigit c = true

/-- the number a text of digits denotes, least significant digit first -/
def valRev : Text → Nat
  | [] => 0
  | c :: cs => (c.toNat - 48) + 10 * valRev cs

def value (t : Text) : Nat := valRev t.reverse

/-- a version as written: numbers separated by dots -/
def verText (v : List Text) : Text := join '.' v

/-- missing numbers are 0, up to four -/
def padded (v : List Nat) : List Nat := v ++ List.replicate (4 - v.length) 0

/-- a test of the version; the texts are the numbers as written -/
inductive VerTest where
  | any
  | lt (v : List Text) | le (v : List Text) | gt (v : List Text) | ge (v : List Text)
  /-- `a..b` or `a..<b` -/
  | range (a b : List Text) (lt : Bool)
  | is (v : List Text)

def VerTest.text : VerTest → Text
  | any => []
  | lt v => '<' :: verText v
  | le v => '<' :: '=' :: verText v
  | gt v => '>' :: verText v
  | ge v => '>' :: '=' :: verText v
  | range a b s => verText a ++ '.' :: '.' :: ((if s then ['<'] else []) ++ verText b)
  | is v => verText v

/-- at least one number, each of digits -/
def VerOk (v : List Text) : Prop := v ≠ [] ∧ ∀ t ∈ v, Digits t

def VerTest.Ok : VerTest → Prop
  | any => True
  | lt v | le v | gt v | ge v | is v => VerOk v
  | range a b _ => VerOk a ∧ VerOk b

/-- versions are compared like lists, number by number; the end of a range is excluded; a version alone means all that begin with it -/
def VerTest.Holds (w : List Nat) : VerTest → Prop
  | any => True
  | lt v => w < padded (v.map value)
  | le v => w ≤ padded (v.map value)
  | gt v => padded (v.map value) < w
  | ge v => padded (v.map value) ≤ w
  | range a b _ => padded (a.map value) ≤ w ∧ w < padded (b.map value)
  | is v => v.map value <+: w

/-! ## Conditions -/

/-- an identifier with the spaces around it -/
structure Word where
  left : Nat
  id : Text
  right : Nat

def Word.text (w : Word) : Text := List.replicate w.left ' ' ++ w.id ++ List.replicate w.right ' '

/-- `id & id & id version`, with white space around -/
structure Sub where
  before : Text
  words : List Word
  test : VerTest
  after : Text

def Sub.core (s : Sub) : Text :=
  match s.test with
  | .any => join '&' (s.words.map Word.text)
  | t => join '&' (s.words.map Word.text) ++ ' ' :: t.text

def Sub.text (s : Sub) : Text := s.before ++ s.core ++ s.after

/-- the characters a version begins with -/
def opens (c : Char) : Bool := c == '<' || c == '>' || isDigit c

/-- an identifier has no spaces, commas and ampersands and does not begin like a version -/
def Word.Ok (w : Word) : Prop :=
  (∀ c ∈ w.id, isWs c = false ∧ c ≠ ',' ∧ c ≠ '&') ∧ ∃ c ∈ w.id.head?, opens c = false

/-- the spaces at the ends are those of `before` and `after` -/
def Sub.Ok (s : Sub) : Prop :=
  (∀ c ∈ s.before, isWs c = true) ∧ (∀ c ∈ s.after, isWs c = true) ∧ (∀ w ∈ s.words, w.Ok) ∧ s.test.Ok ∧
  (∃ w ∈ s.words.head?, w.left = 0) ∧ (∃ w ∈ s.words.getLast?, w.right = 0)

/-- all identifiers are among those of the compiler, and the version passes -/
def Sub.Holds (ids : List Text) (w : List Nat) (s : Sub) : Prop := (∀ x ∈ s.words, x.id ∈ ids) ∧ s.test.Holds w

/-- `sub, sub, sub` -/
def condText (ss : List Sub) : Text := join ',' (ss.map Sub.text)

/-! ## Disassemblies -/

/-- a line of code as the listings have it: no spaces but single blanks inside, no comment, and no decimal number -/
structure Neat (l : Text) : Prop where
  blank : ∀ c ∈ l, isWs c = true → c = ' '
  single : ∀ a b, l ≠ a ++ ' ' :: ' ' :: b
  ends : (∃ c ∈ l.head?, isWs c = false) ∧ ∃ c ∈ l.getLast?, isWs c = false
  comment : '#' ∉ l
  number : ∀ a d b, l = a ++ d ++ b → Digits d → (∃ c ∈ a.getLast?, isWord c = true) ∨ ∃ c ∈ b.head?, isWord c = true
  /-- not dropped: nothing that contains `nop`, `endbr32` or `endbr64` -/
  kept : ∀ a b, l ≠ a ++ ['n', 'o', 'p'] ++ b ∧ l ≠ a ++ ['e', 'n', 'd', 'b', 'r', '3', '2'] ++ b ∧
    l ≠ a ++ ['e', 'n', 'd', 'b', 'r', '6', '4'] ++ b
  /-- not the beginning of a section -/
  code : ∀ b, l ≠ "Disassembly of section".toList ++ b

/-- a line with the white space around it -/
structure Line where
  before : Text
  text : Text
  after : Text

def Line.full (l : Line) : Text := l.before ++ l.text ++ l.after

/-- white space around, and it does not look like the head of a function -/
structure Line.Ok (l : Line) : Prop where
  before : ∀ c ∈ l.before, isWs c = true
  after : ∀ c ∈ l.after, isWs c = true
  noHead : l.before ≠ [] ∨ '(' ∉ l.text

/-- what is no part of the code: blank lines, the beginnings of sections, the padding and the landing pads of branches -/
def Dropped (l : Text) : Prop :=
  l = [] ∨ (((∃ c ∈ l.head?, isWs c = false) ∧ ∃ c ∈ l.getLast?, isWs c = false) ∧
    ((∃ b, l = "Disassembly of section".toList ++ b) ∨
      ∃ a b, l = a ++ ['n', 'o', 'p'] ++ b ∨ l = a ++ ['e', 'n', 'd', 'b', 'r', '3', '2'] ++ b ∨ l = a ++ ['e', 'n', 'd', 'b', 'r', '6', '4'] ++ b))

/-- a function: `<int f(args)>:` and its lines; `true` marks those that are code -/
structure Fn where
  type : Text
  name : Text
  args : Text
  body : List (Bool × Line)

def Fn.lines (f : Fn) : List Text :=
  ('<' :: f.type ++ f.name ++ '(' :: f.args ++ [')', '>', ':']) :: f.body.map fun x => x.2.full

/-- the code of a function -/
def Fn.code (f : Fn) : List Text := (f.body.filter (·.1)).map fun x => x.2.text

/-- the type is missing or ends in a space; the name has no spaces; no parentheses but those of the arguments -/
structure Fn.Ok (f : Fn) : Prop where
  type : f.type = [] ∨ ∃ c ∈ f.type.getLast?, isWs c = true
  type' : '(' ∉ f.type
  name : f.name ≠ [] ∧ '(' ∉ f.name ∧ ∀ c ∈ f.name, isWs c = false
  args : '(' ∉ f.args
  body : ∀ x ∈ f.body, x.2.Ok ∧ if x.1 then Neat x.2.text else Dropped x.2.text

end Opt.Run
