import Verif.Spec.CodegenText

/-!
# Lines of a disassembler as they come

White space of any kind and length between the words, a comment, and decimal numbers; and the line of the listing they stand for.
-/

namespace Opt.Run

/-- a line of code: words with the white space between them, then maybe `#` and a comment -/
structure RawLine where
  before : Text
  first : Text
  /-- the other words, each with the white space before it -/
  more : List (Text × Text)
  after : Text
  comment : Option Text

def RawLine.full (l : RawLine) : Text :=
  l.before ++ (l.first ++ l.more.flatMap (fun x => x.1 ++ x.2) ++ (l.after ++ (match l.comment with
    | some c => '#' :: c
    | none => [])))

/-- the words with one blank between them -/
def RawLine.words (l : RawLine) : Text := l.first ++ l.more.flatMap fun x => ' ' :: x.2

/-- a word: not empty, no white space, no comment -/
def Solid (w : Text) : Prop := w ≠ [] ∧ ∀ c ∈ w, isWs c = false ∧ c ≠ '#'

/-- white space, at least one character -/
def Gap (g : Text) : Prop := g ≠ [] ∧ ∀ c ∈ g, isWs c = true

structure RawLine.Ok (l : RawLine) : Prop where
  before : Gap l.before
  first : Solid l.first
  more : ∀ x ∈ l.more, Gap x.1 ∧ Solid x.2
  after : ∀ c ∈ l.after, isWs c = true
  /-- not dropped: nothing in the line or its comment contains `nop`, `endbr32` or `endbr64` -/
  kept : ∀ a b, l.full ≠ a ++ ['n', 'o', 'p'] ++ b ∧ l.full ≠ a ++ ['e', 'n', 'd', 'b', 'r', '3', '2'] ++ b ∧
    l.full ≠ a ++ ['e', 'n', 'd', 'b', 'r', '6', '4'] ++ b
  /-- not the beginning of a section -/
  code : ∀ a b, l.full ≠ a ++ "Disassembly of section".toList ++ b

/-- a text with decimal numbers in it: `head d1 p1 d2 p2 ...` -/
structure Row where
  head : Text
  rest : List (Text × Text)

def Row.text (r : Row) : Text := r.head ++ r.rest.flatMap fun x => x.1 ++ x.2

/-- the numbers in hexadecimal notation -/
def Row.hex (r : Row) : Text := r.head ++ r.rest.flatMap fun x => '0' :: 'x' :: Nat.toDigits 16 (value x.1) ++ x.2

/-- no decimal number stands alone in a text -/
def Plain (t : Text) : Prop :=
  ∀ a d b, t = a ++ d ++ b → Digits d → (∃ c ∈ a.getLast?, isWord c = true) ∨ ∃ c ∈ b.head?, isWord c = true

/-- `p` may stand before a number -/
def EndsFree (p : Text) : Prop := ∀ c ∈ p.getLast?, isWord c = false

/-- `p` may stand after a number -/
def StartsFree (p : Text) : Prop := ∀ c ∈ p.head?, isWord c = false

/-- what follows a number; between two numbers at least two characters (finding 112) -/
def Row.RestOk : List (Text × Text) → Prop
  | [] => True
  | [x] => Digits x.1 ∧ Plain x.2 ∧ StartsFree x.2
  | x :: y :: l => Digits x.1 ∧ Plain x.2 ∧ StartsFree x.2 ∧ EndsFree x.2 ∧ 2 ≤ x.2.length ∧ Row.RestOk (y :: l)

structure Row.Ok (r : Row) : Prop where
  head : Plain r.head
  ends : r.rest ≠ [] → EndsFree r.head
  rest : Row.RestOk r.rest

end Opt.Run
