import Verif.Model.Benchmark

/-!
# Translation units of the benchmark
-/

namespace Opt.Benchmark

open Opt.Run (Text)

/-- a declaration at namespace scope -/
inductive Decl where
  /-- `struct name { int x; };` -/
  | struct (name : Text)
  /-- `cls<arg> name;` -/
  | var (cls arg name : Text)
  deriving DecidableEq

/-- as it is written, one to a line -/
def Decl.text : Decl → Text
  | .struct name => txt"struct " ++ name ++ txt" { int x; };\n"
  | .var cls arg name => cls ++ txt"<" ++ arg ++ txt"> " ++ name ++ txt";\n"

/-- a name: a letter, then letters and digits -/
def Ident (t : Text) : Prop := ∃ c cs, t = c :: cs ∧ c.isAlpha = true ∧ ∀ d ∈ cs, d.isAlphanum = true

/-- each name is declared once, and the classes are instantiated with structs declared before; `types`: those known, `names`: all names taken -/
def Compiles (types names : List Text) : List Decl → Prop
  | [] => True
  | .struct n :: ds => Ident n ∧ n ∉ names ∧ Compiles (n :: types) (n :: names) ds
  | .var _ a n :: ds => Ident n ∧ a ∈ types ∧ n ∉ names ∧ Compiles types (n :: names) ds

/-- the instantiations of class templates, in order -/
def instances : List Decl → List (Text × Text)
  | [] => []
  | .struct _ :: ds => instances ds
  | .var c a _ :: ds => (c, a) :: instances ds

/-- the same with another class template -/
def Decl.using (cls : Text) : Decl → Decl
  | .struct n => .struct n
  | .var _ a n => .var cls a n

end Opt.Benchmark
