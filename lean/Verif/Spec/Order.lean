import Verif.Model.Compare

/-!
# Orders and equivalences, independently of the model

`below` is what comparing optional values should mean: an empty option equals an empty option and is below every value.
-/

namespace Opt

/-- `x op y` for optional values, as a table -/
def below {α : Type} (rel : CmpOp → α → α → Bool) : CmpOp → Option α → Option α → Bool
  | op, some a, some b => rel op a b
  | .eq, none, none => true
  | .le, none, none => true
  | .ge, none, none => true
  | _, none, none => false
  | .ne, none, some _ => true
  | .lt, none, some _ => true
  | .le, none, some _ => true
  | _, none, some _ => false
  | .ne, some _, none => true
  | .gt, some _, none => true
  | .ge, some _, none => true
  | _, some _, none => false

/-- an equivalence relation -/
structure Equiv {α : Type} (e : α → α → Prop) : Prop where
  refl : ∀ a, e a a
  symm : ∀ a b, e a b → e b a
  trans : ∀ a b c, e a b → e b c → e a c

/-- a strict weak order: irreflexive, transitive, and being incomparable is transitive -/
structure StrictWeak {α : Type} (lt : α → α → Prop) : Prop where
  irrefl : ∀ a, ¬ lt a a
  trans : ∀ a b c, lt a b → lt b c → lt a c
  incomp : ∀ a b c, ¬ lt a b → ¬ lt b a → ¬ lt b c → ¬ lt c b → ¬ lt a c ∧ ¬ lt c a

/-- a strict total order for the equality `e`: strict weak, and incomparable means equal -/
structure StrictTotal {α : Type} (lt e : α → α → Prop) : Prop where
  weak : StrictWeak lt
  tri : ∀ a b, lt a b ∨ e a b ∨ lt b a
  excl : ∀ a b, e a b → ¬ lt a b

/-- the six operators fit together: `!=` is the negation of `==`, `>` is `<` turned round, `<=` and `>=` are the
negations of `>` and `<` -/
structure Consistent {α : Type} (r : CmpOp → α → α → Prop) : Prop where
  ne : ∀ a b, r .ne a b ↔ ¬ r .eq a b
  gt : ∀ a b, r .gt a b ↔ r .lt b a
  le : ∀ a b, r .le a b ↔ ¬ r .gt a b
  ge : ∀ a b, r .ge a b ↔ ¬ r .lt a b

/-- a relation table as propositions -/
def holds {α : Type} (rel : CmpOp → α → α → Bool) (op : CmpOp) (a b : α) : Prop := rel op a b = true

/-- the computation, run in `w`, completes with result `r` -/
def Answers {α : Type} (w : World) (x : M World α) (r : α) : Prop := ∃ w', x w = .ok r w'

/-- values of `option<option<...<T>>>`, `n` layers -/
def Nest (α : Type) : Nat → Type
  | 0 => α
  | n + 1 => Option (Nest α n)

/-- the operators on `n` layers of options -/
def nestRel {α : Type} (rel : CmpOp → α → α → Bool) : (n : Nat) → CmpOp → Nest α n → Nest α n → Bool
  | 0 => rel
  | n + 1 => below (nestRel rel n)

/-- the hash of `n` layers of options -/
def nestHash {α : Type} (hash : α → U64) : (n : Nat) → Nest α n → U64
  | 0 => hash
  | n + 1 => fun x => match x with
    | some y => nestHash hash n y
    | none => 0

/-- what `n` layers of options hold: an empty option under so many engaged ones, or a value -/
def Nest.key {α : Type} : (n : Nat) → Nest α n → Nat ⊕ α
  | 0, a => .inr a
  | n + 1, x => match (x : Option (Nest α n)) with
    | none => .inl 0
    | some y => match Nest.key n y with
      | .inl k => .inl (k + 1)
      | .inr a => .inr a

/-- the six operators on numbers -/
def natRel : CmpOp → Nat → Nat → Bool
  | .eq, i, j => decide (i = j)
  | .ne, i, j => decide (i ≠ j)
  | .lt, i, j => decide (i < j)
  | .le, i, j => decide (i ≤ j)
  | .gt, i, j => decide (j < i)
  | .ge, i, j => decide (j ≤ i)

/-- the order in which emptiness further outside comes first and values come last -/
def keyRel {α β : Type} (rel : CmpOp → α → β → Bool) (op : CmpOp) : Nat ⊕ α → Nat ⊕ β → Bool
  | .inl i, .inl j => natRel op i j
  | .inl _, .inr _ => natRel op 0 1
  | .inr _, .inl _ => natRel op 1 0
  | .inr a, .inr b => rel op a b

end Opt
