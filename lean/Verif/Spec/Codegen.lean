import Verif.Model.Machine
import Verif.Model.Codegen

/-!
# What it means that machine code implements a function of the library

A function of the sample has arguments and a result in the places the calling convention says.  The option objects it works on are bytes of
the machine's memory; the same bytes are given to the library function of the model, and the results are compared.
-/

namespace Opt.Codegen

open Opt.X86

/-- `sizeof(option<T>)` -/
def objSize (T : Ty) : Nat := (Ty.option T).size 64

/-- the bytes of an option that mean something: the value, and the flag if there is one; the rest is padding -/
def meant (T : Ty) : Nat := T.size 64 + if (T.traits 64).maxLevel = 0 then 1 else 0

/-- first pointer argument: System V `rdi`, Windows `rcx` -/
def arg0 (win : Bool) (s : State) : BitVec 64 := if win then s.reg .rcx else s.reg .rdi

/-- second pointer argument: `rsi`, `rdx` -/
def arg1 (win : Bool) (s : State) : BitVec 64 := if win then s.reg .rdx else s.reg .rsi

/-- is the address in the `n` bytes at `a` -/
def Within (a : BitVec 64) (n : Nat) (x : BitVec 64) : Prop := (x - a).toNat < n

/-- only the `n` bytes at `a` may be changed, and in System V the 128 bytes below the stack pointer; the stack pointer is kept -/
def Leaves (win : Bool) (a : BitVec 64) (n : Nat) (s s' : State) : Prop :=
  s'.reg .rsp = s.reg .rsp ∧
  ∀ x, ¬ Within a n x → (win = true ∨ ¬ Within (s.reg .rsp - 128) 128 x) → s'.mem x = s.mem x

/-- an element type that is a scalar or an array of scalars: everything is trivial and a value is its bytes -/
def plainElem (T : Ty) (scalar : Bool) : Elem Bytes := ⟨T, id, true, true, true, true, true, scalar⟩

/-- a program whose options are all `option<T>` -/
structure Sample (T : Ty) (P : Prog Bytes) : Prop where
  pw : P.pw = 64
  cls : ∀ i j, P.cls i = P.cls j
  elem : ∀ i, ∃ scalar, P.elem i = plainElem T scalar ∧ ((∀ a n, T ≠ .array a n) → scalar = true)
  noThrow : ∀ n, P.throwsAt n = false
  build : ∀ i n v old, P.build i n v old = v

/-- the call leaves in option 0 bytes that agree with `bs` where they mean something, and no other option is touched -/
def Gives (T : Ty) (r : Out World Unit) (w : World) (bs : Bytes) : Prop :=
  ∃ w' o', r = .ok () w' ∧ w'.mem 0 = some o' ∧ o'.bytes.take (meant T) = bs.take (meant T) ∧ ∀ k, k ≠ 0 → w'.mem k = w.mem k

/-- code for `void f(option<T>*)` that does `op` on the option, whatever is in it -/
def Modifies (T : Ty) (op : Prog Bytes → M World Unit) (l : Listing) : Prop :=
  ∀ s, ∃ s', run l.code s = some s' ∧ Leaves l.win (arg0 l.win s) (objSize T) s s' ∧
    ∀ P w o, Sample T P → w.mem 0 = some o → o.bytes = read s.mem (arg0 l.win s) (objSize T) →
      Gives T (op P w) w (read s'.mem (arg0 l.win s) (objSize T))

/-- code for `void f(option<T>* a, option<T>* b)` that does `*a = *b`; the objects are the same or do not overlap -/
def Copies (T : Ty) (l : Listing) : Prop :=
  ∀ s, (arg0 l.win s = arg1 l.win s ∨ ∀ x, ¬ (Within (arg0 l.win s) (objSize T) x ∧ Within (arg1 l.win s) (objSize T) x)) →
    ∃ s', run l.code s = some s' ∧ Leaves l.win (arg0 l.win s) (objSize T) s s' ∧
    ∀ P w o j p, Sample T P → w.mem 0 = some o → o.bytes = read s.mem (arg0 l.win s) (objSize T) →
      w.mem j = some p → p.bytes = read s.mem (arg1 l.win s) (objSize T) → (j = 0 ↔ arg0 l.win s = arg1 l.win s) →
      Gives T (P.assignFrom 0 j false w) w (read s'.mem (arg0 l.win s) (objSize T))

/-- System V returns an option of up to 16 bytes in `rax` and `rdx`; Windows, and System V for a larger one, in memory that the caller
gives -/
def inRegs (win : Bool) (T : Ty) : Bool := !win && decide (objSize T ≤ 16)

/-- the bytes of the returned option -/
def returned (win : Bool) (T : Ty) (s s' : State) : Bytes :=
  if inRegs win T then (leBytes 8 (s'.reg .rax).toNat ++ leBytes 8 (s'.reg .rdx).toNat).take (objSize T)
  else read s'.mem (arg0 win s) (objSize T)

/-- code for `option<T> f()` that constructs the result by `op` in storage with some contents `g` -/
def Makes (T : Ty) (op : Prog Bytes → M World Unit) (l : Listing) : Prop :=
  ∀ s, ∃ s', run l.code s = some s' ∧ Leaves l.win (arg0 l.win s) (if inRegs l.win T then 0 else objSize T) s s' ∧
    (inRegs l.win T = false → s'.reg .rax = arg0 l.win s) ∧
    ∃ g, g.length = objSize T ∧ ∀ P w, Sample T P → (∀ n, P.garbage 0 n = g) → w.mem 0 = none →
      Gives T (op P w) w (returned l.win T s s')

/-- code for `bool f(option<T>*)` that answers `op`, whatever is in the option; the result is in `al` -/
def Asks (T : Ty) (op : Prog Bytes → M World Bool) (l : Listing) : Prop :=
  ∀ s, ∃ s', run l.code s = some s' ∧ Leaves l.win (arg0 l.win s) 0 s s' ∧
    ∀ P w o, Sample T P → w.mem 0 = some o → o.bytes = read s.mem (arg0 l.win s) (objSize T) →
      ∃ b, op P w = .ok b w ∧ (s'.reg .rax).setWidth 8 = if b then 1#8 else 0#8

end Opt.Codegen
