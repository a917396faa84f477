import Verif.Model.Alias
import Verif.Spec.Stable
import Verif.Spec.Order

/-!
# References to contained values are other names

`ref k` is the option whose value the option of a reference `k` refers to.  A use through `k` is the same operation on that option
itself.  It is the client's error when there is no value any more (`ub`): nothing in the library can notice.
-/

namespace Opt

/-- the option variables, and which of them the options of references refer to -/
structure XState (Val : Type) where
  opts : AState Val
  ref : Nat → Option Nat

variable {Val : Type}

/-- the operation on the option `j` itself; both the copy and the assignment leave the value in `j`, whether or not the option of a
reference was an rvalue -/
def Use.on (j : Nat) : Use Val → Op Val
  | .get => .get j
  | .getUnchecked => .getUnchecked j
  | .valueOrThrow => .valueOrThrow j
  | .hasValueAnd f => .hasValueAnd j f
  | .inspect f => .inspect j f
  | .mapOr d f => .mapOr j d f
  | .mapOrElse d f => .mapOrElse j d f
  | .map r f => .map j r f
  | .andThen r f => .andThen j r f
  | .cmpVal o rel v => .cmpVal o rel j v
  | .valCmp o rel v => .valCmp o rel v j
  | .copyTo i _ => .ctorFrom i j false
  | .assignTo i _ => .assignFrom i j false

/-- the same when the option of a reference is empty -/
def Use.onNothing (P : Prog Val) : Use Val → M (AState Val) (Ret Val)
  | .get => fun _ => .verify
  | .getUnchecked => fun _ => .verify
  | .valueOrThrow => M.raise
  | .hasValueAnd _ => pure (.bool false)
  | .inspect _ => pure .unit
  | .mapOr d _ => do
    let (_, thr) ← Spec.user P (.tmpCtor .args true) (.tmpCtor .args false)
    if thr then M.raise else pure (.val d)
  | .mapOrElse d _ => Prog.asRet .val (Spec.call0 P d)
  | .map r _ => Prog.asRet (fun _ => .unit) (Spec.new r)
  | .andThen r _ => Prog.asRet (fun _ => .unit) (Spec.new r)
  | .cmpVal o rel v => pure (.bool (below rel o none (some v)))
  | .valCmp o rel v => pure (.bool (below rel o (some v) none))
  | .copyTo i _ => Prog.asRet (fun _ => .unit) (Spec.new i)
  | .assignTo i _ => Prog.asRet (fun _ => .unit) (Spec.clear P i)

namespace XState

/-- is there a value in option `j` -/
def full (s : XState Val) (j : Nat) : Bool :=
  match s.opts.mem j with
  | some (some _) => true
  | _ => false

/-- the option of a reference `k` now refers to the value of option `x`, or to nothing -/
def refer (s : XState Val) (k : Nat) (x : Option Nat) : XState Val := ⟨s.opts, fun l => if l = k then x else s.ref l⟩

/-- an operation on the option variables -/
def after {α β : Type} (s : XState Val) (x : M (AState Val) α) (next : α → XState Val → Out (XState Val) β) : Out (XState Val) β :=
  match x s.opts with
  | .ok a o => next a ⟨o, s.ref⟩
  | .throw o => .throw ⟨o, s.ref⟩
  | .verify => .verify
  | .ub => .ub

/-- an operation on the options, and nothing else -/
def only (s : XState Val) (x : M (AState Val) (Ret Val)) : Out (XState Val) (Ret Val) := s.after x .ok

end XState

namespace XOp

/-- one operation -/
def spec (P : Prog Val) : XOp Val → XState Val → Out (XState Val) (Ret Val)
  | .val op, s => s.only (Spec.runOp P op)
  | .bind k i, s =>
    match s.opts.mem i with
    | some (some _) => .ok .unit (s.refer k (some i))
    | some none => .verify
    | none => .ub
  | .tryBind k i, s =>
    match s.opts.mem i with
    | some (some _) => .ok .unit (s.refer k (some ((s.ref k).getD i)))
    | some none => .verify
    | none => .ub
  | .bindPtr k i, s =>
    match s.opts.mem i with
    | some x => .ok .unit (s.refer k (x.map fun _ => i))
    | none => .ub
  | .drop k, s => .ok .unit (s.refer k none)
  | .copy k l, s => .ok .unit (s.refer k (s.ref l))
  | .take k l, s => .ok .unit ((s.refer k none).refer l (s.ref k))
  | .swap k l, s => .ok .unit ((s.refer k (s.ref l)).refer l (s.ref k))
  | .hasValue k, s => .ok (.bool (s.ref k).isSome) s
  | .filter k l f, s =>
    match s.ref k with
    | none => .ok .unit (s.refer l none)
    | some j =>
      if s.full j then s.after (Spec.call P j f) fun b t => .ok .unit (t.refer l (if b then some j else none))
      else .ub
  | .takeIf k l f, s =>
    match s.ref k with
    | none => .ok .unit (s.refer l none)
    | some j =>
      if s.full j then s.after (Spec.call P j f) fun b t =>
        .ok .unit (if b then (t.refer k none).refer l (some j) else t.refer l none)
      else .ub
  | .orElse k l m, s =>
    match s.ref k with
    | some j => .ok .unit (s.refer l (some j))
    | none => s.after (Spec.call0 P ()) fun _ t => .ok .unit (t.refer l (t.ref m))
  | .cmp o rel k l, s =>
    match s.ref k, s.ref l with
    | some i, some j => if s.full i && s.full j then s.only (Spec.runOp P (.cmp o rel i j)) else .ub
    | x, y => .ok (.bool (below (fun _ _ _ => true) o x y)) s
  | .via k u, s =>
    match s.ref k with
    | some j => if s.full j then s.only (Spec.runOp P (u.on j)) else .ub
    | none => s.only (u.onNothing P)

/-- a caught exception is a result -/
def caught (x : Out (XState Val) (Ret Val)) : Out (XState Val) (Ret Val) :=
  match x with
  | .throw s => .ok .threw s
  | r => r

/-- a history -/
def specAll (P : Prog Val) : List (XOp Val) → XState Val → Out (XState Val) (List (Ret Val))
  | [], s => .ok [] s
  | op :: ops, s =>
    match caught (op.spec P s) with
    | .ok r t =>
      match specAll P ops t with
      | .ok rs u => .ok (r :: rs) u
      | .throw u => .throw u
      | .verify => .verify
      | .ub => .ub
    | .throw t => .throw t
    | .verify => .verify
    | .ub => .ub

/-- values that come from outside are values of the element types -/
def Legal (P : Prog Val) : XOp Val → XState Val → Prop
  | .val op, _ => op.Legal P
  | .filter k _ f, s => ∀ j, s.ref k = some j → f.Legal P j
  | .takeIf k _ f, s => ∀ j, s.ref k = some j → f.Legal P j
  | .via k u, s => ∀ j, s.ref k = some j → (u.on j).Legal P
  | _, _ => True

/-- What a client must respect.  For options of values: `Op.Allowed`.  For uses through a reference: what it refers to is there, and the rest as
if the operation was on that option. -/
def Allowed : XOp Val → XState Val → Prop
  | .val op, s => op.Allowed s.opts.mem
  | .bind _ i, s => s.opts.mem i ≠ none
  | .tryBind _ i, s => s.opts.mem i ≠ none
  | .bindPtr _ i, s => s.opts.mem i ≠ none
  | .filter k _ _, s => ∀ j, s.ref k = some j → s.full j = true
  | .takeIf k _ _, s => ∀ j, s.ref k = some j → s.full j = true
  | .cmp _ _ k l, s => ∀ i j, s.ref k = some i → s.ref l = some j → s.full i = true ∧ s.full j = true
  | .via k u, s =>
    match s.ref k with
    | some j => s.full j = true ∧ (u.on j).Allowed s.opts.mem
    | none =>
      match u with
      | .map r _ => s.opts.mem r = none
      | .andThen r _ => s.opts.mem r = none
      | .copyTo i _ => s.opts.mem i = none
      | .assignTo i _ => s.opts.mem i ≠ none
      | _ => True
  | _, _ => True

/-- a constructor that fails in the storage of an option leaves the sentinel there (`Op.Harmless`) -/
def Harmless (P : Prog Val) : XOp Val → XState Val → Prop
  | .val op, s => op.Harmless P s.opts
  | .via k u, s => ∀ j, s.ref k = some j → (u.on j).Harmless P s.opts
  | _, _ => True

/-- all of this along a history -/
def AllFine (P : Prog Val) : List (XOp Val) → XState Val → Prop
  | [], _ => True
  | op :: ops, s => op.Legal P s ∧ op.Allowed s ∧ op.Harmless P s ∧
    match caught (op.spec P s) with
    | .ok _ t => AllFine P ops t
    | _ => True

end XOp

/-- what a client sees -/
def Prog.xview (P : Prog Val) (s : XWorld) : XState Val := ⟨⟨P.view s.opts, s.opts.env⟩, s.ptr⟩

end Opt
