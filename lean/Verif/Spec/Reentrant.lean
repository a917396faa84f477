import Verif.Model.Reentrant
import Verif.Spec.History

/-!
# The same client programs over mathematical optionals
-/

namespace Opt

namespace Spec

variable {Val : Type} (P : Prog Val)

/-- the callable is called for `i` -/
def enter (i : Nat) : M (AState Val) Unit := do
  let _ ← user P (.call i true) (.call i true)
  pure ()

/-- the callable is called without an argument -/
def enter0 : M (AState Val) Unit := do
  let _ ← user P (.call0 true) (.call0 true)
  pure ()

mutual
/-- client code -/
def runCode : {t : Want} → Code Val t → M (AState Val) (t.Res Val)
  | _, .ret x => pure x
  | _, .fail => M.raise
  | _, .op o k => do
    let r ← Prog.catch_ (runOp P o)
    runCode (k r)
  | _, .call c k => do
    let r ← Prog.catch_ (runCOp c)
    runCode (k r)
  | _, .look i k => do
    let v ← val i
    runCode (k v)
  | _, .write i v k => do
    let _ ← val i
    put i (some v)
    runCode k
/-- an operation with a callable that is code: if there is a value, the callable is called with it, and what happens to the option
meanwhile has happened when the operation goes on -/
def runCOp : COp Val → M (AState Val) (Ret Val)
  | .takeIf i r f => Prog.asRet (fun _ => .unit) do
    match ← get i with
    | some v => do
      enter P i
      if ← runCode (f v) then take P i r else new r
    | none => new r
  | .hasValueAnd i f => Prog.asRet .bool do
    match ← get i with
    | some v => do
      enter P i
      runCode (f v)
    | none => pure false
  | .inspect i f => Prog.asRet (fun _ => .unit) do
    match ← get i with
    | some v => do
      enter P i
      runCode (f v)
    | none => pure ()
  | .forEach i f => Prog.asRet (fun _ => .unit) do
    match ← get i with
    | some v => do
      enter P i
      runCode (f v)
    | none => pure ()
  | .mapOr i d f => Prog.asRet .val do
    match ← get i with
    | some v => do
      enter P i
      runCode (f v)
    | none => do
      let (_, thr) ← user P (.tmpCtor .args true) (.tmpCtor .args false)
      if thr then M.raise else pure d
  | .mapOrElse i d f => Prog.asRet .val do
    match ← get i with
    | some v => do
      enter P i
      runCode (f v)
    | none => do
      enter0 P
      runCode d
  | .map i r f => Prog.asRet (fun _ => .unit) do
    match ← get i with
    | some v => do
      enter P i
      let b ← runCode (f v)
      ctorValue P r (.args b)
    | none => new r
  | .andThen i r f => Prog.asRet (fun _ => .unit) do
    match ← get i with
    | some v => do
      enter P i
      let x ← runCode (f v)
      make P r x
    | none => new r
  | .orElse i r mv d => Prog.asRet (fun _ => .unit) do
    match ← get i with
    | some _ => ctorFrom P r i mv
    | none => do
      enter0 P
      let x ← runCode d
      make P r x
  | .filter i r mv f => Prog.asRet (fun _ => .unit) do
    match ← get i with
    | some v => do
      enter P i
      if ← runCode (f v) then ctorValue P r (.opt i mv) else new r
    | none => new r
  | .zipWith is r f => Prog.asRet (fun _ => .unit) do
    if ← allHave (is.map (·, false)) then do
      let vs ← vals is
      enter0 P
      let b ← runCode (f vs)
      M.onThrow (create P r (.move b)) (dropTmp P r)
      dropTmp P r
    else new r
end

/-- it completes and then `p` holds, or it does not complete -/
def Then {α : Type} (x : Out (AState Val) α) (p : α → AState Val → Prop) : Prop :=
  match x with
  | .ok b a => p b a
  | _ => True

/-- the values of several variables, if all have one -/
def values (a : AState Val) : List Nat → Option (List Val)
  | [] => some []
  | i :: is =>
    match a.mem i, values a is with
    | some (some v), some vs => some (v :: vs)
    | _, _ => none

/-- the state in which a callable called for `i` starts -/
def inside (i : Nat) (a : AState Val) : AState Val := { a with env := ⟨a.env.tick + 1, a.env.log ++ [.call i true]⟩ }

/-- the state in which a callable without argument starts -/
def inside0 (a : AState Val) : AState Val := { a with env := ⟨a.env.tick + 1, a.env.log ++ [.call0 true]⟩ }

end Spec

open Spec (Then inside inside0)

variable {Val : Type}

mutual
/-- along the run from `a`, whatever the client puts into an option is a value of the type of its elements -/
def Code.Typed (P : Prog Val) : {t : Want} → Code Val t → AState Val → Prop
  | _, .ret _, _ => True
  | _, .fail, _ => True
  | _, .op o k, a => o.Legal P ∧ Then (Prog.catch_ (Spec.runOp P o) a) fun r a' => Code.Typed P (k r) a'
  | _, .call c k, a => COp.Typed P c a ∧ Then (Prog.catch_ (Spec.runCOp P c) a) fun r a' => Code.Typed P (k r) a'
  | _, .look i k, a => ∀ v, a.mem i = some (some v) → Code.Typed P (k v) a
  | _, .write i v k, a => (P.elem i).Dom P.pw v ∧ Code.Typed P k { a with mem := upd a.mem i (some (some v)) }
/-- the same for the callable of an operation and for its result -/
def COp.Typed (P : Prog Val) : COp Val → AState Val → Prop
  | .takeIf i _ f, a => ∀ v, a.mem i = some (some v) → Code.Typed P (f v) (inside i a)
  | .hasValueAnd i f, a => ∀ v, a.mem i = some (some v) → Code.Typed P (f v) (inside i a)
  | .inspect i f, a => ∀ v, a.mem i = some (some v) → Code.Typed P (f v) (inside i a)
  | .forEach i f, a => ∀ v, a.mem i = some (some v) → Code.Typed P (f v) (inside i a)
  | .mapOr i _ f, a => ∀ v, a.mem i = some (some v) → Code.Typed P (f v) (inside i a)
  | .mapOrElse i d f, a => (∀ v, a.mem i = some (some v) → Code.Typed P (f v) (inside i a)) ∧
      (a.mem i = some none → Code.Typed P d (inside0 a))
  | .map i r f, a => ∀ v, a.mem i = some (some v) → Code.Typed P (f v) (inside i a) ∧
      Then (Spec.runCode P (f v) (inside i a)) fun b _ => (P.elem r).Dom P.pw b
  | .andThen i r f, a => ∀ v, a.mem i = some (some v) → Code.Typed P (f v) (inside i a) ∧
      Then (Spec.runCode P (f v) (inside i a)) fun x _ => ∀ u, x = some u → (P.elem r).Dom P.pw u
  | .orElse i r _ d, a => a.mem i = some none → Code.Typed P d (inside0 a) ∧
      Then (Spec.runCode P d (inside0 a)) fun x _ => ∀ u, x = some u → (P.elem r).Dom P.pw u
  | .filter i _ _ f, a => ∀ v, a.mem i = some (some v) → Code.Typed P (f v) (inside i a)
  | .zipWith is r f, a => ∀ vs, Spec.values a is = some vs → Code.Typed P (f vs) (inside0 a) ∧
      Then (Spec.runCode P (f vs) (inside0 a)) fun b _ => (P.elem r).Dom P.pw b
end

mutual
/-- what a client must respect, along the run from `a` (as `Op.AllAllowed` for a list of operations); a reference is used only
while there is an object -/
def Code.Allowed (P : Prog Val) : {t : Want} → Code Val t → AState Val → Prop
  | _, .ret _, _ => True
  | _, .fail, _ => True
  | _, .op o k, a => o.Allowed a.mem ∧ Then (Prog.catch_ (Spec.runOp P o) a) fun r a' => Code.Allowed P (k r) a'
  | _, .call c k, a => COp.Allowed P c a ∧ Then (Prog.catch_ (Spec.runCOp P c) a) fun r a' => Code.Allowed P (k r) a'
  | _, .look i k, a => ∃ v, a.mem i = some (some v) ∧ Code.Allowed P (k v) a
  | _, .write i v k, a => (∃ u, a.mem i = some (some u)) ∧ Code.Allowed P k { a with mem := upd a.mem i (some (some v)) }
/-- the option exists, the callable does what it may do, and afterwards the place of the result is free; `take_if`
and `filter` use the option after the call, so it must still exist then -/
def COp.Allowed (P : Prog Val) : COp Val → AState Val → Prop
  | .takeIf i r f, a => a.mem i ≠ none ∧ (a.mem i = some none → a.mem r = none) ∧
      ∀ v, a.mem i = some (some v) → Code.Allowed P (f v) (inside i a) ∧
        Then (Spec.runCode P (f v) (inside i a)) fun b a' => a'.mem r = none ∧ (b = true → a'.mem i ≠ none)
  | .hasValueAnd i f, a => a.mem i ≠ none ∧ ∀ v, a.mem i = some (some v) → Code.Allowed P (f v) (inside i a)
  | .inspect i f, a => a.mem i ≠ none ∧ ∀ v, a.mem i = some (some v) → Code.Allowed P (f v) (inside i a)
  | .forEach i f, a => a.mem i ≠ none ∧ ∀ v, a.mem i = some (some v) → Code.Allowed P (f v) (inside i a)
  | .mapOr i _ f, a => a.mem i ≠ none ∧ ∀ v, a.mem i = some (some v) → Code.Allowed P (f v) (inside i a)
  | .mapOrElse i d f, a => a.mem i ≠ none ∧ (∀ v, a.mem i = some (some v) → Code.Allowed P (f v) (inside i a)) ∧
      (a.mem i = some none → Code.Allowed P d (inside0 a))
  | .map i r f, a => a.mem i ≠ none ∧ (a.mem i = some none → a.mem r = none) ∧
      ∀ v, a.mem i = some (some v) → Code.Allowed P (f v) (inside i a) ∧
        Then (Spec.runCode P (f v) (inside i a)) fun _ a' => a'.mem r = none
  | .andThen i r f, a => a.mem i ≠ none ∧ (a.mem i = some none → a.mem r = none) ∧
      ∀ v, a.mem i = some (some v) → Code.Allowed P (f v) (inside i a) ∧
        Then (Spec.runCode P (f v) (inside i a)) fun _ a' => a'.mem r = none
  | .orElse i r _ d, a => a.mem i ≠ none ∧ (∀ v, a.mem i = some (some v) → a.mem r = none) ∧
      (a.mem i = some none → Code.Allowed P d (inside0 a) ∧
        Then (Spec.runCode P d (inside0 a)) fun _ a' => a'.mem r = none)
  | .filter i r _ f, a => a.mem i ≠ none ∧ (a.mem i = some none → a.mem r = none) ∧
      ∀ v, a.mem i = some (some v) → Code.Allowed P (f v) (inside i a) ∧
        Then (Spec.runCode P (f v) (inside i a)) fun b a' => a'.mem r = none ∧ (b = true → a'.mem i ≠ none)
  | .zipWith is r f, a => (∀ i ∈ is, a.mem i ≠ none) ∧ ((∃ i ∈ is, a.mem i = some none) → a.mem r = none) ∧
      ∀ vs, Spec.values a is = some vs → Code.Allowed P (f vs) (inside0 a) ∧
        Then (Spec.runCode P (f vs) (inside0 a)) fun _ a' => a'.mem r = none
end

mutual
/-- along the run from `a`: `H` holds of every operation in the state in which it is called -/
def Code.Each (P : Prog Val) (H : Op Val → AState Val → Prop) : {t : Want} → Code Val t → AState Val → Prop
  | _, .ret _, _ => True
  | _, .fail, _ => True
  | _, .op o k, a => H o a ∧ Then (Prog.catch_ (Spec.runOp P o) a) fun r a' => Code.Each P H (k r) a'
  | _, .call c k, a => COp.Each P H c a ∧ Then (Prog.catch_ (Spec.runCOp P c) a) fun r a' => Code.Each P H (k r) a'
  | _, .look i k, a => ∀ v, a.mem i = some (some v) → Code.Each P H (k v) a
  | _, .write i v k, a => Code.Each P H k { a with mem := upd a.mem i (some (some v)) }
/-- the same for the callable of an operation; `take_if` goes on as `take`, `or_else` as the copy or move constructor -/
def COp.Each (P : Prog Val) (H : Op Val → AState Val → Prop) : COp Val → AState Val → Prop
  | .takeIf i r f, a => ∀ v, a.mem i = some (some v) → Code.Each P H (f v) (inside i a) ∧
      Then (Spec.runCode P (f v) (inside i a)) fun b a' => b = true → H (.take i r) a'
  | .hasValueAnd i f, a => ∀ v, a.mem i = some (some v) → Code.Each P H (f v) (inside i a)
  | .inspect i f, a => ∀ v, a.mem i = some (some v) → Code.Each P H (f v) (inside i a)
  | .forEach i f, a => ∀ v, a.mem i = some (some v) → Code.Each P H (f v) (inside i a)
  | .mapOr i _ f, a => ∀ v, a.mem i = some (some v) → Code.Each P H (f v) (inside i a)
  | .mapOrElse i d f, a => (∀ v, a.mem i = some (some v) → Code.Each P H (f v) (inside i a)) ∧
      (a.mem i = some none → Code.Each P H d (inside0 a))
  | .map i _ f, a => ∀ v, a.mem i = some (some v) → Code.Each P H (f v) (inside i a)
  | .andThen i _ f, a => ∀ v, a.mem i = some (some v) → Code.Each P H (f v) (inside i a)
  | .orElse i r mv d, a => (∀ v, a.mem i = some (some v) → H (.ctorFrom r i mv) a) ∧
      (a.mem i = some none → Code.Each P H d (inside0 a))
  | .filter i _ _ f, a => ∀ v, a.mem i = some (some v) → Code.Each P H (f v) (inside i a)
  | .zipWith is _ f, a => ∀ vs, Spec.values a is = some vs → Code.Each P H (f vs) (inside0 a)
end

/-- along the run from `a`: every constructor that fails in the storage of an option leaves the sentinel bytes there -/
def Code.Harmless (P : Prog Val) {t : Want} (c : Code Val t) (a : AState Val) : Prop := c.Each P (fun o a => o.Harmless P a) a

/-- a list of operations as code: every result is ignored -/
def Code.ofList : List (Op Val) → Code Val .unit
  | [] => .ret ()
  | o :: os => .op o fun _ => Code.ofList os

end Opt
