import Verif.Spec.Frame
import Verif.Spec.History

/-!
# Several threads using options

A C++ thread accesses memory in single steps, and between two steps of one thread any other thread may take any number of steps.
A thread's work is a tree of accesses to option objects (`Acc`); what a thread does next may depend on what it has read and on its own
user code.  The user code of a thread (what it throws, how often it was called) belongs to the thread: threads whose *callables* or
element types share data are out of scope here.

The granularity is a whole option object: one step reads or writes one.  This is no restriction for threads that do not conflict,
because a step of another thread between two halves of such a step would be on another object.
-/

namespace Opt

/-- the accesses of a piece of work, in order: read the option object at `k` (absent: `none`), write it (`none`: end of storage),
use the bookkeeping of the thread's user code -/
inductive Acc (α : Type) where
  | ret (a : α)
  | raise
  | verify
  | ub
  | read (k : Nat) (next : Option Obj → Acc α)
  | write (k : Nat) (x : Option Obj) (next : Acc α)
  | user (g : Env → Env) (next : Env → Acc α)

namespace Acc

variable {α : Type}

/-- all accesses without interruption -/
def eval : Acc α → M World α
  | .ret a => fun w => .ok a w
  | .raise => fun w => .throw w
  | .verify => fun _ => .verify
  | .ub => fun _ => .ub
  | .read k next => fun w => (next (w.mem k)).eval w
  | .write k x next => fun w => next.eval { w with mem := upd w.mem k x }
  | .user g next => fun w => (next w.env).eval { w with env := g w.env }

/-- every object that is written is in `W`, every object that is read is in `R` or `W` -/
def Within (R W : List Nat) : Acc α → Prop
  | .ret _ => True
  | .raise => True
  | .verify => True
  | .ub => True
  | .read k next => (k ∈ R ∨ k ∈ W) ∧ ∀ x, (next x).Within R W
  | .write k _ next => k ∈ W ∧ next.Within R W
  | .user _ next => ∀ e, (next e).Within R W

end Acc

/-- the threads of a program: the shared memory; of each thread its bookkeeping and what it still has to do -/
structure Threads (α : Type) where
  mem : Nat → Option Obj
  env : Nat → Env
  work : Nat → Acc α

namespace Threads

variable {α : Type}

/-- the next access of thread `t`; a thread that has ended stays as it is -/
def step (t : Nat) (s : Threads α) : Threads α :=
  match s.work t with
  | .read k next => { s with work := upd s.work t (next (s.mem k)) }
  | .write k x next => { s with mem := upd s.mem k x, work := upd s.work t next }
  | .user g next => { s with env := upd s.env t (g (s.env t)), work := upd s.work t (next (s.env t)) }
  | _ => s

/-- a schedule says which thread makes the next step, again and again -/
def exec (s : Threads α) : List Nat → Threads α
  | [] => s
  | t :: ts => exec (s.step t) ts

/-- what becomes of thread `t` if from now on it runs alone -/
def alone (s : Threads α) (t : Nat) : Out World α := (s.work t).eval ⟨s.mem, s.env t⟩

end Threads

/-- the same end: the same result, the same calls of user code, and the same contents of the objects in `S` -/
def SameEnd {α : Type} (S : List Nat) : Out World α → Out World α → Prop
  | .ok a w, .ok a' w' => a = a' ∧ w.env = w'.env ∧ ∀ k ∈ S, w.mem k = w'.mem k
  | .throw w, .throw w' => w.env = w'.env ∧ ∀ k ∈ S, w.mem k = w'.mem k
  | .verify, .verify => True
  | .ub, .ub => True
  | _, _ => False

/-- The rule for data races of the standard library ([res.on.data.races]): what one thread changes no other thread uses or
changes.  Objects that nobody changes may be used by all of them. -/
def NoConflict (R W : Nat → List Nat) : Prop := ∀ t u, t ≠ u → ∀ k ∈ W t, k ∉ R u ∧ k ∉ W u

/-- the options a history uses -/
def usedBy {Val : Type} (ops : List (Op Val)) : List Nat := ops.flatMap Op.uses

/-- the options a history may change -/
def changedBy {Val : Type} (ops : List (Op Val)) : List Nat := ops.flatMap Op.changes

/-- Threads that execute histories, one whole operation at a time: the shared memory; of each thread its bookkeeping, the
operations it still has to execute, and the results it got. -/
structure Clients (Val : Type) where
  mem : Nat → Option Obj
  env : Nat → Env
  todo : Nat → List (Op Val)
  got : Nat → List (Ret Val)

/-- thread `t` executes its next operation, if there is one, in the program `P t` -/
def Clients.step {Val : Type} (P : Nat → Prog Val) (t : Nat) (s : Clients Val) : Option (Clients Val) :=
  match s.todo t with
  | [] => some s
  | op :: ops =>
    match Prog.catch_ ((P t).runOp op) ⟨s.mem, s.env t⟩ with
    | .ok r w => some ⟨w.mem, upd s.env t w.env, upd s.todo t ops, upd s.got t (s.got t ++ [r])⟩
    | _ => none

/-- a schedule of whole operations; `none`: an operation failed a check or had undefined behaviour -/
def Clients.exec {Val : Type} (P : Nat → Prog Val) (s : Clients Val) : List Nat → Option (Clients Val)
  | [] => some s
  | t :: ts => (s.step P t).bind fun s' => exec P s' ts

end Opt
