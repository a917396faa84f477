import Verif.Model.Compare
import Verif.Model.Iter
import Verif.Model.Unzip

/-!
# Histories: any sequence of operations on any number of options

A history is a list of operations.  An exception that an operation lets out is caught by the client, recorded, and the
history goes on.  A failed check or undefined behaviour ends everything.
-/

namespace Opt

/-- an operation of the public interface; `r` is the address of a resulting option object -/
inductive Op (Val : Type) where
  /-- `option()`, `option(none)` (2832-2836) -/
  | ctorDefault (i : Nat)
  /-- `option(value)`, `option(in_place, ...)` (2842-2872) -/
  | ctorValue (i : Nat) (src : Src Val)
  /-- copy, move and converting constructors (2838-2840, 2874-2901) -/
  | ctorFrom (i j : Nat) (mv : Bool)
  /-- destructor -/
  | dtor (i : Nat)
  /-- `reset()`, `operator=(none)` (2903-2907, 2996-3000) -/
  | reset (i : Nat)
  /-- copy, move and converting assignment (2909-2911, 2932-2977) -/
  | assignFrom (i j : Nat) (mv : Bool)
  /-- `operator=(value)` (2913-2930) -/
  | assignValue (i : Nat) (src : Src Val)
  | emplace (i : Nat) (src : Src Val)
  | tryEmplace (i : Nat) (src : Src Val)
  | swap (i j : Nat)
  | take (i r : Nat)
  | takeIf (i r : Nat) (f : Prog.Fn Val Bool)
  | hasValue (i : Nat)
  | get (i : Nat)
  | getUnchecked (i : Nat)
  | valueOrThrow (i : Nat)
  | ptrOrNull (i : Nat)
  | valueOr (i : Nat) (mv : Bool) (d : Src Val)
  | hasValueAnd (i : Nat) (f : Prog.Fn Val Bool)
  | inspect (i : Nat) (f : Prog.Fn Val Unit)
  | mapOr (i : Nat) (d : Val) (f : Prog.Fn Val Val)
  | mapOrElse (i : Nat) (d : Val) (f : Prog.Fn Val Val)
  | map (i r : Nat) (f : Prog.Fn Val Val)
  | andThen (i r : Nat) (f : Prog.Fn Val (Option Val))
  | orElse (i r : Nat) (mv : Bool) (x : Option Val)
  | filter (i r : Nat) (mv : Bool) (f : Prog.Fn Val Bool)
  | orOp (i j r : Nat) (mi mj : Bool)
  | orAssignValue (i : Nat) (src : Src Val)
  | orAssignFrom (i j : Nat) (mv : Bool)
  | andOp (i j r : Nat) (mv : Bool)
  | xorOp (i j r : Nat) (mi mj : Bool)
  | zip (is : List (Nat × Bool)) (r : Nat) (g : List Val → Val)
  | zipWith (is : List Nat) (r : Nat) (g : List Val → Val)
  | ioWrite (i : Nat) (d : Option Val)
  | ioRead (i : Nat) (d v : Val)
  /-- two options (3738-3785) -/
  | cmp (o : CmpOp) (rel : CmpOp → Val → Val → Bool) (i j : Nat)
  /-- an option and `none`, and the other way round (3787-3834) -/
  | cmpNone (o : CmpOp) (i : Nat)
  | noneCmp (o : CmpOp) (i : Nat)
  /-- an option and a value, and the other way round (3836-3895) -/
  | cmpVal (o : CmpOp) (rel : CmpOp → Val → Val → Bool) (i : Nat) (v : Val)
  | valCmp (o : CmpOp) (rel : CmpOp → Val → Val → Bool) (v : Val) (i : Nat)
  /-- `std::hash` (4070-4081) -/
  | hash (i : Nat) (h : Val → U64)
  /-- `for (auto& x : o) f(x);` (2404-2506, 2979-2994) -/
  | forEach (i : Nat) (f : Prog.Fn Val Unit)
  /-- `unzip` of an option of `std::array`, of `std::tuple` or `std::pair` (3416-3439) -/
  | unzipArray (q : Parts Val) (i : Nat) (mv : Bool) (rs : List Nat)
  | unzipTuple (q : Parts Val) (i : Nat) (mv : Bool) (ts : List Nat) (ms : List (Nat × Nat))

/-- what the client gets back -/
inductive Ret (Val : Type) where
  | unit
  | bool (b : Bool)
  | val (v : Val)
  | opt (x : Option Val)
  | word (n : U64)
  /-- an exception came out and was caught -/
  | threw
deriving DecidableEq

namespace Prog

variable {Val : Type} (P : Prog Val)

/-- wrap the result of a computation -/
def asRet {σ α : Type} (f : α → Ret Val) (x : M σ α) : M σ (Ret Val) := do
  let a ← x
  pure (f a)

/-- one operation.  Two tests of the condition are enough for the loop (`C31_loop`: more make no difference). -/
def runOp : Op Val → M World (Ret Val)
  | .ctorDefault i => asRet (fun _ => .unit) (P.ctorDefault i)
  | .ctorValue i src => asRet (fun _ => .unit) (P.ctorValue i src)
  | .ctorFrom i j mv => asRet (fun _ => .unit) (P.ctorFrom i j mv)
  | .dtor i => asRet (fun _ => .unit) (P.dtor i)
  | .reset i => asRet (fun _ => .unit) (P.reset i)
  | .assignFrom i j mv => asRet (fun _ => .unit) (P.assignFrom i j mv)
  | .assignValue i src => asRet (fun _ => .unit) (P.assignValue i src)
  | .emplace i src => asRet (fun _ => .unit) (P.emplace i src)
  | .tryEmplace i src => asRet (fun _ => .unit) (P.tryEmplace i src)
  | .swap i j => asRet (fun _ => .unit) (P.swap i j)
  | .take i r => asRet (fun _ => .unit) (P.take i r)
  | .takeIf i r f => asRet (fun _ => .unit) (P.takeIf i r f)
  | .hasValue i => asRet .bool (P.hasValue i)
  | .get i => asRet .val (P.get i)
  | .getUnchecked i => asRet .val (P.getUnchecked i)
  | .valueOrThrow i => asRet .val (P.valueOrThrow i)
  | .ptrOrNull i => asRet .opt (P.ptrOrNull i)
  | .valueOr i mv d => asRet .val (P.valueOr i mv d)
  | .hasValueAnd i f => asRet .bool (P.hasValueAnd i f)
  | .inspect i f => asRet (fun _ => .unit) (P.inspect i f)
  | .mapOr i d f => asRet .val (P.mapOr i d f)
  | .mapOrElse i d f => asRet .val (P.mapOrElse i d f)
  | .map i r f => asRet (fun _ => .unit) (P.map i r f)
  | .andThen i r f => asRet (fun _ => .unit) (P.andThen i r f)
  | .orElse i r mv x => asRet (fun _ => .unit) (P.orElse i r mv x)
  | .filter i r mv f => asRet (fun _ => .unit) (P.filter i r mv f)
  | .orOp i j r mi mj => asRet (fun _ => .unit) (P.orOp i j r mi mj)
  | .orAssignValue i src => asRet (fun _ => .unit) (P.orAssignValue i src)
  | .orAssignFrom i j mv => asRet (fun _ => .unit) (P.orAssignFrom i j mv)
  | .andOp i j r mv => asRet (fun _ => .unit) (P.andOp i j r mv)
  | .xorOp i j r mi mj => asRet (fun _ => .unit) (P.xorOp i j r mi mj)
  | .zip is r g => asRet (fun _ => .unit) (P.zip is r g)
  | .zipWith is r g => asRet (fun _ => .unit) (P.zipWith is r g)
  | .ioWrite i d => asRet .opt (P.ioWrite i d)
  | .ioRead i d v => asRet .val (P.ioRead i d v)
  | .cmp o rel i j => asRet .bool (P.cmp o rel i j)
  | .cmpNone o i => asRet .bool (P.cmpNone o i)
  | .noneCmp o i => asRet .bool (P.noneCmp o i)
  | .cmpVal o rel i v => asRet .bool (P.cmpVal o rel i v)
  | .valCmp o rel v i => asRet .bool (P.valCmp o rel v i)
  | .hash i h => asRet .word (P.hash h i)
  | .forEach i f => asRet (fun _ => .unit) (P.forEach 2 i f)
  | .unzipArray q i mv rs => asRet (fun _ => .unit) (P.unzipArray q i mv rs)
  | .unzipTuple q i mv ts ms => asRet (fun _ => .unit) (P.unzipTuple q i mv ts ms)

/-- catch an exception -/
def catch_ {σ : Type} (x : M σ (Ret Val)) : M σ (Ret Val) := fun s =>
  match x s with
  | .throw s' => .ok .threw s'
  | r => r

/-- a history -/
def run : List (Op Val) → M World (List (Ret Val))
  | [] => pure []
  | op :: ops => do
    let r ← catch_ (P.runOp op)
    let rs ← run ops
    pure (r :: rs)

end Prog

end Opt
