import Verif.Model.History
import Verif.Spec.OptionalApi
import Verif.Spec.ProgOK
import Verif.Spec.Unzip

/-!
# Histories over the specification, and what a client may do
-/

namespace Opt

namespace Spec

variable {Val : Type} (P : Prog Val)

/-- one operation of the specification -/
def runOp : Op Val → M (AState Val) (Ret Val)
  | .ctorDefault i => Prog.asRet (fun _ => .unit) (new i)
  | .ctorValue i src => Prog.asRet (fun _ => .unit) (ctorValue P i src)
  | .ctorFrom i j mv => Prog.asRet (fun _ => .unit) (ctorFrom P i j mv)
  | .dtor i => Prog.asRet (fun _ => .unit) (destroy P i)
  | .reset i => Prog.asRet (fun _ => .unit) (clear P i)
  | .assignFrom i j mv => Prog.asRet (fun _ => .unit) (assignFrom P i j mv)
  | .assignValue i src => Prog.asRet (fun _ => .unit) (assignValue P i src)
  | .emplace i src => Prog.asRet (fun _ => .unit) (emplace P i src)
  | .tryEmplace i src => Prog.asRet (fun _ => .unit) (tryEmplace P i src)
  | .swap i j => Prog.asRet (fun _ => .unit) (swap P i j)
  | .take i r => Prog.asRet (fun _ => .unit) (take P i r)
  | .takeIf i r f => Prog.asRet (fun _ => .unit) (takeIf P i r f)
  | .hasValue i => Prog.asRet .bool (engaged i)
  | .get i => Prog.asRet .val (getOrDie i)
  | .getUnchecked i => Prog.asRet .val (val i)
  | .valueOrThrow i => Prog.asRet .val (getOrThrow i)
  | .ptrOrNull i => Prog.asRet .opt (get i)
  | .valueOr i mv d => Prog.asRet .val (valueOr P i mv d)
  | .hasValueAnd i f => Prog.asRet .bool (hasValueAnd P i f)
  | .inspect i f => Prog.asRet (fun _ => .unit) (inspect P i f)
  | .mapOr i d f => Prog.asRet .val (mapOr P i d f)
  | .mapOrElse i d f => Prog.asRet .val (mapOrElse P i d f)
  | .map i r f => Prog.asRet (fun _ => .unit) (map P i r f)
  | .andThen i r f => Prog.asRet (fun _ => .unit) (andThen P i r f)
  | .orElse i r mv x => Prog.asRet (fun _ => .unit) (orElse P i r mv x)
  | .filter i r mv f => Prog.asRet (fun _ => .unit) (filter P i r mv f)
  | .orOp i j r mi mj => Prog.asRet (fun _ => .unit) (orOp P i j r mi mj)
  | .orAssignValue i src => Prog.asRet (fun _ => .unit) (orAssignValue P i src)
  | .orAssignFrom i j mv => Prog.asRet (fun _ => .unit) (orAssignFrom P i j mv)
  | .andOp i j r mv => Prog.asRet (fun _ => .unit) (andOp P i j r mv)
  | .xorOp i j r mi mj => Prog.asRet (fun _ => .unit) (xorOp P i j r mi mj)
  | .zip is r g => Prog.asRet (fun _ => .unit) (zip P is r g)
  | .zipWith is r g => Prog.asRet (fun _ => .unit) (zipWith P is r g)
  | .ioWrite i d => Prog.asRet .opt (ioWrite P i d)
  | .ioRead i d v => Prog.asRet .val (ioRead P i d v)
  | .cmp o rel i j => Prog.asRet .bool (compare P o rel i j)
  | .cmpNone o i => Prog.asRet .bool (compareNone o i)
  | .noneCmp o i => Prog.asRet .bool (noneCompare o i)
  | .cmpVal o rel i v => Prog.asRet .bool (compareVal P o rel i v)
  | .valCmp o rel v i => Prog.asRet .bool (valCompare P o rel v i)
  | .hash i h => Prog.asRet .word (hash P h i)
  | .forEach i f => Prog.asRet (fun _ => .unit) (inspect P i f)
  | .unzipArray q i mv rs => Prog.asRet (fun _ => .unit) (unzipNew P q i mv rs)
  | .unzipTuple q i mv ts ms => Prog.asRet (fun _ => .unit) (unzipVia P q i mv ts ms)

/-- a history of the specification -/
def run : List (Op Val) → M (AState Val) (List (Ret Val))
  | [] => pure []
  | op :: ops => do
    let r ← Prog.catch_ (runOp P op)
    let rs ← run ops
    pure (r :: rs)

/-- nothing exists, no calls yet -/
def start : AState Val := ⟨fun _ => none, ⟨0, []⟩⟩

end Spec

namespace Op

variable {Val : Type}

/-- values that come from outside are values of the element types -/
def Legal (P : Prog Val) : Op Val → Prop
  | .ctorValue i src => src.Legal P i
  | .assignValue i src => src.Legal P i
  | .emplace i src => src.Legal P i
  | .tryEmplace i src => src.Legal P i
  | .orAssignValue i src => src.Legal P i
  | .takeIf i _ f => f.Legal P i
  | .valueOr i _ d => d.Legal P i
  | .hasValueAnd i f => f.Legal P i
  | .inspect i f => f.Legal P i
  | .mapOr i _ f => f.Legal P i
  | .mapOrElse i _ f => f.Legal P i
  | .map i r f => f.Legal P i ∧ f.RetIn P r i
  | .andThen i r f => f.Legal P i ∧ ∀ v u, (P.elem i).Dom P.pw v → f.ret v = some u → (P.elem r).Dom P.pw u
  | .orElse _ r _ x => ∀ v, x = some v → (P.elem r).Dom P.pw v
  | .filter i _ _ f => f.Legal P i
  | .zip is r g => ∀ vs, P.TupleDom (is.map (·.1)) vs → (P.elem r).Dom P.pw (g vs)
  | .zipWith is r g => ∀ vs, P.TupleDom is vs → (P.elem r).Dom P.pw (g vs)
  | .ioRead i _ v => (P.elem i).Dom P.pw v
  | .forEach i f => f.Legal P i
  | .unzipArray q i _ rs => q.Legal P i (Prog.indexed rs)
  | .unzipTuple q i _ ts _ => q.Legal P i (Prog.indexed ts)
  | _ => True

/-- the options a source mentions -/
def srcUses : Src Val → List Nat
  | .opt j _ => [j]
  | _ => []

/-- the options an operation mentions as operands -/
def uses : Op Val → List Nat
  | .ctorDefault _ => []
  | .ctorValue _ src => srcUses src
  | .ctorFrom _ j _ => [j]
  | .dtor i => [i]
  | .reset i => [i]
  | .assignFrom i j _ => [i, j]
  | .assignValue i src => i :: srcUses src
  | .emplace i src => i :: srcUses src
  | .tryEmplace i src => i :: srcUses src
  | .swap i j => [i, j]
  | .take i _ => [i]
  | .takeIf i _ _ => [i]
  | .hasValue i => [i]
  | .get i => [i]
  | .getUnchecked i => [i]
  | .valueOrThrow i => [i]
  | .ptrOrNull i => [i]
  | .valueOr i _ d => i :: srcUses d
  | .hasValueAnd i _ => [i]
  | .inspect i _ => [i]
  | .mapOr i _ _ => [i]
  | .mapOrElse i _ _ => [i]
  | .map i _ _ => [i]
  | .andThen i _ _ => [i]
  | .orElse i _ _ _ => [i]
  | .filter i _ _ _ => [i]
  | .orOp i j _ _ _ => [i, j]
  | .orAssignValue i src => i :: srcUses src
  | .orAssignFrom i j _ => [i, j]
  | .andOp i j _ _ => [i, j]
  | .xorOp i j _ _ _ => [i, j]
  | .zip is _ _ => is.map (·.1)
  | .zipWith is _ _ => is
  | .ioWrite i _ => [i]
  | .ioRead i _ _ => [i]
  | .cmp _ _ i j => [i, j]
  | .cmpNone _ i => [i]
  | .noneCmp _ i => [i]
  | .cmpVal _ _ i _ => [i]
  | .valCmp _ _ _ i => [i]
  | .hash i _ => [i]
  | .forEach i _ => [i]
  | .unzipArray _ i _ _ => [i]
  | .unzipTuple _ i _ _ _ => [i]

/-- the option objects an operation makes -/
def makes : Op Val → List Nat
  | .ctorDefault i => [i]
  | .ctorValue i _ => [i]
  | .ctorFrom i _ _ => [i]
  | .take _ r => [r]
  | .takeIf _ r _ => [r]
  | .map _ r _ => [r]
  | .andThen _ r _ => [r]
  | .orElse _ r _ _ => [r]
  | .filter _ r _ _ => [r]
  | .orOp _ _ r _ _ => [r]
  | .andOp _ _ r _ => [r]
  | .xorOp _ _ r _ _ => [r]
  | .zip _ r _ => [r]
  | .zipWith _ r _ => [r]
  | .unzipArray _ _ _ rs => rs
  | .unzipTuple _ _ _ ts ms => ts ++ ms.map (·.1)
  | _ => []

/-- What a client must respect in a state where the options have the values `m`: operands exist, the place of a new
option is free, `get_unchecked` is for engaged options, the argument of `emplace` is not the
option itself, the results of `unzip` are moved from its temporaries. -/
def Allowed (m : Nat → Option (Option Val)) (op : Op Val) : Prop :=
  (∀ i ∈ op.uses, m i ≠ none) ∧ (∀ r ∈ op.makes, m r = none) ∧ op.makes.Nodup ∧
    match op with
    | .getUnchecked i => m i ≠ some none
    | .emplace i src => src.isSelf i = false
    | .unzipTuple _ _ _ ts ms => ∀ p ∈ ms, p.2 ∈ ts
    | _ => True

/-- what a client must respect, along a history starting in state `a` -/
def AllAllowed (P : Prog Val) : List (Op Val) → AState Val → Prop
  | [], _ => True
  | op :: ops, a => op.Allowed a.mem ∧
    match Prog.catch_ (Spec.runOp P op) a with
    | .ok _ a' => AllAllowed P ops a'
    | _ => True

/-- The value of a new option is constructed by a member initialiser; if that throws there is no option object (and no
destructor runs) whatever bytes it left.  Other operations construct in the storage of an existing empty option, or of the
base of the new one; for these options the result is `true`. -/
def inStorage : Op Val → Nat → Bool
  | .ctorValue .. => fun _ => false
  | .map .. => fun _ => false
  | .andThen .. => fun _ => false
  | .filter .. => fun _ => false
  | .zip .. => fun _ => false
  | .zipWith .. => fun _ => false
  | .unzipArray .. => fun _ => false
  | .unzipTuple _ _ _ _ ms => fun i => (ms.map (·.1)).contains i
  | _ => fun _ => true

/-- In state `a`: if the operation ends with an exception because a constructor failed that worked in the storage of an
option, this constructor left the sentinel bytes there.  It is the last numbered call. -/
def Harmless (P : Prog Val) (op : Op Val) (a : AState Val) : Prop :=
  ∀ a' evs i k, op.inStorage i = true → Spec.runOp P op a = .throw a' → a'.env.log = a.env.log ++ evs →
    Event.ctorFail i k ∈ evs → P.ThrowSafeAt i k (a'.env.tick - 1)

/-- all constructor calls that actually fail in this history are harmless -/
def AllHarmless (P : Prog Val) : List (Op Val) → AState Val → Prop
  | [], _ => True
  | op :: ops, a => op.Harmless P a ∧
    match Prog.catch_ (Spec.runOp P op) a with
    | .ok _ a' => AllHarmless P ops a'
    | _ => True

end Op

end Opt
