import Verif.Model.Machine

/-!
# `option<T>` as the element type of an `option` (option.hpp 1908-2280, 2812-2977, 3275-3306)

The machine of `Model/Machine` treats the operations of the element type as user code with parameters.  When the element
type is itself an `option<T>`, that user code is the library: its constructors, destructor and assignments are those of
the machine for `option<T>`.  `Prog.nest` turns the program with elements `T` into the program with elements `option<T>`.
-/

namespace Opt

variable {Val : Type}

/-- The element type `option<T>`.  Its abstract value is what the client sees: `has_value()` (1934, 1982, 2037, 2095) and
the contained value.  Its special members are trivial exactly when they are defaulted (2134-2280); the destructor is
trivial exactly when `T`'s is (1908-2107); it is a class. -/
def Elem.nest (pw : Nat) (E : Elem Val) : Elem (Option Val) where
  T := .option E.T
  decode := fun bs => if E.T.hasValue pw bs then some (E.decode (E.T.payload pw bs)) else none
  trivDtor := E.trivDtor
  trivCopyCtor := decide (E.members.copyCtor = .default)
  trivCopyAssign := decide (E.members.copyAssign = .default)
  trivMoveCtor := decide (E.members.moveCtor = .default)
  trivMoveAssign := decide (E.members.moveAssign = .default)
  scalar := false

/-- the bytes of option `i` after an operation that completed (or threw) -/
def Out.bytesAt {α : Type} (i : Nat) : Out World α → Bytes
  | .ok _ w => ((w.mem i).map (·.bytes)).getD []
  | .throw w => ((w.mem i).map (·.bytes)).getD []
  | _ => []

/-- the same program, where the storage of option `i` contains `old` and user code does (not) throw -/
def Prog.storage (P : Prog Val) (thr : Bool) (i : Nat) (old : Bytes) : Prog Val :=
  { P with
    throwsAt := fun _ => thr
    garbage := fun k m => if k = i then old else P.garbage k m }

/-- no option objects, `n` calls made -/
def World.fresh (n : Nat) : World := ⟨fun _ => none, ⟨n, []⟩⟩

/-- The representation of an `option<T>` that a constructor made in storage `old`: the default constructor (2832-2836) for
the empty value, the in-place constructor (2842-2872) for `v`.  (Copies of an empty option are the same as default
constructed ones, 2124-2129.) -/
def Prog.built (P : Prog Val) (i n : Nat) (x : Option Val) (old : Bytes) : Bytes :=
  match x with
  | none => ((P.storage false i old).ctorDefault i (World.fresh n)).bytesAt i
  | some v => ((P.storage false i old).ctorValue i (.args v) (World.fresh n)).bytesAt i

/-- The bytes left in the storage `old` by a constructor of `option<T>` whose construction of the `T` threw.
* Constructing the value (2842-2872): a member initialiser, only the constructor of `T` wrote anything (1958-1972,
  2072-2082); `C51_left_by_value`.
* The copy, move and converting constructors (2124-2129, 2874-2901 and the constructors of `option_base`): the base was
  default constructed (empty), the constructor of `T` left its bytes (unless it worked on a temporary, 652-658), and the
  destructor of the base found the option empty; `C51_left_by_copy`. -/
def Prog.leftOver (P : Prog Val) (i : Nat) (k : Kind) (n : Nat) (old : Bytes) : Bytes :=
  if k = .args then
    if (P.elem i).scalar then old else wr old 0 (P.partial_ i k n ((P.elem i).T.payload P.pw old))
  else
    let b := ((P.storage true i old).ctorDefault i (World.fresh n)).bytesAt i
    if (P.cxx20 || !(P.elem i).trivMoveAssign) && !(P.elem i).scalar then
      wr b 0 (P.partial_ i k n ((P.elem i).T.payload P.pw b))
    else b

/-- The program whose options hold `option<T>` where those of `P` hold `T`.  `g` is the contents of fresh storage.
* destructor (1973-1977, 2083-2087): destroys the value if there is one;
* moving from an option moves from its value and leaves it engaged (2112-2129);
* an assignment or swap that throws (2112-2123, 3252-3269): the value of an engaged option is in the state its own
  operation left it in, an empty target stays empty, a source may have been moved from;
* conversions convert the value (2874-2901).
Simplification: one call of an operation of `option<T>` is one numbered call, as it calls at most one operation of `T`
that can throw (`throwsAt` may also claim that constructing an empty option throws, which only adds behaviours). -/
def Prog.nest (P : Prog Val) (g : Nat → Nat → Bytes) : Prog (Option Val) where
  pw := P.pw
  cxx20 := P.cxx20
  cls := P.cls
  elemOf := fun c => (P.elemOf c).nest P.pw
  throwsAt := P.throwsAt
  garbage := g
  build := P.built
  partial_ := P.leftOver
  dead := fun i n old =>
    if (P.elem i).T.hasValue P.pw old then wr old 0 (P.dead i n ((P.elem i).T.payload P.pw old)) else old
  moved := fun f i n x => x.map (P.moved f i n)
  selfMoved := fun i n x => x.map (P.selfMoved i n)
  broken := fun i n x y =>
    match x, y with
    | some u, some v => some (P.broken i n u v)
    | some u, none => some (P.moved true i n u)
    | none, _ => none
  conv := fun c d x => x.map (P.conv c d)

/-- `n` layers of `option` around a value -/
def OptN : Nat → Type → Type
  | 0, V => V
  | n + 1, V => Option (OptN n V)

/-- the program whose options hold `n` layers of `option` around `T`; `g k` is the fresh storage of options with `k + 1`
further layers inside -/
def Prog.nestN (P : Prog Val) (g : Nat → Nat → Nat → Bytes) : (n : Nat) → Prog (OptN n Val)
  | 0 => P
  | n + 1 => (P.nestN g n).nest (g n)

end Opt
