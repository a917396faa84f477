import Verif.Spec.History

/-!
# The library's generic test, for every type and all values

`template_option_case_body<T>` (test/option.test.cpp 198-1065) is what the library's authors expect of `option<T>`.  They run
it for some thirty types and five sample values each.  Here it is a list of operations with the results that `CHECK`
demands, for an unknown type `T`, unknown values and unknown other types that the test uses.

The address of an option says what it contains:
* 0, 8, 16, ...: `T`
* 1, 9, ...: `option<int>`
* 2, 10, ...: `int` or `unsigned`
* 3, 11, ...: `std::tuple<T, T>` or `std::pair<T, T>`
* 4, 12, ...: `std::tuple<T, T, T, T>`
* 5, 13, ...: `std::array<T, 3>`
* 6, 14, ...: the local `struct s1`

Left out: what is checked on types only (`std::is_same_v`, deduction guides, sizes: C04), iterator arithmetic (C31), `flatten`
(C33), `zip_with` of a function without result, and `T` that is a reference.  Not distinguished: `const` objects.
Assigning through a reference (`*a = v1`) is written as a call of `inspect` with a function that assigns.  The body of a `for` loop
that checks its variable is written as the loop and the check after it.
-/

namespace Opt.Suite

variable {Val : Type}

/-- operations and what they have to give back -/
abbrev Script (Val : Type) : Type := List (Op Val × Ret Val)

/-- the machine gives back what the script says, and nothing goes wrong -/
def Passes (P : Prog Val) (s : Script Val) : Prop := ∃ w, P.run (s.map (·.1)) Prog.start = .ok (s.map (·.2)) w

/-- what the test takes from its type -/
structure Kit (Val : Type) where
  /-- the comparison operators -/
  rel : CmpOp → Val → Val → Bool
  /-- `sample.values[n]` -/
  v : Nat → Val
  /-- `T{}` -/
  dflt : Val
  /-- a number -/
  num : Int → Val
  /-- an `option<int>` -/
  nest : Option Int → Val
  /-- a tuple, array or structure; the number is its kind: 3, 4, 5, 6 as above -/
  tup : Nat → List Val → Val
  /-- the elements of tuples -/
  q : Parts Val
  /-- `static_cast<int>` -/
  toInt : Val → Val

/-- what the types have to fulfil -/
structure Kit.OK (K : Kit Val) (P : Prog Val) : Prop where
  ok : P.OK
  /-- no user code throws -/
  calm : ∀ n, P.throwsAt n = false
  /-- the address says what is contained -/
  cls : ∀ i, P.cls i = P.cls (i % 8)
  v : ∀ n, (P.elem 0).Dom P.pw (K.v n)
  dflt : (P.elem 0).Dom P.pw K.dflt
  num : ∀ x, (P.elem 2).Dom P.pw (K.num x)
  nest : ∀ x, (P.elem 1).Dom P.pw (K.nest x)
  pair : ∀ x y, (P.elem 0).Dom P.pw x → (P.elem 0).Dom P.pw y → (P.elem 3).Dom P.pw (K.tup 3 [x, y])
  tuple : ∀ x y z u, (P.elem 0).Dom P.pw x → (P.elem 0).Dom P.pw y → (P.elem 0).Dom P.pw z → (P.elem 0).Dom P.pw u →
    (P.elem 4).Dom P.pw (K.tup 4 [x, y, z, u])
  array : ∀ x y z, (P.elem 0).Dom P.pw x → (P.elem 0).Dom P.pw y → (P.elem 0).Dom P.pw z →
    (P.elem 5).Dom P.pw (K.tup 5 [x, y, z])
  record : ∀ x y n, (P.elem 0).Dom P.pw x → (P.elem 0).Dom P.pw y → (P.elem 6).Dom P.pw (K.tup 6 [x, y, K.num n])
  /-- tuples have elements -/
  elems : ∀ c, c = 3 ∨ c = 4 ∨ c = 5 → ∀ v, (P.elem c).Dom P.pw v → ∀ k, (P.elem 0).Dom P.pw (K.q.part k v) ∧
    ∀ f n, (P.elem c).Dom P.pw (K.q.after f k n v)
  part : ∀ c k xs x, (∀ y ∈ xs, (P.elem 0).Dom P.pw y) → xs[k]? = some x → K.q.part k (K.tup c xs) = x
  toInt : ∀ i j x, i % 8 = 2 → j % 8 = 0 → P.convFrom i j x = K.toInt x
  /-- the samples are equal to themselves -/
  eqv : ∀ n, K.rel .eq (K.v n) (K.v n) = true
  eqd : K.rel .eq K.dflt K.dflt = true
  eqn : ∀ x, K.rel .eq (K.num x) (K.num x) = true
  eqo : ∀ x, K.rel .eq (K.nest x) (K.nest x) = true
  /-- the first two samples differ -/
  ne01 : K.rel .eq (K.v 0) (K.v 1) = false
  ne10 : K.rel .eq (K.v 1) (K.v 0) = false

/-! ## Checks -/

/-- a statement -/
def go (op : Op Val) : Op Val × Ret Val := (op, .unit)
/-- `CHECK_UNARY(a.has_value())` -/
def has (i : Nat) : Op Val × Ret Val := (.hasValue i, .bool true)
/-- `CHECK_UNARY_FALSE(a.has_value())` -/
def hasnt (i : Nat) : Op Val × Ret Val := (.hasValue i, .bool false)
/-- `CHECK_EQ(a, opt::none)` -/
def isNone (i : Nat) : Op Val × Ret Val := (.cmpNone .eq i, .bool true)
/-- `CHECK_EQ(a, x)` -/
def Kit.is (K : Kit Val) (i : Nat) (x : Val) : Op Val × Ret Val := (.cmpVal .eq K.rel i x, .bool true)
/-- `CHECK_EQ(expression, x)` -/
def gives (op : Op Val) (x : Val) : Op Val × Ret Val := (op, .val x)
/-- the end of variables -/
def gone (is : List Nat) : Script Val := is.map fun i => go (.dtor i)

/-- a callable that leaves its argument alone -/
def look {β : Type} (f : Val → β) : Prog.Fn Val β := ⟨f, id, id⟩
/-- a callable that assigns `x` to its argument -/
def poke {β : Type} (x : Val) (f : Val → β) : Prog.Fn Val β := ⟨f, fun _ => x, id⟩

namespace Kit

variable (K : Kit Val)

/-- `x == v_n ? a : b` -/
def pick {β : Type} (n : Nat) (a b : β) (x : Val) : β := if K.rel .eq x (K.v n) then a else b

/-- `const opt::option<T> i{v_n};` -/
def new (i n : Nat) : Op Val × Ret Val := go (.ctorValue i (.copy (K.v n)))
/-- `i = v_n;` -/
def asg (i n : Nat) : Op Val × Ret Val := go (.assignValue i (.copy (K.v n)))
/-- `i = opt::option<T>{v_n};`, the temporary being 56 -/
def asgTmp (i n : Nat) : Script Val := [K.new 56 n, go (.assignFrom i 56 true), go (.dtor 56)]
/-- `const T tmp = v_n; i.emplace(tmp);` -/
def empl (i n : Nat) : Op Val × Ret Val := go (.emplace i (.copy (K.v n)))
/-- `*i = v_n;` -/
def put (i n : Nat) : Op Val × Ret Val := go (.inspect i (poke (K.v n) fun _ => ()))

/-- `i = opt::option<T>{};` -/
def asgEmpty (i : Nat) : Script Val := [go (.ctorDefault 56), go (.assignFrom i 56 true), go (.dtor 56)]
/-- `i = opt::option<T>{j};` -/
def asgCopy (i j : Nat) : Script Val := [go (.ctorFrom 56 j false), go (.assignFrom i 56 true), go (.dtor 56)]

/-- 220-244 -/
def constructor : Script Val :=
  [go (.ctorDefault 0), hasnt 0, go (.ctorDefault 8), hasnt 8, go (.ctorDefault 16), hasnt 16,
    go (.ctorValue 24 (.args K.dflt)), K.is 24 K.dflt, go (.ctorDefault 32), hasnt 32, K.empl 32 0, has 32, K.is 32 (K.v 0),
    K.empl 32 1, has 32, K.is 32 (K.v 1)] ++ gone [32, 24, 16, 8, 0]

/-- 245-257 -/
def inPlace : Script Val :=
  [go (.ctorValue 0 (.args K.dflt)), has 0, K.is 0 K.dflt, go (.dtor 0), go (.ctorValue 8 (.copy (K.v 0))), has 8, K.is 8 (K.v 0)] ++
    K.asgTmp 8 1 ++ [has 8, K.is 8 (K.v 1)] ++ gone [8]

/-- 258-264 -/
def get : Script Val :=
  [K.new 0 0, gives (.get 0) (K.v 0), gives (.get 0) (K.v 0), gives (.get 0) (K.v 0), gives (.get 0) (K.v 0)] ++ gone [0]

/-- 265-294 -/
def assignA : Script Val :=
  [K.new 0 0, go (.reset 0), hasnt 0, K.new 48 1, go (.assignFrom 0 48 false), go (.dtor 48), has 0, K.is 0 (K.v 1),
    go (.ctorDefault 48), go (.assignFrom 0 48 false), go (.dtor 48), hasnt 0] ++ K.asgTmp 0 2 ++ [has 0, K.is 0 (K.v 2)] ++
    asgEmpty 0 ++ [hasnt 0, hasnt 0, K.asg 0 3, has 0, K.is 0 (K.v 3), K.asg 0 4, has 0, K.is 0 (K.v 4)] ++ gone [0]

/-- 296-317 -/
def assignB : Script Val :=
  [go (.ctorDefault 8), hasnt 8, K.asg 8 0, has 8, K.is 8 (K.v 0), K.asg 8 0, has 8, K.is 8 (K.v 0), K.asg 8 1, has 8, K.is 8 (K.v 1)] ++
    asgEmpty 8 ++ [hasnt 8] ++ asgEmpty 8 ++ [hasnt 8] ++ K.asgTmp 8 0 ++
    [has 8, K.is 8 (K.v 0), go (.reset 8), hasnt 8, go (.reset 8), hasnt 8] ++ gone [8]

/-- 319-379 -/
def assignC : Script Val :=
  [go (.ctorDefault 16), hasnt 16, K.asg 16 0, has 16, K.is 16 (K.v 0), go (.ctorDefault 24), hasnt 24,
    go (.assignFrom 24 16 false), has 16, has 24, K.is 24 (K.v 0), go (.reset 16), hasnt 16, has 24, K.is 24 (K.v 0), go (.reset 24),
    go (.assignFrom 16 24 false), hasnt 16, hasnt 24] ++ asgCopy 16 24 ++ [hasnt 16, hasnt 24, K.asg 24 0, has 24, K.is 24 (K.v 0)] ++
    asgCopy 16 24 ++ [has 16, has 24, K.is 24 (K.v 0), K.is 16 (K.v 0)] ++ asgCopy 24 16 ++ [has 16, has 24, go (.reset 24), hasnt 24] ++
    asgCopy 16 24 ++ [hasnt 16, hasnt 24, K.asg 16 0, has 16, go (.assignFrom 24 16 true), has 24, has 16, go (.reset 24), K.asg 16 0,
      hasnt 24, has 16, go (.ctorFrom 56 16 true), go (.assignFrom 24 56 true), go (.dtor 56), has 24, has 16] ++ gone [24, 16]

/-- 380-454 -/
def refAssign : Script Val :=
  [go (.ctorDefault 0), isNone 0, K.asg 0 0, K.is 0 (K.v 0), K.put 0 1, K.is 0 (K.v 1), K.empl 0 1,
    K.put 0 0, has 0, K.is 0 (K.v 0), K.put 0 1, has 0, K.is 0 (K.v 1), K.put 0 0, has 0, K.is 0 (K.v 0), K.put 0 2, has 0, K.is 0 (K.v 2),
    K.empl 0 1, K.put 0 0, K.is 0 (K.v 0), K.empl 0 0, K.put 0 1, K.is 0 (K.v 1), K.put 0 0, has 0, K.is 0 (K.v 0), K.put 0 1, has 0,
    K.is 0 (K.v 1), K.put 0 1, has 0, K.is 0 (K.v 1), K.put 0 0, K.put 0 0, K.put 0 1, K.put 0 0, has 0, K.is 0 (K.v 0),
    go (.inspect 0 (poke K.dflt fun _ => ())), has 0, K.is 0 K.dflt, K.put 0 1, has 0, K.is 0 (K.v 1),
    go (.inspect 0 (poke K.dflt fun _ => ())), has 0, K.is 0 K.dflt, go (.inspect 0 (poke K.dflt fun _ => ())), has 0, K.is 0 K.dflt] ++
    gone [0]

/-- 455-464 -/
def reset : Script Val :=
  [go (.ctorDefault 0), hasnt 0, go (.reset 0), hasnt 0, K.asg 0 0, has 0, go (.reset 0), hasnt 0] ++ gone [0]

/-- 465-476 -/
def emplace : Script Val :=
  [K.new 0 0, K.is 0 (K.v 0), K.empl 0 0, K.is 0 (K.v 0), go (.reset 0), isNone 0, K.empl 0 1, K.is 0 (K.v 1), K.empl 0 0, K.is 0 (K.v 0)] ++
    gone [0]

/-- 477-488 -/
def valueOrThrow : Script Val :=
  [K.new 0 0, gives (.valueOrThrow 0) (K.v 0), gives (.valueOrThrow 0) (K.v 0), gives (.valueOrThrow 0) (K.v 0),
    gives (.valueOrThrow 0) (K.v 0), go (.reset 0), (.valueOrThrow 0, .threw), (.valueOrThrow 0, .threw), (.valueOrThrow 0, .threw),
    (.valueOrThrow 0, .threw)] ++ gone [0]

/-- 489-502 -/
def valueOr : Script Val :=
  [go (.ctorDefault 0), gives (.valueOr 0 false (.copy (K.v 0))) (K.v 0), K.asg 0 1, gives (.valueOr 0 false (.copy (K.v 2))) (K.v 1),
    gives (.valueOr 0 true (.copy (K.v 3))) (K.v 1), go (.ctorDefault 8), gives (.valueOr 8 false (.args K.dflt)) K.dflt, K.asg 8 0,
    gives (.valueOr 8 false (.args K.dflt)) (K.v 0)] ++ gone [8, 0]

/-- 503-512 -/
def valueOrConstruct : Script Val :=
  [go (.ctorDefault 0), gives (.valueOr 0 false (.copy (K.v 0))) (K.v 0), K.asg 0 1, gives (.valueOr 0 false (.copy (K.v 2))) (K.v 1),
    go (.reset 0), gives (.valueOr 0 false (.args K.dflt)) K.dflt] ++ gone [0]

/-- `CHECK_EQ(opt::option<T>{v_n}.and_then(f), x)`, `x` empty: `none` -/
def thenIs (src : Op Val × Ret Val) (f : Val → Option Val) (x : Option Val) : Script Val :=
  [src, go (.andThen 0 2 (look f)), match x with | none => isNone 2 | some y => K.is 2 y] ++ gone [2, 0]

/-- 513-527 -/
def andThen : Script Val :=
  let fn1 := K.pick 0 (some (K.num 0)) (some (K.num 1))
  let fn2 := K.pick 1 (some (K.num 123)) none
  K.thenIs (K.new 0 0) fn1 (some (K.num 0)) ++ K.thenIs (K.new 0 1) fn1 (some (K.num 1)) ++ K.thenIs (go (.ctorDefault 0)) fn1 none ++
    (K.thenIs (K.new 0 0) fn2 none ++ K.thenIs (K.new 0 1) fn2 (some (K.num 123)) ++ K.thenIs (go (.ctorDefault 0)) fn2 none)

/-- `CHECK_EQ(opt::option<T>{v_n}.map(f), x)`, the result in `r` -/
def mapIs (src : Op Val × Ret Val) (r : Nat) (f : Val → Val) (x : Option Val) : Script Val :=
  [src, go (.map 0 r (look f)), match x with | none => isNone r | some y => K.is r y] ++ gone [r, 0]

/-- 528-550 -/
def map : Script Val :=
  let fn1 := K.pick 0 (K.v 1) (K.v 0)
  let fn2 := K.pick 0 (K.num 100) (K.num (-1))
  let fn3 := fun _ => K.num 1
  K.mapIs (K.new 0 0) 8 fn1 (some (K.v 1)) ++ K.mapIs (K.new 0 1) 8 fn1 (some (K.v 0)) ++ K.mapIs (go (.ctorDefault 0)) 8 fn1 none ++
    (K.mapIs (K.new 0 0) 2 fn2 (some (K.num 100)) ++ K.mapIs (K.new 0 1) 2 fn2 (some (K.num (-1))) ++
      K.mapIs (go (.ctorDefault 0)) 2 fn2 none) ++
    (K.mapIs (K.new 0 0) 2 fn3 (some (K.num 1)) ++ K.mapIs (K.new 0 1) 2 fn3 (some (K.num 1)) ++ K.mapIs (go (.ctorDefault 0)) 2 fn3 none)

/-- 551-565; `var` is `false` for the first two calls -/
def mapRef : Script Val :=
  let fn4 := K.pick 0 (K.nest none) (K.nest (some 1))
  [K.new 0 0, go (.map 0 1 (look fn4)), K.is 1 (K.nest none), go (.dtor 1), K.is 0 (K.v 0), K.asg 0 1,
    go (.map 0 1 (look fn4)), K.is 1 (K.nest (some 1)), go (.dtor 1), K.is 0 (K.v 1),
    go (.map 0 1 (poke (K.v 0) fun _ => fn4 (K.v 0))), K.is 1 (K.nest none), go (.dtor 1), K.is 0 (K.v 0)] ++ gone [0]

/-- `CHECK_EQ(opt::option<T>{v_n}.or_else(fn1), x)` -/
def elseIs (src : Op Val × Ret Val) (x : Val) : Script Val :=
  [src, go (.orElse 0 8 true (some (K.v 0))), K.is 8 x] ++ gone [8, 0]

/-- 567-572 -/
def orElse : Script Val :=
  K.elseIs (K.new 0 0) (K.v 0) ++ K.elseIs (K.new 0 1) (K.v 1) ++ K.elseIs (go (.ctorDefault 0)) (K.v 0)

/-- `j = i.take();` -/
def takeTo (i j : Nat) : Script Val := [go (.take i 56), go (.assignFrom j 56 true), go (.dtor 56)]

/-- 573-594 -/
def take : Script Val :=
  [go (.ctorDefault 0), go (.take 0 8), hasnt 0, hasnt 0, K.asg 0 0, hasnt 8, has 0] ++ takeTo 0 8 ++ [has 8, K.is 8 (K.v 0), hasnt 0] ++
    takeTo 8 0 ++ [has 0, hasnt 8, K.is 0 (K.v 0), K.asg 0 1, has 0, gives (.get 0) (K.v 1), go (.take 0 56), go (.dtor 56), hasnt 0] ++
    gone [8, 0]

/-- 595-611 -/
def cast : Script Val :=
  [K.new 0 0, K.is 0 (K.v 0), go (.ctorFrom 8 0 false), K.is 8 (K.v 0), K.new 56 1, go (.ctorFrom 64 56 true), go (.assignFrom 8 64 true)] ++
    gone [64, 56] ++ [K.is 8 (K.v 1)] ++
    [K.new 16 0, K.is 16 (K.v 0), go (.ctorFrom 2 16 false), gives (.get 2) (K.toInt (K.v 0)), K.new 56 1, go (.ctorFrom 10 56 true),
      go (.assignFrom 2 10 true)] ++ gone [10, 56] ++ [gives (.get 2) (K.toInt (K.v 1))] ++ gone [2, 16, 8, 0]

/-- 642-650 -/
def ptr : Script Val :=
  [K.new 0 0, (.ptrOrNull 0, .opt (some (K.v 0))), go (.reset 0), (.ptrOrNull 0, .opt none), K.asg 0 1, (.ptrOrNull 0, .opt (some (K.v 1)))] ++
    gone [0]

/-- `CHECK_EQ(a.filter(f), x)` -/
def filterIs (f : Prog.Fn Val Bool) (x : Option Val) : Script Val :=
  [go (.filter 0 8 false f), match x with | none => isNone 8 | some y => K.is 8 y] ++ gone [8]

/-- 651-676 -/
def filter : Script Val :=
  let fn1 := look (K.pick 0 true false)
  let fn2 := poke (K.v 1) (K.pick 0 true false)
  [go (.ctorDefault 0), K.asg 0 0] ++ K.filterIs fn1 (some (K.v 0)) ++ [K.asg 0 1] ++ K.filterIs fn1 none ++ [go (.reset 0)] ++
    K.filterIs fn1 none ++ [K.asg 0 0] ++ K.filterIs fn2 (some (K.v 1)) ++ [K.is 0 (K.v 1), K.asg 0 1] ++ K.filterIs fn2 none ++
    [K.is 0 (K.v 1)] ++ gone [0]

/-- `CHECK_EQ(opt::option<T>{v_n}.map_or(d, f), x)` -/
def mapOrIs (src : Op Val × Ret Val) (d : Val) (f : Val → Val) (x : Val) : Script Val :=
  [src, gives (.mapOr 0 d (look f)) x] ++ gone [0]

/-- 709-726 -/
def mapOr : Script Val :=
  let fn1 := K.pick 0 (K.v 1) (K.v 0)
  let fn2 := K.pick 0 (K.num 0) (K.num 1)
  mapOrIs (K.new 0 0) (K.v 0) fn1 (K.v 1) ++ mapOrIs (K.new 0 0) (K.v 1) fn1 (K.v 1) ++ mapOrIs (K.new 0 1) (K.v 0) fn1 (K.v 0) ++
    mapOrIs (K.new 0 1) (K.v 1) fn1 (K.v 0) ++ mapOrIs (go (.ctorDefault 0)) (K.v 0) fn1 (K.v 0) ++
    mapOrIs (go (.ctorDefault 0)) (K.v 1) fn1 (K.v 1) ++ mapOrIs (K.new 0 0) (K.num 3) fn2 (K.num 0) ++
    mapOrIs (K.new 0 1) (K.num 3) fn2 (K.num 1) ++ mapOrIs (go (.ctorDefault 0)) (K.num 3) fn2 (K.num 3)

/-- `CHECK_EQ(opt::option<T>{v_n}.map_or_else(d, f), x)` -/
def mapOrElseIs (src : Op Val × Ret Val) (d : Val) (f : Val → Val) (x : Val) : Script Val :=
  [src, gives (.mapOrElse 0 d (look f)) x] ++ gone [0]

/-- 727-747 -/
def mapOrElse : Script Val :=
  let fn1 := K.pick 0 (K.v 1) (K.v 0)
  let fn3 := K.pick 0 (K.num 1) (K.num (-1))
  mapOrElseIs (K.new 0 0) (K.v 0) fn1 (K.v 1) ++ mapOrElseIs (K.new 0 1) (K.v 0) fn1 (K.v 0) ++
    mapOrElseIs (go (.ctorDefault 0)) (K.v 0) fn1 (K.v 0) ++ mapOrElseIs (K.new 0 0) (K.num 0) fn3 (K.num 1) ++
    mapOrElseIs (K.new 0 1) (K.num 0) fn3 (K.num (-1)) ++ mapOrElseIs (go (.ctorDefault 0)) (K.num 0) fn3 (K.num 0)

/-- 748-770 -/
def takeIf : Script Val :=
  [K.new 0 0, go (.takeIf 0 8 (look (K.pick 0 true false))), K.is 8 (K.v 0), hasnt 0, K.empl 0 0,
    go (.takeIf 0 56 (look (K.pick 1 true false))), go (.assignFrom 8 56 true), go (.dtor 56), K.is 0 (K.v 0), hasnt 8,
    K.asg 0 1, K.is 0 (K.v 1), go (.takeIf 0 56 (poke (K.v 0) fun _ => true)), go (.assignFrom 8 56 true), go (.dtor 56), K.is 8 (K.v 0),
    hasnt 0] ++ gone [8, 0]

/-- 771-780 -/
def hasValueAnd : Script Val :=
  let f0 := look (K.pick 0 true false)
  let f1 := look (K.pick 1 true false)
  [K.new 0 0, (.hasValueAnd 0 f0, .bool true), (.hasValueAnd 0 f1, .bool false), go (.reset 0), (.hasValueAnd 0 f0, .bool false),
    (.hasValueAnd 0 f1, .bool false)] ++ gone [0]

/-- 781-797 -/
def inspect : Script Val :=
  [go (.ctorDefault 0), go (.inspect 0 (look fun _ => ())), K.put 0 0, hasnt 0, K.asg 0 0, K.is 0 (K.v 0), K.put 0 1, K.is 0 (K.v 1),
    K.put 0 2, K.put 0 3, K.is 0 (K.v 3)] ++ gone [0]

/-- 799-825: the elements go through temporaries 56, 64, ... -/
def unzipTuple : Script Val :=
  let u := Op.unzipTuple K.q 4 false [56, 64, 72, 80] [(8, 56), (16, 64), (24, 72), (32, 80)]
  [go (.ctorValue 4 (.args (K.tup 4 [K.v 0, K.v 1, K.v 2, K.v 3]))), has 4, go u, has 8, gives (.get 8) (K.v 0), has 16, gives (.get 16) (K.v 1),
    has 24, gives (.get 24) (K.v 2), has 32, gives (.get 32) (K.v 3), go (.reset 4)] ++ gone [32, 24, 16, 8] ++
    [go u, hasnt 8, hasnt 16, hasnt 24, hasnt 32] ++ gone [32, 24, 16, 8, 4]

/-- 826-844 -/
def unzipPair : Script Val :=
  let u := Op.unzipTuple K.q 3 false [56, 64] [(8, 56), (16, 64)]
  [go (.ctorValue 3 (.args (K.tup 3 [K.v 0, K.v 1]))), has 3, go u, has 8, gives (.get 8) (K.v 0), has 16, gives (.get 16) (K.v 1), go (.reset 3)] ++
    gone [16, 8] ++ [go u, hasnt 8, hasnt 16] ++ gone [16, 8, 3]

/-- 845-867 -/
def unzipArray : Script Val :=
  let u := Op.unzipArray K.q 5 false [8, 16, 24]
  [go (.ctorValue 5 (.args (K.tup 5 [K.v 0, K.v 1, K.v 2]))), has 5, go u, has 8, gives (.get 8) (K.v 0), has 16, gives (.get 16) (K.v 1), has 24,
    gives (.get 24) (K.v 2), go (.reset 5)] ++ gone [24, 16, 8] ++ [go u, hasnt 8, hasnt 16, hasnt 24] ++ gone [24, 16, 8, 5]

/-- 868-911; the loops over the empty option would assign -/
def loops : Script Val :=
  [go (.ctorDefault 0), go (.forEach 0 (poke (K.v 4) fun _ => ())), hasnt 0, K.asg 0 0, gives (.get 0) (K.v 0),
    go (.forEach 0 (look fun _ => ())), K.is 0 (K.v 0), K.asg 0 1, go (.forEach 0 (look fun _ => ())), K.is 0 (K.v 1),
    go (.forEach 0 (poke (K.v 2) fun _ => ())), K.is 0 (K.v 2), K.asg 0 3, go (.forEach 0 (look fun _ => ())), K.is 0 (K.v 3)] ++ gone [0]

/-- 948-971 -/
def zip : Script Val :=
  let z := fun r => Op.zip [(0, false), (8, false)] r (K.tup 3)
  [K.new 0 0, K.new 8 1, go (z 3), has 3, gives (.get 3) (K.tup 3 [K.v 0, K.v 1]), go (.reset 0), go (z 11), go (.assignFrom 3 11 true),
    go (.dtor 11), hasnt 3, go (.reset 8), go (z 11), go (.assignFrom 3 11 true), go (.dtor 11), hasnt 3] ++ gone [3, 8, 0]

/-- the callable of 973-975 -/
def fn1 : List Val → Val
  | [x] => K.pick 0 (K.num 1) (K.num 0) x
  | _ => K.num 0

/-- the callable of 985-987 -/
def fn2 : List Val → Val
  | [x, y] => K.tup 6 [K.pick 0 (K.v 1) (K.v 0) x, y, K.num (if K.rel .eq x (K.v 0) && K.rel .eq y (K.v 0) then 1 else -1)]
  | _ => K.tup 6 [K.v 0, K.v 0, K.num 0]

/-- `a = opt::zip_with(fn2, ...)` with temporaries 16, 24 and 14 -/
def zipTo (x y : Op Val × Ret Val) : Script Val :=
  [x, y, go (.zipWith [16, 24] 14 K.fn2), go (.assignFrom 6 14 true)] ++ gone [14, 24, 16]

/-- 972-1004 -/
def zipWith : Script Val :=
  [K.new 0 0, go (.zipWith [0] 2 K.fn1), K.is 2 (K.num 1)] ++ gone [2, 0] ++ [K.new 0 1, go (.zipWith [0] 2 K.fn1), K.is 2 (K.num 0)] ++
    gone [2, 0] ++ [go (.ctorDefault 0), go (.zipWith [0] 2 K.fn1), isNone 2] ++ gone [2, 0] ++
    ([K.new 16 0, K.new 24 0, go (.zipWith [16, 24] 6 K.fn2)] ++ gone [24, 16] ++ [gives (.get 6) (K.tup 6 [K.v 1, K.v 0, K.num 1])] ++
      K.zipTo (K.new 16 1) (K.new 24 0) ++ [gives (.get 6) (K.tup 6 [K.v 0, K.v 0, K.num (-1)])] ++
      K.zipTo (go (.ctorDefault 16)) (K.new 24 1) ++ [isNone 6] ++ K.zipTo (K.new 16 1) (go (.ctorDefault 24)) ++ [isNone 6]) ++
    [go (.zipWith [] 8 fun _ => K.v 0), has 8] ++ gone [8, 6]

/-- 1015-1025: `from_nullable` (3383-3390) makes its result from `*ptr` or leaves it empty -/
def fromNullable : Script Val :=
  [K.new 8 0, K.is 8 (K.v 0), go (.ctorDefault 16), hasnt 16] ++ gone [16, 8]

/-- 1026-1047 -/
def swap : Script Val :=
  [K.new 0 0, K.new 8 1, K.is 0 (K.v 0), K.is 8 (K.v 1), go (.swap 0 8), K.is 0 (K.v 1), K.is 8 (K.v 0), go (.reset 0), isNone 0, K.is 8 (K.v 0),
    go (.swap 0 8), K.is 0 (K.v 0), isNone 8, go (.swap 8 0), isNone 0, K.is 8 (K.v 0), go (.reset 8), go (.swap 0 8), isNone 0, isNone 8] ++
    gone [8, 0]

/-- `a.try_emplace(v_n);` -/
def tryPut (i n : Nat) : Op Val × Ret Val := go (.tryEmplace i (.copy (K.v n)))

/-- 1048-1064 -/
def tryEmplace : Script Val :=
  [K.new 0 0, K.tryPut 0 1, K.is 0 (K.v 0), K.tryPut 0 0, K.is 0 (K.v 0), go (.reset 0), K.tryPut 0 0, K.is 0 (K.v 0), go (.reset 0),
    K.tryPut 0 1, K.is 0 (K.v 1), go (.reset 0), K.tryPut 0 2, K.is 0 (K.v 2)] ++ gone [0]

/-- all of it -/
def suite : List (Script Val) :=
  [K.constructor, K.inPlace, K.get, K.assignA, K.assignB, K.assignC, K.refAssign, K.reset, K.emplace, K.valueOrThrow, K.valueOr,
    K.valueOrConstruct, K.andThen, K.map, K.mapRef, K.orElse, K.take, K.cast, K.ptr, K.filter, K.mapOr, K.mapOrElse, K.takeIf, K.hasValueAnd,
    K.inspect, K.unzipTuple, K.unzipPair, K.unzipArray, K.loops, K.zip, K.zipWith, K.fromNullable, K.swap, K.tryEmplace]

/-! ## The tests of the operators (test/operators.test.cpp) and of `opt::io` (test/functions.test.cpp 36-73)

They are written for `int` and the values 1 and 2.  Here they are for any type and any two values of which the first is less. -/

/-- what a comparison operator says when its operands compare like this -/
def means : CmpOp → Ordering → Bool
  | .eq, c => c == .eq
  | .ne, c => c != .eq
  | .lt, c => c == .lt
  | .le, c => c != .gt
  | .gt, c => c == .gt
  | .ge, c => c != .lt

/-- `v0 < v1` -/
structure Ordered : Prop where
  same : ∀ o n, K.rel o (K.v n) (K.v n) = means o .eq
  up : ∀ o, K.rel o (K.v 0) (K.v 1) = means o .lt
  down : ∀ o, K.rel o (K.v 1) (K.v 0) = means o .gt

/-- `struct values` (10-15): `A` is 0, `B` is 8, `E` is 16 -/
def fixture (s : Script Val) : Script Val := [K.new 0 0, K.new 8 1, go (.ctorDefault 16)] ++ s ++ gone [16, 8, 0]

/-- `CHECK_UNARY(i o j)` or `CHECK_UNARY_FALSE(i o j)` -/
def both (o : CmpOp) (i j : Nat) (b : Bool) : Op Val × Ret Val := (.cmp o K.rel i j, .bool b)
/-- `CHECK_UNARY(i o v_n)` or `CHECK_UNARY_FALSE(i o v_n)` -/
def left (o : CmpOp) (i n : Nat) (b : Bool) : Op Val × Ret Val := (.cmpVal o K.rel i (K.v n), .bool b)
/-- `CHECK_UNARY(v_n o i)` or `CHECK_UNARY_FALSE(v_n o i)` -/
def right (o : CmpOp) (n i : Nat) (b : Bool) : Op Val × Ret Val := (.valCmp o K.rel (K.v n) i, .bool b)
/-- `CHECK_EQ(expression, j)`, the result of the expression being 24 -/
def resultIs (op : Op Val) (j : Nat) : Script Val := [go op, K.both .eq 24 j true, go (.dtor 24)]

/-- 17-26 -/
def opEq : Script Val :=
  K.fixture [K.both .eq 0 0 true, K.both .eq 0 8 false, K.both .eq 16 16 true, K.both .eq 0 16 false, K.left .eq 0 0 true, K.left .eq 16 0 false]
/-- 27-36 -/
def opNe : Script Val :=
  K.fixture [K.both .ne 0 8 true, K.both .ne 0 0 false, K.both .ne 0 16 true, K.both .ne 16 16 false, K.left .ne 8 0 true, K.left .ne 16 0 true]
/-- 37-46 -/
def opLt : Script Val :=
  K.fixture [K.both .lt 0 8 true, K.both .lt 0 0 false, K.both .lt 16 0 true, K.both .lt 16 16 false, K.left .lt 0 1 true, K.left .gt 16 0 false]
/-- 47-56 -/
def opLe : Script Val :=
  K.fixture [K.both .le 0 0 true, K.both .le 8 0 false, K.both .le 16 0 true, K.both .le 0 16 false, K.left .le 0 0 true, K.right .le 0 16 false]
/-- 57-66 -/
def opGt : Script Val :=
  K.fixture [K.both .gt 8 0 true, K.both .gt 0 0 false, K.both .gt 0 16 true, K.both .gt 16 0 false, K.left .gt 8 0 true, K.left .gt 16 0 false]
/-- 67-76 -/
def opGe : Script Val :=
  K.fixture [K.both .ge 0 0 true, K.both .ge 0 8 false, K.both .ge 0 16 true, K.both .ge 16 0 false, K.left .ge 8 0 true, K.left .ge 16 0 false]
/-- 77-84; `A | 3` is `A.value_or(3)` (3627-3630) -/
def opOr : Script Val :=
  K.fixture ([gives (.valueOr 0 false (.args (K.v 2))) (K.v 0), K.right .eq 0 0 true] ++ K.resultIs (.orOp 0 16 24 false false) 0 ++
    K.resultIs (.orOp 16 8 24 false false) 8 ++ K.resultIs (.orOp 0 8 24 false false) 0 ++ K.resultIs (.orOp 16 16 24 false false) 16)
/-- 85-90 -/
def opAnd : Script Val :=
  K.fixture (K.resultIs (.andOp 0 8 24 false) 8 ++ K.resultIs (.andOp 16 8 24 false) 16 ++ K.resultIs (.andOp 0 16 24 false) 16 ++
    K.resultIs (.andOp 16 16 24 false) 16)
/-- 91-96 -/
def opXor : Script Val :=
  K.fixture (K.resultIs (.xorOp 0 8 24 false false) 16 ++ K.resultIs (.xorOp 0 16 24 false false) 0 ++ K.resultIs (.xorOp 16 8 24 false false) 8 ++
    K.resultIs (.xorOp 16 16 24 false false) 16)
/-- 97-115; `C` is 32 -/
def opOrAssign : Script Val :=
  K.fixture ([go (.ctorFrom 32 0 false), go (.orAssignFrom 32 8 false), K.both .eq 32 0 true, go (.orAssignFrom 32 16 false), K.both .eq 32 0 true,
    go (.reset 32), go (.orAssignFrom 32 16 false), K.both .eq 32 16 true, go (.orAssignFrom 32 8 false), K.both .eq 32 8 true,
    go (.reset 32), go (.orAssignValue 32 (.args (K.v 2))), K.left .eq 32 2 true, go (.orAssignValue 32 (.args (K.v 3))), K.left .eq 32 2 true] ++ gone [32])

/-- `opt::io` (functions.test.cpp 38-72): what goes to the stream and what comes from it.  How a stream spells a value is left out. -/
def io : Script Val :=
  [K.new 0 0, (.ioWrite 0 none, .opt (some (K.v 0))), (.ioWrite 0 none, .opt (some (K.v 0))), (.ioWrite 0 (some (K.v 1)), .opt (some (K.v 0))),
    (.ioWrite 0 (some (K.v 1)), .opt (some (K.v 0))), go (.reset 0), (.ioWrite 0 (some (K.v 1)), .opt (some (K.v 1))),
    (.ioWrite 0 (some (K.v 1)), .opt (some (K.v 1))), K.empl 0 2, K.put 0 3, K.is 0 (K.v 3), K.empl 0 2, (.ioRead 0 (K.v 2) (K.v 3), .val (K.v 2)),
    K.is 0 (K.v 3), go (.reset 0), (.ioRead 0 (K.v 2) (K.v 3), .val (K.v 3)), isNone 0] ++ gone [0]

/-- all of it -/
def operators : List (Script Val) :=
  [K.opEq, K.opNe, K.opLt, K.opLe, K.opGt, K.opGe, K.opOr, K.opAnd, K.opXor, K.opOrAssign, K.io]

end Kit

end Opt.Suite
