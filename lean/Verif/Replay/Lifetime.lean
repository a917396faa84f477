import Verif.Model.History
import Verif.Spec.Demo

/-!
# The library's own lifetime tests, replayed on the model (test/lifetime.test.cpp 137-374)

These are tests, not proofs: they check that the machine makes the calls of user code which the library's authors
observed.  Option 0, 4, 8, ... contain a one-byte class with user-provided members like `lifetime_tester`; 2, 6, ...
contain a scalar like `int`.

`LIFETIME_CHECK(default, value, dtor, copy ctor, move ctor, copy assign, move assign)` counts calls.  Here `args` are the
first two columns together, `conv` are constructors or assignments from the value of another type, and the objects which
the test expression itself makes (`lifetime_tester{1}`) are left out on both sides.
-/

namespace Opt.Replay

/-- the program of the tests, C++20 or C++17 -/
def P (cxx20 : Bool) : Prog Byte := Demo.prog cxx20 (fun _ => false) Demo.tidy

/-- numbers of calls -/
structure Calls where
  args : Nat := 0
  dtor : Nat := 0
  copyCtor : Nat := 0
  moveCtor : Nat := 0
  copyOper : Nat := 0
  moveOper : Nat := 0
  convCtor : Nat := 0
  convOper : Nat := 0
deriving DecidableEq, Repr

/-- count the calls of members of the class -/
def tally : List Event → Calls → Calls
  | [], c => c
  | .ctor i .args :: es, c => tally es (if i % 4 = 0 then { c with args := c.args + 1 } else c)
  | .ctor i .copy :: es, c => tally es (if i % 4 = 0 then { c with copyCtor := c.copyCtor + 1 } else c)
  | .ctor i .move :: es, c => tally es (if i % 4 = 0 then { c with moveCtor := c.moveCtor + 1 } else c)
  | .ctor i .conv :: es, c => tally es (if i % 4 = 0 then { c with convCtor := c.convCtor + 1 } else c)
  | .dtor i :: es, c => tally es (if i % 4 = 0 then { c with dtor := c.dtor + 1 } else c)
  | .assign i .copy _ :: es, c => tally es (if i % 4 = 0 then { c with copyOper := c.copyOper + 1 } else c)
  | .assign i .move _ :: es, c => tally es (if i % 4 = 0 then { c with moveOper := c.moveOper + 1 } else c)
  | .assign i _ _ :: es, c => tally es (if i % 4 = 0 then { c with convOper := c.convOper + 1 } else c)
  | _ :: es, c => tally es c

/-- run `setup` in an empty world, then count the calls of `ops` -/
def check (cxx20 : Bool) (setup ops : List (Op Byte)) : Option Calls :=
  match (P cxx20).run setup ⟨fun _ => none, ⟨0, []⟩⟩ with
  | .ok _ w =>
    match (P cxx20).run ops { w with env := { w.env with log := [] } } with
    | .ok _ w' => some (tally w'.env.log {})
    | _ => none
  | _ => none

/-- the same in both language modes -/
def LIFETIME (setup ops : List (Op Byte)) (c : Calls) : Prop :=
  check true setup ops = some c ∧ check false setup ops = some c

instance {s o c} : Decidable (LIFETIME s o c) := inferInstanceAs (Decidable (_ ∧ _))

/-- `opt::option<lifetime_tester> var;` empty, and with a value -/
def none0 : List (Op Byte) := [.ctorDefault 0]
def some0 : List (Op Byte) := [.ctorDefault 0, .emplace 0 (.args 1)]

/-! ## "on opt::option" (137-190) -/

example : LIFETIME [] [.ctorDefault 0, .dtor 0] {} := by decide +kernel
example : LIFETIME [] [.ctorValue 0 (.args 1), .dtor 0] { args := 1, dtor := 1 } := by decide +kernel
/-- `a{{}}`: the temporary `{}` is moved from -/
example : LIFETIME [] [.ctorValue 0 (.move 1), .dtor 0] { moveCtor := 1, dtor := 1 } := by decide +kernel
/-- `var = lifetime_tester{1}` -/
example : LIFETIME none0 [.assignValue 0 (.move 1)] { moveCtor := 1 } := by decide +kernel
example : LIFETIME some0 [.assignValue 0 (.move 1)] { moveOper := 1 } := by decide +kernel
/-- `var = opt::option<lifetime_tester>{}` and `{1}` -/
example : LIFETIME none0 [.ctorDefault 4, .assignFrom 0 4 true, .dtor 4] {} := by decide +kernel
example : LIFETIME none0 [.ctorValue 4 (.args 1), .assignFrom 0 4 true, .dtor 4] { args := 1, moveCtor := 1, dtor := 1 } := by decide +kernel
example : LIFETIME some0 [.ctorDefault 4, .assignFrom 0 4 true, .dtor 4] { dtor := 1 } := by decide +kernel
example : LIFETIME some0 [.ctorValue 4 (.args 1), .assignFrom 0 4 true, .dtor 4] { args := 1, moveOper := 1, dtor := 1 } := by decide +kernel
/-- `var = val` -/
example : LIFETIME none0 [.assignValue 0 (.copy 1)] { copyCtor := 1 } := by decide +kernel
example : LIFETIME some0 [.assignValue 0 (.copy 1)] { copyOper := 1 } := by decide +kernel

/-! ## ".take" (192-242; commented out in the repository) -/

example : LIFETIME (some0 ++ [.ctorDefault 4]) [.take 0 8, .dtor 8] { moveCtor := 1, dtor := 2 } := by decide +kernel
example : LIFETIME (some0 ++ [.ctorDefault 4]) [.take 0 8, .assignFrom 4 8 true, .dtor 8] { moveCtor := 2, dtor := 2 } := by decide +kernel
example : LIFETIME (none0 ++ [.ctorDefault 4, .emplace 4 (.args 1)]) [.take 0 8, .assignFrom 4 8 true, .dtor 8] { dtor := 1 } := by decide +kernel
example : LIFETIME (some0 ++ [.ctorDefault 4, .emplace 4 (.args 1)]) [.take 0 8, .assignFrom 4 8 true, .dtor 8]
    { moveCtor := 1, moveOper := 1, dtor := 2 } := by decide +kernel

/-! ## ".reset" (244-255), ".emplace" (257-285), "opt::make_option" (287-291) -/

example : LIFETIME none0 [.reset 0] {} := by decide +kernel
example : LIFETIME some0 [.reset 0] { dtor := 1 } := by decide +kernel
example : LIFETIME none0 [.emplace 0 (.args 1)] { args := 1 } := by decide +kernel
example : LIFETIME none0 [.emplace 0 (.copy 1)] { copyCtor := 1 } := by decide +kernel
example : LIFETIME none0 [.emplace 0 (.move 1)] { moveCtor := 1 } := by decide +kernel
example : LIFETIME some0 [.emplace 0 (.copy 1)] { copyCtor := 1, dtor := 1 } := by decide +kernel
example : LIFETIME some0 [.emplace 0 (.move 1)] { moveCtor := 1, dtor := 1 } := by decide +kernel
example : LIFETIME [] [.ctorValue 0 (.args 1), .dtor 0] { args := 1, dtor := 1 } := by decide +kernel

/-! ## ".map" (325-374) -/

/-- a callable that leaves its argument alone -/
def fn : Prog.Fn Byte Byte := ⟨id, id, id⟩

/-- `ivar.map([](int x) { return lifetime_tester{x}; })` -/
example : LIFETIME [.ctorValue 2 (.args 1)] [.map 2 8 fn, .dtor 8] { args := 1, dtor := 1 } := by decide +kernel
example : LIFETIME [.ctorDefault 2] [.map 2 8 fn, .dtor 8] {} := by decide +kernel
/-- `var0.map(fn)` with `fn` returning `int` -/
example : LIFETIME none0 [.map 0 6 fn, .dtor 6] {} := by decide +kernel
example : LIFETIME some0 [.map 0 6 fn, .dtor 6] {} := by decide +kernel
/-- `var1 = var0.map(fn)`: converting assignment from `option<int>` -/
example : LIFETIME (none0 ++ [.ctorDefault 4]) [.map 0 6 fn, .assignFrom 4 6 true, .dtor 6] {} := by decide +kernel
example : LIFETIME (none0 ++ [.ctorDefault 4, .emplace 4 (.args 1)]) [.map 0 6 fn, .assignFrom 4 6 true, .dtor 6] { dtor := 1 } := by decide +kernel
example : LIFETIME (some0 ++ [.ctorDefault 4]) [.map 0 6 fn, .assignFrom 4 6 true, .dtor 6] { convCtor := 1 } := by decide +kernel
/-- the assignment from `int` makes a temporary, moves from it and destroys it: one `conv` assignment here -/
example : LIFETIME (some0 ++ [.ctorDefault 4, .emplace 4 (.args 1)]) [.map 0 6 fn, .assignFrom 4 6 true, .dtor 6]
    { convOper := 1 } := by decide +kernel

end Opt.Replay
