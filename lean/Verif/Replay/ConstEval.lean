import Verif.Props.ConstEval

/-!
# The library's own tests of constant expressions, replayed on the model (test/constexpr.test.cpp 25-243)

Tests, not proofs (see `Verif/Replay/Lifetime.lean`): every `static_assert` of the file, in both languages and with and without
evaluated checks.  Those between `#if OPTION_IS_CXX20` and `#endif` are constant expressions in C++20 and, which the file does
not say, in no configuration of C++17.  All options are `option<int>` or `option<long long>`, which have the same class.
-/

namespace Opt.Replay

open ConstEval

/-- a constant expression in each configuration -/
def always (ops : List (ConstEval.Op Int)) : Bool :=
  [⟨false, false⟩, ⟨false, true⟩, ⟨true, false⟩, ⟨true, true⟩].all fun k => (ConstEval.run k ints nothing ops).isSome

/-- a constant expression in C++20 only -/
def cxx20Only (ops : List (ConstEval.Op Int)) : Bool :=
  [false, true].all fun e => (ConstEval.run ⟨true, e⟩ ints nothing ops).isSome && (ConstEval.run ⟨false, e⟩ ints nothing ops).isNone

/-! ## Constructors (26-56) -/

example : always [.ctorNone 0, .destroy 0] = true := by decide +kernel
example : always [.ctorNone 0, .ctorCopy 1 0] = true := by decide +kernel
example : always [.ctorValue 0 1, .ctorCopy 1 0] = true := by decide +kernel
example : always [.ctorValue 0 1] = true := by decide +kernel
example : always [.ctorNone 0, .ctorConv false 1 0 id] = true := by decide +kernel
example : cxx20Only [.ctorValue 0 1, .ctorConv false 1 0 id] = true := by decide +kernel

/-! ## Assignments (58-164) -/

example : always [.ctorNone 0, .reset 0] = true := by decide +kernel
example : always [.ctorValue 0 1, .reset 0] = true := by decide +kernel
example : always [.ctorNone 0, .ctorNone 1, .assignCopy 0 1] = true := by decide +kernel
example : always [.ctorValue 0 1, .ctorNone 1, .assignCopy 0 1] = true := by decide +kernel
example : always [.ctorNone 0, .ctorValue 1 1, .assignCopy 0 1] = true := by decide +kernel
example : always [.ctorValue 0 1, .ctorValue 1 1, .assignCopy 0 1] = true := by decide +kernel
example : always [.ctorNone 0, .ctorNone 1, .assignMove 0 1] = true := by decide +kernel
example : always [.ctorValue 0 1, .ctorNone 1, .assignMove 0 1] = true := by decide +kernel
example : always [.ctorNone 0, .ctorValue 1 1, .assignMove 0 1] = true := by decide +kernel
example : always [.ctorValue 0 1, .ctorValue 1 1, .assignMove 0 1] = true := by decide +kernel
example : cxx20Only [.ctorNone 0, .assignValue 0 1] = true := by decide +kernel
example : always [.ctorValue 0 1, .assignValue 0 1] = true := by decide +kernel
example : always [.ctorNone 0, .ctorNone 1, .assignConv false 0 1 id] = true := by decide +kernel
example : cxx20Only [.ctorNone 0, .ctorValue 1 1, .assignConv false 0 1 id] = true := by decide +kernel
example : always [.ctorValue 0 1, .ctorNone 1, .assignConv false 0 1 id] = true := by decide +kernel
example : always [.ctorValue 0 1, .ctorValue 1 1, .assignConv false 0 1 id] = true := by decide +kernel
example : always [.ctorNone 0, .ctorNone 1, .assignConv true 0 1 id] = true := by decide +kernel
example : cxx20Only [.ctorNone 0, .ctorValue 1 1, .assignConv true 0 1 id] = true := by decide +kernel
example : always [.ctorValue 0 1, .ctorNone 1, .assignConv true 0 1 id] = true := by decide +kernel
example : always [.ctorValue 0 1, .ctorValue 1 1, .assignConv true 0 1 id] = true := by decide +kernel

/-! ## The rest (166-241) -/

example : always [.ctorValue 0 1, .get 0] = true := by decide +kernel
example : always [.ctorNone 0, .hasValue 0] = true := by decide +kernel
example : always [.ctorValue 0 1, .hasValue 0] = true := by decide +kernel
example : cxx20Only [.ctorNone 0, .emplace 0 1] = true := by decide +kernel
example : always [.ctorValue 0 1, .emplace 0 1] = true := by decide +kernel
example : always [.ctorNone 0, .map 1 0 (· + 1)] = true := by decide +kernel
example : always [.ctorValue 0 1, .map 1 0 (· + 1)] = true := by decide +kernel
example : always [.ctorNone 0, .inspect 0] = true := by decide +kernel
example : always [.ctorValue 0 1, .inspect 0] = true := by decide +kernel

end Opt.Replay
