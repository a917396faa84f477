import Verif.Model.Flatten
import Verif.Spec.Flatten
import Verif.Props.Accessor

/-!
# C58 The type of a flattened option
-/

namespace Opt.Accessor

open Opt.RefBind

theorem layers_opt (n : Nat) (X : QTy) : ∃ cv c r, layers n X = .opt cv c r := by
  cases n <;> exact ⟨_, _, _, rfl⟩

theorem isOptionV_layers (n : Nat) (X : QTy) : isOptionV ⟨.none, ⟨false, false⟩, layers n X⟩ = true := by
  obtain ⟨cv, c, r, h⟩ := layers_opt n X
  simp [isOptionV, h]

/-- a layer without qualifiers is passed, and the category and constness of the expression stay -/
theorem flattenEx_layer (n : Nat) (X : QTy) (s : Self) : flattenEx (layers (n + 1) X) s = flattenEx (layers n X) s := by
  rw [layers, flattenEx, get_content, Option.bind_some, isOptionV_layers, if_pos rfl]
  obtain ⟨_ | _, _ | _⟩ := s <;> rfl

theorem flattenEx_layers (n : Nat) (X : QTy) (s : Self) : flattenEx (layers n X) s = flattenEx (.opt X.cv X.core X.ref) s := by
  induction n with
  | zero => rfl
  | succ n ih => rw [flattenEx_layer, ih]

theorem isOptionV_false {X : QTy} (h : ¬AnOption X) : isOptionV X = false := by
  obtain ⟨r, cv, c⟩ := X
  cases c <;> simp [isOptionV]
  exact absurd ⟨_, _, _, rfl⟩ h

/-- the calls that do not compile: the innermost option is a const lvalue that contains an object that is not const, or an
lvalue that contains an rvalue reference -/
def FlattenFails (X : QTy) (s : Self) : Prop :=
  s.rvalue = false ∧ (X.ref = .rv ∨ (X.ref = .none ∧ s.const = true ∧ X.cv.const = false))

theorem isOption_false {X : QTy} (h : ¬AnOption X) (r : Ref) (cv : Cv) : RefBind.isOption ⟨r, cv, X.core⟩ = false := by
  obtain ⟨r, cv, c⟩ := X
  cases c <;> simp [RefBind.isOption]
  exact h ⟨_, _, _, rfl⟩

theorem refNe : (Ref.rv == Ref.lv) = false ∧ (Ref.none == Ref.lv) = false ∧ (Ref.rv == Ref.none) = false ∧
    (Ref.lv == Ref.none) = false := by decide

theorem flattenEx_ok {X : QTy} (h : ¬AnOption X) (hi : X.core ≠ .inPlace) {s : Self} (hf : ¬FlattenFails X s) (n : Nat) :
    ∃ Y x, flattenEx (layers n X) s = some (Y, x) ∧ Flattened X s Y x := by
  rw [flattenEx_layers]
  have hV := isOptionV_false h
  have hO := isOption_false h
  obtain ⟨r, ⟨cc, cvv⟩, c⟩ := X
  obtain ⟨sc, sr⟩ := s
  have ha : ∀ r' cv', ¬AnOption ⟨r', cv', c⟩ := fun _ _ ⟨a, b, d, e⟩ => h ⟨a, b, d, e⟩
  simp only at hi hO
  cases r <;> cases cc <;> cases cvv <;> cases sc <;> cases sr <;>
    first
    | (refine absurd ?_ hf; simp [FlattenFails]; done)
    | (refine ⟨_, _, by
        simp [flattenEx, get_content, hV, makeOption, copyLvalueRef, lref, fromValueCtor, content, Ex.deduced, hO, hi, binds,
          ptrConvertible, castRef, returnRef, returnVal, qualsKept, bindsRvalue, asRef, refNe]; exact ⟨rfl, rfl⟩, ?_⟩
       simp [Flattened, ha])

theorem flattenEx_none {X : QTy} (h : ¬AnOption X) {s : Self} (hf : FlattenFails X s) (n : Nat) :
    flattenEx (layers n X) s = none := by
  rw [flattenEx_layers]
  have hV := isOptionV_false h
  have hO := isOption_false h
  obtain ⟨r, ⟨cc, cvv⟩, c⟩ := X
  obtain ⟨sc, sr⟩ := s
  obtain ⟨h1, h2⟩ := hf
  simp only at h1 h2 hO
  subst h1
  have hw : ∀ r cv r' cv', sameReferenceWrapper ⟨r, cv, c⟩ ⟨r', cv', c⟩ = false := by
    intro r cv r' cv'
    cases c <;> simp [sameReferenceWrapper]
    intro _ h
    exact absurd (congrArg sizeOf h) (by simp)
  rcases h2 with rfl | ⟨rfl, rfl, rfl⟩ <;> cases cvv <;>
    simp [flattenEx, get_content, hV, makeOption, copyLvalueRef, lref, fromValueCtor, content, Ex.deduced, hO, binds, hw,
      ptrConvertible, refNe]

/-! ## C58 -/

/-- C58: `flatten` of an option expression with any number of layers around an `X` that is no option compiles and gives what
is specified.
Missing: const lvalues around an object that is not const, and lvalues around an rvalue reference
(`C58_violated_const_lvalue`, `C58_violated_rvalue_reference`); options of `std::in_place_t`; layers with qualifiers or
references (`C58_violated_layer`). -/
theorem C58_flatten_partial {X : QTy} (h : ¬AnOption X) (hi : X.core ≠ .inPlace) {s : Self} (hf : ¬FlattenFails X s) (n : Nat) :
    ∃ Y x, flattenEx (layers n X) s = some (Y, x) ∧ Flattened X s Y x := flattenEx_ok h hi hf n

/-- an lvalue and an rvalue with three layers; an `int&` in options; a const lvalue around a `const int` -/
example : (flattenEx (layers 2 ⟨.none, ⟨false, false⟩, .cls 0⟩) ⟨false, false⟩).map (·.1) =
      some ⟨.lv, ⟨false, false⟩, .cls 0⟩ ∧
    (flattenEx (layers 2 ⟨.none, ⟨false, false⟩, .cls 0⟩) ⟨false, true⟩).map (·.1) = some ⟨.none, ⟨false, false⟩, .cls 0⟩ ∧
    (flattenEx (layers 1 ⟨.lv, ⟨false, false⟩, .cls 0⟩) ⟨true, false⟩).map (·.1) = some ⟨.lv, ⟨false, false⟩, .cls 0⟩ ∧
    (flattenEx (layers 1 ⟨.none, ⟨true, false⟩, .cls 0⟩) ⟨true, false⟩).map (·.1) = some ⟨.lv, ⟨true, false⟩, .cls 0⟩ := by
  decide

example : ¬AnOption ⟨.none, ⟨false, false⟩, .cls 0⟩ ∧ ¬FlattenFails ⟨.none, ⟨false, false⟩, .cls 0⟩ ⟨false, false⟩ ∧
    ¬FlattenFails ⟨.none, ⟨false, false⟩, .cls 0⟩ ⟨true, true⟩ := by
  refine ⟨fun ⟨_, _, _, h⟩ => by simp at h, by simp [FlattenFails], by simp [FlattenFails]⟩

/-- C58: exactly the calls that do not compile, for any number of layers. -/
theorem C58_flatten_compiles {X : QTy} (h : ¬AnOption X) (hi : X.core ≠ .inPlace) (s : Self) (n : Nat) :
    (flattenEx (layers n X) s).isSome = true ↔
      s.rvalue = true ∨ X.ref = .lv ∨ (X.ref = .none ∧ (s.const = false ∨ X.cv.const = true)) := by
  by_cases hf : FlattenFails X s
  · rw [flattenEx_none h hf]
    obtain ⟨h1, h2⟩ := hf
    rcases h2 with h2 | ⟨h2, h3, h4⟩ <;> simp [*]
  · obtain ⟨Y, x, h1, _⟩ := flattenEx_ok h hi hf n
    rw [h1]
    simp only [Option.isSome_some, true_iff]
    simp only [FlattenFails] at hf
    cases h1 : s.rvalue <;> cases h2 : X.ref <;> cases h3 : s.const <;> cases h4 : X.cv.const <;> simp_all

/-- C58 violated: no const lvalue option of an object that is not const can be flattened (`option<X&>` is to be made from a
`const X&`), with any number of layers. -/
theorem C58_violated_const_lvalue {X : QTy} (h : ¬AnOption X) (hr : X.ref = .none) (hc : X.cv.const = false) (n : Nat) :
    flattenEx (layers n X) ⟨true, false⟩ = none := flattenEx_none h ⟨rfl, .inr ⟨hr, rfl, hc⟩⟩ n

example : flattenEx (layers 1 ⟨.none, ⟨false, false⟩, .cls 0⟩) ⟨true, false⟩ = none ∧
    (flattenEx (layers 1 ⟨.none, ⟨false, false⟩, .cls 0⟩) ⟨true, true⟩).isSome = true := by decide

/-- C58 violated: no lvalue option around an rvalue reference can be flattened (`option<X&&>` is to be made from an lvalue),
although the documentation lists `flatten<option<option<int&&>>&>` with result `option<int&&>` (reference.md 1572). -/
theorem C58_violated_rvalue_reference {X : QTy} (h : ¬AnOption X) (hr : X.ref = .rv) (c : Bool) (n : Nat) :
    flattenEx (layers n X) ⟨c, false⟩ = none := flattenEx_none h ⟨rfl, .inl hr⟩ n

example : flattenEx (layers 1 ⟨.rv, ⟨false, false⟩, .cls 0⟩) ⟨false, false⟩ = none ∧
    (flattenEx (layers 1 ⟨.rv, ⟨false, false⟩, .cls 0⟩) ⟨false, true⟩).map (·.1) = some ⟨.rv, ⟨false, false⟩, .cls 0⟩ := by
  decide

/-- C58 violated: a layer that is const, or a reference, is not recognised as an option.  With a const (or volatile) layer the
result of flattening an rvalue still contains an option; a reference to an option, and an lvalue with a const layer, do not
compile. -/
theorem C58_violated_layer (m n : Nat) (X : QTy) {V : QTy} (hV : V.core = layers n X)
    (hq : V.ref ≠ .none ∨ V.cv ≠ ⟨false, false⟩) (s : Self) :
    (∀ Y x, flattenEx (layers m V) s = some (Y, x) → AnOption Y) ∧
    ((flattenEx (layers m V) s).isSome = true ↔ s.rvalue = true ∧ V.ref = .none) := by
  rw [flattenEx_layers]
  obtain ⟨cv, c, r, hl⟩ := layers_opt n X
  obtain ⟨rV, cV, co⟩ := V
  simp only at hV hq
  subst hV
  have hO : ∀ r cv, RefBind.isOption ⟨r, cv, layers n X⟩ = true := fun _ _ => by simp [RefBind.isOption, hl]
  have hN : isOptionV ⟨rV, cV, layers n X⟩ = false := by
    rcases hq with h | h <;> simp [isOptionV, h]
  obtain ⟨sc, sr⟩ := s
  have hf : ∀ T U : QTy, U.core = layers n X → fromValueCtor (fun _ _ => false) T U = false := by
    intro T U h
    obtain ⟨a, b, d⟩ := U
    simp only at h
    subst h
    simp [fromValueCtor, hO]
  simp only [flattenEx, get_content, Option.bind_some, hN]
  cases rV <;> cases sr <;>
    simp [makeOption, copyLvalueRef, lref, returnVal, content, hf, Ex.deduced]
  refine ⟨?_, by split <;> rfl⟩
  rintro Y x R _ rfl _
  exact ⟨cv, c, r, hl⟩

/-- `option<const option<int>>`: flattened as an rvalue it is the same type again -/
example : flattenEx (layers 0 ⟨.none, ⟨true, false⟩, layers 0 ⟨.none, ⟨false, false⟩, .cls 0⟩⟩) ⟨false, false⟩ = none ∧
    (flattenEx (layers 0 ⟨.none, ⟨true, false⟩, layers 0 ⟨.none, ⟨false, false⟩, .cls 0⟩⟩) ⟨false, true⟩).map (·.1) =
      some ⟨.none, ⟨true, false⟩, layers 0 ⟨.none, ⟨false, false⟩, .cls 0⟩⟩ := by decide

end Opt.Accessor
