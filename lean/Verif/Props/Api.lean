import Verif.Lemmas.SpecApi
import Verif.Lemmas.DemoWorld
import Verif.Props.Machine

/-!
# C24, C25, C27, C46: accessors, fallbacks, callables

Statements are read like those of `Props/Machine`.
-/

namespace Opt

variable {Val : Type} {P : Prog Val} {w : World} {i j r : Nat} {mv : Bool} {src : Src Val}

/-! ## C24: accessors -/

/-- **C24**: on an engaged option all accessors give the contained value, change nothing and run no user code. -/
theorem C24_engaged (hw : P.Inv w) {v : Val} (hx : P.view w i = some (some v)) :
    P.get i w = .ok v w ∧ P.getUnchecked i w = .ok v w ∧ P.valueOrThrow i w = .ok v w ∧
      P.ptrOrNull i w = .ok (some v) w ∧ P.hasValue i w = .ok true w := by
  have hR := Prog.abs_R hw
  have e1 := Prog.get_sim (i := i) hR
  have e2 := Prog.readT_sim w (i := i) hR
  have e3 := Prog.valueOrThrow_sim (i := i) hR
  have e4 := Prog.ptrOrNull_sim (i := i) hR
  have e5 := Prog.hasValue_sim (i := i) hR
  simp only [Prog.abs] at e1 e2 e3 e4 e5
  rw [Spec.getOrDie_some hx] at e1
  rw [Spec.val_run (a := ⟨P.view w, w.env⟩) hx] at e2
  rw [Spec.getOrThrow_some hx] at e3
  rw [Spec.get_eq hx] at e4 e5
  refine ⟨?_, ?_, ?_, ?_, ?_⟩
  · revert e1; cases P.get i w <;> intro e1
    case ok u w' => obtain ⟨rfl, rfl, _⟩ := e1; rfl
    all_goals exact e1.elim
  · simp only [Prog.getUnchecked]
    revert e2; cases P.readT i w <;> intro e2
    case ok u w' => obtain ⟨rfl, rfl, _⟩ := e2; rfl
    all_goals exact e2.elim
  · revert e3; cases P.valueOrThrow i w <;> intro e3
    case ok u w' => obtain ⟨rfl, rfl, _⟩ := e3; rfl
    all_goals exact e3.elim
  · revert e4; cases P.ptrOrNull i w <;> intro e4
    case ok u w' => obtain ⟨rfl, rfl, _⟩ := e4; rfl
    all_goals exact e4.elim
  · revert e5; cases P.hasValue i w <;> intro e5
    case ok u w' => obtain ⟨rfl, rfl, _⟩ := e5; rfl
    all_goals exact e5.elim

example : Demo.calm.get 1 Demo.world = .ok 5 Demo.world := (C24_engaged Demo.inv Demo.view1).1

/-- **C24**: on an empty option the checked accessors stop in the library's precondition check, `value` and
`value_or_throw` throw, `ptr_or_null` is null; nothing changes. -/
theorem C24_empty (hw : P.Inv w) (hx : P.view w i = some none) :
    P.get i w = .verify ∧ P.valueOrThrow i w = .throw w ∧ P.ptrOrNull i w = .ok none w ∧
      P.hasValue i w = .ok false w := by
  have hR := Prog.abs_R hw
  have e1 := Prog.get_sim (i := i) hR
  have e3 := Prog.valueOrThrow_sim (i := i) hR
  have e4 := Prog.ptrOrNull_sim (i := i) hR
  have e5 := Prog.hasValue_sim (i := i) hR
  simp only [Prog.abs] at e1 e3 e4 e5
  rw [Spec.getOrDie_none hx] at e1
  rw [Spec.getOrThrow_none hx] at e3
  rw [Spec.get_eq hx] at e4 e5
  refine ⟨?_, ?_, ?_, ?_⟩
  · revert e1; cases P.get i w <;> intro e1
    case verify => rfl
    all_goals exact e1.elim
  · revert e3; cases P.valueOrThrow i w <;> intro e3
    case throw w' => obtain ⟨rfl, _⟩ := e3; rfl
    all_goals exact e3.elim
  · revert e4; cases P.ptrOrNull i w <;> intro e4
    case ok u w' => obtain ⟨rfl, rfl, _⟩ := e4; rfl
    all_goals exact e4.elim
  · revert e5; cases P.hasValue i w <;> intro e5
    case ok u w' => obtain ⟨rfl, rfl, _⟩ := e5; rfl
    all_goals exact e5.elim

example : Demo.calm.valueOrThrow 5 Demo.world = .throw Demo.world := (C24_empty Demo.inv Demo.view5).2.1

/-! ## C25: fallbacks -/

/-- **C25**: `value_or`, `value_or_construct` and `operator|` on an engaged option return the contained value; the
fallback is not used; the rvalue overload moves from the contained object exactly once, the lvalue overload not at all. -/
theorem C25_value_or_engaged (hP : P.OK) (hw : P.Inv w) (hl : src.Legal P i) {v d : Val}
    (hx : P.view w i = some (some v)) (hd : src.gives P (P.view w) i = some d)
    (ht : P.CtorOK i (.opt i mv) w.env.tick) :
    P.Ends w (P.valueOr i mv src w) v (P.giveEvs i (.opt i mv)) (P.ctorLeaves i (.opt i mv) w.env.tick (P.view w)) :=
  Prog.ends_val (Prog.valueOr_sim hP (Prog.abs_R hw) hl) ((Spec.valueOr_some hx hd).trans
    (Spec.give_ok (by rw [Spec.gives_opt hx]; simp only [Prog.convFrom, if_true]) ht))

example : Demo.calm.Ends Demo.world (Demo.calm.valueOr 1 true (.copy 8) Demo.world) 5 [.tmpCtor .move true]
    (Demo.calm.ctorLeaves 1 (.opt 1 true) 0 (Demo.calm.view Demo.world)) :=
  C25_value_or_engaged (P := Demo.calm) (i := 1) (src := .copy 8) Demo.ok_tidy Demo.inv (Demo.dom_mk 1 (.inr (.inl rfl)))
    Demo.view1 rfl (.inr rfl)

/-- **C25**: on an engaged option the lvalue overload leaves every option as it was. -/
theorem C25_value_or_const (hP : P.OK) (hw : P.Inv w) (hl : src.Legal P i) {v d : Val}
    (hx : P.view w i = some (some v)) (hd : src.gives P (P.view w) i = some d)
    (ht : P.CtorOK i (.opt i false) w.env.tick) :
    P.Ends w (P.valueOr i false src w) v (P.giveEvs i (.opt i false)) (P.view w) := by
  have h := C25_value_or_engaged (mv := false) hP hw hl hx hd ht
  simp only [Prog.ctorLeaves, Src.leaves, ite_self] at h
  exact h

example : Demo.calm.Ends Demo.world (Demo.calm.valueOr 1 false (.copy 8) Demo.world) 5 [.tmpCtor .copy true]
    (Demo.calm.view Demo.world) :=
  C25_value_or_const (P := Demo.calm) (i := 1) (src := .copy 8) Demo.ok_tidy Demo.inv (Demo.dom_mk 1 (.inr (.inl rfl)))
    Demo.view1 rfl (.inr rfl)

/-- **C25**: on an empty option they return the fallback, built once. -/
theorem C25_value_or_empty (hP : P.OK) (hw : P.Inv w) (hl : src.Legal P i) {d : Val}
    (hx : P.view w i = some none) (hd : src.gives P (P.view w) i = some d) (ht : P.CtorOK i src w.env.tick) :
    P.Ends w (P.valueOr i mv src w) d (P.giveEvs i src) (P.ctorLeaves i src w.env.tick (P.view w)) :=
  Prog.ends_val (Prog.valueOr_sim hP (Prog.abs_R hw) hl) ((Spec.valueOr_none hx hd).trans (Spec.give_ok hd ht))

example : Demo.calm.Ends Demo.world (Demo.calm.valueOr 5 true (.args 8) Demo.world) 8 [.tmpCtor .args true]
    (Demo.calm.view Demo.world) :=
  C25_value_or_empty (P := Demo.calm) (i := 5) (src := .args 8) Demo.ok_tidy Demo.inv (Demo.dom_mk 1 (.inr (.inl rfl)))
    Demo.view5 rfl (.inr rfl)

/-- **C25**: if making the result throws, the option keeps its state. -/
theorem C25_value_or_throw (hP : P.OK) (hw : P.Inv w) (hl : src.Legal P i) {x : Option Val} {d : Val}
    (hx : P.view w i = some x) (hd : src.gives P (P.view w) i = some d) :
    let s : Src Val := if x.isSome then .opt i mv else src
    P.CtorThrows i s w.env.tick →
    P.Throws w (P.valueOr i mv src w) [.tmpCtor (P.kind i s) false] (s.leaves P true w.env.tick (P.view w)) := by
  intro s ht
  cases x with
  | none =>
    exact Prog.throws_of (Prog.valueOr_sim hP (Prog.abs_R hw) hl) (fun _ _ h => h)
      ((Spec.valueOr_none hx hd).trans (Spec.give_throw hd ht.1 ht.2))
  | some v =>
    exact Prog.throws_of (Prog.valueOr_sim hP (Prog.abs_R hw) hl) (fun _ _ h => h)
      ((Spec.valueOr_some hx hd).trans (Spec.give_throw (Spec.gives_opt hx) ht.1 ht.2))

example : Demo.angry.Throws Demo.world (Demo.angry.valueOr 1 false (.args 8) Demo.world) [.tmpCtor .copy false]
    (Demo.angry.view Demo.world) :=
  C25_value_or_throw (P := Demo.angry) (i := 1) (mv := false) (src := .args 8) Demo.ok_tidy Demo.inv
    (Demo.dom_mk 1 (.inr (.inl rfl))) Demo.view1 rfl ⟨rfl, rfl⟩

/-- **C25**: `map_or` and `map_or_else` on an engaged option call the mapping function exactly once, with the contained
value, and return its result; the fallback does not run. -/
theorem C25_map_or_engaged (hP : P.OK) (hw : P.Inv w) {f : Prog.Fn Val Val} (hf : f.Legal P i) {v d : Val}
    (hx : P.view w i = some (some v)) (ht : P.throwsAt w.env.tick = false) :
    P.Ends w (P.mapOr i d f w) (f.ret v) [.call i true] (upd (P.view w) i (some (some (f.after v)))) ∧
    P.Ends w (P.mapOrElse i d f w) (f.ret v) [.call i true] (upd (P.view w) i (some (some (f.after v)))) :=
  ⟨Prog.ends_val (Prog.mapOr_sim hP (Prog.abs_R hw) hf) ((Spec.mapOr_some hx).trans (Spec.call_ok hx ht)),
  Prog.ends_val (Prog.mapOrElse_sim hP (Prog.abs_R hw) hf) ((Spec.mapOrElse_some hx).trans (Spec.call_ok hx ht))⟩

example : Demo.calm.Ends Demo.world (Demo.calm.mapOr 1 0 ⟨(· + 1), (· + 2), id⟩ Demo.world) 6 [.call 1 true]
    (upd (Demo.calm.view Demo.world) 1 (some (some 7))) :=
  (C25_map_or_engaged (P := Demo.calm) (i := 1) (f := ⟨(· + 1), (· + 2), id⟩) (d := 0) Demo.ok_tidy Demo.inv
    (Demo.fn_legal _) Demo.view1 rfl).1

/-- **C25**: on an empty option they return the fallback: `map_or` builds the result from its argument, `map_or_else`
calls the fallback function exactly once; the mapping function does not run. -/
theorem C25_map_or_empty (hP : P.OK) (hw : P.Inv w) {f : Prog.Fn Val Val} (hf : f.Legal P i) {d : Val}
    (hx : P.view w i = some none) (ht : P.throwsAt w.env.tick = false) :
    P.Ends w (P.mapOr i d f w) d [.tmpCtor .args true] (P.view w) ∧
    P.Ends w (P.mapOrElse i d f w) d [.call0 true] (P.view w) :=
  ⟨Prog.ends_val (Prog.mapOr_sim hP (Prog.abs_R hw) hf) ((Spec.mapOr_none hx).trans (by rw [ht]; rfl)),
  Prog.ends_val (Prog.mapOrElse_sim hP (Prog.abs_R hw) hf) ((Spec.mapOrElse_none hx).trans (by
    rw [Spec.call0_eq, ht]; rfl))⟩

example : Demo.calm.Ends Demo.world (Demo.calm.mapOrElse 5 3 ⟨(· + 1), (· + 2), id⟩ Demo.world) 3 [.call0 true]
    (Demo.calm.view Demo.world) :=
  (C25_map_or_empty (P := Demo.calm) (i := 5) (f := ⟨(· + 1), (· + 2), id⟩) (d := 3) Demo.ok_tidy Demo.inv
    (Demo.fn_legal5 _) Demo.view5 rfl).2

/-! ## C27: filter, or_else, inspect, has_value_and -/

/-- **C27**: `filter` on an engaged option whose value the predicate accepts: the predicate runs once, the result holds
the value. -/
theorem C27_filter_accept (hP : P.OK) (hw : P.Inv w) {f : Prog.Fn Val Bool} (hf : f.Legal P i) {v : Val}
    (hc : P.cls r = P.cls i) (hr : P.view w r = none)
    (hx : P.view w i = some (some v)) (ht : P.throwsAt w.env.tick = false) (ha : f.ret v = true)
    (ht2 : P.CtorOK r (.opt i mv) (w.env.tick + 1)) :
    P.Ends w (P.filter i r mv f w) () (.call i true :: P.ctorEvs r (.opt i mv))
      (upd (P.ctorLeaves r (.opt i mv) (w.env.tick + 1) (upd (P.view w) i (some (some (f.after v))))) r
        (some (some (f.after v)))) := by
  refine Prog.ends_unit (Prog.filter_sim hP (Prog.abs_R hw) hf) (fun _ _ _ _ h => h)
    ((Spec.filter_keep hr hx ht ha ht2).trans ?_)
  simp only [Prog.convFrom, hc, if_true]

example : Demo.calm.Ends Demo.world (Demo.calm.filter 1 13 false ⟨(· == 5), id, id⟩ Demo.world) ()
    [.call 1 true, .ctor 13 .copy]
    (upd (upd (Demo.calm.view Demo.world) 1 (some (some 5))) 13 (some (some 5))) :=
  C27_filter_accept (P := Demo.calm) (i := 1) (r := 13) (mv := false) (f := ⟨(· == 5), id, id⟩) Demo.ok_tidy Demo.inv
    (Demo.fn_legal _) rfl Demo.view13 Demo.view1 rfl rfl (.inr rfl)

/-- **C27**: `filter` on an engaged option whose value the predicate rejects: the result is empty, the option keeps its
value. -/
theorem C27_filter_reject (hP : P.OK) (hw : P.Inv w) {f : Prog.Fn Val Bool} (hf : f.Legal P i) {v : Val}
    (hr : P.view w r = none) (hx : P.view w i = some (some v)) (ht : P.throwsAt w.env.tick = false)
    (ha : f.ret v = false) :
    P.Ends w (P.filter i r mv f w) () [.call i true]
      (upd (upd (P.view w) i (some (some (f.after v)))) r (some none)) :=
  Prog.ends_unit (Prog.filter_sim hP (Prog.abs_R hw) hf) (fun _ _ _ _ h => h) (Spec.filter_reject hr hx ht ha)

example : Demo.calm.Ends Demo.world (Demo.calm.filter 1 13 true ⟨(· == 4), id, id⟩ Demo.world) () [.call 1 true]
    (upd (upd (Demo.calm.view Demo.world) 1 (some (some 5))) 13 (some none)) :=
  C27_filter_reject (P := Demo.calm) (i := 1) (r := 13) (f := ⟨(· == 4), id, id⟩) Demo.ok_tidy Demo.inv
    (Demo.fn_legal _) Demo.view13 Demo.view1 rfl rfl

/-- **C27**: `filter` on an empty option: the predicate does not run, the result is empty. -/
theorem C27_filter_empty (hP : P.OK) (hw : P.Inv w) {f : Prog.Fn Val Bool} (hf : f.Legal P i)
    (hr : P.view w r = none) (hx : P.view w i = some none) :
    P.Ends w (P.filter i r mv f w) () [] (upd (P.view w) r (some none)) :=
  Prog.ends_unit (Prog.filter_sim hP (Prog.abs_R hw) hf) (fun _ _ _ _ h => h)
    (by rw [Env.after_nil]; exact Spec.filter_none hr hx)

example : Demo.angry.Ends Demo.world (Demo.angry.filter 5 13 true ⟨(· == 4), id, id⟩ Demo.world) () []
    (upd (Demo.angry.view Demo.world) 13 (some none)) :=
  C27_filter_empty (P := Demo.angry) (i := 5) (r := 13) (f := ⟨(· == 4), id, id⟩) Demo.ok_tidy Demo.inv
    (Demo.fn_legal5 _) Demo.view13 Demo.view5

/-- **C27**: `or_else` on an engaged option returns the option (copied or moved); the callable does not run. -/
theorem C27_or_else_engaged (hP : P.OK) (hw : P.Inv w) (hc : P.cls r = P.cls i) {v : Val}
    {x : Option Val} (hx : ∀ u, x = some u → (P.elem r).Dom P.pw u)
    (hr : P.view w r = none) (hi : P.view w i = some (some v)) (ht : P.CtorOK r (.opt i mv) w.env.tick) :
    P.Ends w (P.orElse i r mv x w) () (P.buildEvs r (.opt i mv))
      (upd (P.ctorLeaves r (.opt i mv) w.env.tick (P.view w)) r (some (some v))) := by
  refine Prog.ends_unit (Prog.orElse_sim hP (fun _ => .nothrow ht) (Prog.abs_R hw) hx) (fun _ _ _ _ h => h)
    ((Spec.orElse_some hi).trans ((Spec.createVia_ok hr (Spec.gives_opt hi) ht).trans ?_))
  simp only [Prog.convFrom, hc, if_true]

example : Demo.calm.Ends Demo.world (Demo.calm.orElse 1 13 false (some 3) Demo.world) () [.ctor 13 .copy]
    (upd (Demo.calm.view Demo.world) 13 (some (some 5))) :=
  C27_or_else_engaged (P := Demo.calm) (i := 1) (r := 13) (mv := false) (x := some 3) Demo.ok_tidy Demo.inv
    rfl (fun _ _ => Demo.dom_mk 1 (.inr (.inl rfl))) Demo.view13 Demo.view1 (.inr rfl)

/-- **C27**: `or_else` on an empty option calls the callable exactly once and returns its result. -/
theorem C27_or_else_empty (hP : P.OK) (hw : P.Inv w) {x : Option Val} (hx : ∀ u, x = some u → (P.elem r).Dom P.pw u)
    (hr : P.view w r = none) (hi : P.view w i = some none) (ht : P.throwsAt w.env.tick = false)
    (ht2 : x.isSome = true → P.throwsAt (w.env.tick + 1) = false) :
    P.Ends w (P.orElse i r mv x w) () (.call0 true :: P.makeEvs r x) (upd (P.view w) r (some x)) :=
  Prog.ends_unit (Prog.orElse_sim hP (fun ⟨_, h⟩ => by cases hi.symm.trans h) (Prog.abs_R hw) hx) (fun _ _ _ _ h => h)
    (Spec.orElse_none hr hi ht ht2)

example : Demo.calm.Ends Demo.world (Demo.calm.orElse 5 13 false (some 3) Demo.world) () [.call0 true, .ctor 13 .args]
    (upd (Demo.calm.view Demo.world) 13 (some (some 3))) :=
  C27_or_else_empty (P := Demo.calm) (i := 5) (r := 13) (mv := false) (x := some 3) Demo.ok_tidy Demo.inv
    (fun _ _ => Demo.dom_mk 1 (.inr (.inl rfl))) Demo.view13 Demo.view5 rfl (fun _ => rfl)

/-- **C27**: `inspect` and `has_value_and` on an engaged option call the callable exactly once with the contained value. -/
theorem C27_inspect_engaged (hP : P.OK) (hw : P.Inv w) {v : Val} (hx : P.view w i = some (some v))
    (ht : P.throwsAt w.env.tick = false) :
    (∀ f : Prog.Fn Val Unit, f.Legal P i →
      P.Ends w (P.inspect i f w) () [.call i true] (upd (P.view w) i (some (some (f.after v))))) ∧
    (∀ f : Prog.Fn Val Bool, f.Legal P i →
      P.Ends w (P.hasValueAnd i f w) (f.ret v) [.call i true] (upd (P.view w) i (some (some (f.after v))))) :=
  ⟨fun f hf => Prog.ends_unit (Prog.inspect_sim hP (Prog.abs_R hw) hf) (fun _ _ _ _ h => h)
    ((Spec.inspect_some hx).trans (by rw [Spec.call_ok hx ht])),
  fun f hf => Prog.ends_val (Prog.hasValueAnd_sim hP (Prog.abs_R hw) hf)
    ((Spec.hasValueAnd_some hx).trans (Spec.call_ok hx ht))⟩

example : Demo.calm.Ends Demo.world (Demo.calm.hasValueAnd 1 ⟨(· == 5), id, id⟩ Demo.world) true [.call 1 true]
    (upd (Demo.calm.view Demo.world) 1 (some (some 5))) :=
  (C27_inspect_engaged (P := Demo.calm) (i := 1) Demo.ok_tidy Demo.inv Demo.view1 rfl).2 ⟨(· == 5), id, id⟩ (Demo.fn_legal _)

/-- **C27**: on an empty option the callable does not run, `has_value_and` is false. -/
theorem C27_inspect_empty (hP : P.OK) (hw : P.Inv w) (hx : P.view w i = some none) :
    (∀ f : Prog.Fn Val Unit, f.Legal P i → P.Ends w (P.inspect i f w) () [] (P.view w)) ∧
    (∀ f : Prog.Fn Val Bool, f.Legal P i → P.Ends w (P.hasValueAnd i f w) false [] (P.view w)) :=
  ⟨fun f hf => Prog.ends_unit (Prog.inspect_sim hP (Prog.abs_R hw) hf) (fun _ _ _ _ h => h)
    (by rw [Env.after_nil]; exact Spec.inspect_none hx),
  fun f hf => Prog.ends_val (Prog.hasValueAnd_sim hP (Prog.abs_R hw) hf)
    (by rw [Env.after_nil]; exact Spec.hasValueAnd_none hx)⟩

example : Demo.angry.Ends Demo.world (Demo.angry.hasValueAnd 5 ⟨(· == 5), id, id⟩ Demo.world) false []
    (Demo.angry.view Demo.world) :=
  (C27_inspect_empty (P := Demo.angry) (i := 5) Demo.ok_tidy Demo.inv Demo.view5).2 ⟨(· == 5), id, id⟩ (Demo.fn_legal5 _)

/-! ## C46: exceptions from callables -/

/-- **C46**: when a callable applied to the contained value throws, the exception propagates from every operation, no
result option exists, the option stays engaged with what the callable left in it, and no other option changes. -/
theorem C46_callable_throws (hP : P.OK) (hw : P.Inv w) {v : Val} (hx : P.view w i = some (some v))
    (hr : P.view w r = none) (ht : P.throwsAt w.env.tick = true) :
    (∀ f : Prog.Fn Val Val, f.Legal P i → f.RetIn P r i →
      P.Throws w (P.map i r f w) [.call i false] (upd (P.view w) i (some (some (f.afterThrow v))))) ∧
    (∀ f : Prog.Fn Val (Option Val), f.Legal P i →
      (∀ v u, (P.elem i).Dom P.pw v → f.ret v = some u → (P.elem r).Dom P.pw u) →
      P.Throws w (P.andThen i r f w) [.call i false] (upd (P.view w) i (some (some (f.afterThrow v))))) ∧
    (∀ f : Prog.Fn Val Bool, f.Legal P i →
      P.Throws w (P.filter i r mv f w) [.call i false] (upd (P.view w) i (some (some (f.afterThrow v)))) ∧
      P.Throws w (P.takeIf i r f w) [.call i false] (upd (P.view w) i (some (some (f.afterThrow v)))) ∧
      P.Throws w (P.hasValueAnd i f w) [.call i false] (upd (P.view w) i (some (some (f.afterThrow v))))) ∧
    (∀ f : Prog.Fn Val Unit, f.Legal P i →
      P.Throws w (P.inspect i f w) [.call i false] (upd (P.view w) i (some (some (f.afterThrow v))))) ∧
    (∀ (f : Prog.Fn Val Val) (d : Val), f.Legal P i →
      P.Throws w (P.mapOr i d f w) [.call i false] (upd (P.view w) i (some (some (f.afterThrow v)))) ∧
      P.Throws w (P.mapOrElse i d f w) [.call i false] (upd (P.view w) i (some (some (f.afterThrow v))))) := by
  have hR := Prog.abs_R hw
  refine ⟨fun f hf hret => ?_, fun f hf hret => ?_, fun f hf => ⟨?_, ?_, ?_⟩, fun f hf => ?_, fun f d hf => ⟨?_, ?_⟩⟩
  · exact Prog.throws_of (Prog.map_sim hP hR hf hret) (fun _ _ h => h) (Spec.map_throw hr hx ht)
  · exact Prog.throws_of (Prog.andThen_sim hP hR hf hret) (fun _ _ h => h) (Spec.andThen_throw hx ht)
  · exact Prog.throws_of (Prog.filter_sim hP hR hf) (fun _ _ h => h) (Spec.filter_throw hx ht)
  · exact Prog.throws_of (Prog.takeIf_sim hP (fun _ _ h => by rw [show w.env.tick = _ from rfl, ht] at h; cases h) hR hf)
      (fun _ _ h => h) (Spec.takeIf_throw hx ht)
  · exact Prog.throws_of (Prog.hasValueAnd_sim hP hR hf) (fun _ _ h => h)
      ((Spec.hasValueAnd_some hx).trans (Spec.call_throw hx ht))
  · exact Prog.throws_of (Prog.inspect_sim hP hR hf) (fun _ _ h => h)
      ((Spec.inspect_some hx).trans (Spec.call_throw hx ht))
  · exact Prog.throws_of (Prog.mapOr_sim hP hR hf) (fun _ _ h => h)
      ((Spec.mapOr_some hx).trans (Spec.call_throw hx ht))
  · exact Prog.throws_of (Prog.mapOrElse_sim hP hR hf) (fun _ _ h => h)
      ((Spec.mapOrElse_some hx).trans (Spec.call_throw hx ht))

example : Demo.angry.Throws Demo.world (Demo.angry.map 1 13 ⟨(· + 1), id, fun _ => 4⟩ Demo.world) [.call 1 false]
    (upd (Demo.angry.view Demo.world) 1 (some (some 4))) :=
  (C46_callable_throws (P := Demo.angry) (i := 1) (r := 13) (mv := false) Demo.ok_tidy Demo.inv Demo.view1 Demo.view13 rfl).1
    ⟨(· + 1), id, fun _ => 4⟩ (Demo.fn_legal _) (fun _ _ => Demo.dom_mk 1 (.inr (.inl rfl)))

/-- **C46**: when the fallback callable of `or_else` or `map_or_else` throws, nothing has changed. -/
theorem C46_fallback_throws (hP : P.OK) (hw : P.Inv w) (hx : P.view w i = some none)
    (ht : P.throwsAt w.env.tick = true) :
    (∀ x : Option Val, (∀ u, x = some u → (P.elem r).Dom P.pw u) →
      P.Throws w (P.orElse i r mv x w) [.call0 false] (P.view w)) ∧
    (∀ (f : Prog.Fn Val Val) (d : Val), f.Legal P i → P.Throws w (P.mapOrElse i d f w) [.call0 false] (P.view w)) :=
  ⟨fun x hd => Prog.throws_of (Prog.orElse_sim hP (fun ⟨_, h⟩ => by cases hx.symm.trans h) (Prog.abs_R hw) hd)
    (fun _ _ h => h) (Spec.orElse_throw hx ht),
  fun f d hf => Prog.throws_of (Prog.mapOrElse_sim hP (Prog.abs_R hw) hf) (fun _ _ h => h)
    ((Spec.mapOrElse_none hx).trans (by rw [Spec.call0_eq, ht]; rfl))⟩

example : Demo.angry.Throws Demo.world (Demo.angry.orElse 5 13 true (some 3) Demo.world) [.call0 false]
    (Demo.angry.view Demo.world) :=
  (C46_fallback_throws (P := Demo.angry) (i := 5) (r := 13) Demo.ok_tidy Demo.inv Demo.view5 rfl).1 _
    (fun _ _ => Demo.dom_mk 1 (.inr (.inl rfl)))

/-- **C46**: when the callable of `map` completes but constructing the result throws, there is no result either. -/
theorem C46_map_result_throws (hP : P.OK) (hw : P.Inv w) {f : Prog.Fn Val Val} (hf : f.Legal P i) (hret : f.RetIn P r i)
    {v : Val} (hx : P.view w i = some (some v)) (hr : P.view w r = none) (ht : P.throwsAt w.env.tick = false)
    (ht2 : P.throwsAt (w.env.tick + 1) = true) :
    P.Throws w (P.map i r f w) [.call i true, .ctorFail r .args] (upd (P.view w) i (some (some (f.after v)))) :=
  Prog.throws_of (Prog.map_sim hP (Prog.abs_R hw) hf hret) (fun _ _ h => h) (Spec.map_throw2 hr hx ht ht2)

example : (Demo.prog true (· == 1) Demo.tidy).Throws Demo.world
    ((Demo.prog true (· == 1) Demo.tidy).map 1 13 ⟨(· + 1), id, id⟩ Demo.world) [.call 1 true, .ctorFail 13 .args]
    (upd ((Demo.prog true (· == 1) Demo.tidy).view Demo.world) 1 (some (some 5))) :=
  C46_map_result_throws (P := Demo.prog true (· == 1) Demo.tidy) (i := 1) (r := 13) (f := ⟨(· + 1), id, id⟩)
    Demo.ok_tidy Demo.inv (Demo.fn_legal _) (fun _ _ => Demo.dom_mk 1 (.inr (.inl rfl))) Demo.view1 Demo.view13 rfl rfl

end Opt
