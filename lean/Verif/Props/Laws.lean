import Verif.Props.Api

/-!
# C26, C32, C37, C38, C43: laws of the operations that make options

The laws compare runs of the machine: an option `r` (or `s`) that did not exist before holds the result afterwards.
-/

namespace Opt

variable {Val : Type} {P : Prog Val} {w : World} {i j k r s : Nat} {mv mi mj : Bool} {src : Src Val}

/-- a completed operation as seen without its calls -/
theorem Prog.Ends.yields {x : Out World Unit} {evs : List Event} {y : Option Val}
    (h : P.Ends w x () evs (upd (P.view w) r (some y))) : P.Yields w x r y := by
  obtain ⟨w', h1, h2, h3, _⟩ := h
  exact ⟨w', h1, h2, h3⟩

/-- one operation after another -/
theorem Prog.Yields.andThen {x : Out World Unit} {f : M World Unit} {y z : Option Val}
    (h : P.Yields w x r y) (hf : ∀ w', P.Inv w' → P.view w' = upd (P.view w) r (some y) → P.Yields w' (f w') s z) :
    ∃ w', x.bind (fun _ => f) = .ok () w' ∧ P.Inv w' ∧ P.view w' = upd (upd (P.view w) r (some y)) s (some z) := by
  obtain ⟨w', rfl, h2, h3⟩ := h
  obtain ⟨w'', h4, h5, h6⟩ := hf w' h2 h3
  exact ⟨w'', h4, h5, by rw [h6, h3]⟩

theorem upd_upd_self {m : Nat → Option (Option Val)} {x y : Option (Option Val)} (h : m i = x) :
    upd (upd m i x) r y = upd m r y := by rw [upd_self h]

theorem and1_dom (v : Byte) : Demo.dom 3 (v &&& 1) := by
  have : ∀ v : Byte, v &&& 1 = 0 ∨ v &&& 1 = 1 := by decide +kernel
  exact .inr (.inr (.inr (this v)))

/-! ## C26 -/

/-- **C26**: `map` on an engaged option calls the function exactly once, with the contained value; the result holds what
the function returned. -/
theorem C26_map_engaged (hP : P.OK) (hw : P.Inv w) {f : Prog.Fn Val Val} (hf : f.Legal P i) (hret : f.RetIn P r i) {v : Val}
    (hr : P.view w r = none) (hx : P.view w i = some (some v)) (ht : P.throwsAt w.env.tick = false)
    (ht2 : P.throwsAt (w.env.tick + 1) = false) :
    P.Ends w (P.map i r f w) () [.call i true, .ctor r .args]
      (upd (upd (P.view w) i (some (some (f.after v)))) r (some (some (f.ret v)))) :=
  Prog.ends_unit (Prog.map_sim hP (Prog.abs_R hw) hf hret) (fun _ _ _ _ h => h) (Spec.map_ok hr hx ht ht2)

example : Demo.calm.Ends Demo.world (Demo.calm.map 1 13 ⟨(· + 1), (· + 2), id⟩ Demo.world) () [.call 1 true, .ctor 13 .args]
    (upd (upd (Demo.calm.view Demo.world) 1 (some (some 7))) 13 (some (some 6))) :=
  C26_map_engaged (P := Demo.calm) (i := 1) (r := 13) (f := ⟨(· + 1), (· + 2), id⟩) Demo.ok_tidy Demo.inv (Demo.fn_legal _)
    (fun _ _ => Demo.dom_mk 1 (.inr (.inl rfl))) Demo.view13 Demo.view1 rfl rfl

/-- **C26**: `map` on an empty option calls nothing and gives an empty option. -/
theorem C26_map_empty (hP : P.OK) (hw : P.Inv w) {f : Prog.Fn Val Val} (hf : f.Legal P i) (hret : f.RetIn P r i)
    (hr : P.view w r = none) (hx : P.view w i = some none) :
    P.Ends w (P.map i r f w) () [] (upd (P.view w) r (some none)) :=
  Prog.ends_unit (Prog.map_sim hP (Prog.abs_R hw) hf hret) (fun _ _ _ _ h => h)
    (by rw [Env.after_nil]; exact Spec.map_none hr hx)

example : Demo.angry.Ends Demo.world (Demo.angry.map 5 13 ⟨(· + 1), (· + 2), id⟩ Demo.world) ()
    [] (upd (Demo.angry.view Demo.world) 13 (some none)) :=
  C26_map_empty (P := Demo.angry) (i := 5) (r := 13) (f := ⟨(· + 1), (· + 2), id⟩) Demo.ok_tidy Demo.inv (Demo.fn_legal5 _)
    (fun _ _ => Demo.dom_mk 1 (.inr (.inl rfl))) Demo.view13 Demo.view5

/-- **C26**: `and_then` on an engaged option calls the function exactly once and gives the option it returned. -/
theorem C26_and_then_engaged (hP : P.OK) (hw : P.Inv w) {f : Prog.Fn Val (Option Val)} (hf : f.Legal P i)
    (hret : ∀ v u, (P.elem i).Dom P.pw v → f.ret v = some u → (P.elem r).Dom P.pw u) {v : Val}
    (hr : P.view w r = none) (hx : P.view w i = some (some v)) (ht : P.throwsAt w.env.tick = false)
    (ht2 : (f.ret v).isSome = true → P.throwsAt (w.env.tick + 1) = false) :
    P.Ends w (P.andThen i r f w) () (.call i true :: P.makeEvs r (f.ret v))
      (upd (upd (P.view w) i (some (some (f.after v)))) r (some (f.ret v))) :=
  Prog.ends_unit (Prog.andThen_sim hP (Prog.abs_R hw) hf hret) (fun _ _ _ _ h => h) (Spec.andThen_ok hr hx ht ht2)

example : Demo.calm.Ends Demo.world (Demo.calm.andThen 1 13 ⟨fun _ => none, (· + 2), id⟩ Demo.world) () [.call 1 true]
    (upd (upd (Demo.calm.view Demo.world) 1 (some (some 7))) 13 (some none)) :=
  C26_and_then_engaged (P := Demo.calm) (i := 1) (r := 13) (f := ⟨fun _ => none, (· + 2), id⟩) Demo.ok_tidy Demo.inv
    (Demo.fn_legal _) (fun _ _ _ h => nomatch h) Demo.view13 Demo.view1 rfl (fun h => nomatch h)

/-- **C26**: `and_then` on an empty option calls nothing and gives an empty option. -/
theorem C26_and_then_empty (hP : P.OK) (hw : P.Inv w) {f : Prog.Fn Val (Option Val)} (hf : f.Legal P i)
    (hret : ∀ v u, (P.elem i).Dom P.pw v → f.ret v = some u → (P.elem r).Dom P.pw u)
    (hr : P.view w r = none) (hx : P.view w i = some none) :
    P.Ends w (P.andThen i r f w) () [] (upd (P.view w) r (some none)) :=
  Prog.ends_unit (Prog.andThen_sim hP (Prog.abs_R hw) hf hret) (fun _ _ _ _ h => h)
    (by rw [Env.after_nil]; exact Spec.andThen_none hr hx)

example : Demo.angry.Ends Demo.world (Demo.angry.andThen 5 13 ⟨fun _ => none, (· + 2), id⟩ Demo.world) () []
    (upd (Demo.angry.view Demo.world) 13 (some none)) :=
  C26_and_then_empty (P := Demo.angry) (i := 5) (r := 13) (f := ⟨fun _ => none, (· + 2), id⟩) Demo.ok_tidy Demo.inv
    (Demo.fn_legal5 _) (fun _ _ _ h => nomatch h) Demo.view13 Demo.view5

/-- `and_then` with a callable that leaves its argument alone -/
theorem andThen_yields (hP : P.OK) (hn : ∀ n, P.throwsAt n = false) (hw : P.Inv w) {f : Val → Option Val}
    (hret : ∀ v u, (P.elem i).Dom P.pw v → f v = some u → (P.elem r).Dom P.pw u) {x : Option Val}
    (hr : P.view w r = none) (hx : P.view w i = some x) :
    P.Yields w (P.andThen i r (.pure f) w) r (x.bind f) := by
  have hf : (Prog.Fn.pure f).Legal P i := fun v hv => ⟨hv, hv⟩
  cases x with
  | none => exact (C26_and_then_empty hP hw hf hret hr hx).yields
  | some v =>
    have h := C26_and_then_engaged hP hw hf hret hr hx (hn _) (fun _ => hn _)
    rw [show (Prog.Fn.pure f).after v = v from rfl, upd_self hx] at h
    exact h.yields

/-- `map` with a callable that leaves its argument alone -/
theorem map_yields (hP : P.OK) (hn : ∀ n, P.throwsAt n = false) (hw : P.Inv w) {f : Val → Val}
    (hret : ∀ v, (P.elem i).Dom P.pw v → (P.elem r).Dom P.pw (f v)) {x : Option Val}
    (hr : P.view w r = none) (hx : P.view w i = some x) :
    P.Yields w (P.map i r (.pure f) w) r (x.map f) := by
  have hf : (Prog.Fn.pure f).Legal P i := fun v hv => ⟨hv, hv⟩
  cases x with
  | none => exact (C26_map_empty hP hw hf hret hr hx).yields
  | some v =>
    have h := C26_map_engaged hP hw hf hret hr hx (hn _) (hn _)
    rw [show (Prog.Fn.pure f).after v = v from rfl, upd_self hx] at h
    exact h.yields

/-- **C26**, left identity: `option(a).and_then(f)` is `f(a)`. -/
theorem C26_left_identity (hP : P.OK) (hn : ∀ n, P.throwsAt n = false) (hw : P.Inv w) {f : Val → Option Val}
    (hret : ∀ v u, (P.elem i).Dom P.pw v → f v = some u → (P.elem r).Dom P.pw u) {a : Val} (ha : (P.elem i).Dom P.pw a)
    (hi : P.view w i = none) (hr : P.view w r = none) (hir : i ≠ r) :
    ∃ w', (P.ctorValue i (.args a) >>= fun _ => P.andThen i r (.pure f)) w = .ok () w' ∧ P.Inv w' ∧
      P.view w' = upd (upd (P.view w) i (some (some a))) r (some (f a)) := by
  have h1 := (C20_construct_value (P := P) (src := .args a) hP hw ha hi rfl (.inr (hn _))).yields (r := i)
  exact h1.andThen (fun w' hw' hv => andThen_yields (x := some a) hP hn hw' hret (by rw [hv, upd_other _ _ (Ne.symm hir)]; exact hr)
    (by rw [hv, upd_same]))

example : ∃ w', (Demo.calm.ctorValue 13 (.args 3) >>= fun _ => Demo.calm.andThen 13 17 (.pure fun v => some (v + 1)))
    Demo.world = .ok () w' ∧ Demo.calm.Inv w' ∧
    Demo.calm.view w' = upd (upd (Demo.calm.view Demo.world) 13 (some (some 3))) 17 (some (some 4)) :=
  C26_left_identity (P := Demo.calm) (i := 13) (r := 17) (f := fun v => some (v + 1)) Demo.ok_tidy (fun _ => rfl) Demo.inv
    (fun _ _ _ _ => Demo.dom_mk 1 (.inr (.inl rfl))) (Demo.dom_mk 1 (.inr (.inl rfl))) Demo.view13 rfl (by decide)

/-- **C26**, right identity: `o.and_then([](auto x) { return option(x); })` is `o`. -/
theorem C26_right_identity (hP : P.OK) (hn : ∀ n, P.throwsAt n = false) (hw : P.Inv w) (hc : P.cls r = P.cls i)
    {x : Option Val} (hr : P.view w r = none) (hx : P.view w i = some x) :
    P.Yields w (P.andThen i r (.pure some) w) r x := by
  have h := andThen_yields (f := some) hP hn hw (fun v u hv hu => by
    cases hu; simp only [Prog.elem, hc]; exact hv) hr hx
  rwa [Option.bind_fun_some] at h

example : Demo.calm.Yields Demo.world (Demo.calm.andThen 1 13 (.pure some) Demo.world) 13 (some 5) :=
  C26_right_identity (P := Demo.calm) (i := 1) (r := 13) Demo.ok_tidy (fun _ => rfl) Demo.inv rfl Demo.view13 Demo.view1

/-- **C26**, associativity: `o.and_then(f).and_then(g)` and `o.and_then([](auto x) { return f(x).and_then(g); })` give
the same option, and neither changes any other option. -/
theorem C26_associativity (hP : P.OK) (hn : ∀ n, P.throwsAt n = false) (hw : P.Inv w) {f g : Val → Option Val}
    (hf : ∀ v u, (P.elem i).Dom P.pw v → f v = some u → (P.elem r).Dom P.pw u)
    (hg : ∀ v u, (P.elem r).Dom P.pw v → g v = some u → (P.elem s).Dom P.pw u) {x : Option Val}
    (hr : P.view w r = none) (hs : P.view w s = none) (hrs : r ≠ s) (hx : P.view w i = some x) :
    ∃ y w', (P.andThen i r (.pure f) >>= fun _ => P.andThen r s (.pure g)) w = .ok () w' ∧ P.Inv w' ∧
      P.view w' = upd (upd (P.view w) r (some (x.bind f))) s (some y) ∧
      P.Yields w (P.andThen i s (.pure fun v => (f v).bind g) w) s y := by
  have h1 := andThen_yields hP hn hw hf hr hx
  have h2 := h1.andThen (s := s) (z := (x.bind f).bind g) (fun w' hw' hv =>
    andThen_yields hP hn hw' hg (by rw [hv, upd_other _ _ (Ne.symm hrs)]; exact hs) (by rw [hv, upd_same]))
  obtain ⟨w', h2, h3, h4⟩ := h2
  refine ⟨_, w', h2, h3, h4, ?_⟩
  have h5 := andThen_yields (r := s) (f := fun v => (f v).bind g) hP hn hw (fun v u hv hu => by
    obtain ⟨t, ht, hu⟩ := Option.bind_eq_some_iff.1 hu
    exact hg t u (hf v t hv ht) hu) hs hx
  rwa [← Option.bind_assoc] at h5

example : (∀ v u : Byte, (Demo.calm.elem 1).Dom 64 v → (fun v => if v = 5 then some (v + 1) else none) v = some u →
      (Demo.calm.elem 13).Dom 64 u) ∧ Demo.calm.view Demo.world 13 = none ∧ Demo.calm.view Demo.world 17 = none ∧
      Demo.calm.view Demo.world 1 = some (some 5) :=
  ⟨fun _ _ _ _ => Demo.dom_mk 1 (.inr (.inl rfl)), Demo.view13, rfl, Demo.view1⟩

/-- **C26**, functor identity. -/
theorem C26_map_id (hP : P.OK) (hn : ∀ n, P.throwsAt n = false) (hw : P.Inv w) (hc : P.cls r = P.cls i)
    {x : Option Val} (hr : P.view w r = none) (hx : P.view w i = some x) :
    P.Yields w (P.map i r (.pure id) w) r x := by
  have h := map_yields (f := id) hP hn hw (fun v hv => by simp only [Prog.elem, hc]; exact hv) hr hx
  rwa [Option.map_id] at h

example : Demo.calm.Yields Demo.world (Demo.calm.map 1 13 (.pure id) Demo.world) 13 (some 5) :=
  C26_map_id (P := Demo.calm) (i := 1) (r := 13) Demo.ok_tidy (fun _ => rfl) Demo.inv rfl Demo.view13 Demo.view1

/-- **C26**, functor composition: mapping `f` then `g` gives the same option as mapping `g ∘ f`. -/
theorem C26_map_comp (hP : P.OK) (hn : ∀ n, P.throwsAt n = false) (hw : P.Inv w) {f g : Val → Val}
    (hf : ∀ v, (P.elem i).Dom P.pw v → (P.elem r).Dom P.pw (f v))
    (hg : ∀ v, (P.elem r).Dom P.pw v → (P.elem s).Dom P.pw (g v)) {x : Option Val}
    (hr : P.view w r = none) (hs : P.view w s = none) (hrs : r ≠ s) (hx : P.view w i = some x) :
    ∃ y w', (P.map i r (.pure f) >>= fun _ => P.map r s (.pure g)) w = .ok () w' ∧ P.Inv w' ∧
      P.view w' = upd (upd (P.view w) r (some (x.map f))) s (some y) ∧
      P.Yields w (P.map i s (.pure (g ∘ f)) w) s y := by
  have h1 := map_yields hP hn hw hf hr hx
  have h2 := h1.andThen (s := s) (z := (x.map f).map g) (fun w' hw' hv =>
    map_yields hP hn hw' hg (by rw [hv, upd_other _ _ (Ne.symm hrs)]; exact hs) (by rw [hv, upd_same]))
  obtain ⟨w', h2, h3, h4⟩ := h2
  refine ⟨_, w', h2, h3, h4, ?_⟩
  have h5 := map_yields (r := s) (f := g ∘ f) hP hn hw (fun v hv => hg _ (hf v hv)) hs hx
  rwa [← Option.map_map] at h5

example : (∀ v : Byte, (Demo.calm.elem 1).Dom 64 v → (Demo.calm.elem 13).Dom 64 (v + 1)) ∧
      Demo.calm.view Demo.world 13 = none ∧ Demo.calm.view Demo.world 17 = none ∧
      Demo.calm.view Demo.world 1 = some (some 5) :=
  ⟨fun _ _ => Demo.dom_mk 1 (.inr (.inl rfl)), Demo.view13, rfl, Demo.view1⟩

/-- **C26**: `map(f)` is `and_then` with the result wrapped. -/
theorem C26_map_is_and_then (hP : P.OK) (hn : ∀ n, P.throwsAt n = false) (hw : P.Inv w) {f : Val → Val}
    (hf : ∀ v, (P.elem i).Dom P.pw v → (P.elem r).Dom P.pw (f v)) {x : Option Val}
    (hr : P.view w r = none) (hx : P.view w i = some x) :
    ∃ y, P.Yields w (P.map i r (.pure f) w) r y ∧ P.Yields w (P.andThen i r (.pure fun v => some (f v)) w) r y := by
  refine ⟨_, map_yields hP hn hw hf hr hx, ?_⟩
  have h := andThen_yields (f := fun v => some (f v)) hP hn hw (fun v u hv hu => by cases hu; exact hf v hv) hr hx
  cases x <;> exact h

example : ∃ y, Demo.calm.Yields Demo.world (Demo.calm.map 1 13 (.pure (· + 1)) Demo.world) 13 y ∧
    Demo.calm.Yields Demo.world (Demo.calm.andThen 1 13 (.pure fun v => some (v + 1)) Demo.world) 13 y :=
  C26_map_is_and_then Demo.ok_tidy (fun _ => rfl) Demo.inv (fun _ _ => Demo.dom_mk 1 (.inr (.inl rfl))) Demo.view13 Demo.view1

/-! ## C43: option_cast -/

/-- **C43**: `option_cast` of an engaged option calls the conversion exactly once; the result holds the converted value.
The lvalue overload leaves its operand alone. -/
theorem C43_engaged (hP : P.OK) (hw : P.Inv w) {conv : Val → Val}
    (hc : ∀ v, (P.elem i).Dom P.pw v → (P.elem r).Dom P.pw (conv v)) {v : Val}
    (hr : P.view w r = none) (hx : P.view w i = some (some v)) (ht : P.throwsAt w.env.tick = false)
    (ht2 : P.throwsAt (w.env.tick + 1) = false) :
    P.Ends w (P.map i r (.pure conv) w) () [.call i true, .ctor r .args] (upd (P.view w) r (some (some (conv v)))) := by
  have h := C26_map_engaged (f := .pure conv) hP hw (fun v hv => ⟨hv, hv⟩) hc hr hx ht ht2
  rwa [show (Prog.Fn.pure conv).after v = v from rfl, upd_self hx] at h

example : Demo.calm.Ends Demo.world (Demo.calm.map 1 7 (.pure (· &&& 1)) Demo.world) () [.call 1 true, .ctor 7 .args]
    (upd (Demo.calm.view Demo.world) 7 (some (some 1))) :=
  C43_engaged (P := Demo.calm) (i := 1) (r := 7) (conv := (· &&& 1)) Demo.ok_tidy Demo.inv
    (fun v _ => Demo.dom_mk 3 (and1_dom v)) rfl Demo.view1 rfl rfl

/-- **C43**: `option_cast` of an empty option is empty; the conversion is not called. -/
theorem C43_empty (hP : P.OK) (hw : P.Inv w) {conv : Val → Val}
    (hc : ∀ v, (P.elem i).Dom P.pw v → (P.elem r).Dom P.pw (conv v))
    (hr : P.view w r = none) (hx : P.view w i = some none) :
    P.Ends w (P.map i r (.pure conv) w) () [] (upd (P.view w) r (some none)) :=
  C26_map_empty (f := .pure conv) hP hw (fun v hv => ⟨hv, hv⟩) hc hr hx

example : Demo.angry.Ends Demo.world (Demo.angry.map 5 7 (.pure (· &&& 1)) Demo.world) () []
    (upd (Demo.angry.view Demo.world) 7 (some none)) :=
  C43_empty (P := Demo.angry) (i := 5) (r := 7) (conv := (· &&& 1)) Demo.ok_tidy Demo.inv
    (fun v _ => Demo.dom_mk 3 (and1_dom v)) rfl Demo.view5

/-- **C43**: the rvalue overload moves from the contained object; the option stays engaged with the moved-from value. -/
theorem C43_rvalue (hP : P.OK) (hw : P.Inv w) {conv moved : Val → Val}
    (hc : ∀ v, (P.elem i).Dom P.pw v → (P.elem r).Dom P.pw (conv v))
    (hm : ∀ v, (P.elem i).Dom P.pw v → (P.elem i).Dom P.pw (moved v)) {v : Val}
    (hr : P.view w r = none) (hx : P.view w i = some (some v)) (ht : P.throwsAt w.env.tick = false)
    (ht2 : P.throwsAt (w.env.tick + 1) = false) :
    P.Ends w (P.map i r ⟨conv, moved, moved⟩ w) () [.call i true, .ctor r .args]
      (upd (upd (P.view w) i (some (some (moved v)))) r (some (some (conv v)))) :=
  C26_map_engaged (f := ⟨conv, moved, moved⟩) hP hw (fun v hv => ⟨hm v hv, hm v hv⟩) hc hr hx ht ht2

example : Demo.calm.Ends Demo.world (Demo.calm.map 1 7 ⟨(· &&& 1), fun _ => 0, fun _ => 0⟩ Demo.world) ()
    [.call 1 true, .ctor 7 .args]
    (upd (upd (Demo.calm.view Demo.world) 1 (some (some 0))) 7 (some (some 1))) :=
  C43_rvalue (P := Demo.calm) (i := 1) (r := 7) (conv := (· &&& 1)) (moved := fun _ => 0) Demo.ok_tidy Demo.inv
    (fun v _ => Demo.dom_mk 3 (and1_dom v)) (fun _ _ => Demo.dom_mk 1 (.inr (.inl rfl))) rfl Demo.view1 rfl rfl

/-- **C43**: casting twice gives the same option as casting by the composite conversion. -/
theorem C43_compose (hP : P.OK) (hn : ∀ n, P.throwsAt n = false) (hw : P.Inv w) {c1 c2 : Val → Val}
    (h1 : ∀ v, (P.elem i).Dom P.pw v → (P.elem r).Dom P.pw (c1 v))
    (h2 : ∀ v, (P.elem r).Dom P.pw v → (P.elem s).Dom P.pw (c2 v)) {x : Option Val}
    (hr : P.view w r = none) (hs : P.view w s = none) (hrs : r ≠ s) (hx : P.view w i = some x) :
    ∃ y w', (P.map i r (.pure c1) >>= fun _ => P.map r s (.pure c2)) w = .ok () w' ∧ P.Inv w' ∧
      P.view w' = upd (upd (P.view w) r (some (x.map c1))) s (some y) ∧
      P.Yields w (P.map i s (.pure fun v => c2 (c1 v)) w) s y :=
  C26_map_comp hP hn hw h1 h2 hr hs hrs hx

example : (∀ v : Byte, (Demo.calm.elem 1).Dom 64 v → (Demo.calm.elem 7).Dom 64 (v &&& 1)) ∧
    (∀ v : Byte, (Demo.calm.elem 7).Dom 64 v → (Demo.calm.elem 13).Dom 64 (v + 1)) ∧
    Demo.calm.view Demo.world 7 = none ∧ Demo.calm.view Demo.world 13 = none :=
  ⟨fun v _ => Demo.dom_mk 3 (and1_dom v), fun _ _ => Demo.dom_mk 1 (.inr (.inl rfl)), rfl, rfl⟩

/-! ## C32: zip -/

/-- **C32**: `zip` of engaged options, any number of them, holds the tuple of their values in order.  Each element is
copied or moved exactly once, then the tuple is moved once and the elements of the temporary tuple are destroyed. -/
theorem C32_zip_engaged (hP : P.OK) (hw : P.Inv w) {is : List (Nat × Bool)} {vs : List Val} {g : List Val → Val}
    (hg : ∀ vs, P.TupleDom (is.map (·.1)) vs → (P.elem r).Dom P.pw (g vs)) (hz : Prog.ZipOK is)
    (hr : P.view w r = none) (hx : Prog.Holds (P.view w) (is.map (·.1)) vs)
    (ht : ∀ n, w.env.tick ≤ n → n ≤ w.env.tick + is.length → P.throwsAt n = false) :
    P.Ends w (P.zip is r g w) () (P.zipEvs is ++ P.ctorEvs r (.move (g vs)) ++ P.tmpDropEvs (is.map (·.1)).reverse)
      (upd (P.zipLeaves w.env.tick (P.view w) is) r (some (some (g vs)))) :=
  Prog.ends_unit (Prog.zip_sim hP (Prog.abs_R hw) hg) (fun _ _ _ _ h => h) (Spec.zip_ok hr hx hz ht)

/-- a "tuple" of option 1 (lvalue) and option 9 (rvalue) -/
example : Demo.calm.Ends Demo.world (Demo.calm.zip [(1, false), (9, true)] 13 (fun vs => vs.getD 1 0) Demo.world) ()
    [.tmpCtor .copy true, .tmpCtor .move true, .ctor 13 .move, .tmpDtor, .tmpDtor]
    (upd (Demo.calm.zipLeaves 0 (Demo.calm.view Demo.world) [(1, false), (9, true)]) 13 (some (some 6))) :=
  C32_zip_engaged (P := Demo.calm) (r := 13) (is := [(1, false), (9, true)]) (vs := [5, 6]) (g := fun vs => vs.getD 1 0)
    Demo.ok_tidy Demo.inv (fun _ _ => Demo.dom_mk 1 (.inr (.inl rfl))) (by simp [Prog.ZipOK]) Demo.view13
    ⟨Demo.view1, Demo.view9, trivial⟩ (fun _ _ _ => rfl)

/-- **C32**: when the constructor of an element of the temporary tuple throws, the elements made before it are destroyed and there is no
result.  The later options are untouched; an earlier one is changed only if it was an rvalue. -/
theorem C32_zip_throws (hP : P.OK) (hw : P.Inv w) {pre post : List (Nat × Bool)} {mv : Bool} {vs : List Val} {g : List Val → Val}
    (hg : ∀ vs, P.TupleDom ((pre ++ (i, mv) :: post).map (·.1)) vs → (P.elem r).Dom P.pw (g vs))
    (hz : Prog.ZipOK (pre ++ (i, mv) :: post)) (hx : Prog.Holds (P.view w) ((pre ++ (i, mv) :: post).map (·.1)) vs)
    (hc : (P.elem i).ctorTriv (if mv then .move else .copy) = false)
    (ht : ∀ n, w.env.tick ≤ n → n < w.env.tick + (P.zipEvs pre).length → P.throwsAt n = false)
    (hn : P.throwsAt (w.env.tick + (P.zipEvs pre).length) = true) :
    P.Throws w (P.zip (pre ++ (i, mv) :: post) r g w)
      (P.zipEvs pre ++ .tmpCtor (if mv then .move else .copy) false :: P.tmpDropEvs (pre.map (·.1)).reverse)
      ((Src.opt i mv).leaves P true (w.env.tick + (P.zipEvs pre).length) (P.zipLeaves w.env.tick (P.view w) pre)) := by
  have hk : P.kind i (.opt i mv) = if mv then .move else .copy := by simp only [Prog.kind, if_true]
  have h := Spec.zipElems_throw (post := post) (mv := mv) (e := w.env) (by rw [hk]; exact hc) hx hz ht hn
  rw [hk] at h
  exact Prog.throws_of (Prog.zip_sim hP (Prog.abs_R hw) hg) (fun _ _ h => h)
    (Spec.zip_throw (fun p hp => Spec.holds_mem hx p.1 (List.mem_map_of_mem hp)) h)

/-- the second element's move constructor throws: the copy made before is destroyed, and option 9 is as that constructor left it -/
example : (Demo.prog true (· == 1) Demo.tidy).Throws Demo.world
    ((Demo.prog true (· == 1) Demo.tidy).zip [(1, false), (9, true), (0, false)] 13 (fun vs => vs.getD 1 0) Demo.world)
    [.tmpCtor .copy true, .tmpCtor .move false, .tmpDtor]
    ((Src.opt 9 true).leaves (Demo.prog true (· == 1) Demo.tidy) true 1 (Demo.calm.view Demo.world)) :=
  C32_zip_throws (P := Demo.prog true (· == 1) Demo.tidy) (r := 13) (pre := [(1, false)]) (i := 9) (mv := true)
    (post := [(0, false)]) (vs := [5, 6, 7]) (g := fun vs => vs.getD 1 0)
    Demo.ok_tidy Demo.inv (fun _ _ => Demo.dom_mk 1 (.inr (.inl rfl))) (by simp [Prog.ZipOK])
    ⟨Demo.view1, Demo.view9, Demo.view0, trivial⟩ rfl (fun n _ h => by
      have h : n < 0 + 1 := h
      obtain rfl : n = 0 := by omega
      rfl) rfl

/-- **C32**: when the move of the temporary tuple into the result throws, all elements of the temporary tuple are destroyed and there is
no result -/
theorem C32_zip_move_throws (hP : P.OK) (hw : P.Inv w) {is : List (Nat × Bool)} {vs : List Val} {g : List Val → Val}
    (hg : ∀ vs, P.TupleDom (is.map (·.1)) vs → (P.elem r).Dom P.pw (g vs)) (hz : Prog.ZipOK is)
    (hr : P.view w r = none) (hx : Prog.Holds (P.view w) (is.map (·.1)) vs) (hc : (P.elem r).ctorTriv .move = false)
    (ht : ∀ n, w.env.tick ≤ n → n < w.env.tick + (P.zipEvs is).length → P.throwsAt n = false)
    (hn : P.throwsAt (w.env.tick + (P.zipEvs is).length) = true) :
    P.Throws w (P.zip is r g w) (P.zipEvs is ++ .ctorFail r .move :: P.tmpDropEvs (is.map (·.1)).reverse)
      (P.zipLeaves w.env.tick (P.view w) is) :=
  Prog.throws_of (Prog.zip_sim hP (Prog.abs_R hw) hg) (fun _ _ h => h) (Spec.zip_move_throw hr hx hz ht hc hn)

example : (Demo.prog true (· == 2) Demo.tidy).Throws Demo.world
    ((Demo.prog true (· == 2) Demo.tidy).zip [(1, false), (9, true)] 13 (fun vs => vs.getD 1 0) Demo.world)
    [.tmpCtor .copy true, .tmpCtor .move true, .ctorFail 13 .move, .tmpDtor, .tmpDtor]
    ((Demo.prog true (· == 2) Demo.tidy).zipLeaves 0 (Demo.calm.view Demo.world) [(1, false), (9, true)]) :=
  C32_zip_move_throws (P := Demo.prog true (· == 2) Demo.tidy) (r := 13) (is := [(1, false), (9, true)]) (vs := [5, 6])
    (g := fun vs => vs.getD 1 0) Demo.ok_tidy Demo.inv (fun _ _ => Demo.dom_mk 1 (.inr (.inl rfl))) (by simp [Prog.ZipOK]) Demo.view13
    ⟨Demo.view1, Demo.view9, trivial⟩ rfl (fun n _ h => by
      have h : n < 0 + 2 := h
      have : n = 0 ∨ n = 1 := by omega
      rcases this with rfl | rfl <;> rfl) rfl

/-- **C32**: `zip` with an empty argument is empty; no user code runs and no argument changes. -/
theorem C32_zip_empty (hP : P.OK) (hw : P.Inv w) {is : List (Nat × Bool)} {g : List Val → Val}
    (hg : ∀ vs, P.TupleDom (is.map (·.1)) vs → (P.elem r).Dom P.pw (g vs))
    (hr : P.view w r = none) (hx : ∀ p ∈ is, ∃ x, P.view w p.1 = some x) (he : ∃ p ∈ is, P.view w p.1 = some none) :
    P.Ends w (P.zip is r g w) () [] (upd (P.view w) r (some none)) :=
  Prog.ends_unit (Prog.zip_sim hP (Prog.abs_R hw) hg) (fun _ _ _ _ h => h)
    (by rw [Env.after_nil]; exact Spec.zip_none hr hx he)

example : Demo.angry.Ends Demo.world (Demo.angry.zip [(1, true), (5, true)] 13 (fun vs => vs.getD 1 0) Demo.world) ()
    [] (upd (Demo.angry.view Demo.world) 13 (some none)) :=
  C32_zip_empty (P := Demo.angry) (r := 13) (is := [(1, true), (5, true)]) (g := fun vs => vs.getD 1 0)
    Demo.ok_tidy Demo.inv (fun _ _ => Demo.dom_mk 1 (.inr (.inl rfl))) Demo.view13
    (by
      intro p hp
      rcases List.mem_cons.1 hp with rfl | hp
      · exact ⟨_, Demo.view1⟩
      · cases List.mem_singleton.1 hp; exact ⟨_, Demo.view5⟩)
    ⟨(5, true), by simp, Demo.view5⟩

/-- **C32**: `zip_with` of engaged options calls the function exactly once with all values. -/
theorem C32_zip_with_engaged (hP : P.OK) (hw : P.Inv w) {is : List Nat} {vs : List Val} {g : List Val → Val}
    (hg : ∀ vs, P.TupleDom is vs → (P.elem r).Dom P.pw (g vs))
    (hr : P.view w r = none) (hx : Prog.Holds (P.view w) is vs) (ht : P.throwsAt w.env.tick = false)
    (ht2 : P.throwsAt (w.env.tick + 1) = false) :
    P.Ends w (P.zipWith is r g w) () (.call0 true :: P.ctorEvs r (.move (g vs)) ++ P.tmpDropEvs [r])
      (upd (P.view w) r (some (some (g vs)))) :=
  Prog.ends_unit (Prog.zipWith_sim hP (Prog.abs_R hw) hg) (fun _ _ _ _ h => h) (Spec.zipWith_ok hr hx ht ht2)

example : Demo.calm.Ends Demo.world (Demo.calm.zipWith [1, 0, 9] 13 (fun vs => vs.foldl (· + ·) 0) Demo.world) ()
    [.call0 true, .ctor 13 .move, .tmpDtor] (upd (Demo.calm.view Demo.world) 13 (some (some 18))) :=
  C32_zip_with_engaged (P := Demo.calm) (r := 13) (is := [1, 0, 9]) (vs := [5, 7, 6]) (g := fun vs => vs.foldl (· + ·) 0)
    Demo.ok_tidy Demo.inv (fun _ _ => Demo.dom_mk 1 (.inr (.inl rfl))) Demo.view13
    ⟨Demo.view1, Demo.view0, Demo.view9, trivial⟩ rfl rfl

/-- **C32**: when the move of the function's result into the option throws, that result is destroyed; no option has changed -/
theorem C32_zip_with_move_throws (hP : P.OK) (hw : P.Inv w) {is : List Nat} {vs : List Val} {g : List Val → Val}
    (hg : ∀ vs, P.TupleDom is vs → (P.elem r).Dom P.pw (g vs))
    (hr : P.view w r = none) (hx : Prog.Holds (P.view w) is vs) (ht : P.throwsAt w.env.tick = false)
    (hc : (P.elem r).ctorTriv .move = false) (ht2 : P.throwsAt (w.env.tick + 1) = true) :
    P.Throws w (P.zipWith is r g w) (.call0 true :: .ctorFail r .move :: P.tmpDropEvs [r]) (P.view w) :=
  Prog.throws_of (Prog.zipWith_sim hP (Prog.abs_R hw) hg) (fun _ _ h => h) (Spec.zipWith_move_throw hr hx ht hc ht2)

example : (Demo.prog true (· == 1) Demo.tidy).Throws Demo.world
    ((Demo.prog true (· == 1) Demo.tidy).zipWith [1, 0] 13 (fun vs => vs.foldl (· + ·) 0) Demo.world)
    [.call0 true, .ctorFail 13 .move, .tmpDtor] (Demo.calm.view Demo.world) :=
  C32_zip_with_move_throws (P := Demo.prog true (· == 1) Demo.tidy) (r := 13) (is := [1, 0]) (vs := [5, 7])
    (g := fun vs => vs.foldl (· + ·) 0) Demo.ok_tidy Demo.inv (fun _ _ => Demo.dom_mk 1 (.inr (.inl rfl))) Demo.view13
    ⟨Demo.view1, Demo.view0, trivial⟩ rfl rfl rfl

/-- **C32**: `zip_with` with a function that returns nothing: with all options engaged it is called once with all values, and its
exception leaves `zip_with`; no option changes -/
theorem C32_zip_with_void_engaged (hw : P.Inv w) {is : List Nat} {vs : List Val} (hx : Prog.Holds (P.view w) is vs) :
    if P.throwsAt w.env.tick then P.Throws w (P.zipWithVoid is w) [.call0 false] (P.view w)
    else P.Ends w (P.zipWithVoid is w) (some vs) [.call0 true] (P.view w) := by
  have h := Prog.zipWithVoid_sim (P := P) (is := is) (Prog.abs_R hw)
  have e := Spec.zipWithVoid_ok (P := P) (e := w.env) hx
  cases ht : P.throwsAt w.env.tick
  · rw [ht] at e
    exact Prog.ends_val h e
  · rw [ht] at e
    exact Prog.throws_of h (fun _ _ h => h) e

example : Demo.calm.Ends Demo.world (Demo.calm.zipWithVoid [1, 0, 1] Demo.world) (some [5, 7, 5]) [.call0 true]
    (Demo.calm.view Demo.world) :=
  C32_zip_with_void_engaged (P := Demo.calm) (is := [1, 0, 1]) Demo.inv ⟨Demo.view1, Demo.view0, Demo.view1, trivial⟩

example : Demo.angry.Throws Demo.world (Demo.angry.zipWithVoid [] Demo.world) [.call0 false] (Demo.angry.view Demo.world) :=
  C32_zip_with_void_engaged (P := Demo.angry) (is := []) (vs := []) Demo.inv trivial

/-- **C32**: with an empty argument the function that returns nothing is not called -/
theorem C32_zip_with_void_empty (hw : P.Inv w) {is : List Nat} (hx : ∀ i ∈ is, ∃ x, P.view w i = some x)
    (he : ∃ i ∈ is, P.view w i = some none) : P.Ends w (P.zipWithVoid is w) none [] (P.view w) :=
  Prog.ends_val (Prog.zipWithVoid_sim (Prog.abs_R hw)) (by rw [Env.after_nil]; exact Spec.zipWithVoid_none hx he)

example : Demo.angry.Ends Demo.world (Demo.angry.zipWithVoid [1, 5] Demo.world) none [] (Demo.angry.view Demo.world) :=
  C32_zip_with_void_empty (P := Demo.angry) (is := [1, 5]) Demo.inv
    (by
      intro p hp
      rcases List.mem_cons.1 hp with rfl | hp
      · exact ⟨_, Demo.view1⟩
      · cases List.mem_singleton.1 hp; exact ⟨_, Demo.view5⟩)
    ⟨5, by simp, Demo.view5⟩

/-- **C32**: `zip_with` with an empty argument does not call the function. -/
theorem C32_zip_with_empty (hP : P.OK) (hw : P.Inv w) {is : List Nat} {g : List Val → Val}
    (hg : ∀ vs, P.TupleDom is vs → (P.elem r).Dom P.pw (g vs))
    (hr : P.view w r = none) (hx : ∀ i ∈ is, ∃ x, P.view w i = some x) (he : ∃ i ∈ is, P.view w i = some none) :
    P.Ends w (P.zipWith is r g w) () [] (upd (P.view w) r (some none)) :=
  Prog.ends_unit (Prog.zipWith_sim hP (Prog.abs_R hw) hg) (fun _ _ _ _ h => h)
    (by rw [Env.after_nil]; exact Spec.zipWith_none hr hx he)

example : Demo.angry.Ends Demo.world (Demo.angry.zipWith [1, 5] 13 (fun vs => vs.foldl (· + ·) 0) Demo.world) () []
    (upd (Demo.angry.view Demo.world) 13 (some none)) :=
  C32_zip_with_empty (P := Demo.angry) (r := 13) (is := [1, 5]) (g := fun vs => vs.foldl (· + ·) 0)
    Demo.ok_tidy Demo.inv (fun _ _ => Demo.dom_mk 1 (.inr (.inl rfl))) Demo.view13
    (by
      intro p hp
      rcases List.mem_cons.1 hp with rfl | hp
      · exact ⟨_, Demo.view1⟩
      · cases List.mem_singleton.1 hp; exact ⟨_, Demo.view5⟩)
    ⟨5, by simp, Demo.view5⟩

/-! ## C37: operators -/

/-- **C37**: `|` of two options gives a copy (or the moved value) of the first engaged operand.  Exactly the
calls of one construction are made if there is one, and nothing else; only an operand that is given as an rvalue and is
chosen is moved from. -/
theorem C37_or (hP : P.OK) (hw : P.Inv w) (hci : P.cls r = P.cls i) (hcj : P.cls r = P.cls j)
    {x y : Option Val} (hr : P.view w r = none) (hx : P.view w i = some x) (hy : P.view w j = some y) :
    let s : Src Val := if x.isSome then .opt i mi else .opt j mj
    P.CtorOK r s w.env.tick →
    P.Ends w (P.orOp i j r mi mj w) () (if (x.or y).isSome then P.buildEvs r s else [])
      (upd (if (x.or y).isSome then P.ctorLeaves r s w.env.tick (P.view w) else P.view w) r (some (x.or y))) := by
  intro s ht
  refine Prog.ends_unit (Prog.orOp_sim hP (fun ⟨v, hv⟩ => by cases hx.symm.trans hv; exact .nothrow ht)
    (fun h1 _ => by cases hx.symm.trans h1; exact .nothrow ht) (Prog.abs_R hw)) (fun _ _ _ _ h => h)
    ((Spec.orOp_eq hx).trans ?_)
  · have hc : ∀ k, P.cls r = P.cls k → (P.convFrom r k) = id := fun k hk => by
      funext v; simp only [Prog.convFrom, hk, if_true, id]
    cases x with
    | none =>
      refine (Spec.ctorFrom_ok hr hy (fun _ => ht)).trans ?_
      simp only [hc _ hcj, Option.map_id, id, Option.none_or]; rfl
    | some v =>
      refine (Spec.ctorFrom_ok hr hx (fun _ => ht)).trans ?_
      simp only [hc _ hci, Option.map_id, id, Option.some_or]; rfl

example : Demo.calm.Ends Demo.world (Demo.calm.orOp 5 9 13 false true Demo.world) () [.ctor 13 .move]
    (upd (Demo.calm.ctorLeaves 13 (.opt 9 true) 0 (Demo.calm.view Demo.world)) 13 (some (some 6))) :=
  C37_or (P := Demo.calm) (i := 5) (j := 9) (r := 13) (mi := false) (mj := true) Demo.ok_tidy Demo.inv
    rfl rfl Demo.view13 Demo.view5 Demo.view9 (.inr rfl)

/-- **C37**: `&` gives the right operand if the left one is engaged, else an empty option. -/
theorem C37_and (hP : P.OK) (hw : P.Inv w) (hcj : P.cls r = P.cls j)
    {x y : Option Val} (hr : P.view w r = none) (hx : P.view w i = some x) (hy : P.view w j = some y)
    (ht : P.CtorOK r (.opt j mv) w.env.tick) :
    P.Ends w (P.andOp i j r mv w) () (if x.isSome && y.isSome then P.buildEvs r (.opt j mv) else [])
      (upd (if x.isSome && y.isSome then P.ctorLeaves r (.opt j mv) w.env.tick (P.view w) else P.view w) r
        (some (if x.isSome then y else none))) := by
  refine Prog.ends_unit (Prog.andOp_sim hP (fun _ _ => .nothrow ht) (Prog.abs_R hw)) (fun _ _ _ _ h => h)
    ((Spec.andOp_eq hx).trans ?_)
  have hc : (P.convFrom r j) = id := by
    funext v; simp only [Prog.convFrom, hcj, if_true, id]
  cases x with
  | none => simp [Spec.new_eq hr, Env.after_nil]
  | some v =>
    refine (Spec.ctorFrom_ok hr hy (fun _ => ht)).trans ?_
    simp only [hc, Option.map_id, id, Option.isSome_some, if_true, Bool.true_and]

example : Demo.calm.Ends Demo.world (Demo.calm.andOp 0 9 13 false Demo.world) () [.ctor 13 .copy]
    (upd (Demo.calm.view Demo.world) 13 (some (some 6))) :=
  C37_and (P := Demo.calm) (i := 0) (j := 9) (r := 13) (mv := false) Demo.ok_tidy Demo.inv
    rfl Demo.view13 Demo.view0 Demo.view9 (.inr rfl)

/-- what `^` means -/
def xorSpec (x y : Option Val) : Option Val :=
  match x, y with
  | some v, none => some v
  | none, some v => some v
  | _, _ => none

/-- **C37**: `^` is engaged iff exactly one operand is, and then holds its value. -/
theorem C37_xor (hP : P.OK) (hw : P.Inv w) (hci : P.cls r = P.cls i) (hcj : P.cls r = P.cls j)
    {x y : Option Val} (hr : P.view w r = none) (hx : P.view w i = some x) (hy : P.view w j = some y) :
    let s : Src Val := if x.isSome then .opt i mi else .opt j mj
    P.CtorOK r s w.env.tick →
    P.Ends w (P.xorOp i j r mi mj w) () (if (xorSpec x y).isSome then P.buildEvs r s else [])
      (upd (if (xorSpec x y).isSome then P.ctorLeaves r s w.env.tick (P.view w) else P.view w) r (some (xorSpec x y))) := by
  intro s ht
  refine Prog.ends_unit (Prog.xorOp_sim hP (fun ⟨v, hv⟩ _ => by cases hx.symm.trans hv; exact .nothrow ht)
    (fun h1 _ => by cases hx.symm.trans h1; exact .nothrow ht) (Prog.abs_R hw)) (fun _ _ _ _ h => h)
    ((Spec.xorOp_eq hx hy).trans ?_)
  · have hc : ∀ k, P.cls r = P.cls k → (P.convFrom r k) = id := fun k hk => by
      funext v; simp only [Prog.convFrom, hk, if_true, id]
    cases x with
    | none =>
      cases y with
      | none => simp [Spec.new_eq hr, Env.after_nil, xorSpec]
      | some u =>
        refine (Spec.ctorFrom_ok hr hy (fun _ => ht)).trans ?_
        simp only [hc _ hcj, Option.map_id, id]; rfl
    | some v =>
      cases y with
      | some u => simp [Spec.new_eq hr, Env.after_nil, xorSpec]
      | none =>
        refine (Spec.ctorFrom_ok hr hx (fun _ => ht)).trans ?_
        simp only [hc _ hci, Option.map_id, id]; rfl

example : Demo.calm.Ends Demo.world (Demo.calm.xorOp 1 9 13 true true Demo.world) () []
    (upd (Demo.calm.view Demo.world) 13 (some none)) :=
  C37_xor (P := Demo.calm) (i := 1) (j := 9) (r := 13) (mi := true) (mj := true) Demo.ok_tidy Demo.inv
    rfl rfl Demo.view13 Demo.view1 Demo.view9 (.inr rfl)

/-- `|` of lvalues, calls left aside -/
theorem or_yields (hP : P.OK) (hn : ∀ n, P.throwsAt n = false) (hw : P.Inv w)
    (hci : P.cls r = P.cls i) (hcj : P.cls r = P.cls j)
    {x y : Option Val} (hr : P.view w r = none) (hx : P.view w i = some x) (hy : P.view w j = some y) :
    P.Yields w (P.orOp i j r false false w) r (x.or y) := by
  have h := C37_or (mi := false) (mj := false) hP hw hci hcj hr hx hy (.inr (hn _))
  have hl : (if (x.or y).isSome then P.ctorLeaves r (if x.isSome then .opt i false else .opt j false) w.env.tick (P.view w)
      else P.view w) = P.view w := by
    split
    · split <;> simp only [Prog.ctorLeaves, Src.leaves, ite_self]
    · rfl
  rw [hl] at h
  exact h.yields

/-- **C37**: `|` is associative: `(a | b) | c` and `a | (b | c)` give the same option. -/
theorem C37_or_assoc (hP : P.OK) (hn : ∀ n, P.throwsAt n = false)
    (hw : P.Inv w) (hc : P.cls i = P.cls s ∧ P.cls j = P.cls s ∧ P.cls k = P.cls s ∧ P.cls r = P.cls s)
    (hrs : r ≠ s) {x y z : Option Val} (hr : P.view w r = none) (hs : P.view w s = none)
    (hx : P.view w i = some x) (hy : P.view w j = some y) (hz : P.view w k = some z) :
    ∃ v w1 w2, (P.orOp i j r false false >>= fun _ => P.orOp r k s false false) w = .ok () w1 ∧
      (P.orOp j k r false false >>= fun _ => P.orOp i r s false false) w = .ok () w2 ∧
      P.Inv w1 ∧ P.Inv w2 ∧ P.view w1 s = some v ∧ P.view w2 s = some v := by
  obtain ⟨hi, hj, hk, hr'⟩ := hc
  have ner : ∀ {l : Nat} {x : Option Val}, P.view w l = some x → l ≠ r := fun h hl => by subst hl; rw [h] at hr; cases hr
  have h1 := or_yields hP hn hw (hr'.trans hi.symm) (hr'.trans hj.symm) hr hx hy
  obtain ⟨w1, e1, i1, v1⟩ := h1.andThen (s := s) (z := (x.or y).or z) (fun w' hw' hv =>
    or_yields hP hn hw' hr'.symm hk.symm (by rw [hv, upd_other _ _ (Ne.symm hrs)]; exact hs) (by rw [hv, upd_same])
      (by rw [hv, upd_other _ _ (ner hz)]; exact hz))
  have h2 := or_yields hP hn hw (hr'.trans hj.symm) (hr'.trans hk.symm) hr hy hz
  obtain ⟨w2, e2, i2, v2⟩ := h2.andThen (s := s) (z := x.or (y.or z)) (fun w' hw' hv =>
    or_yields hP hn hw' hi.symm hr'.symm (by rw [hv, upd_other _ _ (Ne.symm hrs)]; exact hs)
      (by rw [hv, upd_other _ _ (ner hx)]; exact hx) (by rw [hv, upd_same]))
  exact ⟨_, w1, w2, e1, e2, i1, i2, by rw [v1, upd_same], by rw [v2, upd_same, Option.or_assoc]⟩

example : (∀ n, Demo.calm.throwsAt n = false) ∧ Demo.calm.Inv Demo.world ∧
    Demo.calm.view Demo.world 13 = none ∧ Demo.calm.view Demo.world 17 = none ∧
    Demo.calm.view Demo.world 5 = some none ∧ Demo.calm.view Demo.world 1 = some (some 5) ∧
    Demo.calm.view Demo.world 9 = some (some 6) :=
  ⟨fun _ => rfl, Demo.inv, Demo.view13, rfl, Demo.view5, Demo.view1, Demo.view9⟩

/-- **C37**: an empty option is an identity of `|` on both sides, and `|` is idempotent. -/
theorem C37_or_identity (hP : P.OK) (hn : ∀ n, P.throwsAt n = false) (hw : P.Inv w)
    (hci : P.cls r = P.cls i) (hcj : P.cls r = P.cls j) {x : Option Val}
    (hr : P.view w r = none) (hx : P.view w i = some x) (hy : P.view w j = some none) :
    P.Yields w (P.orOp i j r false false w) r x ∧ P.Yields w (P.orOp j i r false false w) r x ∧
      P.Yields w (P.orOp i i r false false w) r x := by
  have h1 := or_yields hP hn hw hci hcj hr hx hy
  have h2 := or_yields hP hn hw hcj hci hr hy hx
  have h3 := or_yields hP hn hw hci hci hr hx hx
  rw [Option.or_none] at h1
  rw [Option.or_self] at h3
  exact ⟨h1, h2, h3⟩

example : Demo.calm.Yields Demo.world (Demo.calm.orOp 5 1 13 false false Demo.world) 13 (some 5) :=
  (C37_or_identity (P := Demo.calm) (i := 1) (j := 5) (r := 13) Demo.ok_tidy (fun _ => rfl) Demo.inv rfl rfl Demo.view13 Demo.view1 Demo.view5).2.1

/-- **C37**: `^` commutes. -/
theorem C37_xor_comm (hP : P.OK) (hn : ∀ n, P.throwsAt n = false) (hw : P.Inv w)
    (hci : P.cls r = P.cls i) (hcj : P.cls r = P.cls j) {x y : Option Val}
    (hr : P.view w r = none) (hx : P.view w i = some x) (hy : P.view w j = some y) :
    ∃ v, P.Yields w (P.xorOp i j r false false w) r v ∧ P.Yields w (P.xorOp j i r false false w) r v := by
  have key : ∀ {i j : Nat} {x y : Option Val}, P.cls r = P.cls i → P.cls r = P.cls j → P.view w i = some x →
      P.view w j = some y → P.Yields w (P.xorOp i j r false false w) r (xorSpec x y) := by
    intro i j x y hci hcj hx hy
    have h := C37_xor (mi := false) (mj := false) hP hw hci hcj hr hx hy (.inr (hn _))
    have hl : (if (xorSpec x y).isSome then
        P.ctorLeaves r (if x.isSome then .opt i false else .opt j false) w.env.tick (P.view w)
        else P.view w) = P.view w := by
      split
      · split <;> simp only [Prog.ctorLeaves, Src.leaves, ite_self]
      · rfl
    rw [hl] at h
    exact h.yields
  refine ⟨xorSpec x y, key hci hcj hx hy, ?_⟩
  have : xorSpec x y = xorSpec y x := by cases x <;> cases y <;> rfl
  rw [this]
  exact key hcj hci hy hx

example : ∃ v, Demo.calm.Yields Demo.world (Demo.calm.xorOp 5 1 13 false false Demo.world) 13 v ∧
    Demo.calm.Yields Demo.world (Demo.calm.xorOp 1 5 13 false false Demo.world) 13 v :=
  C37_xor_comm Demo.ok_tidy (fun _ => rfl) Demo.inv rfl rfl Demo.view13 Demo.view5 Demo.view1

/-- **C37**: `|=` on an engaged left operand does nothing, whatever the right operand: no call, no change. -/
theorem C37_or_assign_engaged (hP : P.OK) (hw : P.Inv w) {v : Val} (hx : P.view w i = some (some v)) :
    (∀ j mv, P.Ends w (P.orAssignFrom i j mv w) () [] (P.view w)) ∧
    (∀ src d, src.Legal P i → src.gives P (P.view w) i = some d → P.Ends w (P.orAssignValue i src w) () [] (P.view w)) :=
  ⟨fun j mv => Prog.ends_unit (Prog.orAssignFrom_sim hP (fun h => by cases hx.symm.trans h) (Prog.abs_R hw))
    (fun _ _ _ _ h => h) (by rw [Env.after_nil]; exact Spec.orAssignFrom_some hx),
  fun src d hl hd => Prog.ends_unit (Prog.orAssignValue_sim hP (fun h => by cases hx.symm.trans h) (Prog.abs_R hw) hl)
    (fun _ _ _ _ h => h) (by rw [Env.after_nil]; exact Spec.orAssignValue_some hx hd)⟩

example : Demo.angry.Ends Demo.world (Demo.angry.orAssignFrom 1 9 true Demo.world) () [] (Demo.angry.view Demo.world) :=
  (C37_or_assign_engaged Demo.ok_tidy Demo.inv Demo.view1).1 9 true

/-- **C37**: `|=` on an empty left operand constructs it from the right operand if that has a value. -/
theorem C37_or_assign_empty (hP : P.OK) (hw : P.Inv w) (hx : P.view w i = some none) :
    (∀ y, P.view w j = some y → P.CtorOK i (.opt j mv) w.env.tick →
      P.Ends w (P.orAssignFrom i j mv w) () (if y.isSome then P.buildEvs i (.opt j mv) else [])
        (upd (if y.isSome then P.ctorLeaves i (.opt j mv) w.env.tick (P.view w) else P.view w) i
          (some (y.map (P.convFrom i j))))) ∧
    (∀ src d, src.Legal P i → src.gives P (P.view w) i = some d → P.CtorOK i src w.env.tick →
      P.Ends w (P.orAssignValue i src w) () (P.buildEvs i src)
        (upd (P.ctorLeaves i src w.env.tick (P.view w)) i (some (some d)))) := by
  constructor
  · intro y hy ht
    refine Prog.ends_unit (Prog.orAssignFrom_sim hP (fun _ _ => .nothrow ht) (Prog.abs_R hw)) (fun _ _ _ _ h => h)
      ((Spec.orAssignFrom_none hx hy).trans ?_)
    cases y with
    | none => simp only [Option.isSome_none, Bool.false_eq_true, if_false, Env.after_nil, Option.map_none, upd_self hx]
    | some v =>
      have hv := Spec.gives_opt (P := P) (i := i) (mv := mv) hy
      exact Spec.init_ok hx (by rw [Src.notSelf_of_empty hx hv]; rfl) hv ht
  · intro src d hl hd ht
    exact Prog.ends_unit (Prog.orAssignValue_sim hP (fun _ => .nothrow ht) (Prog.abs_R hw) hl)
      (fun _ _ _ _ h => h) ((Spec.orAssignValue_none hx hd).trans
        (Spec.init_ok hx (by rw [Src.notSelf_of_empty hx hd]; rfl) hd ht))

example : Demo.calm.Ends Demo.world (Demo.calm.orAssignFrom 5 9 true Demo.world) () [.ctor 5 .move]
    (upd (Demo.calm.ctorLeaves 5 (.opt 9 true) 0 (Demo.calm.view Demo.world)) 5 (some (some 6))) :=
  (C37_or_assign_empty (P := Demo.calm) (i := 5) (j := 9) (mv := true) Demo.ok_tidy Demo.inv
    Demo.view5).1 _ Demo.view9 (.inr rfl)

/-! ## C38: io -/

/-- **C38**: writing: the contained value if there is one, else the fallback if one was given, else nothing; the option
is unchanged. -/
theorem C38_write (hw : P.Inv w) {x d : Option Val} (hx : P.view w i = some x) (ht : P.throwsAt w.env.tick = false) :
    P.Ends w (P.ioWrite i d w) (x.or d) (if (x.or d).isSome then [.call0 true] else []) (P.view w) := by
  refine Prog.ends_val (Prog.ioWrite_sim (Prog.abs_R hw)) ((Spec.ioWrite_eq hx).trans ?_)
  cases x with
  | some v => simp only [Spec.call0_eq, ht, Bool.false_eq_true, if_false, Option.some_or, Option.isSome_some, if_true]
  | none =>
    cases d with
    | some d => simp only [Spec.call0_eq, ht, Bool.false_eq_true, if_false, Option.none_or, Option.isSome_some, if_true]
    | none => simp only [Option.none_or, Option.isSome_none, Bool.false_eq_true, if_false, Env.after_nil]

example : Demo.calm.Ends Demo.world (Demo.calm.ioWrite 1 none Demo.world) (some 5) [.call0 true] (Demo.calm.view Demo.world) :=
  C38_write Demo.inv Demo.view1 rfl

example : Demo.calm.Ends Demo.world (Demo.calm.ioWrite 5 none Demo.world) none [] (Demo.calm.view Demo.world) :=
  C38_write Demo.inv Demo.view5 rfl

/-- **C38**: reading stores the value from the stream in the contained object if there is one, else in the fallback
object; whether the option is engaged does not change. -/
theorem C38_read (hP : P.OK) (hw : P.Inv w) {x : Option Val} {d v : Val} (hv : (P.elem i).Dom P.pw v)
    (hx : P.view w i = some x) (ht : P.throwsAt w.env.tick = false) :
    P.Ends w (P.ioRead i d v w) (if x.isSome then d else v) [if x.isSome then .call i true else .call0 true]
      (upd (P.view w) i (some (x.map fun _ => v))) := by
  cases x with
  | some u =>
    refine Prog.ends_val (Prog.ioRead_sim hP (Prog.abs_R hw) hv) ((Spec.ioRead_some hx).trans ?_)
    rw [ht]; rfl
  | none =>
    refine Prog.ends_val (Prog.ioRead_sim hP (Prog.abs_R hw) hv) ((Spec.ioRead_none hx).trans ?_)
    rw [Spec.call0_eq, ht]
    simp only [Option.map_none, upd_self hx]; rfl

example : Demo.calm.Ends Demo.world (Demo.calm.ioRead 1 3 8 Demo.world) 3 [.call 1 true]
    (upd (Demo.calm.view Demo.world) 1 (some (some 8))) :=
  C38_read (P := Demo.calm) (i := 1) Demo.ok_tidy Demo.inv (Demo.dom_mk 1 (.inr (.inl rfl))) Demo.view1 rfl

/-- **C38**: if the extraction throws, the option is engaged or empty as before. -/
theorem C38_read_throws (hP : P.OK) (hw : P.Inv w) {x : Option Val} {d v : Val} (hv : (P.elem i).Dom P.pw v)
    (hx : P.view w i = some x) (ht : P.throwsAt w.env.tick = true) :
    P.Throws w (P.ioRead i d v w) [if x.isSome then .call i false else .call0 false] (P.view w) := by
  cases x with
  | some u =>
    refine Prog.throws_of (Prog.ioRead_sim hP (Prog.abs_R hw) hv) (fun _ _ h => h) ((Spec.ioRead_some hx).trans ?_)
    rw [ht, upd_self hx]; rfl
  | none =>
    refine Prog.throws_of (Prog.ioRead_sim hP (Prog.abs_R hw) hv) (fun _ _ h => h) ((Spec.ioRead_none hx).trans ?_)
    rw [Spec.call0_eq, ht]; rfl

example : Demo.angry.Throws Demo.world (Demo.angry.ioRead 1 3 8 Demo.world) [.call 1 false] (Demo.angry.view Demo.world) :=
  C38_read_throws (P := Demo.angry) (i := 1) Demo.ok_tidy Demo.inv (Demo.dom_mk 1 (.inr (.inl rfl))) Demo.view1 rfl

end Opt
