import Verif.Lemmas.Noexcept
import Verif.Props.Machine

/-!
# C47: exception specifications are honest
-/

namespace Opt

variable {Val : Type} (P : Prog Val) (n : Nothrow)

/-- where exceptions can come from in a member whose specification depends on the element type -/
private theorem esc_member {m : Member Val} {c : Nat} (hc : m.OfClass P c) (hs : (P.elemOf c).T.SetNoexcept)
    (hm : m.isNoexcept (P.elemOf c) n = true) (hsw : ∀ i j, m = .swap i j → n.swapRv = true → n.swapLv = true) :
    Esc (fun e => e.breaks n = true) (m.run P) := by
  have drop : ∀ {α : Type} {x : M World α}, Esc (fun e => e.breaks n = true) x →
      Esc (fun e => e.breaks n = true) (x >>= fun _ => pure ()) := fun h => h.bind fun _ => Esc.pure _
  cases m with
  | defaultCtor i => subst hc; exact P.esc_ctorDefault hs
  | dtor i => exact P.esc_dtor i
  | reset i => subst hc; exact P.esc_reset hs
  | hasValue i => exact drop (P.esc_hasValue i)
  | get i => exact drop (P.esc_get i)
  | getUnchecked i => exact drop (P.esc_readT i)
  | ptrOrNull i => exact drop (P.esc_ptrOrNull i)
  | begin_ i => exact drop (P.esc_begin i)
  | end_ i => exact drop (P.esc_end i)
  | cmpNone op i => exact drop (P.esc_cmpNone op i)
  | noneCmp op i => exact drop (P.esc_noneCmp op i)
  | hash f i => exact drop (P.esc_hash hm)
  | copyCtor i j =>
    obtain ⟨rfl, hj⟩ := hc
    show Esc _ (P.ctorFrom i j false)
    have hk : P.kind i (.opt j false) = .copy := by simp [Prog.kind, hj]
    unfold Prog.ctorFrom
    rw [if_pos hj.symm]
    refine Esc.ite (fun _ => P.esc_copyBytesNew i j) fun hd => ?_
    simp only [Member.isNoexcept, Bool.or_eq_true, decide_eq_true_eq] at hm
    have hm := hm.resolve_left hd
    exact P.esc_ctorManual hs (by rw [hk]; exact hm) (by rw [hk]; exact hm)
  | moveCtor i j =>
    obtain ⟨rfl, hj⟩ := hc
    show Esc _ (P.ctorFrom i j true)
    have hk : P.kind i (.opt j true) = .move := by simp [Prog.kind, hj]
    unfold Prog.ctorFrom
    rw [if_pos hj.symm]
    refine Esc.ite (fun _ => P.esc_copyBytesNew i j) fun hd => ?_
    simp only [Member.isNoexcept, Bool.or_eq_true, decide_eq_true_eq] at hm
    have hm := hm.resolve_left hd
    exact P.esc_ctorManual hs (by rw [hk]; exact hm) (by rw [hk]; exact hm)
  | copyAssign i j =>
    obtain ⟨rfl, hj⟩ := hc
    show Esc _ (P.assignFrom i j false)
    have hk : P.kind i (.opt j false) = .copy := by simp [Prog.kind, hj]
    unfold Prog.assignFrom
    rw [if_pos hj.symm]
    refine Esc.ite (fun _ => Prog.esc_copyBytes i j) fun hd => ?_
    simp only [Member.isNoexcept, Bool.or_eq_true, Bool.and_eq_true, decide_eq_true_eq] at hm
    have hm := hm.resolve_left hd
    exact P.esc_assignManual hs (by rw [hk]; exact hm.2) (by rw [hk]; exact hm.2) (by rw [hk]; exact hm.1)
  | moveAssign i j =>
    obtain ⟨rfl, hj⟩ := hc
    show Esc _ (P.assignFrom i j true)
    have hk : P.kind i (.opt j true) = .move := by simp [Prog.kind, hj]
    unfold Prog.assignFrom
    rw [if_pos hj.symm]
    refine Esc.ite (fun _ => Prog.esc_copyBytes i j) fun hd => ?_
    simp only [Member.isNoexcept, Bool.or_eq_true, Bool.and_eq_true, decide_eq_true_eq] at hm
    have hm := hm.resolve_left hd
    exact P.esc_assignManual hs (by rw [hk]; exact hm.2) (by rw [hk]; exact hm.2) (by rw [hk]; exact hm.1)
  | swap i j =>
    obtain ⟨rfl, hj⟩ := hc
    show Esc _ (P.swap i j)
    have hk : P.kind i (.opt j true) = .move := by simp [Prog.kind, hj]
    have hk' : P.kind j (.opt i true) = .move := by simp [Prog.kind, hj]
    simp only [Member.isNoexcept, nothrowSwap, Bool.and_eq_true] at hm
    have hl := hsw i j rfl hm.2
    have hs' : (P.elem j).T.SetNoexcept := by rw [Prog.elem, hj]; exact hs
    exact P.esc_swap hs hs' hl (by rw [hk]; exact hm.1.1) (by rw [hk]; exact hm.1.1) (by rw [hk']; exact hm.1.1)
      (by rw [hk']; exact hm.1.1)

/-- **C47.** For every program, every state and every member of `option<T>` with an exception specification other than
`swap`: if the member is `noexcept` for this `T`, an exception leaves it (and terminates the program) only after a call
of user code failed that `T` declares not to throw.  In particular the specification asks about every operation of `T`
that the body may use. -/
theorem C47_noexcept {m : Member Val} {c : Nat} (hc : m.OfClass P c) (hs : (P.elemOf c).T.SetNoexcept)
    (hm : m.isNoexcept (P.elemOf c) n = true) (hsw : ∀ i j, m ≠ .swap i j) (w : World) :
    Escapes (fun e => e.breaks n = true) w (m.run P w) :=
  (esc_member P n hc hs hm fun i j h => absurd h (hsw i j)).escapes w

/-- a handle type with a throwing copy constructor, a copy assignment and moves that do not throw -/
def Demo.careful : Nothrow :=
  { copyCtor := false, copyAssign := true, moveCtor := true, moveAssign := true, swapRv := false, swapLv := true,
    hash := true }

/- Move assignment of the demonstration handle is `noexcept` (its members are not trivial); with user code that breaks
its promise the exception does escape, so the conclusion is about a real exception. -/
example : (Member.moveAssign (Val := Byte) 4 0).isNoexcept (Demo.elemOf 0) Demo.careful = true ∧
    ((Member.moveAssign 4 0).run Demo.angry Demo.world).isThrow = true := by decide +kernel
example : Escapes (fun e => e.breaks Demo.careful = true) Demo.world
    ((Member.moveAssign 4 0).run Demo.angry Demo.world) :=
  C47_noexcept Demo.angry Demo.careful (m := .moveAssign 4 0) (c := 0) ⟨rfl, rfl⟩ trivial (by decide +kernel) (by simp) _

/-- **C47.** The default constructor, the destructor, `reset`, `has_value`, `get`, `get_unchecked`, `ptr_or_null`,
`begin`, `end` and the comparisons with `none`, which are `noexcept` for every `T`, let out no exception at all: whatever
user code does, as long as no user-provided `set_level` throws. -/
theorem C47_never_throws {m : Member Val} {c : Nat} (hc : m.OfClass P c) (hs : (P.elemOf c).T.SetNoexcept)
    (hm : ∀ E n, m.isNoexcept E n = true) (w : World) : (m.run P w).isThrow = false := by
  have h := (esc_member P ⟨false, false, false, false, false, false, false⟩ hc hs (hm _ _) ?_).escapes w
  · cases hr : m.run P w with
    | throw w' =>
      rw [hr] at h
      obtain ⟨evs, _, e, _, he⟩ := h
      rcases e with _ | ⟨_, k⟩ | _ | ⟨_, k, b⟩ | ⟨_, _, b⟩ | _ | b | ⟨k, b⟩ | _ <;> try cases k
      all_goals try cases b
      all_goals simp [Event.breaks] at he
    | _ => rfl
  · rintro i j rfl
    have := hm (P.elemOf c) ⟨false, false, false, false, false, false, false⟩
    simp [Member.isNoexcept, nothrowSwap] at this

/- `reset` on an option that holds a value, in a program where every call of user code throws -/
example : ((Member.reset 1).run (Demo.prog true (fun _ => true) Demo.tidy) Demo.world).isThrow = false :=
  C47_never_throws (Demo.prog true (fun _ => true) Demo.tidy) (m := .reset 1) (c := 1) rfl trivial (fun _ _ => rfl) _

/-- **C47.** `set_level` of every type built from the library's own traits does not throw. -/
theorem C47_set_level (pw : Nat) (T : Ty) (hs : T.SetNoexcept) (bs : Bytes) (l : U64) :
    (T.traits pw).setLevel bs l ≠ .throw := Ty.set_ne_throw pw T hs bs l

example : (Ty.option (.tuple 16 8 (.cons 0 .bool (.cons 8 (.float64 false 8) .nil)))).SetNoexcept := by
  simp [Ty.SetNoexcept, Fields.SetNoexcept]

/-- **C47, partial: `swap` of two options of one type.** Honest if `swap(T&, T&)` is declared not to throw whenever
`std::is_nothrow_swappable_with_v<T, T>` holds.  The full statement would drop that hypothesis (the code asks about
rvalues but swaps lvalues, see `C47_violated_swap`). -/
theorem C47_swap_partial {i j c : Nat} (hi : P.cls i = c) (hj : P.cls j = c) (hs : (P.elemOf c).T.SetNoexcept)
    (hm : (Member.swap i j).isNoexcept (P.elemOf c) n = true) (hsw : n.swapRv = true → n.swapLv = true) (w : World) :
    Escapes (fun e => e.breaks n = true) w (P.swap i j w) :=
  (esc_member P n (m := .swap i j) ⟨hi, hj⟩ hs hm fun _ _ _ => hsw).escapes w

/-- a type all of whose operations are declared not to throw, except as given -/
def Demo.solid (rv lv : Bool) : Nothrow :=
  { copyCtor := true, copyAssign := true, moveCtor := true, moveAssign := true, swapRv := rv, swapLv := lv, hash := true }

example : (Member.swap (Val := Byte) 0 4).isNoexcept (Demo.elemOf 0) (Demo.solid true true) = true ∧
    (Demo.angry.swap 0 4 Demo.world).isThrow = true := by decide +kernel
example : Escapes (fun e => e.breaks (Demo.solid true true) = true) Demo.world (Demo.angry.swap 0 4 Demo.world) :=
  C47_swap_partial Demo.angry (Demo.solid true true) (c := 0) rfl rfl trivial (by decide +kernel) (by decide) _

/-- **C47, violated: `swap` of two options of one type.** There are a legal state and a type for which `swap` is
`noexcept` but lets out an exception of `swap(T&, T&)`, which the type never declared not to throw. -/
theorem C47_violated_swap : ∃ (P : Prog Byte) (w w' : World) (n : Nothrow), P.Inv w ∧ P.cls 1 = P.cls 9 ∧
    (Member.swap (Val := Byte) 1 9).isNoexcept (P.elemOf (P.cls 1)) n = true ∧ P.swap 1 9 w = .throw w' ∧
    ∀ e ∈ w'.env.log, e.breaks n = false := by
  have h : (match Demo.angry.swap 1 9 Demo.world with
      | .throw w' => w'.env.log.all fun e => !e.breaks (Demo.solid true false)
      | _ => false) = true := by decide +kernel
  cases hr : Demo.angry.swap 1 9 Demo.world with
  | throw w' =>
    rw [hr] at h
    exact ⟨Demo.angry, Demo.world, w', Demo.solid true false, Demo.inv, rfl, by decide +kernel, hr, fun e he => by
      simpa using List.all_eq_true.1 h e he⟩
  | _ => rw [hr] at h; cases h

/-- **C47, violated: `swap` of options of different types.** `nothrow_swap<T, U>` does not ask whether `U` can be
constructed from `T&&` without an exception, although a swap of a full with an empty option does just that.  There are a
legal state and types that keep all their promises for which `swap` is `noexcept` and an exception escapes. -/
theorem C47_violated_converting_swap : ∃ (P : Prog Byte) (w w' : World) (t u : Nothrow), P.Inv w ∧ P.cls 0 ≠ P.cls 5 ∧
    (∀ rv, nothrowSwap t u rv = rv) ∧ P.swap 0 5 w = .throw w' ∧
    ∀ e ∈ w'.env.log, e.breaks t = false ∧ e.breaks u = false := by
  have h : (match Demo.angry.swap 0 5 Demo.world with
      | .throw w' => w'.env.log.all fun e => !e.breaks (Demo.solid true true)
      | _ => false) = true := by decide +kernel
  cases hr : Demo.angry.swap 0 5 Demo.world with
  | throw w' =>
    rw [hr] at h
    exact ⟨Demo.angry, Demo.world, w', Demo.solid true true, Demo.solid true true, Demo.inv, by decide, by decide, hr,
      fun e he => by
        have := List.all_eq_true.1 h e he
        simpa using this⟩
  | _ => rw [hr] at h; cases h

/-- **C47, partial: `swap` of options of different types.** An exception escapes only after `swap(T&, U&)`, the
construction of the `T` from the `U`, or of the `U` from the `T`, threw.  Missing: that the `noexcept` specification
covers all three (it does not, `C47_violated_converting_swap`). -/
theorem C47_converting_swap_partial {i j : Nat} (hne : P.cls i ≠ P.cls j) (hi : (P.elem i).T.SetNoexcept)
    (hj : (P.elem j).T.SetNoexcept) (w : World) :
    Escapes (fun e => e = .swap i j false ∨ e = .ctorFail i .conv ∨ e = .ctorFail j .conv ∨ e = .tmpCtor .conv false) w
      (P.swap i j w) := by
  have hk : P.kind i (.opt j true) = .conv := by simp [Prog.kind, hne]
  have hk' : P.kind j (.opt i true) = .conv := by simp [Prog.kind, Ne.symm hne]
  exact (P.esc_swap hi hj (.inl rfl) (by rw [hk]; exact .inr (.inl rfl)) (by rw [hk]; exact .inr (.inr (.inr rfl)))
    (by rw [hk']; exact .inr (.inr (.inl rfl))) (by rw [hk']; exact .inr (.inr (.inr rfl)))).escapes w

example : Escapes (fun e => e = .swap 0 5 false ∨ e = .ctorFail 0 .conv ∨ e = .ctorFail 5 .conv ∨ e = .tmpCtor .conv false)
    Demo.world (Demo.angry.swap 0 5 Demo.world) :=
  C47_converting_swap_partial Demo.angry (i := 0) (j := 5) (by decide) trivial trivial _

end Opt
