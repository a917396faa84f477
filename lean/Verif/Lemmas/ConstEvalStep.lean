import Verif.Lemmas.ConstEval

/-! # One step in a constant expression -/

namespace Opt.ConstEval

variable {V : Type}

section
variable {k : Cfg} {cls : Nat → Cls V} {s : Store (Obj V)} {p : Store (Option V)} {u : Nat → Bool}

theorem full_eq {a : Nat} {x : Option V} (h : p a = some x) : full p a = x.isSome := by
  unfold full; rw [h]; cases x <;> rfl

theorem content_eq {a : Nat} {x : Option V} (h : p a = some x) : content p a = x := by
  unfold content; rw [h]; rfl

theorem checked_some {c : Cls V} {v : V} : checked c (some v) = if c.legal v then some (some v) else none := rfl

/-- the last step of an operation that creates an option -/
theorem Sim.create (h : Sim k cls s p u) {d : Nat} {x : Option V} {u' : Nat → Bool} {A : Bool} {M : Option (Obj V)} {y : Obs V}
    (hm : if A && (checked (cls d) x).isSome then ∃ o, M = some o ∧ Cell k (cls d) o x (u' d) else M = none)
    (hu : ∀ b, b ≠ d → u' b = u b) :
    Agree k cls (M.bind fun o => (s.new d o).bind fun s => some (s, y)) A
      ((checked (cls d) x).bind fun z => (p.new d z).bind fun p => some (p, y)) u' := by
  cases hA : A
  · rw [hA] at hm; simp at hm; exact Agree.none (by simp [hm]) (.inl rfl)
  · rw [hA] at hm
    cases hc : checked (cls d) x with
    | none => rw [hc] at hm; simp at hm; exact Agree.none (by simp [hm]) (.inr (by simp))
    | some z =>
      rw [hc] at hm; simp at hm
      obtain ⟨o, ho, hcell⟩ := hm
      have hz : z = x := by
        cases x with
        | none => simp [checked] at hc; exact hc.symm
        | some v =>
          rw [checked_some] at hc
          split at hc
          · simp at hc; exact hc.symm
          · cases hc
      subst hz
      have := h.new (y := y) hcell hu
      rw [ho]
      simpa [Option.map_eq_bind, Function.comp_def] using this

theorem ite_cases {A : Bool} {P Q : Prop} (h : if A then P else Q) : (A = true ∧ P) ∨ (A = false ∧ Q) := by
  cases A
  · exact .inr ⟨rfl, by simpa using h⟩
  · exact .inl ⟨rfl, by simpa using h⟩

theorem Cell.checked {c : Cls V} {o : Obj V} {x : Option V} {b : Bool} (h : Cell k c o x b) : checked c x = some x := by
  cases x with
  | none => rfl
  | some v => rw [checked_some, h.rel.legal]; rfl

/-- what an operation has to be for its step to be exact: it checks, or its contract holds -/
def Sure (k : Cfg) (cls : Nat → Cls V) (p : Store (Option V)) (op : Op V) : Prop :=
  (k.evalVerify = true ∧ op.isChecked = true) ∨ (Plain.step cls p op).isSome = true

variable (hw : ∀ a, (cls a).WF) (hno : ∀ a, (cls a).storage ≠ .opaque) (h : Sim k cls s p u)
include hw hno h

theorem agree_ctorNone (d : Nat) :
    Agree k cls (step k cls s (.ctorNone d)) (allowed k cls p u (.ctorNone d)) (Plain.step cls p (.ctorNone d))
      (after cls p u (.ctorNone d)) := by
  have hb := born (k := k) (hno d)
  have := h.create (d := d) (x := none) (u' := after cls p u (.ctorNone d)) (A := bornOk k (cls d)) (M := defaultInit k (cls d))
    (y := .unit) (by simpa [checked, after] using hb) (by intro b hb; simp [after, hb])
  simpa [step, Plain.step, allowed, checked] using this

theorem agree_ctorValue (d : Nat) (v : V) (hs : Sure k cls p (.ctorValue d v)) :
    Agree k cls (step k cls s (.ctorValue d v)) (allowed k cls p u (.ctorValue d v)) (Plain.step cls p (.ctorValue d v))
      (after cls p u (.ctorValue d v)) := by
  have e : k.evalVerify = true ∨ (cls d).legal v = true := by
    rcases hs with hs | hs
    · exact .inl hs.1
    · right
      cases hl : (cls d).legal v
      · simp [Plain.step, checked, hl] at hs
      · rfl
  have hb := made (k := k) (hno d) e
  have := h.create (d := d) (x := some v) (u' := after cls p u (.ctorValue d v)) (A := makeOk k (cls d) true)
    (M := initValue k (cls d) v) (y := .unit)
    (by
      have hc : (checked (cls d) (some v)).isSome = (cls d).legal v := by rw [checked_some]; cases (cls d).legal v <;> rfl
      rw [hc]; simpa [after] using hb)
    (by intro b hb; simp [after, hb])
  simpa [step, Plain.step, allowed] using this

theorem agree_ctorCopy (d a : Nat) (ht : cls d = cls a) :
    Agree k cls (step k cls s (.ctorCopy d a)) (allowed k cls p u (.ctorCopy d a)) (Plain.step cls p (.ctorCopy d a))
      (after cls p u (.ctorCopy d a)) := by
  cases hp : p a with
  | none => exact Agree.none (by simp [step, h.no a hp]) (.inr (by simp [Plain.step, hp]))
  | some x =>
    obtain ⟨o, ho, hc⟩ := h.yes a x hp
    have hb := hc.copyCtor (hw a)
    have := h.create (d := d) (x := x) (u' := after cls p u (.ctorCopy d a)) (A := copyOk k (cls d) (cls d).trivCopyCtor x.isSome)
      (M := copyCtor k (cls d) o) (y := .unit)
      (by rw [ht, hc.checked]; simpa [after, ht] using hb)
      (by intro b hb; simp [after, hb])
    rw [ht, hc.checked] at this
    simpa [step, Plain.step, allowed, full_eq hp, ho, hp, ht] using this

theorem agree_ctorMove (d a : Nat) (ht : cls d = cls a) :
    Agree k cls (step k cls s (.ctorMove d a)) (allowed k cls p u (.ctorMove d a)) (Plain.step cls p (.ctorMove d a))
      (after cls p u (.ctorMove d a)) := by
  cases hp : p a with
  | none => exact Agree.none (by simp [step, h.no a hp]) (.inr (by simp [Plain.step, hp]))
  | some x =>
    obtain ⟨o, ho, hc⟩ := h.yes a x hp
    have hb := hc.moveCtor (hw a)
    cases hA : copyOk k (cls a) (cls a).trivMoveCtor x.isSome
    · simp only [hA, Bool.false_eq_true, if_false] at hb
      exact Agree.none (by simp [step, ho, ht, hb]) (.inl (by simp [allowed, full_eq hp, ht, hA]))
    · simp only [hA, if_true] at hb
      obtain ⟨o', s', hm, hc1, hc2⟩ := hb
      have h1 := h.set (u' := u) hc2 (fun _ _ => rfl)
      have := h1.new (y := .unit) (d := d) (o := o') (x := x) (u' := after cls p u (.ctorMove d a))
        (by simpa [after, ht] using hc1) (by intro b hb; simp [after, hb])
      simpa [step, Plain.step, allowed, full_eq hp, ho, hp, ht, hm, hA, Option.map_eq_bind, Function.comp_def] using this

theorem agree_ctorConv (mv : Bool) (d a : Nat) (f : V → V) (hs : Sure k cls p (.ctorConv mv d a f)) :
    Agree k cls (step k cls s (.ctorConv mv d a f)) (allowed k cls p u (.ctorConv mv d a f))
      (Plain.step cls p (.ctorConv mv d a f)) (after cls p u (.ctorConv mv d a f)) := by
  cases hp : p a with
  | none => exact Agree.none (by simp [step, h.no a hp]) (.inr (by simp [Plain.step, hp]))
  | some x =>
    obtain ⟨o, ho, hc⟩ := h.yes a x hp
    have e : k.evalVerify = true ∨ ∀ w, x = some w → (cls d).legal (f w) = true := by
      rcases hs with hs | hs
      · exact .inl hs.1
      · right
        intro w hx
        subst hx
        cases hl : (cls d).legal (f w)
        · simp [Plain.step, checked, hl, hp] at hs
        · rfl
    have hb := ctorConv_cell (c := cls d) (f := f) (hno d) hc e
    have h1 : Sim k cls (s.set a (some (if mv then leave (cls a) o else o)))
        (p.set a (some (if mv then x.map (cls a).moved else x))) u := by
      refine h.set (u' := u) ?_ (fun _ _ => rfl)
      cases mv
      · exact hc
      · exact hc.leave (hw a)
    have := h1.create (d := d) (x := x.map f) (u' := after cls p u (.ctorConv mv d a f)) (A := copyOk k (cls d) false x.isSome)
      (M := ctorConv k (cls d) (cls a) o f) (y := .unit)
      (by simpa [after] using hb)
      (by intro b hb; simp [after, hb])
    simpa [step, Plain.step, allowed, full_eq hp, ho, hp] using this

theorem agree_reset (a : Nat) :
    Agree k cls (step k cls s (.reset a)) (allowed k cls p u (.reset a)) (Plain.step cls p (.reset a))
      (after cls p u (.reset a)) := by
  cases hp : p a with
  | none => exact Agree.none (by simp [step, h.no a hp]) (.inr (by simp [Plain.step, hp]))
  | some x =>
    obtain ⟨o, ho, hc⟩ := h.yes a x hp
    have hb := hc.reset (hw a)
    cases hA : resetOk (cls a) x.isSome
    · simp only [hA, Bool.false_eq_true, if_false] at hb
      exact Agree.none (by simp [step, ho, hb]) (.inl (by simp [allowed, full_eq hp, hA]))
    · simp only [hA, if_true] at hb
      obtain ⟨o', hm, hc1⟩ := hb
      exact Agree.some (by simp [Plain.step, hp] <;> first | rfl | exact ⟨rfl, rfl⟩) (by simp [allowed, full_eq hp, hA])
        (by simp [step, ho, hm] <;> first | rfl | exact ⟨rfl, rfl⟩) (h.set hc1 (fun _ _ => rfl))

theorem agree_assignCopy (a b : Nat) (ht : cls a = cls b) :
    Agree k cls (step k cls s (.assignCopy a b)) (allowed k cls p u (.assignCopy a b)) (Plain.step cls p (.assignCopy a b))
      (after cls p u (.assignCopy a b)) := by
  cases hp : p a with
  | none => exact Agree.none (by simp [step, h.no a hp]) (.inr (by simp [Plain.step, hp]))
  | some x =>
  obtain ⟨o, ho, hc⟩ := h.yes a x hp
  cases hq : p b with
  | none => exact Agree.none (by simp [step, ho, h.no b hq]) (.inr (by simp [Plain.step, hp, hq]))
  | some y =>
  obtain ⟨o2, ho2, hc2⟩ := h.yes b y hq
  rw [← ht] at hc2
  have hb := hc.assignCopy (hw a) hc2
  rcases ite_cases hb with ⟨hA, hb⟩ | ⟨hA, hb⟩
  · obtain ⟨o', hm, hc1⟩ := hb
    refine Agree.some (by simp [Plain.step, hp, hq] <;> first | rfl | exact ⟨rfl, rfl⟩) (by simpa [allowed, full_eq hp, full_eq hq] using hA)
      (by simp [step, ho, ho2, hm] <;> first | rfl | exact ⟨rfl, rfl⟩) (h.set (u' := after cls p u (.assignCopy a b)) ?_ ?_)
    · unfold after; dsimp only; split <;> simp_all
    · intro c hc; unfold after; dsimp only; split <;> simp [hc]
  · exact Agree.none (by simp [step, ho, ho2, hb]) (.inl (by simpa [allowed, full_eq hp, full_eq hq] using hA))

theorem agree_assignMove (a b : Nat) (ht : cls a = cls b) (hab : a ≠ b) :
    Agree k cls (step k cls s (.assignMove a b)) (allowed k cls p u (.assignMove a b)) (Plain.step cls p (.assignMove a b))
      (after cls p u (.assignMove a b)) := by
  cases hp : p a with
  | none => exact Agree.none (by simp [step, h.no a hp]) (.inr (by simp [Plain.step, hp]))
  | some x =>
  obtain ⟨o, ho, hc⟩ := h.yes a x hp
  cases hq : p b with
  | none => exact Agree.none (by simp [step, ho, h.no b hq]) (.inr (by simp [Plain.step, hp, hq]))
  | some y =>
  obtain ⟨o2, ho2, hc2⟩ := h.yes b y hq
  rw [← ht] at hc2
  have hb := hc.assignMove (hw a) hc2
  rcases ite_cases hb with ⟨hA, hb⟩ | ⟨hA, hb⟩
  · obtain ⟨o', s', hm, hc1, hc3⟩ := hb
    rw [ht] at hc3
    refine Agree.some (by simp [Plain.step, hp, hq] <;> first | rfl | exact ⟨rfl, rfl⟩) (by simpa [allowed, full_eq hp, full_eq hq] using hA)
      (by simp [step, ho, ho2, hm] <;> first | rfl | exact ⟨rfl, rfl⟩)
      ((h.set (u' := u) hc3 (fun _ _ => rfl)).set (u' := after cls p u (.assignMove a b)) ?_ ?_)
    · unfold after; dsimp only; split <;> simp_all
    · intro c hc; unfold after; dsimp only; split <;> simp [hc]
  · exact Agree.none (by simp [step, ho, ho2, hb]) (.inl (by simpa [allowed, full_eq hp, full_eq hq] using hA))

theorem agree_assignValue (a : Nat) (v : V) (hs : Sure k cls p (.assignValue a v)) :
    Agree k cls (step k cls s (.assignValue a v)) (allowed k cls p u (.assignValue a v)) (Plain.step cls p (.assignValue a v))
      (after cls p u (.assignValue a v)) := by
  cases hp : p a with
  | none => exact Agree.none (by simp [step, h.no a hp]) (.inr (by simp [Plain.step, hp]))
  | some x =>
  obtain ⟨o, ho, hc⟩ := h.yes a x hp
  have e : k.evalVerify = true ∨ (cls a).legal v = true := by
    rcases hs with hs | hs
    · exact .inl hs.1
    · right
      cases hl : (cls a).legal v
      · simp [Plain.step, checked, hl, hp] at hs
      · rfl
  have hb := hc.assignValue e
  rcases ite_cases hb with ⟨hA, hb⟩ | ⟨hA, hb⟩
  · obtain ⟨o', hm, hc1⟩ := hb
    rw [Bool.and_eq_true] at hA
    exact Agree.some (by simp [Plain.step, hp, checked, hA.2] <;> first | rfl | exact ⟨rfl, rfl⟩) (by simpa [allowed, full_eq hp] using hA.1)
      (by simp [step, ho, hm] <;> first | rfl | exact ⟨rfl, rfl⟩) (h.set hc1 (fun _ _ => rfl))
  · refine Agree.none (by simp [step, ho, hb]) ?_
    cases hl : (cls a).legal v
    · exact .inr (by simp [Plain.step, hp, checked, hl])
    · rw [hl, Bool.and_true] at hA
      exact .inl (by simpa [allowed, full_eq hp] using hA)

theorem agree_assignConv (mv : Bool) (a b : Nat) (f : V → V) (hab : a ≠ b) (hs : Sure k cls p (.assignConv mv a b f)) :
    Agree k cls (step k cls s (.assignConv mv a b f)) (allowed k cls p u (.assignConv mv a b f)) (Plain.step cls p (.assignConv mv a b f))
      (after cls p u (.assignConv mv a b f)) := by
  cases hp : p a with
  | none => exact Agree.none (by simp [step, h.no a hp]) (.inr (by simp [Plain.step, hp]))
  | some x =>
  obtain ⟨o, ho, hc⟩ := h.yes a x hp
  cases hq : p b with
  | none => exact Agree.none (by simp [step, ho, h.no b hq]) (.inr (by simp [Plain.step, hp, hq]))
  | some y =>
  obtain ⟨o2, ho2, hc2⟩ := h.yes b y hq
  have e : k.evalVerify = true ∨ ∀ w, y = some w → (cls a).legal (f w) = true := by
    rcases hs with hs | hs
    · exact .inl hs.1
    · right
      intro w hx
      subst hx
      cases hl : (cls a).legal (f w)
      · simp [Plain.step, checked, hl, hp, hq] at hs
      · rfl
  have hb := hc.assignConv (f := f) (hw a) hc2 e
  have h1 : Sim k cls (s.set b (some (if mv then leave (cls b) o2 else o2)))
      (p.set b (some (if mv then y.map (cls b).moved else y))) u := by
    refine h.set (u' := u) ?_ (fun _ _ => rfl)
    cases mv
    · exact hc2
    · exact hc2.leave (hw b)
  rcases ite_cases hb with ⟨hA, hb⟩ | ⟨hA, hb⟩
  · obtain ⟨o', hm, hc1⟩ := hb
    rw [Bool.and_eq_true] at hA
    have hch : checked (cls a) (y.map f) = some (y.map f) := hc1.checked
    exact Agree.some (by simp [Plain.step, hp, hq, hch] <;> first | rfl | exact ⟨rfl, rfl⟩) (by simpa [allowed, full_eq hp, full_eq hq] using hA.1)
      (by simp [step, ho, ho2, hm] <;> first | rfl | exact ⟨rfl, rfl⟩) (h1.set hc1 (fun _ _ => rfl))
  · refine Agree.none (by simp [step, ho, ho2, hb]) ?_
    cases hl : checked (cls a) (y.map f)
    · exact .inr (by simp [Plain.step, hp, hq, hl])
    · rw [hl, Option.isSome_some, Bool.and_true] at hA
      exact .inl (by simpa [allowed, full_eq hp, full_eq hq] using hA)

theorem agree_emplace (a : Nat) (v : V) (hs : Sure k cls p (.emplace a v)) :
    Agree k cls (step k cls s (.emplace a v)) (allowed k cls p u (.emplace a v)) (Plain.step cls p (.emplace a v))
      (after cls p u (.emplace a v)) := by
  cases hp : p a with
  | none => exact Agree.none (by simp [step, h.no a hp]) (.inr (by simp [Plain.step, hp]))
  | some x =>
  obtain ⟨o, ho, hc⟩ := h.yes a x hp
  have e : k.evalVerify = true ∨ (cls a).legal v = true := by
    rcases hs with hs | hs
    · exact .inl hs.1
    · right
      cases hl : (cls a).legal v
      · simp [Plain.step, checked, hl, hp] at hs
      · rfl
  have hb := hc.emplace (hw a) e
  rcases ite_cases hb with ⟨hA, hb⟩ | ⟨hA, hb⟩
  · obtain ⟨o', hm, hc1⟩ := hb
    rw [Bool.and_eq_true] at hA
    exact Agree.some (by simp [Plain.step, hp, checked, hA.2] <;> first | rfl | exact ⟨rfl, rfl⟩) (by simpa [allowed, full_eq hp] using hA.1)
      (by simp [step, ho, hm] <;> first | rfl | exact ⟨rfl, rfl⟩) (h.set hc1 (fun _ _ => rfl))
  · refine Agree.none (by simp [step, ho, hb]) ?_
    cases hl : (cls a).legal v
    · exact .inr (by simp [Plain.step, hp, checked, hl])
    · rw [hl, Bool.and_true] at hA
      exact .inl (by simpa [allowed, full_eq hp] using hA)

theorem agree_tryEmplace (a : Nat) (v : V) (hs : Sure k cls p (.tryEmplace a v)) :
    Agree k cls (step k cls s (.tryEmplace a v)) (allowed k cls p u (.tryEmplace a v)) (Plain.step cls p (.tryEmplace a v))
      (after cls p u (.tryEmplace a v)) := by
  cases hp : p a with
  | none => exact Agree.none (by simp [step, h.no a hp]) (.inr (by simp [Plain.step, hp]))
  | some x =>
  obtain ⟨o, ho, hc⟩ := h.yes a x hp
  cases x with
  | some w =>
    exact Agree.some (by simp [Plain.step, hp] <;> first | rfl | exact ⟨rfl, rfl⟩) (by simp [allowed, full_eq hp])
      (by simp [step, ho, tryEmplace, hc.rel.has, hc.rel.get (k := k) (.inr rfl)] <;> first | rfl | exact ⟨rfl, rfl⟩)
      (h.set hc (fun _ _ => rfl))
  | none =>
    have e : k.evalVerify = true ∨ (cls a).legal v = true := by
      rcases hs with hs | hs
      · exact .inl hs.1
      · right
        cases hl : (cls a).legal v
        · simp [Plain.step, checked, hl, hp] at hs
        · rfl
    have hb := hc.construct e
    rcases ite_cases hb with ⟨hA, hb⟩ | ⟨hA, hb⟩
    · obtain ⟨o', hm, hc1⟩ := hb
      rw [Bool.and_eq_true] at hA
      exact Agree.some (by simp [Plain.step, hp, checked, hA.2] <;> first | rfl | exact ⟨rfl, rfl⟩)
        (by simpa [allowed, full_eq hp] using hA.1)
        (by simp [step, ho, tryEmplace, hc.rel.has, hm, hc1.rel.get (k := k) (.inr rfl)] <;> first | rfl | exact ⟨rfl, rfl⟩)
        (h.set hc1 (fun _ _ => rfl))
    · refine Agree.none (by simp [step, ho, tryEmplace, hc.rel.has, hb]) ?_
      cases hl : (cls a).legal v
      · exact .inr (by simp [Plain.step, hp, checked, hl])
      · rw [hl, Bool.and_true] at hA
        exact .inl (by simpa [allowed, full_eq hp] using hA)

theorem agree_hasValue (a : Nat) :
    Agree k cls (step k cls s (.hasValue a)) (allowed k cls p u (.hasValue a)) (Plain.step cls p (.hasValue a))
      (after cls p u (.hasValue a)) := by
  cases hp : p a with
  | none => exact Agree.none (by simp [step, h.no a hp]) (.inr (by simp [Plain.step, hp]))
  | some x =>
  obtain ⟨o, ho, hc⟩ := h.yes a x hp
  exact Agree.some (by simp [Plain.step, hp] <;> first | rfl | exact ⟨rfl, rfl⟩) rfl (by simp [step, ho, hc.rel.has]) h

theorem agree_get (a : Nat) (hs : Sure k cls p (.get a)) :
    Agree k cls (step k cls s (.get a)) (allowed k cls p u (.get a)) (Plain.step cls p (.get a))
      (after cls p u (.get a)) := by
  cases hp : p a with
  | none => exact Agree.none (by simp [step, h.no a hp]) (.inr (by simp [Plain.step, hp]))
  | some x =>
  obtain ⟨o, ho, hc⟩ := h.yes a x hp
  have e : k.evalVerify = true ∨ x.isSome = true := by
    rcases hs with hs | hs
    · exact .inl hs.1
    · right; cases x with
      | some _ => rfl
      | none => simp [Plain.step, hp] at hs
  have hg := hc.rel.get e
  cases x with
  | none => exact Agree.none (by simp [step, ho, hg]) (.inr (by simp [Plain.step, hp]))
  | some v => exact Agree.some (by simp [Plain.step, hp] <;> first | rfl | exact ⟨rfl, rfl⟩) rfl (by simp [step, ho, hg]) h

theorem agree_getUnchecked (a : Nat) (hs : Sure k cls p (.getUnchecked a)) :
    Agree k cls (step k cls s (.getUnchecked a)) (allowed k cls p u (.getUnchecked a)) (Plain.step cls p (.getUnchecked a))
      (after cls p u (.getUnchecked a)) := by
  cases hp : p a with
  | none => exact Agree.none (by simp [step, h.no a hp]) (.inr (by simp [Plain.step, hp]))
  | some x =>
  obtain ⟨o, ho, hc⟩ := h.yes a x hp
  cases x with
  | none =>
    rcases hs with hs | hs
    · cases hs.2
    · simp [Plain.step, hp] at hs
  | some v => exact Agree.some (by simp [Plain.step, hp] <;> first | rfl | exact ⟨rfl, rfl⟩) rfl (by simp [step, ho, hc.rel.read]) h

theorem agree_valueOr (a : Nat) (v : V) :
    Agree k cls (step k cls s (.valueOr a v)) (allowed k cls p u (.valueOr a v)) (Plain.step cls p (.valueOr a v))
      (after cls p u (.valueOr a v)) := by
  cases hp : p a with
  | none => exact Agree.none (by simp [step, h.no a hp]) (.inr (by simp [Plain.step, hp]))
  | some x =>
  obtain ⟨o, ho, hc⟩ := h.yes a x hp
  cases x with
  | none => exact Agree.some (by simp [Plain.step, hp] <;> first | rfl | exact ⟨rfl, rfl⟩) rfl (by simp [step, ho, hc.rel.has]) h
  | some w =>
    exact Agree.some (by simp [Plain.step, hp] <;> first | rfl | exact ⟨rfl, rfl⟩) rfl
      (by simp [step, ho, hc.rel.has, hc.rel.get (k := k) (.inr rfl)]) h

theorem agree_valueOrThrow (a : Nat) :
    Agree k cls (step k cls s (.valueOrThrow a)) (allowed k cls p u (.valueOrThrow a)) (Plain.step cls p (.valueOrThrow a))
      (after cls p u (.valueOrThrow a)) := by
  cases hp : p a with
  | none => exact Agree.none (by simp [step, h.no a hp]) (.inr (by simp [Plain.step, hp]))
  | some x =>
  obtain ⟨o, ho, hc⟩ := h.yes a x hp
  cases x with
  | none => exact Agree.none (by simp [step, ho, hc.rel.has]) (.inr (by simp [Plain.step, hp]))
  | some w =>
    exact Agree.some (by simp [Plain.step, hp] <;> first | rfl | exact ⟨rfl, rfl⟩) rfl
      (by simp [step, ho, hc.rel.has, hc.rel.get (k := k) (.inr rfl)]) h

theorem agree_inspect (a : Nat) :
    Agree k cls (step k cls s (.inspect a)) (allowed k cls p u (.inspect a)) (Plain.step cls p (.inspect a))
      (after cls p u (.inspect a)) := by
  cases hp : p a with
  | none => exact Agree.none (by simp [step, h.no a hp]) (.inr (by simp [Plain.step, hp]))
  | some x =>
  obtain ⟨o, ho, hc⟩ := h.yes a x hp
  cases x with
  | none => exact Agree.some (by simp [Plain.step, hp] <;> first | rfl | exact ⟨rfl, rfl⟩) rfl (by simp [step, ho, hc.rel.has]) h
  | some w =>
    exact Agree.some (by simp [Plain.step, hp] <;> first | rfl | exact ⟨rfl, rfl⟩) rfl
      (by simp [step, ho, hc.rel.has, hc.rel.get (k := k) (.inr rfl)]) h

theorem agree_destroy (a : Nat) :
    Agree k cls (step k cls s (.destroy a)) (allowed k cls p u (.destroy a)) (Plain.step cls p (.destroy a))
      (after cls p u (.destroy a)) := by
  cases hp : p a with
  | none => exact Agree.none (by simp [step, h.no a hp]) (.inr (by simp [Plain.step, hp]))
  | some x =>
  obtain ⟨o, ho, hc⟩ := h.yes a x hp
  exact Agree.some (by simp [Plain.step, hp] <;> first | rfl | exact ⟨rfl, rfl⟩) rfl (by simp [step, ho, hc.destroy] <;> first | rfl | exact ⟨rfl, rfl⟩) (h.drop a)

theorem agree_take (d a : Nat) (ht : cls d = cls a) :
    Agree k cls (step k cls s (.take d a)) (allowed k cls p u (.take d a)) (Plain.step cls p (.take d a))
      (after cls p u (.take d a)) := by
  cases hp : p a with
  | none => exact Agree.none (by simp [step, h.no a hp]) (.inr (by simp [Plain.step, hp]))
  | some x =>
  obtain ⟨o, ho, hc⟩ := h.yes a x hp
  have hb := hc.take (hw a)
  rcases ite_cases hb with ⟨hA, hb⟩ | ⟨hA, hb⟩
  · obtain ⟨r, s', hm, hc1, hc3⟩ := hb
    have h1 := h.set (u' := u) hc3 (fun _ _ => rfl)
    have := h1.new (y := .unit) (d := d) (o := r) (x := x) (u' := after cls p u (.take d a))
      (by simpa [after, ht] using hc1) (by intro b hb; simp [after, hb])
    have hA' : allowed k cls p u (.take d a) = true := by simpa [allowed, full_eq hp, ht] using hA
    rw [hA']
    simpa [step, Plain.step, ho, hp, ht, hm, Option.map_eq_bind, Function.comp_def] using this
  · exact Agree.none (by simp [step, ho, ht, hb]) (.inl (by simpa [allowed, full_eq hp, ht] using hA))

theorem agree_takeIf (d a : Nat) (q : V → Bool) (ht : cls d = cls a) :
    Agree k cls (step k cls s (.takeIf d a q)) (allowed k cls p u (.takeIf d a q)) (Plain.step cls p (.takeIf d a q))
      (after cls p u (.takeIf d a q)) := by
  cases hp : p a with
  | none => exact Agree.none (by simp [step, h.no a hp]) (.inr (by simp [Plain.step, hp]))
  | some x =>
  obtain ⟨o, ho, hc⟩ := h.yes a x hp
  have htest : test k (cls a) o q = some (x.any q) := by
    unfold test
    cases x with
    | none => simp [hc.rel.has]
    | some v => simp [hc.rel.has, hc.rel.get (k := k) (.inr rfl)]
  cases hq : x.any q
  · have hb := born (k := k) (hno d)
    have := h.create (d := d) (x := none) (u' := after cls p u (.takeIf d a q)) (A := bornOk k (cls d)) (M := defaultInit k (cls d))
      (y := .unit) (by simpa [checked, after, content_eq hp, hq, full_eq hp] using hb) (by intro b hb; simp [after, hb])
    simpa [step, Plain.step, allowed, checked, content_eq hp, hp, ho, htest, hq] using this
  · have hb := hc.take (hw a)
    rcases ite_cases hb with ⟨hA, hb⟩ | ⟨hA, hb⟩
    · obtain ⟨r, s', hm, hc1, hc3⟩ := hb
      have h1 := h.set (u' := u) hc3 (fun _ _ => rfl)
      have := h1.new (y := .unit) (d := d) (o := r) (x := x) (u' := after cls p u (.takeIf d a q))
        (by simpa [after, ht, content_eq hp, hq] using hc1) (by intro b hb; simp [after, hb])
      have hA' : allowed k cls p u (.takeIf d a q) = true := by simpa [allowed, full_eq hp, ht, content_eq hp, hq] using hA
      rw [hA']
      simpa [step, Plain.step, ho, hp, ht, hm, htest, hq, Option.map_eq_bind, Function.comp_def] using this
    · exact Agree.none (by simp [step, ho, ht, hb, htest, hq])
        (.inl (by simpa [allowed, full_eq hp, ht, content_eq hp, hq] using hA))

theorem agree_filter (mv : Bool) (d a : Nat) (q : V → Bool) (ht : cls d = cls a) :
    Agree k cls (step k cls s (.filter mv d a q)) (allowed k cls p u (.filter mv d a q)) (Plain.step cls p (.filter mv d a q))
      (after cls p u (.filter mv d a q)) := by
  cases hp : p a with
  | none => exact Agree.none (by simp [step, h.no a hp]) (.inr (by simp [Plain.step, hp]))
  | some x =>
  obtain ⟨o, ho, hc⟩ := h.yes a x hp
  have htest : test k (cls a) o q = some (x.any q) := by
    unfold test
    cases x with
    | none => simp [hc.rel.has]
    | some v => simp [hc.rel.has, hc.rel.get (k := k) (.inr rfl)]
  cases hq : x.any q
  · have hb := born (k := k) (hno d)
    have := h.create (d := d) (x := none) (u' := after cls p u (.filter mv d a q)) (A := bornOk k (cls d)) (M := defaultInit k (cls d))
      (y := .unit) (by simpa [checked, after, content_eq hp, hq, full_eq hp] using hb) (by intro b hb; simp [after, hb])
    simpa [step, Plain.step, allowed, makeOk, checked, content_eq hp, hp, ho, htest, hq] using this
  · cases x with
    | none => simp at hq
    | some v =>
    have hl : (cls d).legal v = true := by rw [ht]; exact hc.rel.legal
    have hb := made (k := k) (hno d) (.inr hl)
    have h1 : Sim k cls (s.set a (some (if mv then leave (cls a) o else o)))
        (p.set a (some (if mv then (some v).map (cls a).moved else some v))) u := by
      refine h.set (u' := u) ?_ (fun _ _ => rfl)
      cases mv
      · exact hc
      · exact hc.leave (hw a)
    have := h1.create (d := d) (x := some v) (u' := after cls p u (.filter mv d a q)) (A := makeOk k (cls d) true)
      (M := initValue k (cls d) v) (y := .unit)
      (by rw [checked_some]; simpa [after, hl, content_eq hp, hq] using hb) (by intro b hb; simp [after, hb])
    simpa [step, Plain.step, allowed, checked_some, hl, content_eq hp, hp, ho, htest, hq, hc.rel.get (k := k) (.inr rfl)]
      using this

theorem agree_map (d a : Nat) (f : V → V) (hs : Sure k cls p (.map d a f)) :
    Agree k cls (step k cls s (.map d a f)) (allowed k cls p u (.map d a f)) (Plain.step cls p (.map d a f))
      (after cls p u (.map d a f)) := by
  cases hp : p a with
  | none => exact Agree.none (by simp [step, h.no a hp]) (.inr (by simp [Plain.step, hp]))
  | some x =>
  obtain ⟨o, ho, hc⟩ := h.yes a x hp
  have hcs : ∀ v, (checked (cls d) (some v)).isSome = (cls d).legal v := by
    intro v; rw [checked_some]; cases (cls d).legal v <;> rfl
  cases hq : x with
  | none =>
    subst hq
    have hb := born (k := k) (hno d)
    have := h.create (d := d) (x := none) (u' := after cls p u (.map d a f)) (A := bornOk k (cls d)) (M := defaultInit k (cls d))
      (y := .unit) (by simpa [checked, after, content_eq hp, full_eq hp] using hb) (by intro b hb; simp [after, hb])
    simpa [step, Plain.step, allowed, makeOk, checked, full_eq hp, hp, ho, hc.rel.has] using this
  | some v =>
    subst hq
    have e : k.evalVerify = true ∨ (cls d).legal (f v) = true := by
      rcases hs with hs | hs
      · exact .inl hs.1
      · right
        cases hl : (cls d).legal (f v)
        · simp [Plain.step, checked, hl, hp] at hs
        · rfl
    have hb := made (k := k) (hno d) e
    have := h.create (d := d) (x := some (f v)) (u' := after cls p u (.map d a f)) (A := makeOk k (cls d) true)
      (M := initValue k (cls d) (f v)) (y := .unit)
      (by rw [hcs]; simpa [after, full_eq hp] using hb) (by intro b hb; simp [after, hb])
    simpa [step, Plain.step, allowed, full_eq hp, hp, ho, hc.rel.has, hc.rel.get (k := k) (.inr rfl)] using this

/-- an option that a function of the caller builds -/
theorem Sim.build {d : Nat} {z : Option V} {u' : Nat → Bool} {y : Obs V}
    (e : k.evalVerify = true ∨ (checked (cls d) z).isSome = true)
    (hu' : u' d = z.isSome) (hu : ∀ b, b ≠ d → u' b = u b) :
    Agree k cls ((build k (cls d) z).bind fun o => (s.new d o).bind fun s => some (s, y)) (makeOk k (cls d) z.isSome)
      ((checked (cls d) z).bind fun z => (p.new d z).bind fun p => some (p, y)) u' := by
  refine h.create ?_ hu
  cases z with
  | none =>
    have hb := born (k := k) (hno d)
    rw [hu']
    simpa [checked, ConstEval.build, makeOk] using hb
  | some v =>
    have hcs : (checked (cls d) (some v)).isSome = (cls d).legal v := by rw [checked_some]; cases (cls d).legal v <;> rfl
    rw [hcs] at e ⊢
    rw [hu']
    exact made (hno d) e

theorem agree_andThen (d a : Nat) (f : V → Option V) (hs : Sure k cls p (.andThen d a f)) :
    Agree k cls (step k cls s (.andThen d a f)) (allowed k cls p u (.andThen d a f)) (Plain.step cls p (.andThen d a f))
      (after cls p u (.andThen d a f)) := by
  cases hp : p a with
  | none => exact Agree.none (by simp [step, h.no a hp]) (.inr (by simp [Plain.step, hp]))
  | some x =>
  obtain ⟨o, ho, hc⟩ := h.yes a x hp
  have e : k.evalVerify = true ∨ (checked (cls d) (x.bind f)).isSome = true := by
    rcases hs with hs | hs
    · exact .inl hs.1
    · right
      cases hl : checked (cls d) (x.bind f)
      · simp [Plain.step, hl, hp] at hs
      · rfl
  have := Sim.build hw hno h (d := d) (z := x.bind f) (u' := after cls p u (.andThen d a f)) (y := .unit) e
    (by simp [after, content_eq hp]) (by intro b hb; simp [after, hb])
  cases x with
  | none => simpa [step, Plain.step, allowed, content_eq hp, hp, ho, hc.rel.has, ConstEval.build] using this
  | some v =>
    simpa [step, Plain.step, allowed, content_eq hp, hp, ho, hc.rel.has, hc.rel.get (k := k) (.inr rfl)] using this

theorem agree_orElse (mv : Bool) (d a : Nat) (f : Option V) (ht : cls d = cls a) (hs : Sure k cls p (.orElse mv d a f)) :
    Agree k cls (step k cls s (.orElse mv d a f)) (allowed k cls p u (.orElse mv d a f)) (Plain.step cls p (.orElse mv d a f))
      (after cls p u (.orElse mv d a f)) := by
  cases hp : p a with
  | none => exact Agree.none (by simp [step, h.no a hp]) (.inr (by simp [Plain.step, hp]))
  | some x =>
  obtain ⟨o, ho, hc⟩ := h.yes a x hp
  cases x with
  | none =>
    have e : k.evalVerify = true ∨ (checked (cls d) f).isSome = true := by
      rcases hs with hs | hs
      · exact .inl hs.1
      · right
        cases hl : checked (cls d) f
        · simp [Plain.step, hl, hp] at hs
        · rfl
    have := Sim.build hw hno h (d := d) (z := f) (u' := after cls p u (.orElse mv d a f)) (y := .unit) e
      (by simp [after, full_eq hp]) (by intro b hb; simp [after, hb])
    simpa [step, Plain.step, allowed, full_eq hp, hp, ho, hc.rel.has] using this
  | some v =>
    -- in C++17 the storage of an option with a value is used, and only a trivial copy of it is a constant expression
    have hu : ∀ t : Bool, ∀ o', copyOk k (cls a) t true = true → Cell k (cls a) o' (some v) (t && u a) →
        Cell k (cls a) o' (some v) true := by
      intro t o' hok hcell
      refine ⟨hcell.rel, hcell.lit, fun h17 hr => ?_⟩
      rw [hcell.rel.act]; rfl
    cases mv with
    | true =>
      have hb := hc.moveCtor (hw a)
      rcases ite_cases hb with ⟨hA, hb⟩ | ⟨hA, hb⟩
      · obtain ⟨o', s', hm, hc1, hc3⟩ := hb
        have h1 := h.set (u' := u) hc3 (fun _ _ => rfl)
        have := h1.new (y := .unit) (d := d) (o := o') (x := some v) (u' := after cls p u (.orElse true d a f))
          (by rw [ht]; simpa [after, full_eq hp] using hu _ o' hA hc1) (by intro b hb; simp [after, hb])
        have hA' : allowed k cls p u (.orElse true d a f) = true := by simpa [allowed, full_eq hp, ht] using hA
        rw [hA']
        simpa [step, Plain.step, ho, hp, ht, hm, hc.rel.has, Option.map_eq_bind, Function.comp_def] using this
      · exact Agree.none (by simp [step, ho, ht, hb, hc.rel.has])
          (.inl (by simpa [allowed, full_eq hp, ht] using hA))
    | false =>
      have hb := hc.copyCtor (hw a)
      rcases ite_cases hb with ⟨hA, hb⟩ | ⟨hA, hb⟩
      · obtain ⟨o', hm, hc1⟩ := hb
        have h1 := h.set (u' := u) hc (fun _ _ => rfl)
        have := h1.new (y := .unit) (d := d) (o := o') (x := some v) (u' := after cls p u (.orElse false d a f))
          (by rw [ht]; simpa [after, full_eq hp] using hu _ o' hA hc1) (by intro b hb; simp [after, hb])
        have hA' : allowed k cls p u (.orElse false d a f) = true := by simpa [allowed, full_eq hp, ht] using hA
        rw [hA']
        have hset : s.set a (some o) = s := by
          funext b; unfold Store.set; split
          · rename_i hb; rw [hb, ho]
          · rfl
        rw [hset] at this
        simpa [step, Plain.step, ho, hp, ht, hm, hc.rel.has, Option.map_eq_bind, Function.comp_def] using this
      · exact Agree.none (by simp [step, ho, ht, hb, hc.rel.has])
          (.inl (by simpa [allowed, full_eq hp, ht] using hA))

theorem agree_swap (a b : Nat) (ht : cls a = cls b) (hab : a ≠ b) :
    Agree k cls (step k cls s (.swap a b)) (allowed k cls p u (.swap a b)) (Plain.step cls p (.swap a b))
      (after cls p u (.swap a b)) := by
  cases hp : p a with
  | none => exact Agree.none (by simp [step, h.no a hp]) (.inr (by simp [Plain.step, hp]))
  | some x =>
  obtain ⟨o, ho, hc⟩ := h.yes a x hp
  cases hq : p b with
  | none => exact Agree.none (by simp [step, ho, h.no b hq]) (.inr (by simp [Plain.step, hp, hq]))
  | some y =>
  obtain ⟨o2, ho2, hc2⟩ := h.yes b y hq
  rw [← ht] at hc2
  have hb := hc.swap (hw a) hc2
  rcases ite_cases hb with ⟨hA, hb⟩ | ⟨hA, hb⟩
  · obtain ⟨o', s', hm, hc1, hc3⟩ := hb
    rw [ht] at hc3
    exact Agree.some (by simp [Plain.step, hp, hq] <;> first | rfl | exact ⟨rfl, rfl⟩) (by simpa [allowed, full_eq hp, full_eq hq, ← ht] using hA)
      (by simp [step, ho, ho2, hm] <;> first | rfl | exact ⟨rfl, rfl⟩)
      ((h.set (u' := u) hc1 (fun _ _ => rfl)).set (u' := u) hc3 (fun _ _ => rfl))
  · exact Agree.none (by simp [step, ho, ho2, hb]) (.inl (by simpa [allowed, full_eq hp, full_eq hq, ← ht] using hA))

theorem agree_eq (a b : Nat) (r : V → V → Bool) :
    Agree k cls (step k cls s (.eq a b r)) (allowed k cls p u (.eq a b r)) (Plain.step cls p (.eq a b r))
      (after cls p u (.eq a b r)) := by
  cases hp : p a with
  | none => exact Agree.none (by simp [step, h.no a hp]) (.inr (by simp [Plain.step, hp]))
  | some x =>
  obtain ⟨o, ho, hc⟩ := h.yes a x hp
  cases hq : p b with
  | none => exact Agree.none (by simp [step, ho, h.no b hq]) (.inr (by simp [Plain.step, hp, hq]))
  | some y =>
  obtain ⟨o2, ho2, hc2⟩ := h.yes b y hq
  cases x with
  | none =>
    cases y <;>
    exact Agree.some (by simp [Plain.step, hp, hq] <;> first | rfl | exact ⟨rfl, rfl⟩) rfl (by simp [step, ho, ho2, hc.rel.has, hc2.rel.has]) h
  | some v =>
    cases y with
    | none => exact Agree.some (by simp [Plain.step, hp, hq] <;> first | rfl | exact ⟨rfl, rfl⟩) rfl (by simp [step, ho, ho2, hc.rel.has, hc2.rel.has]) h
    | some w =>
      exact Agree.some (by simp [Plain.step, hp, hq] <;> first | rfl | exact ⟨rfl, rfl⟩) rfl
        (by simp [step, ho, ho2, hc.rel.has, hc2.rel.has, hc.rel.get (k := k) (.inr rfl), hc2.rel.get (k := k) (.inr rfl)]) h

/-- One operation is a constant expression exactly if its contract holds and the language accepts it, and then it does and
tells what it should. -/
theorem agree (op : Op V) (ht : op.Typed cls) (hs : Sure k cls p op) :
    Agree k cls (step k cls s op) (allowed k cls p u op) (Plain.step cls p op) (after cls p u op) := by
  cases op with
  | ctorNone d => exact agree_ctorNone hw hno h d
  | ctorValue d v => exact agree_ctorValue hw hno h d v hs
  | ctorCopy d a => exact agree_ctorCopy hw hno h d a ht
  | ctorMove d a => exact agree_ctorMove hw hno h d a ht
  | ctorConv mv d a f => exact agree_ctorConv hw hno h mv d a f hs
  | reset a => exact agree_reset hw hno h a
  | assignCopy a b => exact agree_assignCopy hw hno h a b ht
  | assignMove a b => exact agree_assignMove hw hno h a b ht.1 ht.2
  | assignValue a v => exact agree_assignValue hw hno h a v hs
  | assignConv mv a b f => exact agree_assignConv hw hno h mv a b f ht hs
  | emplace a v => exact agree_emplace hw hno h a v hs
  | tryEmplace a v => exact agree_tryEmplace hw hno h a v hs
  | hasValue a => exact agree_hasValue hw hno h a
  | get a => exact agree_get hw hno h a hs
  | getUnchecked a => exact agree_getUnchecked hw hno h a hs
  | valueOr a v => exact agree_valueOr hw hno h a v
  | valueOrThrow a => exact agree_valueOrThrow hw hno h a
  | take d a => exact agree_take hw hno h d a ht
  | takeIf d a q => exact agree_takeIf hw hno h d a q ht
  | filter mv d a q => exact agree_filter hw hno h mv d a q ht
  | map d a f => exact agree_map hw hno h d a f hs
  | andThen d a f => exact agree_andThen hw hno h d a f hs
  | orElse mv d a f => exact agree_orElse hw hno h mv d a f ht hs
  | inspect a => exact agree_inspect hw hno h a
  | swap a b => exact agree_swap hw hno h a b ht.1 ht.2
  | eq a b r => exact agree_eq hw hno h a b r
  | destroy a => exact agree_destroy hw hno h a

end
end Opt.ConstEval
