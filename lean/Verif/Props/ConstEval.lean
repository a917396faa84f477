import Verif.Lemmas.ConstEvalStep

/-!
# C80: options can be used in constant expressions

Everything in docs/reference.md is marked `constexpr`.  README.md 144-145 and docs/feature_list.md 78-80 limit that: "size
optimizations prevent `opt::option` being `constexpr`-compatible", "if you lucky this might work".  The theorems say exactly
which programs are constant expressions, and that those that are have the same results as at run time.
-/

namespace Opt.ConstEval

variable {V : Type}

section
variable {k : Cfg} {cls : Nat → Cls V}

/-- the hypothesis of an exact statement about a program: all its operations check what they need and the checks are
evaluated, or its contracts hold -/
def SureRun (k : Cfg) (cls : Nat → Cls V) (p : Store (Option V)) (ops : List (Op V)) : Prop :=
  (k.evalVerify = true ∧ ∀ op ∈ ops, op.isChecked = true) ∨ (Plain.run cls p ops).isSome = true

theorem run_agree (hw : ∀ a, (cls a).WF) (hno : ∀ a, (cls a).storage ≠ .opaque) {s : Store (Obj V)} {p : Store (Option V)}
    {u : Nat → Bool} (h : Sim k cls s p u) (ops : List (Op V)) (ht : ∀ op ∈ ops, op.Typed cls) (hs : SureRun k cls p ops) :
    (run k cls s ops).map (·.2) = if allowedRun k cls p u ops then (Plain.run cls p ops).map (·.2) else none := by
  induction ops generalizing s p u with
  | nil => simp [run, Plain.run, allowedRun]
  | cons op ops ih =>
    have hs1 : Sure k cls p op := by
      rcases hs with hs | hs
      · exact .inl ⟨hs.1, hs.2 op (by simp)⟩
      · right
        cases hp : Plain.step cls p op
        · simp [Plain.run, hp] at hs
        · rfl
    have ha := agree hw hno h op (ht op (by simp)) hs1
    unfold Agree at ha
    cases hp : Plain.step cls p op with
    | none =>
      rw [hp] at ha
      simp [run, Plain.run, hp, ha]
    | some r =>
      obtain ⟨p', y⟩ := r
      rw [hp] at ha
      simp only at ha
      cases hA : allowed k cls p u op
      · simp [hA] at ha
        simp [run, allowedRun, ha, hA]
      · simp only [hA, if_true] at ha
        obtain ⟨s', hr, hsim⟩ := ha
        have hs2 : SureRun k cls p' ops := by
          rcases hs with hs | hs
          · exact .inl ⟨hs.1, fun o ho => hs.2 o (by simp [ho])⟩
          · right
            cases hp' : Plain.run cls p' ops
            · simp [Plain.run, hp, hp'] at hs
            · rfl
        have := ih hsim (fun o ho => ht o (by simp [ho])) hs2
        simp only [run, Plain.run, allowedRun, hr, hp, hA, Option.bind_eq_bind, Option.bind_some, Bool.true_and]
        cases hrun : run k cls s' ops <;> cases hpr : Plain.run cls p' ops <;> rw [hrun, hpr] at this <;>
          cases hal : allowedRun k cls p' (after cls p u op) ops <;> rw [hal] at this <;> simp_all

/-- nothing has been created -/
def nothing {α : Type} : Store α := fun _ => none

theorem sim_nothing : Sim k cls (nothing : Store (Obj V)) nothing fun _ => false :=
  ⟨fun _ _ => rfl, fun _ _ h => by cases h⟩

end

/-- **C80**, exactly which programs are constant expressions, for types whose emptiness is a flag, a null pointer, or levels that
are written with plain assignments: those whose steps are `allowed`, and their results are those of plain optional
values.  Where the checks are not evaluated (release builds) this holds for the programs that keep their contracts.
Missing: levels written with `std::memcpy` (C80_opaque), broken contracts in release builds (C80_violated_stale). -/
theorem C80_exact_partial {k : Cfg} {cls : Nat → Cls V} (hw : ∀ a, (cls a).WF) (hno : ∀ a, (cls a).storage ≠ .opaque)
    (ops : List (Op V)) (ht : ∀ op ∈ ops, op.Typed cls) (hs : SureRun k cls nothing ops) :
    (run k cls nothing ops).map (·.2) =
      if allowedRun k cls nothing (fun _ => false) ops then (Plain.run cls nothing ops).map (·.2) else none :=
  run_agree hw hno sim_nothing ops ht hs

/-! ## Sample types -/

/-- `int` -/
def intCls : Cls Int := ⟨.flag, true, true, true, true, true, true, false, id⟩

/-- `opt::sentinel<int, -1>` -/
def sentCls : Cls Int := ⟨.assign (-1) (· == -1), true, true, true, true, true, false, false, id⟩

/-- `bool`, here with numbers for its values -/
def boolCls : Cls Int := ⟨.opaque, true, true, true, true, true, true, false, id⟩

/-- a class with its own copy and move operations and destructor, all `constexpr`; moving leaves 0 -/
def ownCls : Cls Int := ⟨.flag, false, false, false, false, false, false, false, fun _ => 0⟩

/-- `int&` -/
def refCls : Cls Int := ⟨.ref, true, true, true, true, true, false, false, id⟩

theorem intCls_wf : intCls.WF := ⟨fun _ => rfl, fun _ => rfl, fun _ _ => rfl, nofun, nofun, fun _ h => h⟩
theorem ownCls_wf : ownCls.WF := ⟨nofun, nofun, nofun, nofun, nofun, fun _ _ => rfl⟩
theorem refCls_wf : refCls.WF := ⟨fun _ => rfl, fun _ => rfl, fun _ _ => rfl, fun _ => ⟨rfl, rfl, rfl, rfl⟩, nofun, fun _ h => h⟩
theorem sentCls_wf : sentCls.WF :=
  ⟨fun _ => rfl, fun _ => rfl, fun _ _ => rfl, nofun, (by intro w i h; cases h; rfl), fun _ h => h⟩

/-- addresses from 0 on: `int`, a class, `sentinel`, `int&`, and so on -/
def mixed (a : Nat) : Cls Int :=
  match a % 4 with
  | 0 => intCls
  | 1 => ownCls
  | 2 => sentCls
  | _ => refCls

theorem mixed_cases (a : Nat) : mixed a = intCls ∨ mixed a = ownCls ∨ mixed a = sentCls ∨ mixed a = refCls := by
  unfold mixed; split <;> simp

theorem mixed_wf (a : Nat) : (mixed a).WF := by
  rcases mixed_cases a with h | h | h | h <;> rw [h]
  · exact intCls_wf
  · exact ownCls_wf
  · exact sentCls_wf
  · exact refCls_wf

theorem mixed_no (a : Nat) : (mixed a).storage ≠ .opaque := by
  rcases mixed_cases a with h | h | h | h <;> rw [h] <;> nofun

/-- a program that uses all four -/
def mixedProg : List (Op Int) :=
  [.ctorNone 0, .assignValue 0 5, .ctorValue 1 7, .ctorMove 5 1, .get 1, .take 9 5, .hasValue 5, .get 9, .ctorValue 2 3, .reset 2,
   .tryEmplace 2 4, .ctorNone 3, .assignValue 3 8, .swap 1 9, .get 9, .ctorConv false 4 2 (· + 1), .get 4, .destroy 9]

example : (run ⟨true, true⟩ mixed nothing mixedProg).map (·.2) =
    some [.unit, .unit, .unit, .unit, .val 0, .unit, .bool false, .val 7, .unit, .unit, .val 4, .unit, .unit, .unit, .val 0, .unit,
      .val 5, .unit] := by
  rw [C80_exact_partial mixed_wf mixed_no mixedProg (by simp [mixedProg, Op.Typed]; exact ⟨rfl, rfl, rfl⟩) (.inl ⟨rfl, by decide⟩)]
  decide +kernel

/-! ## C++20 -/

/-- nothing is written with levels -/
def Cls.simple (c : Cls V) : Prop := c.storage = .flag ∨ c.storage = .ref

theorem allowed_cxx20 {k : Cfg} (hk : k.cxx20 = true) {cls : Nat → Cls V} (hc : ∀ a, (cls a).simple) (p : Store (Option V))
    (u : Nat → Bool) (op : Op V) : allowed k cls p u op = true := by
  have hb : ∀ a, bornOk k (cls a) = true := fun a => by rcases hc a with h | h <;> simp [bornOk, h, hk]
  have hf : ∀ a b, fillOk k (cls a) b = true := fun a b => by rcases hc a with h | h <;> simp [fillOk, h, hk]
  have hr : ∀ a b, resetOk (cls a) b = true := fun a b => by rcases hc a with h | h <;> simp [resetOk, h]
  cases op <;> simp [allowed, copyOk, makeOk, hb, hf, hr, hk]

theorem allowedRun_of {k : Cfg} {cls : Nat → Cls V} {ops : List (Op V)}
    (h : ∀ op ∈ ops, ∀ p u, allowed k cls p u op = true) (p : Store (Option V)) (u : Nat → Bool) :
    allowedRun k cls p u ops = true := by
  induction ops generalizing p u with
  | nil => rfl
  | cons op ops ih =>
    simp only [allowedRun, h op (by simp) p u, Bool.true_and]
    split
    · exact ih (fun o ho => h o (by simp [ho])) _ _
    · rfl

/-- **C80**, C++20: with a flag or a reference every program is a constant expression exactly if its contracts hold, and tells what
it tells at run time.  Missing: types with levels (C80_exact_partial, C80_opaque). -/
theorem C80_cxx20_partial {k : Cfg} (hk : k.cxx20 = true) {cls : Nat → Cls V} (hw : ∀ a, (cls a).WF) (hc : ∀ a, (cls a).simple)
    (ops : List (Op V)) (ht : ∀ op ∈ ops, op.Typed cls) (hs : SureRun k cls nothing ops) :
    (run k cls nothing ops).map (·.2) = (Plain.run cls nothing ops).map (·.2) := by
  rw [C80_exact_partial hw (fun a => by rcases hc a with h | h <;> rw [h] <;> nofun) ops ht hs,
    allowedRun_of (fun op _ p u => allowed_cxx20 hk hc p u op), if_pos rfl]

/-- `int` and a class in turn -/
def plainTypes (a : Nat) : Cls Int := if a % 2 = 0 then intCls else ownCls

theorem plainTypes_wf (a : Nat) : (plainTypes a).WF := by
  unfold plainTypes; split
  · exact intCls_wf
  · exact ownCls_wf

theorem plainTypes_simple (a : Nat) : (plainTypes a).simple := by
  unfold plainTypes; split <;> exact .inl rfl

/-- resets, destroys and fills again, in a release build -/
def plainProg : List (Op Int) :=
  [.ctorNone 1, .emplace 1 4, .reset 1, .assignValue 1 5, .ctorCopy 3 1, .assignMove 3 1, .get 1, .get 3, .map 0 3 (· * 2), .get 0,
   .filter true 5 3 (· > 4), .eq 3 0 (· == ·), .destroy 5, .destroy 3, .destroy 1]

example : (run ⟨true, false⟩ plainTypes nothing plainProg).map (·.2) =
    some [.unit, .val 4, .unit, .unit, .unit, .unit, .val 0, .val 5, .unit, .val 10, .unit, .bool false, .unit, .unit, .unit] := by
  rw [C80_cxx20_partial rfl plainTypes_wf plainTypes_simple plainProg (by simp [plainProg, Op.Typed, show plainTypes 3 = plainTypes 1 from rfl, show plainTypes 5 = plainTypes 3 from rfl])
    (.inr (by decide +kernel))]
  decide +kernel

/-! ## C++17 -/

theorem allowed_mono {b : Bool} {cls : Nat → Cls V} {p : Store (Option V)} {u : Nat → Bool} {op : Op V}
    (h : allowed ⟨false, b⟩ cls p u op = true) : allowed ⟨true, b⟩ cls p u op = true := by
  have hb : ∀ a, bornOk ⟨false, b⟩ (cls a) = true → bornOk ⟨true, b⟩ (cls a) = true := fun a => by
    simp only [bornOk, Bool.false_or, Bool.true_or, Bool.true_and, Bool.and_eq_true]; exact And.right
  have hf : ∀ a x, fillOk ⟨true, b⟩ (cls a) x = true := fun a x => by
    simp only [fillOk]; split <;> simp
  have hm : ∀ a x, makeOk ⟨false, b⟩ (cls a) x = true → makeOk ⟨true, b⟩ (cls a) x = true := fun a x => by
    simp only [makeOk]; split
    · simp
    · exact hb a
  have hcp : ∀ a t x, copyOk ⟨false, b⟩ (cls a) t x = true → copyOk ⟨true, b⟩ (cls a) t x = true := fun a t x => by
    simp only [copyOk]; split
    · simp
    · simp only [hf, Bool.or_true, Bool.and_true, Bool.and_eq_true]; exact fun h => hb a h.1
  cases op <;> simp only [allowed, hf, Bool.or_true, Bool.and_true, Bool.true_and, Bool.true_or, Bool.and_eq_true] at h ⊢
  case ctorNone d => exact hb _ h
  case ctorValue => exact hm _ _ h
  case ctorCopy => exact hcp _ _ _ h
  case ctorMove => exact hcp _ _ _ h
  case ctorConv => exact hcp _ _ _ h
  case reset => exact h
  case assignCopy a b =>
    cases h1 : wholeCopy (cls a) <;> cases h2 : full p b <;> simp [h1, h2] at h ⊢; exact h
  case assignMove a b =>
    cases h1 : wholeMove (cls a) <;> cases h2 : full p b <;> simp [h1, h2] at h ⊢; exact h
  case assignConv mv a b f => cases h2 : full p b <;> simp [h2] at h ⊢; exact h
  case emplace => exact h.1
  case take => exact ⟨hcp _ _ _ h.1, h.2⟩
  case takeIf d a q =>
    cases h2 : (content p a).any q <;> simp only [h2, if_true, Bool.false_eq_true, if_false, Bool.and_eq_true] at h ⊢
    · exact hb _ h
    · exact ⟨hcp _ _ _ h.1, h.2⟩
  case filter => exact hm _ _ h
  case map => exact hm _ _ h
  case andThen => exact hm _ _ h
  case orElse mv d a f =>
    cases h2 : full p a <;> simp only [h2, if_true, Bool.false_eq_true, if_false] at h ⊢
    · exact hm _ _ h
    · exact hcp _ _ _ h
  case swap a b =>
    cases h1 : full p a <;> cases h2 : full p b <;> simp [h1, h2] at h ⊢
    · exact h.2
    · exact h.2

theorem allowedRun_mono {b : Bool} {cls : Nat → Cls V} {ops : List (Op V)} {p : Store (Option V)} {u : Nat → Bool}
    (h : allowedRun ⟨false, b⟩ cls p u ops = true) : allowedRun ⟨true, b⟩ cls p u ops = true := by
  induction ops generalizing p u with
  | nil => rfl
  | cons op ops ih =>
    simp only [allowedRun, Bool.and_eq_true] at h ⊢
    refine ⟨allowed_mono h.1, ?_⟩
    split
    · rename_i hp
      have := h.2
      rw [hp] at this
      exact ih this
    · rfl

/-- **C80**, a constant expression in C++17 is one in C++20, with the same results; for programs as in C80_exact_partial. -/
theorem C80_cxx17_keeps_partial {b : Bool} {cls : Nat → Cls V} (hw : ∀ a, (cls a).WF) (hno : ∀ a, (cls a).storage ≠ .opaque)
    {ops : List (Op V)} (ht : ∀ op ∈ ops, op.Typed cls) (hs : SureRun ⟨false, b⟩ cls nothing ops)
    {s : Store (Obj V)} {xs : List (Obs V)} (h : run ⟨false, b⟩ cls nothing ops = some (s, xs)) :
    (run ⟨true, b⟩ cls nothing ops).map (·.2) = some xs := by
  have e := C80_exact_partial hw hno ops ht hs
  rw [h] at e
  rw [C80_exact_partial (k := ⟨true, b⟩) hw hno ops ht hs]
  cases ha : allowedRun ⟨false, b⟩ cls nothing (fun _ => false) ops
  · rw [ha] at e; cases e
  · rw [ha] at e; rw [allowedRun_mono ha]; exact e.symm

/-- the operations that never construct a value in storage that was not used -/
def Op.settled : Op V → Bool
  | .ctorConv .. => false
  | .assignValue .. => false
  | .assignConv .. => false
  | .emplace .. => false
  | .tryEmplace .. => false
  | .swap .. => false
  | _ => true

/-- **C80**, C++17: for trivially copyable types with a flag, and for references, every program of creations, copies, moves,
assignments of options, `reset`, `take`, `filter`, `map`, `and_then`, `or_else`, observers and comparisons is a constant
expression exactly if its contracts hold.  Missing: putting a value into an option (C80_violated_cxx17). -/
theorem C80_cxx17_partial {k : Cfg} {cls : Nat → Cls V} (hw : ∀ a, (cls a).WF) (hc : ∀ a, (cls a).simple)
    (htriv : ∀ a, (cls a).trivDtor = true ∧ (cls a).trivCopyCtor = true ∧ (cls a).trivMoveCtor = true ∧
      (cls a).trivCopyAssign = true ∧ (cls a).trivMoveAssign = true)
    (ops : List (Op V)) (hq : ∀ op ∈ ops, op.settled = true) (ht : ∀ op ∈ ops, op.Typed cls) (hs : SureRun k cls nothing ops) :
    (run k cls nothing ops).map (·.2) = (Plain.run cls nothing ops).map (·.2) := by
  rw [C80_exact_partial hw (fun a => by rcases hc a with h | h <;> rw [h] <;> nofun) ops ht hs, allowedRun_of ?_, if_pos rfl]
  intro op ho p u
  have hq := hq op ho
  have hb : ∀ a, bornOk k (cls a) = true := fun a => by rcases hc a with h | h <;> simp [bornOk, h, htriv a]
  have hr : ∀ a b, resetOk (cls a) b = true := fun a b => by rcases hc a with h | h <;> simp [resetOk, h]
  cases op <;> simp [Op.settled] at hq <;>
    simp [allowed, copyOk, makeOk, hb, hr, (htriv _).1, (htriv _).2.1, (htriv _).2.2.1, (htriv _).2.2.2.1, (htriv _).2.2.2.2,
      wholeCopy, wholeMove]

/-- all options are `option<int>` -/
def ints (_ : Nat) : Cls Int := intCls

def settledProg : List (Op Int) :=
  [.ctorNone 0, .ctorValue 1 3, .assignCopy 0 1, .take 2 1, .hasValue 1, .map 3 2 (· + 1), .get 3, .filter false 4 3 (· > 9),
   .orElse false 5 4 (some 6), .eq 5 0 (· == ·), .reset 5, .valueOr 5 8, .andThen 6 0 fun _ => none, .inspect 6, .destroy 0]

example : (run ⟨false, true⟩ ints nothing settledProg).map (·.2) =
    some [.unit, .unit, .unit, .unit, .bool false, .unit, .val 4, .unit, .unit, .bool false, .unit, .val 8, .unit, .opt none,
      .unit] := by
  rw [C80_cxx17_partial (cls := ints) (fun _ => intCls_wf) (fun _ => .inl rfl) (fun _ => ⟨rfl, rfl, rfl, rfl, rfl⟩) settledProg (by decide)
    (by simp [settledProg, Op.Typed, ints]) (.inl ⟨rfl, by decide⟩)]
  decide +kernel

example : (run ⟨true, true⟩ ints nothing [.ctorValue 0 1, .reset 0, .assignValue 0 2, .get 0]).map (·.2) =
    some [.unit, .unit, .unit, .val 2] :=
  C80_cxx17_keeps_partial (b := true) (fun _ => intCls_wf) (fun _ => nofun) (by simp [Op.Typed])
    (.inl ⟨rfl, by decide⟩) (s := _) (xs := _) rfl

section
variable {k : Cfg} {cls : Nat → Cls V} {Q : Cls V → Prop}

theorem set_apply {α : Type} (s : Store α) (a b : Nat) (x : Option α) : s.set a x b = if b = a then x else s b := rfl

theorem new_apply {α : Type} {s s' : Store α} {a : Nat} {x : α} (h : s.new a x = some s') (b : Nat) :
    s' b = if b = a then some x else s b := by
  unfold Store.new at h; split at h
  · cases h; rfl
  · cases h

theorem step_never (hd : ∀ c, Q c → defaultInit k c = none) (hi : ∀ c v, Q c → initValue k c v = none) {s s' : Store (Obj V)}
    (hs : ∀ a, Q (cls a) → s a = none) {op : Op V} (ht : op.Typed cls) {x : Obs V} (h : step k cls s op = some (s', x)) (a : Nat)
    (ha : Q (cls a)) : s' a = none := by
  have hh := hs a ha
  have hb : ∀ c y, Q c → build k c y = none := fun c y hq => by cases y <;> simp [build, hd _ hq, hi _ _ hq]
  have hv : ∀ c cu o f, Q c → ctorConv k c cu o f = none := fun c cu o f hq => by simp [ctorConv, hd _ hq]
  have hn : ∀ (s₁ s₂ : Store (Obj V)) d o, s₁.new d o = some s₂ → s₁ a = none → a ≠ d → s₂ a = none :=
    fun _ _ _ _ h h1 h2 => by rw [new_apply h a, if_neg h2, h1]
  have he : ∀ (s₁ : Store (Obj V)) d o, s₁ a = none → a ≠ d → s₁.set d o a = none := fun _ _ _ h1 h2 => by
    rw [set_apply, if_neg h2, h1]
  have h0 : ∀ d o, s d = some o → a ≠ d := fun d o h e => by subst e; rw [hh] at h; cases h
  obtain ⟨P, hP⟩ : ∃ P : Store (Obj V) → Prop, P = fun s => s a = none := ⟨_, rfl⟩
  have e : ∀ s : Store (Obj V), (s a = none) = P s := fun s => by rw [hP]
  clear hP
  rw [e] at hh ⊢
  simp only [e] at hn he
  cases op <;> simp only [step, Op.Typed, Option.bind_eq_bind, Option.pure_def] at h ht
  all_goals grind [= Option.bind_eq_some_iff]

theorem run_never (hd : ∀ c, Q c → defaultInit k c = none) (hi : ∀ c v, Q c → initValue k c v = none) {ops : List (Op V)}
    {s s' : Store (Obj V)} (hs : ∀ a, Q (cls a) → s a = none) (ht : ∀ op ∈ ops, op.Typed cls) {xs : List (Obs V)}
    (h : run k cls s ops = some (s', xs)) (a : Nat) (ha : Q (cls a)) : s' a = none := by
  induction ops generalizing s xs with
  | nil => simp only [run, Option.some.injEq, Prod.mk.injEq] at h; rw [← h.1]; exact hs a ha
  | cons op ops ih =>
    simp only [run, Option.bind_eq_bind, Option.bind_eq_some_iff, Option.pure_def, Prod.exists, Option.some.injEq,
      Prod.mk.injEq] at h
    obtain ⟨s₁, x, h1, s₂, ys, h2, rfl, _⟩ := h
    exact ih (fun b hb => step_never hd hi hs (ht op (by simp)) h1 b hb) (fun o ho => ht o (by simp [ho])) h2
end

/-- **C80**, C++17: no option of a type with a destructor of its own exists in a constant expression. -/
theorem C80_cxx17_literal {k : Cfg} (hk : k.cxx20 = false) {cls : Nat → Cls V} {d : Nat} (hd : (cls d).trivDtor = false)
    {ops : List (Op V)} (ht : ∀ op ∈ ops, op.Typed cls) {s : Store (Obj V)} {xs : List (Obs V)}
    (h : run k cls nothing ops = some (s, xs)) : s d = none := by
  have hl : ∀ c : Cls V, c.trivDtor = false → literal k c = false := fun c h => by simp [literal, hk, h]
  exact run_never (Q := fun c => c.trivDtor = false) (fun c h => by simp [defaultInit, hl c h])
    (fun c v h => by simp [initValue, hl c h]) (fun _ _ => rfl) ht h d hd

/-- a program that does not touch the class, and the step that does -/
example : ((run ⟨false, true⟩ plainTypes nothing [.ctorValue 0 1, .map 2 0 (· + 1), .get 2]).map (·.2),
      (run ⟨false, true⟩ plainTypes nothing [.ctorValue 0 1, .map 1 0 (· + 1)]).map (·.2),
      (run ⟨true, true⟩ plainTypes nothing [.ctorValue 0 1, .map 1 0 (· + 1), .get 1]).map (·.2)) =
    (some [.unit, .unit, .val 2], none, some [.unit, .unit, .val 2]) ∧
    ∀ s xs, run ⟨false, true⟩ plainTypes nothing [.ctorValue 0 1, .map 2 0 (· + 1), .get 2] = some (s, xs) → s 1 = none :=
  ⟨by decide +kernel, fun s xs h => C80_cxx17_literal (k := ⟨false, true⟩) rfl (cls := plainTypes) (d := 1) rfl
    (by simp [Op.Typed]) h⟩

/-! ## Levels -/

/-- **C80** is violated by every type with levels, in every language and configuration: an option that is empty from the start
is not a constant expression (README.md 145 says so, docs/reference.md does not).  The trait's `set_level(&value, 0)` assigns
to, or copies into, a value that does not exist. -/
theorem C80_violated_levels (k : Cfg) (cls : Nat → Cls V) (s : Store (Obj V)) (d : Nat) (hd : ¬ (cls d).simple) :
    step k cls s (.ctorNone d) = none := by
  have : defaultInit k (cls d) = none := by
    unfold defaultInit setLevel0
    cases hs : (cls d).storage
    · exact absurd (.inl hs) hd
    · exact absurd (.inr hs) hd
    · simp
    · simp
  simp [step, this]

/-- all options are `option<sentinel<int, -1>>`; and all are `option<bool>` -/
def sents (_ : Nat) : Cls Int := sentCls
def bools (_ : Nat) : Cls Int := boolCls

example : step ⟨true, true⟩ sents nothing (.ctorNone 0) = none ∧
    (run ⟨true, true⟩ sents nothing [.ctorValue 0 4, .reset 0, .hasValue 0]).map (·.2) = some [.unit, .unit, .bool false] :=
  ⟨C80_violated_levels _ _ _ _ (by rintro (h | h) <;> cases h), by decide +kernel⟩

/-- **C80**, levels written with assignments: a type that is trivially copyable is usable as soon as its options start with a
value.  Missing: options that are empty from the start (C80_violated_levels). -/
theorem C80_levels_partial {k : Cfg} (hk : k.cxx20 = true) {c : Cls V} (hw : c.WF) {w : V} {i : V → Bool}
    (hs : c.storage = .assign w i) (htriv : c.trivDtor = true ∧ c.trivCopyCtor = true ∧ c.trivMoveCtor = true) (ops : List (Op V))
    (hq : ∀ op ∈ ops, match op with
      | .ctorNone _ | .ctorConv .. | .takeIf .. | .filter .. | .map .. | .andThen .. | .orElse .. => False
      | _ => True)
    (ht : ∀ op ∈ ops, op.Typed fun _ => c) (hr : SureRun k (fun _ => c) nothing ops) :
    (run k (fun _ => c) nothing ops).map (·.2) = (Plain.run (fun _ => c) nothing ops).map (·.2) := by
  rw [C80_exact_partial (fun _ => hw) (fun _ h => by rw [hs] at h; cases h) ops ht hr, allowedRun_of ?_, if_pos rfl]
  intro op ho p u
  have hq := hq op ho
  have hr : ∀ b, resetOk c b = true := fun b => by simp [resetOk, hs, htriv.1]
  have hf : ∀ b, fillOk k c b = true := fun b => by simp [fillOk, hs, hk]
  cases op <;> first
    | exact absurd hq id
    | simp [allowed, copyOk, makeOk, hr, hf, hk, htriv]

def sentProg : List (Op Int) :=
  [.ctorValue 0 4, .ctorCopy 1 0, .reset 0, .hasValue 0, .assignValue 0 7, .swap 0 1, .get 0, .take 2 1, .get 2, .emplace 1 9,
   .assignMove 0 1, .eq 0 2 (· < ·), .destroy 0]

example : (run ⟨true, true⟩ sents nothing sentProg).map (·.2) =
    some [.unit, .unit, .unit, .bool false, .unit, .unit, .val 4, .unit, .val 7, .val 9, .unit, .bool false, .unit] := by
  unfold sents
  rw [C80_levels_partial rfl sentCls_wf rfl ⟨rfl, rfl, rfl⟩ sentProg (by simp [sentProg]) (by simp [sentProg, Op.Typed])
    (.inl ⟨rfl, by decide⟩)]
  decide +kernel

/-- the operations that ask the option at `a` whether it has a value -/
def Op.asks (a : Nat) : Op V → Bool
  | .hasValue x => x = a
  | .valueOr x _ => x = a
  | .valueOrThrow x => x = a
  | .tryEmplace x _ => x = a
  | .takeIf _ x _ => x = a
  | .filter _ _ x _ => x = a
  | .map _ x _ => x = a
  | .andThen _ x _ => x = a
  | .orElse _ _ x _ => x = a
  | .inspect x => x = a
  | .swap x y => x = a || y = a
  | .eq x y _ => x = a || y = a
  | _ => false

/-- **C80** is violated by the types whose levels are bytes (`bool`, pointers, floating point, enums, strings, vectors, nested options
and so on): nothing that asks whether there is a value is a constant expression, in any language and configuration. -/
theorem C80_violated_bytes (k : Cfg) (cls : Nat → Cls V) (s : Store (Obj V)) {a : Nat} (ha : (cls a).storage = .opaque)
    {op : Op V} (ho : op.asks a = true) (ht : op.Typed cls) : step k cls s op = none := by
  have hv : ∀ o, hasValue (cls a) o = none := fun o => by simp [hasValue, ha]
  cases op <;> simp [Op.asks, Op.Typed] at ho ht
  case swap x y =>
    simp only [step, swap, Option.bind_eq_bind, Option.bind_eq_none_iff, ht.1]
    intro o _ o' _ p hp
    have : cls y = cls a := by rcases ho with h | h <;> simp [← h, ht.1]
    rw [this] at hp; simp [hv] at hp
  case eq x y r =>
    simp only [step, Option.bind_eq_bind]
    rcases ho with rfl | rfl
    · cases s x <;> cases s y <;> simp [hv]
    · cases s x <;> cases s y <;> simp [hv]
  all_goals
    subst ho
    simp only [step, tryEmplace, test, hv, Option.bind_eq_bind, Option.bind_none, Option.bind_eq_none_iff]
    intros
    simp_all

example : (run ⟨true, false⟩ bools nothing [.ctorValue 0 1, .ctorCopy 1 0, .get 1]).map (·.2) = some [.unit, .unit, .val 1] ∧
    (∀ s, step ⟨true, false⟩ bools s (.map 2 1 (1 - ·)) = none) :=
  ⟨by decide +kernel, fun s => C80_violated_bytes _ _ _ (a := 1) rfl rfl trivial⟩

/-- **C80**, levels that are bytes, where the checks are evaluated: not even a single option exists in a constant expression. -/
theorem C80_bytes_checked {k : Cfg} (hk : k.evalVerify = true) {cls : Nat → Cls V} {d : Nat} (hd : (cls d).storage = .opaque)
    {ops : List (Op V)} (ht : ∀ op ∈ ops, op.Typed cls) {s : Store (Obj V)} {xs : List (Obs V)}
    (h : run k cls nothing ops = some (s, xs)) : s d = none :=
  run_never (Q := fun c => c.storage = .opaque)
    (fun c h => by simp [defaultInit, setLevel0, h])
    (fun c v h => by simp [initValue, h, verify, hk, hasValue]) (fun _ _ => rfl) ht h d hd

/-- `int` at even addresses, `bool` at odd ones -/
def intBool (a : Nat) : Cls Int := if a % 2 = 0 then intCls else boolCls

example : (run ⟨true, true⟩ intBool nothing [.ctorValue 0 1, .get 0]).map (·.2) = some [.unit, .val 1] ∧
    ∀ s xs, run ⟨true, true⟩ intBool nothing [.ctorValue 0 1, .get 0] = some (s, xs) → s 1 = none :=
  ⟨by decide +kernel, fun s xs h => C80_bytes_checked (k := ⟨true, true⟩) rfl (cls := intBool) (d := 1) rfl (by simp [Op.Typed]) h⟩

/-! ## Violations -/

/-- **C80** is violated in C++17, also for `int`: an option that was created empty cannot be given a value by assignment,
`emplace` or a converting constructor, while one that had a value before can.  An assignment of an empty option takes that away
again, an assignment of `none` does not.  Two options with values cannot be swapped. -/
theorem C80_violated_cxx17 (e : Bool) :
    run ⟨false, e⟩ ints nothing [.ctorNone 0, .assignValue 0 1] = none ∧
    run ⟨false, e⟩ ints nothing [.ctorNone 0, .emplace 0 1] = none ∧
    run ⟨false, e⟩ ints nothing [.ctorValue 0 1, .ctorConv false 1 0 id] = none ∧
    (run ⟨false, e⟩ ints nothing [.ctorValue 0 1, .reset 0, .assignValue 0 2, .get 0]).map (·.2) = some [.unit, .unit, .unit, .val 2] ∧
    run ⟨false, e⟩ ints nothing [.ctorValue 0 1, .ctorNone 1, .assignMove 0 1, .assignValue 0 2] = none ∧
    run ⟨false, e⟩ ints nothing [.ctorValue 0 1, .ctorValue 1 2, .swap 0 1] = none ∧
    (run ⟨false, e⟩ ints nothing [.ctorValue 0 1, .ctorValue 1 2, .reset 0, .swap 0 1, .get 0]).map (·.2) =
      some [.unit, .unit, .unit, .unit, .val 2] := by
  revert e; decide +kernel

/-- **C80** is violated where the checks are not evaluated: `*a` of an option that was reset is the value from before, a constant
expression without a contract; a sentinel goes in silently; and `option<bool>{true}` is a constant expression only there. -/
theorem C80_violated_release (l : Bool) :
    (run ⟨l, false⟩ ints nothing [.ctorValue 0 5, .reset 0, .hasValue 0, .get 0]).map (·.2) = some [.unit, .unit, .bool false, .val 5] ∧
    (run ⟨l, false⟩ sents nothing [.ctorValue 0 (-1), .hasValue 0]).map (·.2) = some [.unit, .bool false] ∧
    (run ⟨l, false⟩ bools nothing [.ctorValue 0 1, .get 0]).map (·.2) = some [.unit, .val 1] ∧
    run ⟨l, true⟩ ints nothing [.ctorValue 0 5, .reset 0, .hasValue 0, .get 0] = none ∧
    run ⟨l, true⟩ sents nothing [.ctorValue 0 (-1), .hasValue 0] = none ∧
    run ⟨l, true⟩ bools nothing [.ctorValue 0 1, .get 0] = none := by
  revert l; decide +kernel

/-- **C80** is violated by `get_unchecked()` in every configuration: after `reset()` it still reads the value of a type with a
trivial destructor. -/
theorem C80_violated_unchecked (k : Cfg) :
    (run k ints nothing [.ctorValue 0 5, .reset 0, .getUnchecked 0]).map (·.2) = some [.unit, .unit, .val 5] ∧
    Plain.run ints nothing [.ctorValue 0 5, .reset 0, .getUnchecked 0] = none := by
  obtain ⟨l, e⟩ := k
  revert l e; decide +kernel

/-- **C80**: of a type whose destructor is not trivial, `reset()` ends the lifetime of the value, so `get_unchecked()` is not a
constant expression after it (unlike `C80_violated_unchecked`). -/
theorem C80_reset_ends {k : Cfg} {cls : Nat → Cls V} {a : Nat} (hd : (cls a).trivDtor = false)
    (hs : (cls a).storage = .flag) {s t : Store (Obj V)} {o : Obj V} {x : Obs V} (ho : s a = some o) (hf : o.flag = true)
    (h : step k cls s (.reset a) = some (t, x)) : step k cls t (.getUnchecked a) = none := by
  obtain ⟨act, flag⟩ := o
  subst hf
  cases act <;> simp [step, ho, reset, hs, hd, destroyAct] at h
  obtain ⟨rfl, _⟩ := h
  simp [step, Store.set, Act.read]

/-- a type with a destructor that is not trivial, at every address -/
def strs (_ : Nat) : Cls Int := { intCls with trivDtor := false, trivCopyCtor := false, trivMoveCtor := false, scalar := false }

example : ∃ s t x, run ⟨true, true⟩ strs nothing [.ctorValue 0 5] = some (s, [.unit]) ∧
    step ⟨true, true⟩ strs s (.reset 0) = some (t, x) ∧ step ⟨true, true⟩ strs t (.getUnchecked 0) = none :=
  ⟨_, _, _, rfl, rfl, C80_reset_ends (k := ⟨true, true⟩) (cls := strs) (a := 0) rfl rfl (s := (nothing).set 0 (some ⟨.value 5, true⟩)) rfl rfl rfl⟩

#print axioms C80_reset_ends
#print axioms C80_exact_partial
#print axioms C80_cxx20_partial
#print axioms C80_cxx17_keeps_partial
#print axioms C80_cxx17_partial
#print axioms C80_cxx17_literal
#print axioms C80_levels_partial
#print axioms C80_bytes_checked
#print axioms C80_violated_levels
#print axioms C80_violated_bytes
#print axioms C80_violated_cxx17
#print axioms C80_violated_release
#print axioms C80_violated_unchecked

end Opt.ConstEval
