import Verif.Lemmas.Rep
import Verif.Props.HistoryExact
import Verif.Props.Reentrant
import Verif.Props.StdOptional

/-!
# C86: how the empty state is stored cannot be observed

Two programs that are alike do the same with values, with exceptions and with the calls of user code; the options of one may keep a
flag, those of the other a sentinel inside of the value, pointers may be of different widths, the library traits may be switched off.
All results and values are the same.  The exception is a constructor that throws after it has destroyed a sentinel.
-/

namespace Opt

variable {Val : Type} {P Q : Prog Val}

/-- `Demo.prog` without any levels (as with `OPTION_USE_BUILTIN_TRAITS` 0), on a machine with 32-bit pointers -/
def Demo.flagged (cxx20 : Bool) (thr : Nat → Bool) : Prog Byte :=
  { Demo.prog cxx20 thr (fun _ old => old.map fun _ => 0xEE) with
    pw := 32
    elemOf := fun c => { Demo.elemOf c with T := if c = 1 then .plain 16 8 else .plain 1 1 }
    garbage := fun i _ => List.replicate (if i % 4 = 1 then 24 else 2) 0x55 }

theorem Demo.flagged_alike {cxx20 cxx20' : Bool} {thr : Nat → Bool} {clobber : Nat → Bytes → Bytes} :
    (Demo.prog cxx20 thr clobber).Alike (Demo.flagged cxx20' thr) :=
  ⟨fun _ => rfl, fun _ => rfl, fun _ => rfl, fun _ => rfl, fun _ => rfl, fun _ => rfl, fun _ => rfl, fun _ => rfl,
    fun _ _ _ _ => rfl, fun _ _ _ => rfl, fun _ _ _ _ => rfl, fun _ _ _ => rfl⟩

theorem Demo.flagged_flags {cxx20 : Bool} {thr : Nat → Bool} (i : Nat) : ((Demo.flagged cxx20 thr).elem i).sent 32 = false := by
  show Elem.sent 32 { Demo.elemOf (i % 4) with T := if i % 4 = 1 then .plain 16 8 else .plain 1 1 } = false
  rcases Demo.cases4 i with h | h | h | h <;> rw [h] <;> rfl

theorem Demo.flagged_bytes {c : Nat} (hc : c < 4) (v : Byte) :
    (if c = 1 then Ty.plain 16 8 else .plain 1 1).Valid 32 (Demo.bytesOf c v) ∧ (Demo.elemOf c).decode (Demo.bytesOf c v) = v := by
  match c, hc with
  | 0, _ => exact ⟨rfl, rfl⟩
  | 1, _ => exact ⟨rfl, rfl⟩
  | 2, _ => exact ⟨rfl, rfl⟩
  | 3, _ => exact ⟨rfl, rfl⟩

theorem Demo.flagged_dom {cxx20 : Bool} {thr : Nat → Bool} (c : Nat) (v : Byte) :
    ((Demo.flagged cxx20 thr).elemOf c).Dom 32 v := by
  match c with
  | 0 => exact ⟨_, Demo.flagged_bytes (c := 0) (by decide) v⟩
  | 1 => exact ⟨_, Demo.flagged_bytes (c := 1) (by decide) v⟩
  | 2 => exact ⟨_, Demo.flagged_bytes (c := 2) (by decide) v⟩
  | c + 3 =>
    refine ⟨[v], ?_, rfl⟩
    show (if c + 3 = 1 then Ty.plain 16 8 else .plain 1 1).Valid 32 [v]
    rw [if_neg (by omega)]
    exact rfl

theorem Demo.flagged_size (c : Nat) : (if c = 1 then Ty.plain 16 8 else .plain 1 1).size 32 = if c = 1 then 16 else 1 := by
  by_cases h : c = 1
  · rw [if_pos h, if_pos h]; rfl
  · rw [if_neg h, if_neg h]; rfl

theorem Demo.flagged_ok {cxx20 : Bool} {thr : Nat → Bool} : (Demo.flagged cxx20 thr).OK where
  pw := .inl rfl
  wf := fun c => by
    show (Ty.option (if c = 1 then .plain 16 8 else .plain 1 1)).WF 32
    by_cases h : c = 1
    · rw [if_pos h]; exact ⟨trivial, by decide, fun h => absurd h (by decide)⟩
    · rw [if_neg h]; exact ⟨trivial, by decide, fun h => absurd h (by decide)⟩
  size := fun c => by
    show 1 ≤ (if c = 1 then Ty.plain 16 8 else .plain 1 1).size 32
    rw [Demo.flagged_size]
    split <;> decide
  tcc_td := (Demo.ok_tidy (cxx20 := cxx20) (thr := thr)).tcc_td
  tmc_td := (Demo.ok_tidy (cxx20 := cxx20) (thr := thr)).tmc_td
  scalar := (Demo.ok_tidy (cxx20 := cxx20) (thr := thr)).scalar
  garbage := fun i n => by
    show (List.replicate (if i % 4 = 1 then 24 else 2) _).length = Ty.size 32 (.option (if i % 4 = 1 then .plain 16 8 else .plain 1 1))
    by_cases h : i % 4 = 1
    · rw [if_pos h, if_pos h]; decide
    · rw [if_neg h, if_neg h]; decide
  build := fun i n v old _ _ => Demo.flagged_bytes (Nat.mod_lt _ (by decide)) v
  partial_ := fun i k n old h => by
    show (old.map fun _ => (0xEE : Byte)).length = _
    rw [List.length_map]; exact h
  dead := fun i n old h => h
  moved := fun f i n v _ => Demo.flagged_dom _ _
  selfMoved := fun i n v h => h
  broken := fun i n u v _ h => h
  conv := fun c d v _ => Demo.flagged_dom c _

theorem Demo.flagged_safe {cxx20 : Bool} {thr : Nat → Bool} : (Demo.flagged cxx20 thr).ThrowSafe := fun i _ _ _ h => by
  exact absurd ((Demo.flagged_flags i).symm.trans h) nofun

theorem Demo.story_legal_flagged {thr : Nat → Bool} : ∀ op ∈ Demo.story, op.Legal (Demo.flagged true thr) := by
  have hd : ((Demo.flagged true thr).elem 1).Dom 32 5 := Demo.flagged_dom 1 5
  simp only [Demo.story, List.forall_mem_cons]
  exact ⟨trivial, hd, hd, trivial, trivial, trivial, trivial, trivial, trivial, trivial, trivial, trivial, fun _ h => by cases h⟩

/-- **C86** (partial: needs `AllHarmless` in both programs, see `C86_violated`).  Any history a client is allowed to perform ends
the same way in both programs: with the same results, the same values in all options and the same calls of user code, or with a
failed check of the library in both. -/
theorem C86_history_partial (hP : P.OK) (hQ : Q.OK) (h : P.Alike Q) (hm : P.cxx20 = Q.cxx20) (ops : List (Op Val))
    (hl : ∀ op ∈ ops, op.Legal P) (hl' : ∀ op ∈ ops, op.Legal Q) (ha : Op.AllAllowed P ops Spec.start)
    (hh : Op.AllHarmless P ops Spec.start) (hh' : Op.AllHarmless Q ops Spec.start) :
    P.SameEnd Q (P.run ops Prog.start) (Q.run ops Prog.start) := by
  have h1 := C15_harmless_partial hP ops hl ha hh
  have h2 := C15_harmless_partial hQ ops hl' (h.allAllowed hm ha) hh'
  rw [h.run hm] at h2
  revert h1 h2
  cases Spec.run P ops Spec.start with
  | ok rs a =>
    rintro ⟨w, e1, _, e2, e3⟩ ⟨w', f1, _, f2, f3⟩
    rw [e1, f1]
    exact ⟨rfl, e2.trans f2.symm, e3.trans f3.symm⟩
  | verify => intro e1 f1; rw [e1, f1]; trivial
  | throw _ => exact fun h => h.elim
  | ub => exact fun h => h.elim

/-- with exceptions and sentinels; then with flags and pointers of half the size -/
example : (Demo.prog true (· == 1) Demo.tidy).OK ∧ (Demo.flagged true (· == 1)).OK ∧
    (Demo.prog true (· == 1) Demo.tidy).Alike (Demo.flagged true (· == 1)) ∧
    (∀ op ∈ Demo.story, op.Legal (Demo.prog true (· == 1) Demo.tidy)) ∧
    (∀ op ∈ Demo.story, op.Legal (Demo.flagged true (· == 1))) ∧
    Op.AllAllowed (Demo.prog true (· == 1) Demo.tidy) Demo.story Spec.start ∧
    Op.AllHarmless (Demo.prog true (· == 1) Demo.tidy) Demo.story Spec.start ∧
    Op.AllHarmless (Demo.flagged true (· == 1)) Demo.story Spec.start ∧
    ((Demo.prog true (· == 1) Demo.tidy).elem 1).sent 64 = true ∧ ((Demo.flagged true (· == 1)).elem 1).sent 32 = false := by
  exact ⟨Demo.ok_tidy, Demo.flagged_ok, Demo.flagged_alike, Demo.story_legal, Demo.story_legal_flagged, by decide +kernel,
    Op.allHarmless_of_throwSafe Demo.throwSafe_tidy _ _, Op.allHarmless_of_throwSafe Demo.flagged_safe _ _, by decide +kernel,
    Demo.flagged_flags 1⟩

/-- Without exceptions there is no condition on constructors. -/
theorem C86_nothrow (hP : P.OK) (hQ : Q.OK) (h : P.Alike Q) (hm : P.cxx20 = Q.cxx20) (hT : ∀ n, P.throwsAt n = false)
    (ops : List (Op Val)) (hl : ∀ op ∈ ops, op.Legal P) (hl' : ∀ op ∈ ops, op.Legal Q) (ha : Op.AllAllowed P ops Spec.start) :
    P.SameEnd Q (P.run ops Prog.start) (Q.run ops Prog.start) :=
  C86_history_partial hP hQ h hm ops hl hl' ha
    (Op.allHarmless_of_throwSafe (fun _ _ n _ _ _ _ h => by rw [hT n] at h; cases h) _ _)
    (Op.allHarmless_of_throwSafe (fun _ _ n _ _ _ _ h' => by rw [← h.throwsAt n, hT n] at h'; cases h') _ _)

example : (Demo.prog true (fun _ => false) Demo.vptrFirst).OK ∧ (Demo.flagged true (fun _ => false)).OK ∧
    (Demo.prog true (fun _ => false) Demo.vptrFirst).Alike (Demo.flagged true (fun _ => false)) ∧
    (∀ op ∈ Demo.story, op.Legal (Demo.prog true (fun _ => false) Demo.vptrFirst)) ∧
    (∀ op ∈ Demo.story, op.Legal (Demo.flagged true (fun _ => false))) ∧
    Op.AllAllowed (Demo.prog true (fun _ => false) Demo.vptrFirst) Demo.story Spec.start :=
  ⟨Demo.ok_vptr, Demo.flagged_ok, Demo.flagged_alike, Demo.story_legal, Demo.story_legal_flagged, by decide +kernel⟩

/-- Two programs with flags only, with whatever layout of the values: no condition on constructors that throw. -/
theorem C86_flag (hP : P.OK) (hQ : Q.OK) (h : P.Alike Q) (hm : P.cxx20 = Q.cxx20)
    (hF : ∀ i, (P.elem i).sent P.pw = false) (hF' : ∀ i, (Q.elem i).sent Q.pw = false)
    (ops : List (Op Val)) (hl : ∀ op ∈ ops, op.Legal P) (hl' : ∀ op ∈ ops, op.Legal Q) (ha : Op.AllAllowed P ops Spec.start) :
    P.SameEnd Q (P.run ops Prog.start) (Q.run ops Prog.start) :=
  C86_history_partial hP hQ h hm ops hl hl' ha
    (Op.allHarmless_of_throwSafe (fun i _ _ _ h => by rw [hF i] at h; cases h) _ _)
    (Op.allHarmless_of_throwSafe (fun i _ _ _ h => by rw [hF' i] at h; cases h) _ _)

/-- what is in storage without a value does not matter either -/
example : (Demo.flagged true (· == 1)).OK ∧ { Demo.flagged true (· == 1) with partial_ := fun _ _ _ old => old }.OK ∧
    (Demo.flagged true (· == 1)).Alike { Demo.flagged true (· == 1) with partial_ := fun _ _ _ old => old } ∧
    (∀ i, ((Demo.flagged true (· == 1)).elem i).sent 32 = false) ∧
    (∀ op ∈ Demo.story, op.Legal (Demo.flagged true (· == 1))) ∧
    Op.AllAllowed (Demo.flagged true (· == 1)) Demo.story Spec.start :=
  ⟨Demo.flagged_ok, { Demo.flagged_ok (cxx20 := true) (thr := (· == 1)) with partial_ := fun _ _ _ _ h => h },
    ⟨fun _ => rfl, fun _ => rfl, fun _ => rfl, fun _ => rfl, fun _ => rfl, fun _ => rfl, fun _ => rfl, fun _ => rfl,
      fun _ _ _ _ => rfl, fun _ _ _ => rfl, fun _ _ _ _ => rfl, fun _ _ _ => rfl⟩,
    Demo.flagged_flags, Demo.story_legal_flagged, by decide +kernel⟩

/-- **C86** (partial: needs `Harmless`).  One operation, in any two states that show the same. -/
theorem C86_step_partial (hP : P.OK) (hQ : Q.OK) (h : P.Alike Q) (hm : P.cxx20 = Q.cxx20) (op : Op Val)
    (hl : op.Legal P) (hl' : op.Legal Q) (w w' : World) (hw : P.Inv w) (hw' : Q.Inv w') (hv : P.view w = Q.view w')
    (he : w.env = w'.env) (ha : op.Allowed (P.view w)) (hh : op.Harmless P ⟨P.view w, w.env⟩)
    (hh' : op.Harmless Q ⟨P.view w, w.env⟩) :
    P.SameEnd Q (P.runOp op w) (Q.runOp op w') ∧
    match P.runOp op w, Q.runOp op w' with
    | .ok _ w1, .ok _ w2 | .throw w1, .throw w2 => P.Inv w1 ∧ Q.Inv w2
    | _, _ => True := by
  have h1 := Prog.runOp_sim_harmless hP (Prog.abs_R hw) hl (a := ⟨P.view w, w.env⟩) ha hh
  have h0 := Prog.abs_R hw'
  simp only [Prog.abs, ← hv, ← he] at h0
  have h2 := Prog.runOp_sim_harmless hQ h0 hl' ha hh'
  rw [h.runOp hm] at h2
  have hg := Spec.runOp_good hP (Spec.here_st (P := P) (P.abs w)) ha
  simp only [Prog.abs] at hg
  revert h1 h2 hg
  cases Spec.runOp P op ⟨P.view w, w.env⟩ with
  | ub => exact fun _ _ h => h.elim
  | verify =>
    cases P.runOp op w <;> intro h1 <;> first | exact h1.elim | skip
    cases Q.runOp op w' <;> intro h2 <;> first | exact h2.elim | exact fun _ => ⟨trivial, trivial⟩
  | throw a =>
    cases P.runOp op w <;> intro h1 <;> first | exact h1.elim | skip
    cases Q.runOp op w' <;> intro h2 <;> first | exact h2.elim | skip
    obtain ⟨i1, rfl⟩ := Prog.R_abs h1
    obtain ⟨i2, e⟩ := Prog.R_abs h2
    intro _
    simp only [Prog.abs, AState.mk.injEq] at e
    exact ⟨⟨e.1, e.2⟩, i1, i2⟩
  | ok r a =>
    cases P.runOp op w <;> intro h1 <;> first | exact h1.elim | skip
    cases Q.runOp op w' <;> intro h2 <;> first | exact h2.elim | skip
    obtain ⟨rfl, h1⟩ := h1
    obtain ⟨rfl, h2⟩ := h2
    obtain ⟨i1, rfl⟩ := Prog.R_abs h1
    obtain ⟨i2, e⟩ := Prog.R_abs h2
    intro _
    simp only [Prog.abs, AState.mk.injEq] at e
    exact ⟨⟨rfl, e.1, e.2⟩, i1, i2⟩

/-- two states of the demonstration programs that show the same: option 1 is empty, option 5 holds 5 -/
example : ∃ w w', (Demo.prog true (· == 9) Demo.tidy).run [.ctorDefault 1, .ctorValue 5 (.args 5)] Prog.start = .ok [.unit, .unit] w ∧
    (Demo.flagged true (· == 9)).run [.ctorDefault 1, .ctorValue 5 (.args 5)] Prog.start = .ok [.unit, .unit] w' ∧
    (Demo.prog true (· == 9) Demo.tidy).Inv w ∧ (Demo.flagged true (· == 9)).Inv w' ∧
    (Demo.prog true (· == 9) Demo.tidy).view w = (Demo.flagged true (· == 9)).view w' ∧ w.env = w'.env := by
  have hl : ∀ op ∈ ([.ctorDefault 1, .ctorValue 5 (.args 5)] : List (Op Byte)), op.Legal (Demo.prog true (· == 9) Demo.tidy) := by
    simp only [List.forall_mem_cons]
    exact ⟨trivial, Demo.dom_mk 1 (.inr (.inl rfl)), fun _ h => by cases h⟩
  have hl' : ∀ op ∈ ([.ctorDefault 1, .ctorValue 5 (.args 5)] : List (Op Byte)), op.Legal (Demo.flagged true (· == 9)) := by
    simp only [List.forall_mem_cons]
    exact ⟨trivial, Demo.flagged_dom 1 5, fun _ h => by cases h⟩
  have h1 := C15_harmless_partial Demo.ok_tidy _ hl (by decide +kernel) (Op.allHarmless_of_throwSafe Demo.throwSafe_tidy _ _)
  have h2 := C15_harmless_partial Demo.flagged_ok _ hl' (by decide +kernel) (Op.allHarmless_of_throwSafe Demo.flagged_safe _ _)
  obtain ⟨w, a1, a2, a3, a4⟩ := h1
  obtain ⟨w', b1, b2, b3, b4⟩ := h2
  exact ⟨w, w', a1, b1, a2, b2, a3.trans b3.symm, a4.trans b4.symm⟩

/-- **C86** (partial: needs `Harmless` in both programs).  The same for any client program that decides what to do from what it
gets, with callables that use the options themselves. -/
theorem C86_code_partial (hP : P.OK) (hQ : Q.OK) (h : P.Alike Q) (hm : P.cxx20 = Q.cxx20) {t : Want} (c : Code Val t)
    (w w' : World) (hw : P.Inv w) (hw' : Q.Inv w') (hv : P.view w = Q.view w') (he : w.env = w'.env)
    (ht : c.Typed P ⟨P.view w, w.env⟩) (ht' : c.Typed Q ⟨P.view w, w.env⟩) (ha : c.Allowed P ⟨P.view w, w.env⟩)
    (hh : c.Harmless P ⟨P.view w, w.env⟩) (hh' : c.Harmless Q ⟨P.view w, w.env⟩) :
    P.SameEnd Q (P.runCode c w) (Q.runCode c w') := by
  have h1 := (C75_harmless_partial hP c w hw ht ha hh).2
  have e : (⟨Q.view w', w'.env⟩ : AState Val) = ⟨P.view w, w.env⟩ := by rw [hv, he]
  have h2 := (C75_harmless_partial hQ c w' hw' (e ▸ ht') (e ▸ h.codeAllowed hm ha) (e ▸ hh')).2
  rw [e, h.runCode hm] at h2
  revert h1 h2
  cases Spec.runCode P c ⟨P.view w, w.env⟩ with
  | ok x a =>
    rintro ⟨w1, e1, _, e2, e3⟩ ⟨w2, f1, _, f2, f3⟩
    rw [e1, f1]
    exact ⟨rfl, e2.trans f2.symm, e3.trans f3.symm⟩
  | throw a =>
    rintro ⟨w1, e1, _, e2, e3⟩ ⟨w2, f1, _, f2, f3⟩
    rw [e1, f1]
    exact ⟨e2.trans f2.symm, e3.trans f3.symm⟩
  | verify => intro e1 f1; rw [e1, f1]; trivial
  | ub => exact fun h => h.elim

theorem Demo.nest_fits_flagged {thr : Nat → Bool} : Demo.nest.Fits (Demo.flagged true thr) fun _ => True := by
  have hd : ∀ v, ((Demo.flagged true thr).elem 1).Dom 32 v := fun v => Demo.flagged_dom 1 v
  unfold Demo.nest
  simp only [Code.Fits, COp.Fits]
  refine ⟨hd _, fun _ => ⟨fun v => ⟨trivial, fun _ => ⟨hd _, fun _ => ⟨hd _, trivial⟩⟩⟩, fun _ =>
    ⟨fun v => ⟨trivial, fun _ => trivial⟩, fun _ => ⟨⟨hd _, fun r => ?_⟩, fun _ =>
      ⟨fun v => ⟨trivial, fun _ => hd _⟩, fun _ => ⟨trivial, fun r => ?_⟩⟩⟩⟩⟩⟩
  · split
    · trivial
    · exact fun _ _ => hd _
  · split
    · exact ⟨trivial, fun _ => trivial⟩
    · trivial

example : (Demo.prog true (· == 9) Demo.tidy).OK ∧ (Demo.flagged true (· == 9)).OK ∧
    (Demo.prog true (· == 9) Demo.tidy).Alike (Demo.flagged true (· == 9)) ∧
    Demo.nest.Typed (Demo.prog true (· == 9) Demo.tidy) Spec.start ∧ Demo.nest.Typed (Demo.flagged true (· == 9)) Spec.start ∧
    Demo.nest.Allowed (Demo.prog true (· == 9) Demo.tidy) Spec.start ∧
    Demo.nest.Harmless (Demo.prog true (· == 9) Demo.tidy) Spec.start ∧
    Demo.nest.Harmless (Demo.flagged true (· == 9)) Spec.start :=
  ⟨Demo.ok_tidy, Demo.flagged_ok, Demo.flagged_alike, Spec.fits_typed _ Demo.nest_fits _, Spec.fits_typed _ Demo.nest_fits_flagged _,
    by decide +kernel, Code.each_all (Op.harmless_of_throwSafe Demo.throwSafe_tidy) _ _,
    Code.each_all (Op.harmless_of_throwSafe Demo.flagged_safe) _ _⟩

/-- the first operation of one of two programs that is not harmless in one of them -/
theorem Op.first_harmful_two (h : P.Alike Q) (hm : P.cxx20 = Q.cxx20) : ∀ {ops : List (Op Val)} {a : AState Val},
    ¬ (Op.AllHarmless P ops a ∧ Op.AllHarmless Q ops a) →
    ∃ pre op post rs a1, ops = pre ++ op :: post ∧ Op.AllHarmless P pre a ∧ Op.AllHarmless Q pre a ∧
      Spec.run P pre a = .ok rs a1 ∧ (¬ op.Harmless P a1 ∨ ¬ op.Harmless Q a1)
  | [], _, hn => absurd ⟨trivial, trivial⟩ hn
  | op :: ops, a, hn => by
    by_cases h1 : op.Harmless P a
    · by_cases h2 : op.Harmless Q a
      · have h3 : ¬ ((match Prog.catch_ (Spec.runOp P op) a with
          | .ok _ a' => Op.AllHarmless P ops a'
          | _ => True) ∧ (match Prog.catch_ (Spec.runOp P op) a with
          | .ok _ a' => Op.AllHarmless Q ops a'
          | _ => True)) := fun h3 => hn ⟨⟨h1, h3.1⟩, ⟨h2, by rw [h.runOp hm]; exact h3.2⟩⟩
        cases hr : Prog.catch_ (Spec.runOp P op) a with
        | ok r a' =>
          rw [hr] at h3
          obtain ⟨pre, o, post, rs, a1, rfl, hp, hq, hrun, hno⟩ := first_harmful_two h hm h3
          refine ⟨op :: pre, o, post, r :: rs, a1, rfl, ⟨h1, ?_⟩, ⟨h2, ?_⟩, ?_, hno⟩
          · rw [hr]; exact hp
          · rw [h.runOp hm, hr]; exact hq
          · simp only [Spec.run, bind_run, hr, obind_ok, hrun, pure_run]
        | throw _ => rw [hr] at h3; exact absurd ⟨trivial, trivial⟩ h3
        | verify => rw [hr] at h3; exact absurd ⟨trivial, trivial⟩ h3
        | ub => rw [hr] at h3; exact absurd ⟨trivial, trivial⟩ h3
      · exact ⟨[], op, ops, [], a, rfl, trivial, trivial, rfl, .inr h2⟩
    · exact ⟨[], op, ops, [], a, rfl, trivial, trivial, rfl, .inl h1⟩

/-- constructor call number `n` fails and turns a representation of the empty state of option `i` into bytes that read as a value -/
def Prog.Spoils (P : Prog Val) (i : Nat) (k : Kind) (n : Nat) : Prop :=
  (P.elem i).sent P.pw = true ∧ (P.elem i).scalar = false ∧ P.throwsAt n = true ∧
    ∃ old : Bytes, old.length = (P.elem i).T.size P.pw ∧ (P.elem i).T.hasValue P.pw old = false ∧
      (P.elem i).T.hasValue P.pw (P.partial_ i k n old) = true

/-- **C86**, without any condition on constructors.  Two programs that are alike either end the same way, or they do the same up to
an operation in which the constructor of the value of an empty option throws, after it has, in one of the programs, turned a
representation of the empty state into bytes that read as a value. -/
theorem C86_first_difference (hP : P.OK) (hQ : Q.OK) (h : P.Alike Q) (hm : P.cxx20 = Q.cxx20) (ops : List (Op Val))
    (hl : ∀ op ∈ ops, op.Legal P) (hl' : ∀ op ∈ ops, op.Legal Q) (ha : Op.AllAllowed P ops Spec.start) :
    P.SameEnd Q (P.run ops Prog.start) (Q.run ops Prog.start) ∨
    ∃ pre op post rs w w', ops = pre ++ op :: post ∧ P.run pre Prog.start = .ok rs w ∧ Q.run pre Prog.start = .ok rs w' ∧
      P.view w = Q.view w' ∧ w.env = w'.env ∧
      ∃ i k a evs, op.inStorage i = true ∧ Spec.runOp P op ⟨P.view w, w.env⟩ = .throw a ∧
        a.env.log = w.env.log ++ evs ∧ .ctorFail i k ∈ evs ∧ (P.Spoils i k (a.env.tick - 1) ∨ Q.Spoils i k (a.env.tick - 1)) := by
  by_cases hh : Op.AllHarmless P ops Spec.start ∧ Op.AllHarmless Q ops Spec.start
  · exact .inl (C86_history_partial hP hQ h hm ops hl hl' ha hh.1 hh.2)
  · obtain ⟨pre, op, post, rs, a1, rfl, hp, hq, hr, hn⟩ := Op.first_harmful_two h hm hh
    have ha1 := Op.allAllowed_append ha
    have h1 := C15_harmless_partial hP pre (fun o ho => hl o (List.mem_append_left _ ho)) ha1 hp
    have h2 := C15_harmless_partial hQ pre (fun o ho => hl' o (List.mem_append_left _ ho)) (h.allAllowed hm ha1) hq
    rw [h.run hm] at h2
    rw [hr] at h1 h2
    obtain ⟨w, e1, _, e2, e3⟩ := h1
    obtain ⟨w', f1, _, f2, f3⟩ := h2
    refine .inr ⟨pre, op, post, rs, w, w', rfl, e1, f1, e2.trans f2.symm, e3.trans f3.symm, ?_⟩
    rw [e2, e3]
    rcases hn with hn | hn
    · simp only [Op.Harmless, Prog.ThrowSafeAt, Classical.not_forall, Bool.not_eq_false] at hn
      obtain ⟨a', evs, i, k, g0, g1, g2, g3, old, g4, _, g5, g9, g6, g7, g8⟩ := hn
      exact ⟨i, k, a', evs, g0, g1, g2, g3, .inl ⟨g4, g5, g9, old, g6, g7, g8⟩⟩
    · simp only [Op.Harmless, Prog.ThrowSafeAt, Classical.not_forall, Bool.not_eq_false] at hn
      obtain ⟨a', evs, i, k, g0, g1, g2, g3, old, g4, _, g5, g9, g6, g7, g8⟩ := hn
      rw [h.runOp hm] at g1
      exact ⟨i, k, a', evs, g0, g1, g2, g3, .inr ⟨g4, g5, g9, old, g6, g7, g8⟩⟩

/-- the second alternative occurs: the constructor called third leaves a vtable pointer -/
example : (Demo.prog true (· == 1) Demo.vptrFirst).OK ∧ (Demo.flagged true (· == 1)).OK ∧
    (Demo.prog true (· == 1) Demo.vptrFirst).Alike (Demo.flagged true (· == 1)) ∧
    (∀ op ∈ Demo.story, op.Legal (Demo.prog true (· == 1) Demo.vptrFirst)) ∧
    (∀ op ∈ Demo.story, op.Legal (Demo.flagged true (· == 1))) ∧
    Op.AllAllowed (Demo.prog true (· == 1) Demo.vptrFirst) Demo.story Spec.start :=
  ⟨Demo.ok_vptr, Demo.flagged_ok, Demo.flagged_alike, Demo.story_legal, Demo.story_legal_flagged, by decide +kernel⟩

/-- The code violates the property: with a flag the option is empty after `emplace` has thrown, with the sentinel in the vtable
pointer it is not, and its destructor has undefined behaviour. -/
theorem C86_violated :
    (Demo.prog true (· == 0) Demo.vptrFirst).OK ∧ (Demo.flagged true (· == 0)).OK ∧
    (Demo.prog true (· == 0) Demo.vptrFirst).Alike (Demo.flagged true (· == 0)) ∧
    (∃ w, (Demo.prog true (· == 0) Demo.vptrFirst).run [.ctorDefault 1, .emplace 1 (.args 5), .hasValue 1] Prog.start =
      .ok [.unit, .threw, .bool true] w ∧ w.env.log = [.ctorFail 1 .args]) ∧
    (∃ w, (Demo.flagged true (· == 0)).run [.ctorDefault 1, .emplace 1 (.args 5), .hasValue 1] Prog.start =
      .ok [.unit, .threw, .bool false] w ∧ w.env.log = [.ctorFail 1 .args]) ∧
    (Demo.prog true (· == 0) Demo.vptrFirst).run [.ctorDefault 1, .emplace 1 (.args 5), .dtor 1] Prog.start = .ub ∧
    ∃ w, (Demo.flagged true (· == 0)).run [.ctorDefault 1, .emplace 1 (.args 5), .dtor 1] Prog.start =
      .ok [.unit, .threw, .unit] w ∧ w.env.log = [.ctorFail 1 .args] :=
  ⟨Demo.ok_vptr, Demo.flagged_ok, Demo.flagged_alike, Out.of_seen (by decide +kernel), Out.of_seen (by decide +kernel),
    Out.of_isUb (by decide +kernel), Out.of_seen (by decide +kernel)⟩

/-- **C86** (partial: needs `AllHarmless`).  Also the language mode cannot be observed in a history that is valid for
`std::optional`: results, values and the number of calls of user code are the same in C++17 and C++20 (temporaries of
`construct_at` and assignments to scalars may differ in the order of the calls). -/
theorem C86_mode_partial (hP : P.OK) (hQ : Q.OK) (h : P.Alike Q) (hB : P.ScalarsKeep) (hB' : Q.ScalarsKeep) (ops : List (Op Val))
    (hl : ∀ op ∈ ops, op.Legal P) (hl' : ∀ op ∈ ops, op.Legal Q)
    (hh : Op.AllHarmless P ops Spec.start) (hh' : Op.AllHarmless Q ops Spec.start)
    (rs : List (Ret Val)) (s : Std.State Val) (hs : Std.run P 0 ops Std.start = .ok rs s) :
    ∃ w w', P.run ops Prog.start = .ok rs w ∧ Q.run ops Prog.start = .ok rs w' ∧ P.view w = Q.view w' ∧
      w.env.tick = w'.env.tick := by
  obtain ⟨w, e1, e2⟩ := C74_harmless_partial hP hB ops hl hh rs s hs
  obtain ⟨w', f1, f2⟩ := C74_harmless_partial hQ hB' ops hl' hh' rs s (by rw [h.std]; exact hs)
  refine ⟨w, w', e1, f1, funext fun i => ?_, e2.calls.1.trans f2.calls.1.symm⟩
  have := (e2.objects i).symm.trans (f2.objects i)
  revert this
  cases P.view w i <;> cases Q.view w' i <;> simp

/-- C++20 with sentinels, C++17 with flags -/
example : (Demo.kept true (· == 1) Demo.tidy).OK ∧ { Demo.flagged false (· == 1) with broken := fun _ _ u _ => u }.OK ∧
    (Demo.kept true (· == 1) Demo.tidy).Alike { Demo.flagged false (· == 1) with broken := fun _ _ u _ => u } ∧
    (∀ op ∈ Demo.stdStory, op.Legal (Demo.kept true (· == 1) Demo.tidy)) ∧
    (∀ op ∈ Demo.stdStory, op.Legal { Demo.flagged false (· == 1) with broken := fun _ _ u _ => u }) ∧
    ∃ rs s, Std.run (Demo.kept true (· == 1) Demo.tidy) 0 Demo.stdStory Std.start = .ok rs s := by
  refine ⟨Demo.kept_ok Demo.ok_tidy,
    { Demo.flagged_ok (cxx20 := false) (thr := (· == 1)) with broken := fun _ _ _ _ hu _ => hu },
    ⟨fun _ => rfl, fun _ => rfl, fun _ => rfl, fun _ => rfl, fun _ => rfl, fun _ => rfl, fun _ => rfl, fun _ => rfl,
      fun _ _ _ _ => rfl, fun _ _ _ => rfl, fun _ _ _ _ => rfl, fun _ _ _ => rfl⟩, Demo.stdStory_legal, ?_, ?_⟩
  · have hd : ∀ c v, ((Demo.flagged false (· == 1)).elemOf c).Dom 32 v := Demo.flagged_dom
    simp only [Demo.stdStory, List.forall_mem_cons]
    exact ⟨trivial, hd 1 _, hd 1 _, trivial, trivial, trivial, trivial, hd 1 _, trivial, trivial, trivial, trivial, hd 2 9, hd 2 3,
      trivial, hd 1 _, trivial, trivial, trivial, trivial, fun _ h => by cases h⟩
  · obtain ⟨s, h, _⟩ := Std.of_seen (x := Std.run (Demo.kept true (· == 1) Demo.tidy) 0 Demo.stdStory Std.start)
      (r := [.unit, .unit, .threw, .bool false, .unit, .unit, .threw, .unit, .unit, .bool true, .val 5, .unit, .unit, .unit,
        .word 3, .val 5, .unit, .bool true, .unit, .unit])
      (l := [.ctor 1 .args, .dtor 1, .ctorFail 1 .args, .ctor 1 .args, .ctor 5 .move, .call0 true, .ctor 2 .args,
        .assign 2 .args true, .call0 true, .tmpCtor .copy true, .dtor 5, .dtor 1])
      (by decide +kernel)
    exact ⟨_, s, h⟩

end Opt
