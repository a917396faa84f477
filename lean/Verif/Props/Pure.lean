import Verif.Spec.Pure
import Verif.Props.Access
import Verif.Props.Frame
import Verif.Props.Api

/-!
# C62: functions declared pure
-/

namespace Opt

variable {σ ρ α β : Type} {see : σ → ρ}

theorem liftRes_ok {a : α} {s : σ} : liftRes (.ok a) s = .ok a s := rfl

theorem liftRes_verify {s : σ} : (liftRes (.verify : Res α)) s = .verify := rfl

theorem liftRes_ub {s : σ} : (liftRes (.ub : Res α)) s = .ub := rfl

theorem liftRes_throw {s : σ} : (liftRes (.throw : Res α)) s = .throw s := rfl

namespace OnlyReads

theorem pure (a : α) : OnlyReads see (Pure.pure a : M σ α) := ⟨fun _ => .ok a, fun _ h => (by cases h), fun _ => rfl⟩

theorem bad : OnlyReads see (M.bad : M σ α) := ⟨fun _ => .ub, fun _ h => (by cases h), fun _ => rfl⟩

theorem check (b : Bool) : OnlyReads see (M.check b : M σ Unit) := by
  cases b with
  | true => exact ⟨fun _ => .ok (), fun _ h => (by cases h), fun _ => rfl⟩
  | false => exact ⟨fun _ => .verify, fun _ h => (by cases h), fun _ => rfl⟩

theorem bind {x : M σ α} {g : α → M σ β} (hx : OnlyReads see x) (hg : ∀ a, OnlyReads see (g a)) : OnlyReads see (x >>= g) := by
  obtain ⟨f, h1, h2⟩ := hx
  refine ⟨fun r => (f r).bind fun a => (hg a).choose r, fun r => ?_, fun s => ?_⟩
  · dsimp only
    cases hf : f r with
    | ok a => exact (hg a).choose_spec.1 r
    | throw => exact absurd hf (h1 r)
    | verify => exact fun h => by cases h
    | ub => exact fun h => by cases h
  · dsimp only
    rw [bind_run, h2]
    cases hf : f (see s) with
    | ok a => exact (hg a).choose_spec.2 s
    | throw => exact absurd hf (h1 _)
    | verify => rfl
    | ub => rfl

theorem ite {c : Prop} [Decidable c] {x y : M σ α} (hx : OnlyReads see x) (hy : OnlyReads see y) :
    OnlyReads see (if c then x else y) := by
  split
  · exact hx
  · exact hy

theorem mergeable {m : M σ α} (h : OnlyReads see m) : Mergeable m := by
  obtain ⟨f, h1, h2⟩ := h
  intro γ k
  funext s
  simp only [bind_run, h2]
  cases hf : f (see s) with
  | ok a => simp only [liftRes_ok, obind_ok, bind_run, h2, hf]
  | throw => exact absurd hf (h1 _)
  | verify => rfl
  | ub => rfl

theorem droppable {m : M σ α} (h : OnlyReads see m) {s s' : σ} {a : α} (he : m s = .ok a s') : Droppable m s := by
  obtain ⟨f, h1, h2⟩ := h
  intro γ k
  rw [h2] at he
  simp only [bind_run, h2]
  cases hf : f (see s) with
  | ok a => rfl
  | throw => exact absurd hf (h1 _)
  | verify => rw [hf] at he; cases he
  | ub => rw [hf] at he; cases he

theorem movable {m : M σ α} (h : OnlyReads see m) {n : M σ β} {s : σ} (hn : ∀ b s', n s = .ok b s' → see s' = see s) : Movable m n s := by
  obtain ⟨f, h1, h2⟩ := h
  intro b s' he γ k
  simp only [bind_run, he, obind_ok, h2, hn b s' he]
  cases hf : f (see s) with
  | ok a => simp only [liftRes_ok, obind_ok, bind_run, he]
  | throw => exact absurd hf (h1 _)
  | verify => rfl
  | ub => rfl

end OnlyReads

variable {Val : Type} {P : Prog Val}

namespace Prog

theorem reads_obj (i : Nat) : OnlyReads (fun w : World => w.mem i) (Prog.obj i) :=
  ⟨fun x => match x with | some o => .ok o | none => .ub, fun x => (by cases x <;> exact fun h => nomatch h), fun w => by
    unfold Prog.obj
    dsimp only
    cases w.mem i <;> rfl⟩

theorem reads_hasValue (i : Nat) : OnlyReads (fun w : World => w.mem i) (P.hasValue i) :=
  (reads_obj i).bind fun _ => OnlyReads.ite OnlyReads.bad (OnlyReads.pure _)

theorem reads_readT (i : Nat) : OnlyReads (fun w : World => w.mem i) (P.readT i) :=
  (reads_obj i).bind fun _ => OnlyReads.ite (OnlyReads.pure _) OnlyReads.bad

theorem reads_getCheck (i : Nat) : OnlyReads (fun w : World => w.mem i) (P.getCheck i) :=
  (reads_hasValue i).bind fun _ => OnlyReads.check _

theorem reads_asRet {α : Type} {i : Nat} {x : M World α} {f : α → Ret Val} (h : OnlyReads (fun w : World => w.mem i) x) :
    OnlyReads (fun w : World => w.mem i) (asRet f x) := h.bind fun _ => OnlyReads.pure _

end Prog

/-- C62: every operation on `option<T>` that is marked pure is a function of the bytes and lifetime of its option: it reads nothing
else, changes nothing at all and throws nothing, in every state. -/
theorem C62_pure (op : Op Val) (i : Nat) (h : op.markedPure = some i) : OnlyReads (fun w : World => w.mem i) (P.runOp op) := by
  cases op <;> cases h
  case hasValue => exact Prog.reads_asRet (Prog.reads_hasValue i)
  case get => exact Prog.reads_asRet ((Prog.reads_getCheck i).bind fun _ => Prog.reads_readT i)
  case getUnchecked => exact Prog.reads_asRet (Prog.reads_readT i)
  case ptrOrNull =>
    exact Prog.reads_asRet ((Prog.reads_hasValue i).bind fun _ => OnlyReads.ite
      ((Prog.reads_getCheck i).bind fun _ => (Prog.reads_readT i).bind fun _ => OnlyReads.pure _) (OnlyReads.pure _))
  case cmpNone o =>
    refine Prog.reads_asRet ?_
    cases o
    · exact (Prog.reads_hasValue i).bind fun _ => OnlyReads.pure _
    · exact Prog.reads_hasValue i
    · exact OnlyReads.pure _
    · exact (Prog.reads_hasValue i).bind fun _ => OnlyReads.pure _
    · exact Prog.reads_hasValue i
    · exact OnlyReads.pure _
  case noneCmp o =>
    refine Prog.reads_asRet ?_
    cases o
    · exact (Prog.reads_hasValue i).bind fun _ => OnlyReads.pure _
    · exact Prog.reads_hasValue i
    · exact Prog.reads_hasValue i
    · exact OnlyReads.pure _
    · exact OnlyReads.pure _
    · exact (Prog.reads_hasValue i).bind fun _ => OnlyReads.pure _

/-- C62: what the compiler may do with an operation marked pure is right, whatever comes before and after: two calls in a row can be
merged, and a call can be moved across any operation that does not change its option (C56). -/
theorem C62_optimise (op : Op Val) (i : Nat) (h : op.markedPure = some i) :
    Mergeable (P.runOp op) ∧ ∀ (op' : Op Val) (w : World), i ∉ op'.changes → Movable (P.runOp op) (P.runOp op') w := by
  refine ⟨(C62_pure op i h).mergeable, fun op' w hi => (C62_pure op i h).movable fun r w' he => ?_⟩
  have hf := C56_frame (P := P) op' w
  rw [he] at hf
  exact hf i hi

/-- C62: and a call that would complete can be dropped if its result is not used. -/
theorem C62_drop_partial (op : Op Val) (i : Nat) (h : op.markedPure = some i) (w w' : World) (r : Ret Val)
    (he : P.runOp op w = .ok r w') : Droppable (P.runOp op) w :=
  (C62_pure op i h).droppable he

/-- `has_value`, comparisons with `none` and `ptr_or_null` complete in every valid state, `get` if there is a value. -/
theorem C62_completes {w : World} (hw : P.Inv w) (op : Op Val) (i : Nat) (h : op.markedPure = some i) {x : Option Val}
    (hx : P.view w i = some x) (hv : op = .get i ∨ op = .getUnchecked i → x.isSome) : ∃ r, P.runOp op w = .ok r w := by
  have hh : P.hasValue i w = .ok x.isSome w := by
    cases x with
    | none => exact (C24_empty hw hx).2.2.2
    | some v => exact (C24_engaged hw hx).2.2.2.2
  cases op <;> cases h
  case hasValue => exact ⟨_, by rw [Prog.runOp, Prog.asRet, bind_run, hh]; rfl⟩
  case get =>
    obtain ⟨v, rfl⟩ := Option.isSome_iff_exists.1 (hv (.inl rfl))
    exact ⟨_, by rw [Prog.runOp, Prog.asRet, bind_run, (C24_engaged hw hx).1]; rfl⟩
  case getUnchecked =>
    obtain ⟨v, rfl⟩ := Option.isSome_iff_exists.1 (hv (.inr rfl))
    exact ⟨_, by rw [Prog.runOp, Prog.asRet, bind_run, (C24_engaged hw hx).2.1]; rfl⟩
  case ptrOrNull =>
    cases x with
    | none => exact ⟨_, by rw [Prog.runOp, Prog.asRet, bind_run, (C24_empty hw hx).2.2.1]; rfl⟩
    | some v => exact ⟨_, by rw [Prog.runOp, Prog.asRet, bind_run, (C24_engaged hw hx).2.2.2.1]; rfl⟩
  case cmpNone o => cases o <;> exact ⟨_, by rw [Prog.runOp, Prog.asRet, bind_run, Prog.cmpNone]; simp only [bind_run, hh, pure_run]; rfl⟩
  case noneCmp o => cases o <;> exact ⟨_, by rw [Prog.runOp, Prog.asRet, bind_run, Prog.noneCmp]; simp only [bind_run, hh, pure_run]; rfl⟩

/-- Violation: `get` on an empty option is not droppable: the check stops the program, and a compiler that trusts the attribute removes
it together with the unused result. -/
theorem C62_violated_check {w : World} (hw : P.Inv w) {i : Nat} (hx : P.view w i = some none) : ¬ Droppable (P.runOp (.get i)) w := by
  intro h
  have := h Unit (pure ())
  rw [bind_run, Prog.runOp, Prog.asRet, bind_run, (C24_empty hw hx).1] at this
  cases this

/-- C62, options of references: the same, for `has_value`, `get`, `operator*` and `operator->`. -/
theorem C62_reference (i : Nat) : OnlyReads (fun w : RWorld Val => w.ptr i) (RefOpt.hasValue i) ∧
    OnlyReads (fun w : RWorld Val => w.ptr i) (RefOpt.get i) := by
  have hl : OnlyReads (fun w : RWorld Val => w.ptr i) (RefOpt.load i) := ⟨fun p => .ok p, fun _ h => (by cases h), fun _ => rfl⟩
  have hh : OnlyReads (fun w : RWorld Val => w.ptr i) (RefOpt.hasValue i) := hl.bind fun _ => OnlyReads.pure _
  refine ⟨hh, hh.bind fun _ => (OnlyReads.check _).bind fun _ => hl.bind fun p => ?_⟩
  cases p with
  | null => exact OnlyReads.bad
  | elem a k => exact OnlyReads.pure _

/-- C62, `at`, `at_front`, `at_back` on a container without effects: what `Model/Access` says (C36), as a function of no state at all. -/
theorem C62_containers_partial (s : Seq Val) (σ : Type) (c : Cat) (n : U64) :
    (s.toUser σ).at_ c n = liftRes (s.at_ c n) ∧ (s.toUser σ).atFront c = liftRes (s.atFront c) ∧
    (s.toUser σ).atBack c = liftRes (s.atBack c) := by
  have go : ∀ e : Res (Expr Val), (liftRes e >>= fun e => (s.toUser σ).result c e) = liftRes (e.bind fun e => (wrap c e).map some) := by
    intro e
    funext t
    cases e with
    | ok e =>
      rw [bind_run, liftRes_ok, obind_ok, UserSeq.result, bind_run, Res.bind]
      cases hw : wrap c e with
      | ok g => cases e <;> rfl
      | throw => rfl
      | verify => rfl
      | ub => rfl
    | throw => rfl
    | verify => rfl
    | ub => rfl
  have size : ∀ (γ : Type) (k : U64 → M σ γ), ((s.toUser σ).size >>= k) = k s.size := fun _ _ => rfl
  refine ⟨?_, ?_, ?_⟩
  · rw [UserSeq.at_, size]
    unfold Seq.at_
    split
    · rfl
    · exact go _
  · rw [UserSeq.atFront, size]
    unfold Seq.atFront
    split
    · rfl
    · exact go _
  · rw [UserSeq.atBack, size]
    unfold Seq.atBack
    split
    · rfl
    · exact go _

/-- an exception leaves the computation -/
def Raises {σ α : Type} (x : Out σ α) : Prop := ∃ s, x = .throw s

theorem UserSeq.result_raises (s : UserSeq σ Val) (c : Cat) (e : Expr Val) (t : σ) :
    Raises (s.result c e t) ↔ (∃ v, e = .prvalue v) ∧ Raises (s.build t) := by
  obtain ⟨g, hg, _⟩ := C42_wrap c e
  rw [UserSeq.result, bind_run, hg, liftRes_ok, obind_ok]
  cases e with
  | lvalue r => exact ⟨fun ⟨_, h⟩ => (by cases h), fun ⟨⟨_, h⟩, _⟩ => (by cases h)⟩
  | xvalue r => exact ⟨fun ⟨_, h⟩ => (by cases h), fun ⟨⟨_, h⟩, _⟩ => (by cases h)⟩
  | prvalue v =>
    simp only [bind_run]
    cases hb : s.build t with
    | ok u t1 => exact ⟨fun ⟨_, h⟩ => (by cases h), fun ⟨_, ⟨_, h⟩⟩ => (by cases h)⟩
    | throw t1 => exact ⟨fun _ => ⟨⟨v, rfl⟩, t1, rfl⟩, fun _ => ⟨t1, rfl⟩⟩
    | verify => exact ⟨fun ⟨_, h⟩ => (by cases h), fun ⟨_, ⟨_, h⟩⟩ => (by cases h)⟩
    | ub => exact ⟨fun ⟨_, h⟩ => (by cases h), fun ⟨_, ⟨_, h⟩⟩ => (by cases h)⟩

/-- **C47**, exactly when an exception leaves the `noexcept` function `at`: if one of the container's functions that it calls throws
(`size()`, then `operator[]` if the index is below the size), or the construction of an element that is returned by value.
(`noexcept` asks about none of these.) -/
theorem C47_at_exact (s : UserSeq σ Val) (c : Cat) (n : U64) (t : σ) :
    Raises (s.at_ c n t) ↔ Raises (s.size t) ∨ ∃ k t1, s.size t = .ok k t1 ∧ n < k ∧
      (Raises (s.sub c n t1) ∨ ∃ v t2, s.sub c n t1 = .ok (.prvalue v) t2 ∧ Raises (s.build t2)) := by
  rw [UserSeq.at_, bind_run]
  cases hs : s.size t with
  | throw t1 => exact ⟨fun _ => .inl ⟨t1, rfl⟩, fun _ => ⟨t1, rfl⟩⟩
  | verify => exact ⟨fun ⟨_, h⟩ => (by cases h), fun h => (by rcases h with ⟨_, h⟩ | ⟨_, _, h, _⟩ <;> cases h)⟩
  | ub => exact ⟨fun ⟨_, h⟩ => (by cases h), fun h => (by rcases h with ⟨_, h⟩ | ⟨_, _, h, _⟩ <;> cases h)⟩
  | ok k t1 =>
    rw [obind_ok]
    split
    · rename_i hn
      refine ⟨fun ⟨_, h⟩ => (by cases h), fun h => ?_⟩
      rcases h with ⟨_, h⟩ | ⟨_, _, h, hk, _⟩
      · cases h
      · cases h; exact absurd hk (BitVec.not_lt.2 hn)
    · rename_i hn
      rw [bind_run]
      have hk : n < k := BitVec.not_le.1 hn
      cases hb : s.sub c n t1 with
      | throw t2 => exact ⟨fun _ => .inr ⟨k, t1, rfl, hk, .inl ⟨t2, hb⟩⟩, fun _ => ⟨t2, rfl⟩⟩
      | verify =>
        refine ⟨fun ⟨_, h⟩ => (by cases h), fun h => ?_⟩
        rcases h with ⟨_, h⟩ | ⟨_, _, h, _, ⟨_, h'⟩ | ⟨_, _, h', _⟩⟩ <;> cases h <;> rw [hb] at h' <;> cases h'
      | ub =>
        refine ⟨fun ⟨_, h⟩ => (by cases h), fun h => ?_⟩
        rcases h with ⟨_, h⟩ | ⟨_, _, h, _, ⟨_, h'⟩ | ⟨_, _, h', _⟩⟩ <;> cases h <;> rw [hb] at h' <;> cases h'
      | ok e t2 =>
        rw [obind_ok, UserSeq.result_raises]
        constructor
        · rintro ⟨⟨v, rfl⟩, hr⟩
          exact .inr ⟨k, t1, rfl, hk, .inr ⟨v, t2, hb, hr⟩⟩
        · intro h
          rcases h with ⟨_, h⟩ | ⟨_, _, h, _, ⟨_, h'⟩ | ⟨v, _, h', hr⟩⟩
          · cases h
          · cases h; rw [hb] at h'; cases h'
          · cases h; rw [hb] at h'; cases h'; exact ⟨⟨v, rfl⟩, hr⟩

/-- a container with one element whose `operator[]` counts its calls and throws from the second on -/
def Demo.counting : UserSeq Nat Byte where
  size := pure 1
  sub := fun _ n k => if k = 0 then .ok (.lvalue (0, n.toNat)) 1 else .throw (k + 1)
  front := fun _ => pure (.lvalue (0, 0))
  back := fun _ => pure (.lvalue (0, 0))
  build := pure ()

/-- Violation of C47: an exception leaves `at`, which is `noexcept`: the program ends. -/
theorem C47_violated_at : ∃ (s : UserSeq Nat Byte) (n : U64) (t : Nat), Raises (s.at_ .lvalue n t) :=
  ⟨Demo.counting, 0, 1, 2, rfl⟩

/-- Violation: `at` calls user code, so that it is not pure: two calls cannot be merged, and a call that completes cannot be dropped. -/
theorem C62_violated_at : ∃ (s : UserSeq Nat Byte) (n : U64) (t t' : Nat) (r : Option (Got Byte)), s.at_ .lvalue n t = .ok r t' ∧
    ¬ Droppable (s.at_ .lvalue n) t ∧ ¬ Mergeable (s.at_ .lvalue n) := by
  refine ⟨Demo.counting, 0, 0, 1, some (.lref (0, 0)), rfl, fun h => ?_, fun h => ?_⟩
  · have := h Nat (fun t => .ok t t)
    cases this
  · have := congrFun (h Unit (fun _ _ => pure ())) 0
    cases this

/-- **C47**, exactly when an exception leaves `construct` and the in-place constructor of an option of a reference, which are `noexcept`:
if a conversion of the argument to the reference by user code throws.  The option is not changed. -/
theorem C47_reference_exact (i : Nat) (conv : M (Cells Val) Loc) (w : RWorld Val) :
    (Raises (RefOpt.constructBy i conv w) ↔ Raises (conv w.cell)) ∧
    ∀ w', RefOpt.constructBy i conv w = .throw w' → w'.ptr = w.ptr := by
  rw [RefOpt.constructBy, bind_run, RefOpt.call0]
  cases hc : conv w.cell with
  | ok r m => exact ⟨⟨fun ⟨_, h⟩ => (by cases h), fun ⟨_, h⟩ => (by cases h)⟩, fun _ h => (by cases h)⟩
  | throw m => exact ⟨⟨fun _ => ⟨m, rfl⟩, fun _ => ⟨_, rfl⟩⟩, fun _ h => (by cases h; rfl)⟩
  | verify => exact ⟨⟨fun ⟨_, h⟩ => (by cases h), fun ⟨_, h⟩ => (by cases h)⟩, fun _ h => (by cases h)⟩
  | ub => exact ⟨⟨fun ⟨_, h⟩ => (by cases h), fun ⟨_, h⟩ => (by cases h)⟩, fun _ h => (by cases h)⟩

/-- Violation of C47: binding an option of a reference through a conversion that throws ends the program. -/
theorem C47_violated_reference (i : Nat) (w : RWorld Byte) : ∃ conv, Raises (RefOpt.constructBy i conv w) :=
  ⟨M.raise, (C47_reference_exact i M.raise w).1.2 ⟨w.cell, rfl⟩⟩

/-! Cases that meet the hypotheses. -/

example : Mergeable (Demo.angry.runOp (.get 1)) ∧ Movable (Demo.angry.runOp (.get 1)) (Demo.angry.runOp (.reset 9)) Demo.world :=
  have h := C62_optimise (P := Demo.angry) (.get 1) 1 rfl
  ⟨h.1, h.2 (.reset 9) Demo.world (by decide)⟩

example : Droppable (Demo.angry.runOp (.get 1)) Demo.world := by
  obtain ⟨r, h⟩ := C62_completes (P := Demo.angry) Demo.inv (.get 1) 1 rfl Demo.view1 (fun _ => rfl)
  exact C62_drop_partial _ 1 rfl Demo.world Demo.world r h

example : ¬ Droppable (Demo.angry.runOp (.get 5)) Demo.world := C62_violated_check Demo.inv Demo.view5

example : Raises (Demo.counting.at_ .rvalue 0 1) := (C47_at_exact Demo.counting .rvalue 0 1).2 (.inr ⟨1, 1, rfl, by decide, .inl ⟨2, rfl⟩⟩)

end Opt
