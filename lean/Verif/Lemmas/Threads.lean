import Verif.Spec.Threads
import Verif.Lemmas.Frame

/-!
# Footprints of operations
-/

namespace Opt

variable {α β Val : Type} {R W : List Nat}

namespace Acc

/-- sequencing -/
def bind : Acc α → (α → Acc β) → Acc β
  | .ret a, f => f a
  | .raise, _ => .raise
  | .verify, _ => .verify
  | .ub, _ => .ub
  | .read k next, f => .read k fun x => (next x).bind f
  | .write k x next, f => .write k x (next.bind f)
  | .user g next, f => .user g fun e => (next e).bind f

theorem bind_eval (t : Acc α) (f : α → Acc β) (w : World) : (t.bind f).eval w = (t.eval w).bind fun a => (f a).eval := by
  induction t generalizing w with
  | ret a => rfl
  | raise => rfl
  | verify => rfl
  | ub => rfl
  | read k next ih => exact ih _ w
  | write k x next ih => exact ih _
  | user g next ih => exact ih _ _

theorem bind_within {t : Acc α} {f : α → Acc β} (ht : t.Within R W) (hf : ∀ a, (f a).Within R W) : (t.bind f).Within R W := by
  induction t with
  | ret a => exact hf a
  | raise => trivial
  | verify => trivial
  | ub => trivial
  | read k next ih => exact ⟨ht.1, fun x => ih x (ht.2 x)⟩
  | write k x next ih => exact ⟨ht.1, ih ht.2⟩
  | user g next ih => exact fun e => ih e (ht e)

/-- after a clean-up: go on throwing -/
def rethrow : Acc Unit → Acc α
  | .ret _ => .raise
  | .raise => .ub
  | .verify => .verify
  | .ub => .ub
  | .read k next => .read k fun x => (next x).rethrow
  | .write k x next => .write k x next.rethrow
  | .user g next => .user g fun e => (next e).rethrow

/-- clean-up -/
def onThrow : Acc α → Acc Unit → Acc α
  | .ret a, _ => .ret a
  | .raise, h => h.rethrow
  | .verify, _ => .verify
  | .ub, _ => .ub
  | .read k next, h => .read k fun x => (next x).onThrow h
  | .write k x next, h => .write k x (next.onThrow h)
  | .user g next, h => .user g fun e => (next e).onThrow h

theorem rethrow_eval (h : Acc Unit) (w : World) : (h.rethrow : Acc α).eval w = M.onThrow (M.raise : M World α) h.eval w := by
  induction h generalizing w with
  | ret a => rfl
  | raise => rfl
  | verify => rfl
  | ub => rfl
  | read k next ih => exact ih _ w
  | write k x next ih => exact ih _
  | user g next ih => exact ih _ _

theorem onThrow_eval (t : Acc α) (h : Acc Unit) (w : World) : (t.onThrow h).eval w = M.onThrow t.eval h.eval w := by
  induction t generalizing w with
  | ret a => rfl
  | raise => exact rethrow_eval h w
  | verify => rfl
  | ub => rfl
  | read k next ih => exact ih _ w
  | write k x next ih => exact ih _
  | user g next ih => exact ih _ _

theorem rethrow_within {h : Acc Unit} (hh : h.Within R W) : (h.rethrow : Acc α).Within R W := by
  induction h with
  | ret a => trivial
  | raise => trivial
  | verify => trivial
  | ub => trivial
  | read k next ih => exact ⟨hh.1, fun x => ih x (hh.2 x)⟩
  | write k x next ih => exact ⟨hh.1, ih hh.2⟩
  | user g next ih => exact fun e => ih e (hh e)

theorem onThrow_within {t : Acc α} {h : Acc Unit} (ht : t.Within R W) (hh : h.Within R W) : (t.onThrow h).Within R W := by
  induction t with
  | ret a => trivial
  | raise => exact rethrow_within hh
  | verify => trivial
  | ub => trivial
  | read k next ih => exact ⟨ht.1, fun x => ih x (ht.2 x)⟩
  | write k x next ih => exact ⟨ht.1, ih ht.2⟩
  | user g next ih => exact fun e => ih e (ht e)

/-- an exception is caught -/
def caught (r : α) : Acc α → Acc α
  | .ret a => .ret a
  | .raise => .ret r
  | .verify => .verify
  | .ub => .ub
  | .read k next => .read k fun x => (next x).caught r
  | .write k x next => .write k x (next.caught r)
  | .user g next => .user g fun e => (next e).caught r

theorem caught_eval (t : Acc (Ret Val)) (w : World) : (t.caught .threw).eval w = Prog.catch_ t.eval w := by
  induction t generalizing w with
  | ret a => rfl
  | raise => rfl
  | verify => rfl
  | ub => rfl
  | read k next ih => exact ih _ w
  | write k x next ih => exact ih _
  | user g next ih => exact ih _ _

theorem caught_within {r : α} {t : Acc α} (ht : t.Within R W) : (t.caught r).Within R W := by
  induction t with
  | ret a => trivial
  | raise => trivial
  | verify => trivial
  | ub => trivial
  | read k next ih => exact ⟨ht.1, fun x => ih x (ht.2 x)⟩
  | write k x next ih => exact ⟨ht.1, ih ht.2⟩
  | user g next ih => exact fun e => ih e (ht e)

theorem Within.mono {R' W' : List Nat} {t : Acc α} (h : t.Within R W) (hr : ∀ k ∈ R, k ∈ R') (hw : ∀ k ∈ W, k ∈ W') :
    t.Within R' W' := by
  induction t with
  | ret a => trivial
  | raise => trivial
  | verify => trivial
  | ub => trivial
  | read k next ih => exact ⟨h.1.imp (hr k) (hw k), fun x => ih x (h.2 x)⟩
  | write k x next ih => exact ⟨hw k h.1, ih h.2⟩
  | user g next ih => exact fun e => ih e (h e)

/-- objects that are not accessed do not matter -/
theorem eval_local {S : List Nat} {t : Acc α} (ht : t.Within R W) (hr : ∀ k ∈ R, k ∈ S) (hw : ∀ k ∈ W, k ∈ S) {m m' : Nat → Option Obj} {e : Env}
    (h : ∀ k ∈ S, m k = m' k) : SameEnd S (t.eval ⟨m, e⟩) (t.eval ⟨m', e⟩) := by
  induction t generalizing m m' e with
  | ret a => exact ⟨rfl, rfl, h⟩
  | raise => exact ⟨rfl, h⟩
  | verify => trivial
  | ub => trivial
  | read k next ih =>
    have hk : m k = m' k := ht.1.elim (fun hk => h k (hr k hk)) fun hk => h k (hw k hk)
    simp only [eval]
    rw [← hk]
    exact ih _ (ht.2 _) h
  | write k x next ih =>
    refine ih ht.2 fun j hj => ?_
    by_cases hjk : j = k
    · subst hjk; simp [upd]
    · simpa [upd, hjk] using h j hj
  | user g next ih => exact ih _ (ht _) h

end Acc

/-- the computation can be carried out by accesses within `R` and `W` -/
def Foot (R W : List Nat) (m : M World α) : Prop := ∃ t : Acc α, t.Within R W ∧ ∀ w, t.eval w = m w

theorem Foot.pure (a : α) : Foot R W (pure a : M World α) := ⟨.ret a, trivial, fun _ => rfl⟩
theorem Foot.bad : Foot R W (M.bad : M World α) := ⟨.ub, trivial, fun _ => rfl⟩
theorem Foot.raise : Foot R W (M.raise : M World α) := ⟨.raise, trivial, fun _ => rfl⟩
theorem Foot.check (b : Bool) : Foot R W (M.check b) := by
  cases b
  · exact ⟨.verify, trivial, fun _ => rfl⟩
  · exact ⟨.ret (), trivial, fun _ => rfl⟩

theorem Foot.bind {x : M World α} {f : α → M World β} (h : Foot R W x) (hf : ∀ a, Foot R W (f a)) : Foot R W (x >>= f) := by
  obtain ⟨t, ht, he⟩ := h
  refine ⟨t.bind fun a => (hf a).choose, Acc.bind_within ht fun a => (hf a).choose_spec.1, fun w => ?_⟩
  rw [Acc.bind_eval, bind_run, he]
  congr 1
  funext a w
  exact (hf a).choose_spec.2 w

theorem Foot.ite {c : Prop} [Decidable c] {x y : M World α} (hx : Foot R W x) (hy : Foot R W y) :
    Foot R W (if c then x else y) := by
  split
  · exact hx
  · exact hy

theorem Foot.onThrow {x : M World α} {h : M World Unit} (hx : Foot R W x) (hh : Foot R W h) : Foot R W (M.onThrow x h) := by
  obtain ⟨t, ht, he⟩ := hx
  obtain ⟨u, hu, hue⟩ := hh
  refine ⟨t.onThrow u, Acc.onThrow_within ht hu, fun w => ?_⟩
  rw [Acc.onThrow_eval, funext he, funext hue]

theorem Foot.catch_ {x : M World (Ret Val)} (hx : Foot R W x) : Foot R W (Prog.catch_ x) := by
  obtain ⟨t, ht, he⟩ := hx
  exact ⟨t.caught .threw, Acc.caught_within ht, fun w => by rw [Acc.caught_eval, funext he]⟩

theorem Foot.mono {R' W' : List Nat} {x : M World α} (h : Foot R W x) (hr : ∀ k ∈ R, k ∈ R') (hw : ∀ k ∈ W, k ∈ W') : Foot R' W' x := by
  obtain ⟨t, ht, he⟩ := h
  exact ⟨t, ht.mono hr hw, he⟩

theorem Foot.liftRes (x : Res α) : Foot R W (liftRes x : M World α) := by
  cases x with
  | ok a => exact Foot.pure a
  | throw => exact Foot.raise
  | verify => exact (Foot.check false).bind fun _ => Foot.bad
  | ub => exact Foot.bad

theorem Foot.of_eq {x y : M World α} (h : Foot R W y) (e : ∀ w, x w = y w) : Foot R W x := by
  obtain ⟨t, ht, he⟩ := h
  exact ⟨t, ht, fun w => (he w).trans (e w).symm⟩

namespace Prog

variable (P : Prog Val)

/-- find out that an object may be read -/
macro "may_read" : tactic => `(tactic| first
  | assumption
  | exact Or.inr (by assumption)
  | exact Or.inl (by assumption)
  | exact (by assumption : ∀ k ∈ Op.srcUses _, k ∈ _ ∨ k ∈ _) _ (List.mem_cons_self ..)
  | exact Or.inr ((by assumption : ∀ k ∈ Src.movedOut _, k ∈ _) _ (List.mem_cons_self ..)))

theorem foot_userOp (a b : Event) : Foot R W (P.userOp a b) :=
  ⟨.user (fun e => ⟨e.tick + 1, e.log ++ [if P.throwsAt e.tick then b else a]⟩) fun e => .ret (e.tick, P.throwsAt e.tick),
    fun _ => trivial, fun _ => rfl⟩
theorem foot_note (e : Event) : Foot R W (note e) :=
  ⟨.user (fun v => { v with log := v.log ++ [e] }) fun _ => .ret (), fun _ => trivial, fun _ => rfl⟩
theorem foot_now : Foot R W now := ⟨.user id fun e => .ret e.tick, fun _ => trivial, fun _ => rfl⟩

theorem foot_obj (i : Nat) (h : i ∈ R ∨ i ∈ W := by may_read) : Foot R W (obj i) :=
  ⟨.read i fun x => match x with | some o => .ret o | none => .ub, ⟨h, fun x => by cases x <;> trivial⟩, fun w => by
    simp only [Acc.eval, obj]
    cases w.mem i <;> rfl⟩

theorem foot_setObj {i : Nat} (h : i ∈ W) (o : Obj) : Foot R W (setObj i o) := ⟨.write i (some o) (.ret ()), ⟨h, trivial⟩, fun _ => rfl⟩

theorem foot_delObj {i : Nat} (h : i ∈ W) : Foot R W (delObj i) := ⟨.write i none (.ret ()), ⟨h, trivial⟩, fun _ => rfl⟩

theorem foot_newObj {i : Nat} (h : i ∈ W) : Foot R W (P.newObj i) :=
  ⟨.read i fun x => match x with
    | some _ => .ub
    | none => .user id fun e => .write i (some ⟨P.garbage i e.tick, false⟩) (.ret ()),
    ⟨.inr h, fun x => by
      cases x with
      | some _ => trivial
      | none => exact fun _ => ⟨h, trivial⟩⟩, fun w => by
    simp only [Acc.eval, newObj]
    cases w.mem i <;> rfl⟩

theorem foot_setPayload {i : Nat} (h : i ∈ W) (b : Bytes) (a : Bool) : Foot R W (setPayload i b a) :=
  (foot_obj i).bind fun _ => foot_setObj h _

theorem foot_setFlag {i : Nat} (h : i ∈ W) (b : Bool) : Foot R W (P.setFlag i b) := (foot_obj i).bind fun _ => foot_setObj h _

theorem foot_setLevel0 {i : Nat} (h : i ∈ W) : Foot R W (P.setLevel0 i) := by
  refine (foot_obj i).bind fun o => ?_
  show Foot R W (match ((P.elem i).T.sizeTraits P.pw).2.setLevel o.bytes 0 with
    | .ok b => setObj i ⟨b, false⟩
    | .throw => M.raise
    | .verify => M.check false
    | .ub => M.bad)
  cases ((P.elem i).T.sizeTraits P.pw).2.setLevel o.bytes 0 with
  | ok b => exact foot_setObj h _
  | throw => exact Foot.raise
  | verify => exact Foot.check _
  | ub => exact Foot.bad

theorem foot_readT (j : Nat) (hr : j ∈ R ∨ j ∈ W := by may_read) : Foot R W (P.readT j) := (foot_obj j).bind fun _ => Foot.ite (Foot.pure _) Foot.bad

theorem foot_writeT {j : Nat} (h : j ∈ W) (n : Nat) (v : Val) : Foot R W (P.writeT j n v) :=
  (foot_obj j).bind fun _ => Foot.ite (foot_setPayload h _ _) Foot.bad

theorem foot_srcVal (i : Nat) (src : Src Val) (hs : ∀ k ∈ Op.srcUses src, k ∈ R ∨ k ∈ W) : Foot R W (P.srcVal i src) := by
  cases src
  case opt j mv => exact (P.foot_readT j).bind fun _ => Foot.pure _
  all_goals exact Foot.pure _

theorem foot_srcAfter {src : Src Val} (h : ∀ k ∈ src.movedOut, k ∈ W) (b : Bool) (n : Nat) : Foot R W (P.srcAfter b n src) := by
  cases src
  case opt j mv =>
    cases mv
    · exact Foot.pure _
    · exact (P.foot_readT j).bind fun _ => P.foot_writeT (h j (List.mem_cons_self ..)) _ _
  all_goals exact Foot.pure _

theorem foot_srcBytes (i : Nat) (v : Val) (old : Bytes) (src : Src Val) (hs : ∀ k ∈ Op.srcUses src, k ∈ R ∨ k ∈ W) : Foot R W (P.srcBytes i v old src) := by
  cases src
  case opt j mv => exact (foot_obj j).bind fun _ => Foot.pure _
  all_goals exact foot_now.bind fun _ => Foot.pure _

theorem foot_constructInPlace {i : Nat} {src : Src Val} (hi : i ∈ W) (hs : ∀ k ∈ Op.srcUses src, k ∈ R ∨ k ∈ W) (h : ∀ k ∈ src.movedOut, k ∈ W) :
    Foot R W (P.constructInPlace i src) := by
  refine (foot_obj i).bind fun o => Foot.ite Foot.bad (Foot.ite Foot.bad ?_)
  refine (P.foot_srcVal i src hs).bind fun v => Foot.ite ?_ ?_
  · exact (P.foot_srcBytes _ _ _ _ hs).bind fun _ => foot_setPayload hi _ _
  · exact (P.foot_userOp _ _).bind fun p => Foot.ite
      ((P.foot_srcAfter h _ _).bind fun _ => Foot.ite Foot.raise ((foot_setPayload hi _ _).bind fun _ => Foot.raise))
      ((P.foot_srcAfter h _ _).bind fun _ => foot_setPayload hi _ _)

theorem foot_constructByAssign {i : Nat} {src : Src Val} (hi : i ∈ W) (hs : ∀ k ∈ Op.srcUses src, k ∈ R ∨ k ∈ W) (h : ∀ k ∈ src.movedOut, k ∈ W) :
    Foot R W (P.constructByAssign i src) := by
  refine (foot_obj i).bind fun o => (P.foot_srcVal i src hs).bind fun v => Foot.ite ?_ (Foot.ite ?_ ?_)
  · exact (P.foot_srcBytes _ _ _ _ hs).bind fun _ => foot_setPayload hi _ _
  · exact (P.foot_userOp _ _).bind fun p => (P.foot_srcAfter h _ _).bind fun _ => Foot.ite Foot.raise (foot_setPayload hi _ _)
  · exact (P.foot_userOp _ _).bind fun p => (P.foot_srcAfter h _ _).bind fun _ => Foot.ite Foot.raise
      ((foot_setPayload hi _ _).bind fun _ => foot_note _)

theorem foot_destroyT {i : Nat} (hi : i ∈ W) : Foot R W (P.destroyT i) :=
  (foot_obj i).bind fun _ => Foot.ite ((foot_note _).bind fun _ => foot_now.bind fun _ => foot_setPayload hi _ _) Foot.bad

theorem foot_assignT {i : Nat} {src : Src Val} (hi : i ∈ W) (hs : ∀ k ∈ Op.srcUses src, k ∈ R ∨ k ∈ W) (h : ∀ k ∈ src.movedOut, k ∈ W) : Foot R W (P.assignT i src) := by
  refine (foot_obj i).bind fun o => Foot.ite Foot.bad (Foot.ite ?_ ?_)
  · exact (P.foot_srcVal i src hs).bind fun v => (P.foot_srcBytes _ _ _ _ hs).bind fun _ => foot_setPayload hi _ _
  · refine (P.foot_readT i).bind fun old => (P.foot_srcVal i src hs).bind fun v => (P.foot_userOp _ _).bind fun p =>
      Foot.ite ((P.foot_srcAfter h _ _).bind fun _ => (P.foot_writeT hi _ _).bind fun _ => Foot.raise) (Foot.ite ?_ ?_)
    · cases src
      case opt j mv => cases mv <;> exact P.foot_writeT hi _ _
      all_goals exact P.foot_writeT hi _ _
    · exact (P.foot_srcAfter h _ _).bind fun _ => P.foot_writeT hi _ _

theorem foot_swapT {i j : Nat} (hi : i ∈ W) (hj : j ∈ W) : Foot R W (P.swapT i j) :=
  (P.foot_readT i).bind fun _ => (P.foot_readT j).bind fun _ => (P.foot_userOp _ _).bind fun _ => Foot.ite
    ((P.foot_writeT hi _ _).bind fun _ => (P.foot_writeT hj _ _).bind fun _ => Foot.raise)
    ((P.foot_writeT hi _ _).bind fun _ => P.foot_writeT hj _ _)

theorem foot_hasValue (i : Nat) (hr : i ∈ R ∨ i ∈ W := by may_read) : Foot R W (P.hasValue i) :=
  (foot_obj i).bind fun _ => Foot.ite Foot.bad (Foot.pure _)

theorem foot_getCheck (i : Nat) (hr : i ∈ R ∨ i ∈ W := by may_read) : Foot R W (P.getCheck i) := (P.foot_hasValue i).bind fun _ => Foot.check _

theorem foot_evalArg (src : Src Val) (hs : ∀ k ∈ Op.srcUses src, k ∈ R ∨ k ∈ W) : Foot R W (P.evalArg src) := by
  cases src
  case opt j mv => exact P.foot_getCheck j
  all_goals exact Foot.pure _

theorem foot_ctorDefault {i : Nat} (hi : i ∈ W) : Foot R W (P.ctorDefault i) :=
  (P.foot_newObj hi).bind fun _ => Foot.ite
    ((foot_setPayload hi _ _).bind fun _ => (P.foot_setLevel0 hi).bind fun _ => (P.foot_hasValue i).bind fun _ =>
      Foot.check _)
    (P.foot_setFlag hi _)

theorem foot_seal {i : Nat} (hi : i ∈ W) : Foot R W (if (P.elem i).sent P.pw = true then P.hasValue i >>= fun h => M.check h
    else P.setFlag i true) :=
  Foot.ite ((P.foot_hasValue i).bind fun _ => Foot.check _) (P.foot_setFlag hi _)

theorem foot_construct {i : Nat} {src : Src Val} (hi : i ∈ W) (hs : ∀ k ∈ Op.srcUses src, k ∈ R ∨ k ∈ W) (h : ∀ k ∈ src.movedOut, k ∈ W) : Foot R W (P.construct i src) :=
  Foot.bind (Foot.ite (P.foot_constructInPlace hi hs h) (P.foot_constructByAssign hi hs h)) fun _ => P.foot_seal hi

theorem foot_ctorArg {i : Nat} {src : Src Val} (hi : i ∈ W) (hs : ∀ k ∈ Op.srcUses src, k ∈ R ∨ k ∈ W) (h : ∀ k ∈ src.movedOut, k ∈ W) : Foot R W (P.ctorArg i src) :=
  (P.foot_newObj hi).bind fun _ =>
    Foot.bind ((P.foot_constructInPlace hi hs h).onThrow (foot_delObj hi)) fun _ => P.foot_seal hi

theorem foot_reset {i : Nat} (hi : i ∈ W) : Foot R W (P.reset i) := by
  have h0 : Foot R W (P.setLevel0 i >>= fun _ => P.hasValue i >>= fun h => M.check (!h)) :=
    (P.foot_setLevel0 hi).bind fun _ => (P.foot_hasValue i).bind fun _ => Foot.check _
  refine Foot.ite (Foot.ite h0 (P.foot_setFlag hi _)) ?_
  refine (P.foot_hasValue i).bind fun h => Foot.ite ((P.foot_destroyT hi).bind fun _ => ?_) (Foot.pure _)
  exact Foot.ite h0 (P.foot_setFlag hi _)

theorem foot_dtor {i : Nat} (hi : i ∈ W) : Foot R W (P.dtor i) :=
  Foot.ite ((foot_obj i).bind fun _ => foot_delObj hi)
    ((P.foot_hasValue i).bind fun _ => Foot.ite ((P.foot_destroyT hi).bind fun _ => foot_delObj hi) (foot_delObj hi))

theorem use_opt {j : Nat} {mv : Bool} (h : j ∈ R ∨ j ∈ W) : ∀ k ∈ Op.srcUses (Src.opt j mv : Src Val), k ∈ R ∨ k ∈ W := by
  intro k hk
  rw [Op.srcUses, List.mem_singleton] at hk
  exact hk ▸ h

theorem foot_ctorFrom {i j : Nat} {mv : Bool} (hi : i ∈ W) (hj : j ∈ R ∨ j ∈ W) (h : ∀ k ∈ Op.ifMoved j mv, k ∈ W) : Foot R W (P.ctorFrom i j mv) := by
  have hb : Foot R W (P.copyBytesNew i j) :=
    (foot_obj j).bind fun _ => (P.foot_newObj hi).bind fun _ => foot_setObj hi _
  have hm : Foot R W (P.ctorManual i j mv) := by
    refine (P.foot_ctorDefault hi).bind fun _ => Foot.onThrow ?_ (P.foot_dtor hi)
    refine (P.foot_hasValue j).bind fun h => Foot.ite ?_ (Foot.pure _)
    split
    · exact (Foot.pure ()).bind fun _ => P.foot_construct hi (use_opt hj) (moved_opt ‹_›)
    · exact (P.foot_getCheck j).bind fun _ => P.foot_construct hi (use_opt hj) (moved_opt ‹_›)
  unfold ctorFrom
  exact Foot.ite (Foot.ite hb hm) hm

theorem foot_assignFrom {i j : Nat} {mv : Bool} (hi : i ∈ W) (hj : j ∈ R ∨ j ∈ W) (h : ∀ k ∈ Op.ifMoved j mv, k ∈ W) : Foot R W (P.assignFrom i j mv) := by
  have hb : Foot R W (copyBytes i j) := (foot_obj j).bind fun _ => (foot_obj i).bind fun _ => foot_setObj hi _
  have hm : Foot R W (P.assignManual i j mv) := by
    refine (P.foot_hasValue j).bind fun _ => Foot.ite ?_ (P.foot_reset hi)
    refine (P.foot_hasValue i).bind fun _ => Foot.ite (Foot.ite (P.foot_assignT hi (use_opt hj) (moved_opt h)) ?_) ?_
    · exact (P.foot_getCheck j).bind fun _ => (P.foot_assignT hi (use_opt hj) (moved_opt h)).bind fun _ => P.foot_getCheck i
    · split
      · exact (Foot.pure ()).bind fun _ => P.foot_construct hi (use_opt hj) (moved_opt h)
      · exact (P.foot_getCheck j).bind fun _ => P.foot_construct hi (use_opt hj) (moved_opt h)
  unfold assignFrom
  exact Foot.ite (Foot.ite hb hm) hm

theorem foot_assignValue {i : Nat} {src : Src Val} (hi : i ∈ W) (hs : ∀ k ∈ Op.srcUses src, k ∈ R ∨ k ∈ W) (h : ∀ k ∈ src.movedOut, k ∈ W) :
    Foot R W (P.assignValue i src) := by
  refine (P.foot_evalArg src hs).bind fun _ => Foot.ite (P.foot_construct hi hs h) ?_
  exact (P.foot_hasValue i).bind fun _ => Foot.ite
    ((P.foot_assignT hi hs h).bind fun _ => P.foot_getCheck i) (P.foot_construct hi hs h)

theorem foot_take {i r : Nat} (hi : i ∈ W) (hr : r ∈ W) : Foot R W (P.take i r) :=
  (P.foot_ctorFrom hr (.inr hi) (by simpa [Op.ifMoved] using hi)).bind fun _ => P.foot_reset hi

theorem foot_callT {i : Nat} (hi : i ∈ W) (f : Fn Val β) : Foot R W (P.callT i f) :=
  (P.foot_getCheck i).bind fun _ => (P.foot_readT i).bind fun _ => (P.foot_userOp _ _).bind fun _ => Foot.ite
    ((P.foot_writeT hi _ _).bind fun _ => Foot.raise) ((P.foot_writeT hi _ _).bind fun _ => Foot.pure _)

theorem foot_call0 (b : β) : Foot R W (P.call0 b) := (P.foot_userOp _ _).bind fun _ => Foot.ite Foot.raise (Foot.pure _)

theorem foot_returnT {i : Nat} {src : Src Val} (hs : ∀ k ∈ Op.srcUses src, k ∈ R ∨ k ∈ W) (h : ∀ k ∈ src.movedOut, k ∈ W) : Foot R W (P.returnT i src) :=
  (P.foot_srcVal i src hs).bind fun _ => Foot.ite (Foot.pure _) ((P.foot_userOp _ _).bind fun _ =>
    (P.foot_srcAfter h _ _).bind fun _ => Foot.ite Foot.raise (Foot.pure _))

theorem foot_makeOption {r : Nat} (hr : r ∈ W) (x : Option Val) : Foot R W (P.makeOption r x) := by
  cases x
  · exact P.foot_ctorDefault hr
  · exact P.foot_ctorArg hr (by nofun) (by nofun)

theorem foot_allHave {is : List (Nat × Bool)} (h : ∀ p ∈ is, p.1 ∈ R ∨ p.1 ∈ W) : Foot R W (P.allHave is) := by
  induction is with
  | nil => exact Foot.pure _
  | cons p is ih => have ih := ih fun q hq => h q (List.mem_cons_of_mem _ hq)
                    exact (P.foot_hasValue p.1 (h p (List.mem_cons_self ..))).bind fun _ => Foot.ite ih (Foot.pure _)

theorem foot_dropTmp (i : Nat) : Foot R W (P.dropTmp i) := Foot.ite (Foot.pure _) (foot_note _)

theorem foot_dropTmps (is : List Nat) : Foot R W (P.dropTmps is) := by
  induction is with
  | nil => exact Foot.pure _
  | cons i is ih => exact (P.foot_dropTmp i).bind fun _ => ih

theorem foot_zipElems : ∀ {is : List (Nat × Bool)}, (∀ p ∈ is, p.1 ∈ R ∨ p.1 ∈ W) → (∀ p ∈ is, p.2 = true → p.1 ∈ W) → Foot R W (P.zipElems is)
  | [], _, _ => Foot.pure _
  | (i, mv) :: is, hu, h => by
    have hi := hu (i, mv) (List.mem_cons_self ..)
    refine (P.foot_getCheck i).bind fun _ => (P.foot_returnT (use_opt hi) (moved_opt fun k hk => ?_)).bind fun _ =>
      ((foot_zipElems (fun p hp => hu p (List.mem_cons_of_mem _ hp)) fun p hp => h p (List.mem_cons_of_mem _ hp)).onThrow (P.foot_dropTmp _)).bind fun _ => Foot.pure _
    cases mv
    · cases hk
    · rw [Op.ifMoved, if_pos rfl, List.mem_singleton] at hk
      exact hk ▸ h (i, true) (List.mem_cons_self ..) rfl

theorem foot_zipArgs {is : List Nat} (h : ∀ i ∈ is, i ∈ R ∨ i ∈ W) : Foot R W (P.zipArgs is) := by
  induction is with
  | nil => exact Foot.pure _
  | cons i is ih =>
    have ih := ih fun q hq => h q (List.mem_cons_of_mem _ hq)
    have hi := h i (List.mem_cons_self ..)
    exact (P.foot_getCheck i).bind fun _ => (P.foot_readT i).bind fun _ => ih.bind fun _ => Foot.pure _

theorem foot_applyRef {i : Nat} (hi : i ∈ W) (f : Fn Val Unit) : Foot R W (P.applyRef i f) :=
  (P.foot_readT i).bind fun _ => (P.foot_userOp _ _).bind fun _ => Foot.ite
    ((P.foot_writeT hi _ _).bind fun _ => Foot.raise) (P.foot_writeT hi _ _)

theorem foot_bindRes {x : Res α} {f : α → M World β} (h : ∀ a, x = .ok a → Foot R W (f a)) : Foot R W (Opt.liftRes x >>= f) := by
  cases x with
  | ok a => exact (h a rfl).of_eq fun _ => rfl
  | throw => exact Foot.raise.of_eq fun _ => rfl
  | verify => exact (⟨.verify, trivial, fun _ => rfl⟩ : Foot R W _)
  | ub => exact Foot.bad.of_eq fun _ => rfl

theorem foot_forLoop {i : Nat} (hi : i ∈ W) (f : Fn Val Unit) : ∀ (fuel : Nat) (it e : Ptr), Ptr.into i it →
    Foot R W (P.forLoop f fuel it e)
  | 0, _, _, _ => Foot.bad
  | fuel + 1, it, e, h => by
    refine Foot.ite (foot_bindRes fun p hp => ?_) (Foot.pure _)
    cases it with
    | null => cases hp
    | elem a k =>
      have ha : a = i := h
      subst ha
      have hp1 : p.1 = a := by
        simp only [Iter.deref, Iter.ptrDeref] at hp
        split at hp
        · cases hp; rfl
        · cases hp
      refine (P.foot_applyRef (hp1 ▸ hi) f).bind fun _ => foot_bindRes fun it' hit => foot_forLoop hi f fuel it' e ?_
      exact ptrAdd_into hit

theorem foot_begin (i : Nat) (hr : i ∈ R ∨ i ∈ W := by may_read) : Foot R W (P.begin_ i) :=
  (P.foot_hasValue i).bind fun _ => Foot.ite ((P.foot_getCheck i).bind fun _ => Foot.pure _) (Foot.pure _)

theorem foot_end (i : Nat) (hr : i ∈ R ∨ i ∈ W := by may_read) : Foot R W (P.end_ i) :=
  (P.foot_hasValue i).bind fun _ => Foot.ite ((P.foot_getCheck i).bind fun _ => Foot.liftRes _) (Foot.pure _)

theorem foot_forEach {i : Nat} (hi : i ∈ W) (fuel : Nat) (f : Fn Val Unit) : Foot R W (P.forEach fuel i f) := by
  have rest : ∀ b, Ptr.into i b → Foot R W (P.end_ i >>= fun e => P.forLoop f fuel b e) := fun b hb =>
    (P.foot_end i).bind fun e => P.foot_forLoop hi f fuel b e hb
  refine Foot.of_eq (y := P.hasValue i >>= fun h => if h = true then P.getCheck i >>= fun _ => P.end_ i >>= fun e =>
      P.forLoop f fuel (.elem i 0) e else P.end_ i >>= fun e => P.forLoop f fuel .null e)
    ((P.foot_hasValue i).bind fun h => Foot.ite ((P.foot_getCheck i).bind fun _ => rest _ rfl) (rest _ trivial)) fun w => ?_
  unfold forEach begin_
  simp only [bind_run]
  cases P.hasValue i w with
  | ok h w1 =>
    cases h with
    | false => rfl
    | true =>
      simp only [obind_ok, if_true, bind_run]
      cases P.getCheck i w1 <;> rfl
  | throw _ => rfl
  | verify => rfl
  | ub => rfl

theorem use_part {mv : Bool} {v : Val} : ∀ k ∈ Op.srcUses (partSrc mv v), k ∈ R ∨ k ∈ W := by
  cases mv <;> nofun

theorem foot_unzipElems (q : Parts Val) {i : Nat} {mv : Bool} (hu : i ∈ R ∨ i ∈ W) (hi : mv = true → i ∈ W) : ∀ {ps : List (Nat × Nat)},
    (∀ p ∈ ps, p.2 ∈ W) → Foot R W (P.unzipElems q i mv ps)
  | [], _ => Foot.pure _
  | (k, r) :: ps, h => by
    have hr : r ∈ W := h (k, r) (List.mem_cons_self ..)
    refine Foot.bind ?_ fun _ => (foot_unzipElems q hu hi fun p hp => h p (List.mem_cons_of_mem _ hp)).onThrow (P.foot_dtor hr)
    refine (P.foot_getCheck i).bind fun _ => (P.foot_readT i).bind fun v => foot_now.bind fun n => ?_
    split
    · have hi := hi (by simp_all)
      exact ((P.foot_ctorArg hr use_part moved_part).onThrow (P.foot_writeT hi _ _)).bind fun _ => P.foot_writeT hi _ _
    · exact P.foot_ctorArg hr use_part moved_part

theorem foot_unzipNone : ∀ {rs : List Nat}, (∀ r ∈ rs, r ∈ W) → Foot R W (P.unzipNone rs)
  | [], _ => Foot.pure _
  | r :: rs, h => (P.foot_ctorDefault (h r (List.mem_cons_self ..))).bind fun _ =>
    foot_unzipNone fun r hr => h r (List.mem_cons_of_mem _ hr)

theorem foot_unzipList (q : Parts Val) {i : Nat} {mv : Bool} {rs : List Nat} (hu : i ∈ R ∨ i ∈ W) (hi : mv = true → i ∈ W) (h : ∀ r ∈ rs, r ∈ W) :
    Foot R W (P.unzipList q i mv rs) :=
  (P.foot_hasValue i).bind fun _ => Foot.ite
    (P.foot_unzipElems q hu hi fun p hp => h _ (List.of_mem_zip (a := p.1) (b := p.2) hp).2) (P.foot_unzipNone h)

theorem foot_moveAll : ∀ {ms : List (Nat × Nat)}, (∀ p ∈ ms, p.1 ∈ W ∧ p.2 ∈ W) → Foot R W (P.moveAll ms)
  | [], _ => Foot.pure _
  | (r, t) :: ms, h => by
    have h0 := h (r, t) (List.mem_cons_self ..)
    exact (P.foot_ctorFrom h0.1 (.inr h0.2) (by simpa [Op.ifMoved] using h0.2)).bind fun _ =>
      (foot_moveAll fun p hp => h p (List.mem_cons_of_mem _ hp)).onThrow (P.foot_dtor h0.1)

theorem foot_dtorAll : ∀ {ts : List Nat}, (∀ t ∈ ts, t ∈ W) → Foot R W (P.dtorAll ts)
  | [], _ => Foot.pure _
  | t :: ts, h => (P.foot_dtor (h t (List.mem_cons_self ..))).bind fun _ =>
    foot_dtorAll fun t ht => h t (List.mem_cons_of_mem _ ht)


theorem foot_runOp (op : Op Val) : Foot op.uses op.changes (P.runOp op) := by
  have wrap : ∀ {R W : List Nat} {α : Type} {x : M World α} (f : α → Ret Val), Foot R W x → Foot R W (asRet f x) := fun f h =>
    h.bind fun _ => Foot.pure _
  have hh : ∀ {a : Nat} {l : List Nat}, a ∈ a :: l := List.mem_cons_self ..
  have ht : ∀ {a : Nat} {l : List Nat}, ∀ k ∈ l, k ∈ a :: l := fun _ h => List.mem_cons_of_mem _ h
  have u0 : ∀ {a : Nat} {l W : List Nat}, a ∈ a :: l ∨ a ∈ W := .inl hh
  have u1 : ∀ {a b : Nat} {l W : List Nat}, b ∈ a :: b :: l ∨ b ∈ W := .inl (ht _ hh)
  have us : ∀ {src : Src Val} {W : List Nat}, ∀ k ∈ Op.srcUses src, k ∈ Op.srcUses src ∨ k ∈ W := fun _ h => .inl h
  have ut : ∀ {a : Nat} {src : Src Val} {W : List Nat}, ∀ k ∈ Op.srcUses src, k ∈ a :: Op.srcUses src ∨ k ∈ W := fun _ h => .inl (ht _ h)
  cases op with
  | ctorDefault i => exact wrap _ (P.foot_ctorDefault hh)
  | ctorValue i src => exact wrap _ ((P.foot_evalArg src us).bind fun _ => P.foot_ctorArg hh us ht)
  | ctorFrom i j mv => exact wrap _ (P.foot_ctorFrom hh u0 ht)
  | dtor i => exact wrap _ (P.foot_dtor hh)
  | reset i => exact wrap _ (P.foot_reset hh)
  | assignFrom i j mv => exact wrap _ (P.foot_assignFrom hh u1 ht)
  | assignValue i src => exact wrap _ (P.foot_assignValue hh ut ht)
  | emplace i src =>
    exact wrap _ ((P.foot_evalArg src ut).bind fun _ => (P.foot_reset hh).bind fun _ => (P.foot_construct hh ut ht).bind fun _ =>
      P.foot_getCheck i u0)
  | tryEmplace i src =>
    exact wrap _ ((P.foot_evalArg src ut).bind fun _ => (P.foot_hasValue i u0).bind fun _ => Foot.ite (P.foot_getCheck i u0)
      ((P.foot_construct hh ut ht).bind fun _ => P.foot_getCheck i u0))
  | swap i j =>
    have hi : i ∈ [i, j] := hh
    have hj : j ∈ [i, j] := ht _ hh
    refine wrap _ ((P.foot_hasValue i u0).bind fun a => (P.foot_hasValue j u1).bind fun b =>
      Foot.ite (Foot.pure _) (Foot.ite (P.foot_swapT hi hj) (Foot.ite ?_ ?_)))
    · exact (P.foot_getCheck i u0).bind fun _ => (P.foot_construct hj (use_opt (.inr hi)) (moved_opt (by simpa [Op.ifMoved] using hi))).bind fun _ =>
        P.foot_reset hi
    · exact (P.foot_getCheck j u1).bind fun _ => (P.foot_construct hi (use_opt (.inr hj)) (moved_opt (by simpa [Op.ifMoved] using hj))).bind fun _ =>
        P.foot_reset hj
  | take i r => exact wrap _ (P.foot_take hh (ht _ hh))
  | takeIf i r f =>
    exact wrap _ ((P.foot_hasValue i u0).bind fun _ => Foot.ite ((P.foot_callT hh f).bind fun _ =>
      Foot.ite (P.foot_take hh (ht _ hh)) (P.foot_ctorDefault (ht _ hh))) (P.foot_ctorDefault (ht _ hh)))
  | hasValue i => exact wrap _ (P.foot_hasValue i u0)
  | get i => exact wrap _ ((P.foot_getCheck i u0).bind fun _ => P.foot_readT i u0)
  | getUnchecked i => exact wrap _ (P.foot_readT i u0)
  | valueOrThrow i =>
    exact wrap _ ((P.foot_hasValue i u0).bind fun _ => Foot.ite Foot.raise ((P.foot_getCheck i u0).bind fun _ => P.foot_readT i u0))
  | ptrOrNull i =>
    exact wrap _ ((P.foot_hasValue i u0).bind fun _ => Foot.ite ((P.foot_getCheck i u0).bind fun _ => (P.foot_readT i u0).bind fun _ =>
      Foot.pure _) (Foot.pure _))
  | valueOr i mv d =>
    exact wrap _ ((P.foot_evalArg d ut).bind fun _ => (P.foot_hasValue i u0).bind fun _ => Foot.ite ((P.foot_getCheck i u0).bind fun _ =>
      P.foot_returnT (use_opt u0) (moved_opt fun k hk => List.mem_append_left _ hk)) (P.foot_returnT ut fun k hk => List.mem_append_right _ hk))
  | hasValueAnd i f => exact wrap _ ((P.foot_hasValue i u0).bind fun _ => Foot.ite (P.foot_callT hh f) (Foot.pure _))
  | inspect i f => exact wrap _ ((P.foot_hasValue i u0).bind fun _ => Foot.ite (P.foot_callT hh f) (Foot.pure _))
  | mapOr i d f =>
    exact wrap _ ((P.foot_hasValue i u0).bind fun _ => Foot.ite (P.foot_callT hh f)
      ((P.foot_userOp _ _).bind fun _ => Foot.ite Foot.raise (Foot.pure _)))
  | mapOrElse i d f => exact wrap _ ((P.foot_hasValue i u0).bind fun _ => Foot.ite (P.foot_callT hh f) (P.foot_call0 d))
  | map i r f =>
    have hr : r ∈ [i, r] := ht _ hh
    refine wrap _ ((P.foot_hasValue i u0).bind fun _ => Foot.ite ((P.foot_getCheck i u0).bind fun _ => (P.foot_newObj hr).bind fun _ => ?_)
      (P.foot_ctorDefault hr))
    exact Foot.bind (Foot.onThrow ((P.foot_callT hh f).bind fun _ => P.foot_constructInPlace hr (by nofun) (by nofun)) (foot_delObj hr))
      fun _ => P.foot_seal hr
  | andThen i r f =>
    exact wrap _ ((P.foot_hasValue i u0).bind fun _ => Foot.ite ((P.foot_callT hh f).bind fun _ => P.foot_makeOption (ht _ hh) _)
      (P.foot_ctorDefault (ht _ hh)))
  | orElse i r mv x =>
    exact wrap _ ((P.foot_hasValue i u0).bind fun _ => Foot.ite (P.foot_ctorFrom hh u0 ht) ((P.foot_call0 x).bind fun _ =>
      P.foot_makeOption hh _))
  | filter i r mv f =>
    have hr : r ∈ [i, r] := ht _ hh
    refine wrap _ ((P.foot_hasValue i u0).bind fun _ => Foot.ite ((P.foot_callT hh f).bind fun _ =>
      Foot.ite ((P.foot_getCheck i u0).bind fun _ => P.foot_ctorArg hr (use_opt u0) (moved_opt ?_)) (P.foot_ctorDefault hr)) (P.foot_ctorDefault hr))
    cases mv
    · nofun
    · simp [Op.ifMoved]
  | orOp i j r mi mj =>
    exact wrap _ ((P.foot_hasValue i u0).bind fun _ => Foot.ite
      (P.foot_ctorFrom hh u0 fun k hk => ht _ (List.mem_append_left _ hk)) (P.foot_ctorFrom hh u1 fun k hk => ht _ (List.mem_append_right _ hk)))
  | orAssignValue i src =>
    exact wrap _ ((P.foot_evalArg src ut).bind fun _ => (P.foot_hasValue i u0).bind fun _ => Foot.ite (P.foot_assignValue hh ut ht) (Foot.pure _))
  | orAssignFrom i j mv => exact wrap _ ((P.foot_hasValue i u0).bind fun _ => Foot.ite (P.foot_assignFrom hh u1 ht) (Foot.pure _))
  | andOp i j r mv => exact wrap _ ((P.foot_hasValue i u0).bind fun _ => Foot.ite (P.foot_ctorFrom hh u1 ht) (P.foot_ctorDefault hh))
  | xorOp i j r mi mj =>
    exact wrap _ ((P.foot_hasValue i u0).bind fun _ => (P.foot_hasValue j u1).bind fun _ => Foot.ite
      (P.foot_ctorFrom hh u0 fun k hk => ht _ (List.mem_append_left _ hk)) (Foot.ite
      (P.foot_ctorFrom hh u1 fun k hk => ht _ (List.mem_append_right _ hk)) (P.foot_ctorDefault hh)))
  | zip is r g =>
    refine wrap _ ((P.foot_allHave fun p hp => .inl (List.mem_map_of_mem hp)).bind fun _ => Foot.ite ((P.foot_zipElems (fun p hp => .inl (List.mem_map_of_mem hp)) fun p hp h2 => ?_).bind fun _ =>
      ((P.foot_ctorArg hh (by nofun) (by nofun)).onThrow (P.foot_dropTmps _)).bind fun _ => P.foot_dropTmps _) (P.foot_ctorDefault hh))
    exact ht _ (List.mem_map_of_mem (List.mem_filter.2 ⟨hp, h2⟩))
  | zipWith is r g =>
    exact wrap _ ((P.foot_allHave fun p hp => by
      obtain ⟨a, ha, rfl⟩ := List.mem_map.1 hp
      exact .inl ha).bind fun _ => Foot.ite ((P.foot_zipArgs fun i hi => .inl hi).bind fun _ =>
      (P.foot_call0 _).bind fun _ => ((P.foot_ctorArg hh (by nofun) (by nofun)).onThrow (P.foot_dropTmp _)).bind fun _ =>
      P.foot_dropTmp _) (P.foot_ctorDefault hh))
  | ioWrite i d =>
    refine wrap _ ((P.foot_hasValue i u0).bind fun _ => Foot.ite ((P.foot_getCheck i u0).bind fun _ => (P.foot_readT i u0).bind fun _ =>
      P.foot_call0 _) ?_)
    cases d
    · exact Foot.pure _
    · exact P.foot_call0 _
  | ioRead i d v =>
    exact wrap _ ((P.foot_hasValue i u0).bind fun _ => Foot.ite ((P.foot_callT hh _).bind fun _ => Foot.pure _) (P.foot_call0 v))
  | cmp o rel i j =>
    exact wrap _ ((P.foot_hasValue i u0).bind fun _ => (P.foot_hasValue j u1).bind fun _ => Foot.ite
      (((P.foot_getCheck i u0).bind fun _ => P.foot_readT i u0).bind fun _ =>
        ((P.foot_getCheck j u1).bind fun _ => P.foot_readT j u1).bind fun _ => P.foot_call0 _) (Foot.pure _))
  | cmpNone o i =>
    cases o <;> first
      | exact wrap _ (Foot.pure _)
      | exact wrap _ (P.foot_hasValue i u0)
      | exact wrap _ ((P.foot_hasValue i u0).bind fun _ => Foot.pure _)
  | noneCmp o i =>
    cases o <;> first
      | exact wrap _ (Foot.pure _)
      | exact wrap _ (P.foot_hasValue i u0)
      | exact wrap _ ((P.foot_hasValue i u0).bind fun _ => Foot.pure _)
  | cmpVal o rel i v =>
    exact wrap _ ((P.foot_hasValue i u0).bind fun _ => Foot.ite (((P.foot_getCheck i u0).bind fun _ => P.foot_readT i u0).bind fun _ =>
      P.foot_call0 _) (Foot.pure _))
  | valCmp o rel v i =>
    exact wrap _ ((P.foot_hasValue i u0).bind fun _ => Foot.ite (((P.foot_getCheck i u0).bind fun _ => P.foot_readT i u0).bind fun _ =>
      P.foot_call0 _) (Foot.pure _))
  | hash i f =>
    exact wrap _ ((P.foot_hasValue i u0).bind fun _ => Foot.ite (((P.foot_getCheck i u0).bind fun _ => P.foot_readT i u0).bind fun _ =>
      P.foot_call0 _) (Foot.pure _))
  | forEach i f => exact wrap _ (P.foot_forEach hh 2 f)
  | unzipArray q i mv rs =>
    refine wrap _ (P.foot_unzipList q u0 (fun h => ?_) fun r hr => List.mem_append_left _ hr)
    exact List.mem_append_right _ (by simp [Op.ifMoved, h])
  | unzipTuple q i mv ts ms =>
    have hts : ∀ t ∈ ts, t ∈ (Op.unzipTuple q i mv ts ms).changes := fun t ht => by simp [Op.changes, ht]
    refine wrap _ ((P.foot_unzipList q u0 (fun h => ?_) hts).bind fun _ =>
      ((P.foot_moveAll fun p hp => ⟨?_, ?_⟩).onThrow (P.foot_dtorAll fun t ht => hts t (List.mem_reverse.1 ht))).bind fun _ =>
        P.foot_dtorAll fun t ht => hts t (List.mem_reverse.1 ht))
    · exact List.mem_append_right _ (by simp [Op.ifMoved, h])
    · have := List.mem_map_of_mem (f := Prod.fst) hp
      simp only [Op.changes, List.mem_append]
      exact .inl (.inl (.inr this))
    · have := List.mem_map_of_mem (f := Prod.snd) hp
      simp only [Op.changes, List.mem_append]
      exact .inl (.inr this)

theorem foot_run (ops : List (Op Val)) : Foot (usedBy ops) (changedBy ops) (P.run ops) := by
  induction ops with
  | nil => exact Foot.pure _
  | cons op ops ih =>
    refine (Foot.catch_ ((P.foot_runOp op).mono ?_ ?_)).bind fun r => (ih.mono ?_ ?_).bind fun rs => Foot.pure _
    · exact fun k hk => List.mem_append_left _ hk
    · exact fun k hk => List.mem_append_left _ hk
    · exact fun k hk => List.mem_append_right _ hk
    · exact fun k hk => List.mem_append_right _ hk

end Prog

end Opt
