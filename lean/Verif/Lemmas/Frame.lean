import Verif.Spec.Frame
import Verif.Lemmas.MachineRun

/-!
# Operations change only what they may change
-/

namespace Opt

variable {α β Val : Type} {S : List Nat}

/-- see `LeavesAlone` -/
def Only (S : List Nat) (x : M World α) : Prop := ∀ w, LeavesAlone S w (x w)

theorem Only.pure (a : α) : Only S (pure a : M World α) := fun _ _ _ => rfl
theorem Only.bad : Only S (M.bad : M World α) := fun _ => trivial
theorem Only.raise : Only S (M.raise : M World α) := fun _ _ _ => rfl
theorem Only.check (b : Bool) : Only S (M.check b) := by
  intro w
  cases b
  · trivial
  · exact fun _ _ => rfl

theorem Only.bind {x : M World α} {f : α → M World β} (h : Only S x) (hf : ∀ a, Only S (f a)) : Only S (x >>= f) := by
  intro w
  have h1 := h w
  rw [bind_run]
  cases hw : x w with
  | ok a w' =>
    rw [hw] at h1
    have h2 := hf a w'
    rw [obind_ok]
    cases hfw : f a w' with
    | ok b w'' => rw [hfw] at h2; exact fun k hk => (h2 k hk).trans (h1 k hk)
    | throw w'' => rw [hfw] at h2; exact fun k hk => (h2 k hk).trans (h1 k hk)
    | verify => trivial
    | ub => trivial
  | throw w' => rw [hw] at h1; exact h1
  | verify => trivial
  | ub => trivial

theorem Only.ite {c : Prop} [Decidable c] {x y : M World α} (hx : Only S x) (hy : Only S y) :
    Only S (if c then x else y) := by
  split
  · exact hx
  · exact hy

theorem Only.onThrow {x : M World α} {h : M World Unit} (hx : Only S x) (hh : Only S h) : Only S (M.onThrow x h) := by
  intro w
  have h1 := hx w
  unfold M.onThrow
  cases hw : x w with
  | ok a w' => rw [hw] at h1; exact h1
  | throw w' =>
    rw [hw] at h1
    have h2 := hh w'
    dsimp only
    cases hc : h w' with
    | ok a w'' => rw [hc] at h2; exact fun k hk => (h2 k hk).trans (h1 k hk)
    | throw w'' => trivial
    | verify => trivial
    | ub => trivial
  | verify => trivial
  | ub => trivial

theorem Only.mono {S' : List Nat} {x : M World α} (h : Only S x) (hs : ∀ k ∈ S, k ∈ S') : Only S' x := by
  intro w
  have h1 := h w
  cases hw : x w with
  | ok a w' => rw [hw] at h1; exact fun k hk => h1 k fun hk' => hk (hs k hk')
  | throw w' => rw [hw] at h1; exact fun k hk => h1 k fun hk' => hk (hs k hk')
  | verify => trivial
  | ub => trivial

theorem Only.liftRes (x : Res α) : Only S (liftRes x : M World α) := by
  cases x with
  | ok a => exact Only.pure a
  | throw => exact Only.raise
  | verify => exact (Only.check false).bind fun _ => Only.bad
  | ub => exact Only.bad

namespace Prog

variable (P : Prog Val)

theorem only_userOp (a b : Event) : Only S (P.userOp a b) := fun _ _ _ => rfl
theorem only_note (e : Event) : Only S (note e) := fun _ _ _ => rfl
theorem only_now : Only S now := fun _ _ _ => rfl

theorem only_obj (i : Nat) : Only S (obj i) := by
  intro w
  unfold obj
  cases w.mem i with
  | none => trivial
  | some o => exact fun _ _ => rfl

theorem only_setObj {i : Nat} (h : i ∈ S) (o : Obj) : Only S (setObj i o) :=
  fun _ k hk => upd_other _ _ (fun e => hk (e ▸ h))

theorem only_delObj {i : Nat} (h : i ∈ S) : Only S (delObj i) :=
  fun _ k hk => upd_other _ _ (fun e => hk (e ▸ h))

theorem only_newObj {i : Nat} (h : i ∈ S) : Only S (P.newObj i) := by
  intro w
  unfold newObj
  cases w.mem i with
  | some o => trivial
  | none => exact fun k hk => upd_other _ _ (fun e => hk (e ▸ h))

theorem only_setPayload {i : Nat} (h : i ∈ S) (b : Bytes) (a : Bool) : Only S (setPayload i b a) :=
  (only_obj i).bind fun _ => only_setObj h _

theorem only_setFlag {i : Nat} (h : i ∈ S) (b : Bool) : Only S (P.setFlag i b) := (only_obj i).bind fun _ => only_setObj h _

theorem only_setLevel0 {i : Nat} (h : i ∈ S) : Only S (P.setLevel0 i) := by
  refine (only_obj i).bind fun o => ?_
  show Only S (match ((P.elem i).T.sizeTraits P.pw).2.setLevel o.bytes 0 with
    | .ok b => setObj i ⟨b, false⟩
    | .throw => M.raise
    | .verify => M.check false
    | .ub => M.bad)
  cases ((P.elem i).T.sizeTraits P.pw).2.setLevel o.bytes 0 with
  | ok b => exact only_setObj h _
  | throw => exact Only.raise
  | verify => exact Only.check _
  | ub => exact Only.bad

theorem only_readT (j : Nat) : Only S (P.readT j) := (only_obj j).bind fun _ => Only.ite (Only.pure _) Only.bad

theorem only_writeT {j : Nat} (h : j ∈ S) (n : Nat) (v : Val) : Only S (P.writeT j n v) :=
  (only_obj j).bind fun _ => Only.ite (only_setPayload h _ _) Only.bad

theorem only_srcVal (i : Nat) (src : Src Val) : Only S (P.srcVal i src) := by
  cases src
  case opt j mv => exact (P.only_readT j).bind fun _ => Only.pure _
  all_goals exact Only.pure _

theorem only_srcAfter {src : Src Val} (h : ∀ k ∈ src.movedOut, k ∈ S) (b : Bool) (n : Nat) : Only S (P.srcAfter b n src) := by
  cases src
  case opt j mv =>
    cases mv
    · exact Only.pure _
    · exact (P.only_readT j).bind fun _ => P.only_writeT (h j (List.mem_cons_self ..)) _ _
  all_goals exact Only.pure _

theorem only_srcBytes (i : Nat) (v : Val) (old : Bytes) (src : Src Val) : Only S (P.srcBytes i v old src) := by
  cases src
  case opt j mv => exact (only_obj j).bind fun _ => Only.pure _
  all_goals exact only_now.bind fun _ => Only.pure _

theorem only_constructInPlace {i : Nat} {src : Src Val} (hi : i ∈ S) (h : ∀ k ∈ src.movedOut, k ∈ S) :
    Only S (P.constructInPlace i src) := by
  refine (only_obj i).bind fun o => Only.ite Only.bad (Only.ite Only.bad ?_)
  refine (P.only_srcVal i src).bind fun v => Only.ite ?_ ?_
  · exact (P.only_srcBytes _ _ _ _).bind fun _ => only_setPayload hi _ _
  · exact (P.only_userOp _ _).bind fun p => Only.ite
      ((P.only_srcAfter h _ _).bind fun _ => Only.ite Only.raise ((only_setPayload hi _ _).bind fun _ => Only.raise))
      ((P.only_srcAfter h _ _).bind fun _ => only_setPayload hi _ _)

theorem only_constructByAssign {i : Nat} {src : Src Val} (hi : i ∈ S) (h : ∀ k ∈ src.movedOut, k ∈ S) :
    Only S (P.constructByAssign i src) := by
  refine (only_obj i).bind fun o => (P.only_srcVal i src).bind fun v => Only.ite ?_ (Only.ite ?_ ?_)
  · exact (P.only_srcBytes _ _ _ _).bind fun _ => only_setPayload hi _ _
  · exact (P.only_userOp _ _).bind fun p => (P.only_srcAfter h _ _).bind fun _ => Only.ite Only.raise (only_setPayload hi _ _)
  · exact (P.only_userOp _ _).bind fun p => (P.only_srcAfter h _ _).bind fun _ => Only.ite Only.raise
      ((only_setPayload hi _ _).bind fun _ => only_note _)

theorem only_destroyT {i : Nat} (hi : i ∈ S) : Only S (P.destroyT i) :=
  (only_obj i).bind fun _ => Only.ite ((only_note _).bind fun _ => only_now.bind fun _ => only_setPayload hi _ _) Only.bad

theorem only_assignT {i : Nat} {src : Src Val} (hi : i ∈ S) (h : ∀ k ∈ src.movedOut, k ∈ S) : Only S (P.assignT i src) := by
  refine (only_obj i).bind fun o => Only.ite Only.bad (Only.ite ?_ ?_)
  · exact (P.only_srcVal i src).bind fun v => (P.only_srcBytes _ _ _ _).bind fun _ => only_setPayload hi _ _
  · refine (P.only_readT i).bind fun old => (P.only_srcVal i src).bind fun v => (P.only_userOp _ _).bind fun p =>
      Only.ite ((P.only_srcAfter h _ _).bind fun _ => (P.only_writeT hi _ _).bind fun _ => Only.raise) (Only.ite ?_ ?_)
    · cases src
      case opt j mv => cases mv <;> exact P.only_writeT hi _ _
      all_goals exact P.only_writeT hi _ _
    · exact (P.only_srcAfter h _ _).bind fun _ => P.only_writeT hi _ _

theorem only_swapT {i j : Nat} (hi : i ∈ S) (hj : j ∈ S) : Only S (P.swapT i j) :=
  (P.only_readT i).bind fun _ => (P.only_readT j).bind fun _ => (P.only_userOp _ _).bind fun _ => Only.ite
    ((P.only_writeT hi _ _).bind fun _ => (P.only_writeT hj _ _).bind fun _ => Only.raise)
    ((P.only_writeT hi _ _).bind fun _ => P.only_writeT hj _ _)

theorem only_hasValue (i : Nat) : Only S (P.hasValue i) :=
  (only_obj i).bind fun _ => Only.ite Only.bad (Only.pure _)

theorem only_getCheck (i : Nat) : Only S (P.getCheck i) := (P.only_hasValue i).bind fun _ => Only.check _

theorem only_evalArg (src : Src Val) : Only S (P.evalArg src) := by
  cases src
  case opt j mv => exact P.only_getCheck j
  all_goals exact Only.pure _

theorem only_ctorDefault {i : Nat} (hi : i ∈ S) : Only S (P.ctorDefault i) :=
  (P.only_newObj hi).bind fun _ => Only.ite
    ((only_setPayload hi _ _).bind fun _ => (P.only_setLevel0 hi).bind fun _ => (P.only_hasValue i).bind fun _ =>
      Only.check _)
    (P.only_setFlag hi _)

theorem only_seal {i : Nat} (hi : i ∈ S) : Only S (if (P.elem i).sent P.pw = true then P.hasValue i >>= fun h => M.check h
    else P.setFlag i true) :=
  Only.ite ((P.only_hasValue i).bind fun _ => Only.check _) (P.only_setFlag hi _)

theorem only_construct {i : Nat} {src : Src Val} (hi : i ∈ S) (h : ∀ k ∈ src.movedOut, k ∈ S) : Only S (P.construct i src) :=
  Only.bind (Only.ite (P.only_constructInPlace hi h) (P.only_constructByAssign hi h)) fun _ => P.only_seal hi

theorem only_ctorArg {i : Nat} {src : Src Val} (hi : i ∈ S) (h : ∀ k ∈ src.movedOut, k ∈ S) : Only S (P.ctorArg i src) :=
  (P.only_newObj hi).bind fun _ =>
    Only.bind ((P.only_constructInPlace hi h).onThrow (only_delObj hi)) fun _ => P.only_seal hi

theorem only_reset {i : Nat} (hi : i ∈ S) : Only S (P.reset i) := by
  have h0 : Only S (P.setLevel0 i >>= fun _ => P.hasValue i >>= fun h => M.check (!h)) :=
    (P.only_setLevel0 hi).bind fun _ => (P.only_hasValue i).bind fun _ => Only.check _
  refine Only.ite (Only.ite h0 (P.only_setFlag hi _)) ?_
  refine (P.only_hasValue i).bind fun h => Only.ite ((P.only_destroyT hi).bind fun _ => ?_) (Only.pure _)
  exact Only.ite h0 (P.only_setFlag hi _)

theorem only_dtor {i : Nat} (hi : i ∈ S) : Only S (P.dtor i) :=
  Only.ite ((only_obj i).bind fun _ => only_delObj hi)
    ((P.only_hasValue i).bind fun _ => Only.ite ((P.only_destroyT hi).bind fun _ => only_delObj hi) (only_delObj hi))

theorem moved_opt {j : Nat} {mv : Bool} (h : ∀ k ∈ Op.ifMoved j mv, k ∈ S) : ∀ k ∈ (Src.opt j mv : Src Val).movedOut, k ∈ S := by
  cases mv
  · nofun
  · exact h

theorem only_ctorFrom {i j : Nat} {mv : Bool} (hi : i ∈ S) (h : ∀ k ∈ Op.ifMoved j mv, k ∈ S) : Only S (P.ctorFrom i j mv) := by
  have hb : Only S (P.copyBytesNew i j) :=
    (only_obj j).bind fun _ => (P.only_newObj hi).bind fun _ => only_setObj hi _
  have hm : Only S (P.ctorManual i j mv) := by
    refine (P.only_ctorDefault hi).bind fun _ => Only.onThrow ?_ (P.only_dtor hi)
    refine (P.only_hasValue j).bind fun h => Only.ite ?_ (Only.pure _)
    split
    · exact (Only.pure ()).bind fun _ => P.only_construct hi (moved_opt ‹_›)
    · exact (P.only_getCheck j).bind fun _ => P.only_construct hi (moved_opt ‹_›)
  unfold ctorFrom
  exact Only.ite (Only.ite hb hm) hm

theorem only_assignFrom {i j : Nat} {mv : Bool} (hi : i ∈ S) (h : ∀ k ∈ Op.ifMoved j mv, k ∈ S) : Only S (P.assignFrom i j mv) := by
  have hb : Only S (copyBytes i j) := (only_obj j).bind fun _ => (only_obj i).bind fun _ => only_setObj hi _
  have hm : Only S (P.assignManual i j mv) := by
    refine (P.only_hasValue j).bind fun hj => Only.ite ?_ (P.only_reset hi)
    refine (P.only_hasValue i).bind fun _ => Only.ite (Only.ite (P.only_assignT hi (moved_opt h)) ?_) ?_
    · exact (P.only_getCheck j).bind fun _ => (P.only_assignT hi (moved_opt h)).bind fun _ => P.only_getCheck i
    · split
      · exact (Only.pure ()).bind fun _ => P.only_construct hi (moved_opt h)
      · exact (P.only_getCheck j).bind fun _ => P.only_construct hi (moved_opt h)
  unfold assignFrom
  exact Only.ite (Only.ite hb hm) hm

theorem only_assignValue {i : Nat} {src : Src Val} (hi : i ∈ S) (h : ∀ k ∈ src.movedOut, k ∈ S) :
    Only S (P.assignValue i src) := by
  refine (P.only_evalArg src).bind fun _ => Only.ite (P.only_construct hi h) ?_
  exact (P.only_hasValue i).bind fun _ => Only.ite
    ((P.only_assignT hi h).bind fun _ => P.only_getCheck i) (P.only_construct hi h)

theorem only_take {i r : Nat} (hi : i ∈ S) (hr : r ∈ S) : Only S (P.take i r) :=
  (P.only_ctorFrom hr (by simpa [Op.ifMoved] using hi)).bind fun _ => P.only_reset hi

theorem only_callT {i : Nat} (hi : i ∈ S) (f : Fn Val β) : Only S (P.callT i f) :=
  (P.only_getCheck i).bind fun _ => (P.only_readT i).bind fun _ => (P.only_userOp _ _).bind fun _ => Only.ite
    ((P.only_writeT hi _ _).bind fun _ => Only.raise) ((P.only_writeT hi _ _).bind fun _ => Only.pure _)

theorem only_call0 (b : β) : Only S (P.call0 b) := (P.only_userOp _ _).bind fun _ => Only.ite Only.raise (Only.pure _)

theorem only_returnT {i : Nat} {src : Src Val} (h : ∀ k ∈ src.movedOut, k ∈ S) : Only S (P.returnT i src) :=
  (P.only_srcVal i src).bind fun _ => Only.ite (Only.pure _) ((P.only_userOp _ _).bind fun _ =>
    (P.only_srcAfter h _ _).bind fun _ => Only.ite Only.raise (Only.pure _))

theorem only_makeOption {r : Nat} (hr : r ∈ S) (x : Option Val) : Only S (P.makeOption r x) := by
  cases x
  · exact P.only_ctorDefault hr
  · exact P.only_ctorArg hr (by nofun)

theorem only_allHave (is : List (Nat × Bool)) : Only S (P.allHave is) := by
  induction is with
  | nil => exact Only.pure _
  | cons p is ih => exact (P.only_hasValue p.1).bind fun _ => Only.ite ih (Only.pure _)

theorem only_dropTmp (i : Nat) : Only S (P.dropTmp i) := Only.ite (Only.pure _) (only_note _)

theorem only_dropTmps (is : List Nat) : Only S (P.dropTmps is) := by
  induction is with
  | nil => exact Only.pure _
  | cons i is ih => exact (P.only_dropTmp i).bind fun _ => ih

theorem only_zipElems : ∀ {is : List (Nat × Bool)}, (∀ p ∈ is, p.2 = true → p.1 ∈ S) → Only S (P.zipElems is)
  | [], _ => Only.pure _
  | (i, mv) :: is, h => by
    refine (P.only_getCheck i).bind fun _ => (P.only_returnT (moved_opt fun k hk => ?_)).bind fun _ =>
      ((only_zipElems fun p hp => h p (List.mem_cons_of_mem _ hp)).onThrow (P.only_dropTmp _)).bind fun _ => Only.pure _
    cases mv
    · cases hk
    · rw [Op.ifMoved, if_pos rfl, List.mem_singleton] at hk
      exact hk ▸ h (i, true) (List.mem_cons_self ..) rfl

theorem only_zipArgs (is : List Nat) : Only S (P.zipArgs is) := by
  induction is with
  | nil => exact Only.pure _
  | cons i is ih =>
    exact (P.only_getCheck i).bind fun _ => (P.only_readT i).bind fun _ => ih.bind fun _ => Only.pure _

theorem only_applyRef {i : Nat} (hi : i ∈ S) (f : Fn Val Unit) : Only S (P.applyRef i f) :=
  (P.only_readT i).bind fun _ => (P.only_userOp _ _).bind fun _ => Only.ite
    ((P.only_writeT hi _ _).bind fun _ => Only.raise) (P.only_writeT hi _ _)

/-- an iterator into the contents of option `i`, or null -/
def Ptr.into (i : Nat) : Ptr → Prop
  | .null => True
  | .elem a _ => a = i

theorem only_bindRes {x : Res α} {f : α → M World β} (h : ∀ a, x = .ok a → Only S (f a)) : Only S (Opt.liftRes x >>= f) := by
  cases x with
  | ok a => exact fun w => h a rfl w
  | throw => exact fun _ _ _ => rfl
  | verify => exact fun _ => trivial
  | ub => exact fun _ => trivial

theorem ptrAdd_into {len : Nat → Nat} {a i : Nat} {n : Int} {q : Ptr} (h : Iter.ptrAdd len a i n = .ok q) : Ptr.into a q := by
  unfold Iter.ptrAdd at h
  split at h
  · cases h; rfl
  · cases h

theorem only_forLoop {i : Nat} (hi : i ∈ S) (f : Fn Val Unit) : ∀ (fuel : Nat) (it e : Ptr), Ptr.into i it →
    Only S (P.forLoop f fuel it e)
  | 0, _, _, _ => Only.bad
  | fuel + 1, it, e, h => by
    refine Only.ite (only_bindRes fun p hp => ?_) (Only.pure _)
    cases it with
    | null => cases hp
    | elem a k =>
      have ha : a = i := h
      subst ha
      have hp1 : p.1 = a := by
        simp only [Iter.deref, Iter.ptrDeref] at hp
        split at hp
        · cases hp; rfl
        · cases hp
      refine (P.only_applyRef (hp1 ▸ hi) f).bind fun _ => only_bindRes fun it' hit => only_forLoop hi f fuel it' e ?_
      exact ptrAdd_into hit

theorem begin_into (i : Nat) (w : World) {p : Ptr} {w' : World} (h : P.begin_ i w = .ok p w') : Ptr.into i p := by
  unfold begin_ at h
  rw [bind_run] at h
  cases h1 : P.hasValue i w with
  | ok b w1 =>
    rw [h1, obind_ok] at h
    cases b with
    | false => cases h; trivial
    | true =>
      simp only [if_true, bind_run] at h
      cases h2 : P.getCheck i w1 with
      | ok _ w2 => rw [h2] at h; cases h; rfl
      | throw _ => rw [h2] at h; cases h
      | verify => rw [h2] at h; cases h
      | ub => rw [h2] at h; cases h
  | throw _ => rw [h1] at h; cases h
  | verify => rw [h1] at h; cases h
  | ub => rw [h1] at h; cases h

theorem only_begin (i : Nat) : Only S (P.begin_ i) :=
  (P.only_hasValue i).bind fun _ => Only.ite ((P.only_getCheck i).bind fun _ => Only.pure _) (Only.pure _)

theorem only_end (i : Nat) : Only S (P.end_ i) :=
  (P.only_hasValue i).bind fun _ => Only.ite ((P.only_getCheck i).bind fun _ => Only.liftRes _) (Only.pure _)

theorem only_forEach {i : Nat} (hi : i ∈ S) (fuel : Nat) (f : Fn Val Unit) : Only S (P.forEach fuel i f) := by
  intro w
  unfold forEach
  rw [bind_run]
  have h1 := P.only_begin (S := S) i w
  cases hb : P.begin_ i w with
  | ok b w1 =>
    rw [hb] at h1
    have h2 := (P.only_end (S := S) i).bind (fun e => P.only_forLoop hi f fuel b e (P.begin_into i w hb)) w1
    rw [obind_ok]
    revert h2
    cases (P.end_ i >>= fun e => P.forLoop f fuel b e) w1 with
    | ok _ w2 => exact fun h2 k hk => (h2 k hk).trans (h1 k hk)
    | throw w2 => exact fun h2 k hk => (h2 k hk).trans (h1 k hk)
    | verify => exact fun _ => trivial
    | ub => exact fun _ => trivial
  | throw _ => rw [hb] at h1; exact h1
  | verify => trivial
  | ub => trivial

theorem moved_part {mv : Bool} {v : Val} : ∀ k ∈ (partSrc mv v).movedOut, k ∈ S := by
  cases mv <;> nofun

theorem only_unzipElems (q : Parts Val) {i : Nat} {mv : Bool} (hi : mv = true → i ∈ S) : ∀ {ps : List (Nat × Nat)},
    (∀ p ∈ ps, p.2 ∈ S) → Only S (P.unzipElems q i mv ps)
  | [], _ => Only.pure _
  | (k, r) :: ps, h => by
    have hr : r ∈ S := h (k, r) (List.mem_cons_self ..)
    refine Only.bind ?_ fun _ => (only_unzipElems q hi fun p hp => h p (List.mem_cons_of_mem _ hp)).onThrow (P.only_dtor hr)
    refine (P.only_getCheck i).bind fun _ => (P.only_readT i).bind fun v => only_now.bind fun n => ?_
    split
    · have hi := hi (by simp_all)
      exact ((P.only_ctorArg hr moved_part).onThrow (P.only_writeT hi _ _)).bind fun _ => P.only_writeT hi _ _
    · exact P.only_ctorArg hr moved_part

theorem only_unzipNone : ∀ {rs : List Nat}, (∀ r ∈ rs, r ∈ S) → Only S (P.unzipNone rs)
  | [], _ => Only.pure _
  | r :: rs, h => (P.only_ctorDefault (h r (List.mem_cons_self ..))).bind fun _ =>
    only_unzipNone fun r hr => h r (List.mem_cons_of_mem _ hr)

theorem only_unzipList (q : Parts Val) {i : Nat} {mv : Bool} {rs : List Nat} (hi : mv = true → i ∈ S) (h : ∀ r ∈ rs, r ∈ S) :
    Only S (P.unzipList q i mv rs) :=
  (P.only_hasValue i).bind fun _ => Only.ite
    (P.only_unzipElems q hi fun p hp => h _ (List.of_mem_zip (a := p.1) (b := p.2) hp).2) (P.only_unzipNone h)

theorem only_moveAll : ∀ {ms : List (Nat × Nat)}, (∀ p ∈ ms, p.1 ∈ S ∧ p.2 ∈ S) → Only S (P.moveAll ms)
  | [], _ => Only.pure _
  | (r, t) :: ms, h => by
    have h0 := h (r, t) (List.mem_cons_self ..)
    exact (P.only_ctorFrom h0.1 (by simpa [Op.ifMoved] using h0.2)).bind fun _ =>
      (only_moveAll fun p hp => h p (List.mem_cons_of_mem _ hp)).onThrow (P.only_dtor h0.1)

theorem only_dtorAll : ∀ {ts : List Nat}, (∀ t ∈ ts, t ∈ S) → Only S (P.dtorAll ts)
  | [], _ => Only.pure _
  | t :: ts, h => (P.only_dtor (h t (List.mem_cons_self ..))).bind fun _ =>
    only_dtorAll fun t ht => h t (List.mem_cons_of_mem _ ht)

theorem only_runOp (op : Op Val) : Only op.changes (P.runOp op) := by
  have wrap : ∀ {S : List Nat} {α : Type} {x : M World α} (f : α → Ret Val), Only S x → Only S (asRet f x) := fun f h =>
    h.bind fun _ => Only.pure _
  have hh : ∀ {a : Nat} {l : List Nat}, a ∈ a :: l := List.mem_cons_self ..
  have ht : ∀ {a : Nat} {l : List Nat}, ∀ k ∈ l, k ∈ a :: l := fun _ h => List.mem_cons_of_mem _ h
  cases op with
  | ctorDefault i => exact wrap _ (P.only_ctorDefault hh)
  | ctorValue i src => exact wrap _ ((P.only_evalArg src).bind fun _ => P.only_ctorArg hh ht)
  | ctorFrom i j mv => exact wrap _ (P.only_ctorFrom hh ht)
  | dtor i => exact wrap _ (P.only_dtor hh)
  | reset i => exact wrap _ (P.only_reset hh)
  | assignFrom i j mv => exact wrap _ (P.only_assignFrom hh ht)
  | assignValue i src => exact wrap _ (P.only_assignValue hh ht)
  | emplace i src =>
    exact wrap _ ((P.only_evalArg src).bind fun _ => (P.only_reset hh).bind fun _ => (P.only_construct hh ht).bind fun _ =>
      P.only_getCheck i)
  | tryEmplace i src =>
    exact wrap _ ((P.only_evalArg src).bind fun _ => (P.only_hasValue i).bind fun _ => Only.ite (P.only_getCheck i)
      ((P.only_construct hh ht).bind fun _ => P.only_getCheck i))
  | swap i j =>
    have hi : i ∈ [i, j] := hh
    have hj : j ∈ [i, j] := ht _ hh
    refine wrap _ ((P.only_hasValue i).bind fun a => (P.only_hasValue j).bind fun b =>
      Only.ite (Only.pure _) (Only.ite (P.only_swapT hi hj) (Only.ite ?_ ?_)))
    · exact (P.only_getCheck i).bind fun _ => (P.only_construct hj (moved_opt (by simpa [Op.ifMoved] using hi))).bind fun _ =>
        P.only_reset hi
    · exact (P.only_getCheck j).bind fun _ => (P.only_construct hi (moved_opt (by simpa [Op.ifMoved] using hj))).bind fun _ =>
        P.only_reset hj
  | take i r => exact wrap _ (P.only_take hh (ht _ hh))
  | takeIf i r f =>
    exact wrap _ ((P.only_hasValue i).bind fun _ => Only.ite ((P.only_callT hh f).bind fun _ =>
      Only.ite (P.only_take hh (ht _ hh)) (P.only_ctorDefault (ht _ hh))) (P.only_ctorDefault (ht _ hh)))
  | hasValue i => exact wrap _ (P.only_hasValue i)
  | get i => exact wrap _ ((P.only_getCheck i).bind fun _ => P.only_readT i)
  | getUnchecked i => exact wrap _ (P.only_readT i)
  | valueOrThrow i =>
    exact wrap _ ((P.only_hasValue i).bind fun _ => Only.ite Only.raise ((P.only_getCheck i).bind fun _ => P.only_readT i))
  | ptrOrNull i =>
    exact wrap _ ((P.only_hasValue i).bind fun _ => Only.ite ((P.only_getCheck i).bind fun _ => (P.only_readT i).bind fun _ =>
      Only.pure _) (Only.pure _))
  | valueOr i mv d =>
    exact wrap _ ((P.only_evalArg d).bind fun _ => (P.only_hasValue i).bind fun _ => Only.ite ((P.only_getCheck i).bind fun _ =>
      P.only_returnT (moved_opt fun k hk => List.mem_append_left _ hk)) (P.only_returnT fun k hk => List.mem_append_right _ hk))
  | hasValueAnd i f => exact wrap _ ((P.only_hasValue i).bind fun _ => Only.ite (P.only_callT hh f) (Only.pure _))
  | inspect i f => exact wrap _ ((P.only_hasValue i).bind fun _ => Only.ite (P.only_callT hh f) (Only.pure _))
  | mapOr i d f =>
    exact wrap _ ((P.only_hasValue i).bind fun _ => Only.ite (P.only_callT hh f)
      ((P.only_userOp _ _).bind fun _ => Only.ite Only.raise (Only.pure _)))
  | mapOrElse i d f => exact wrap _ ((P.only_hasValue i).bind fun _ => Only.ite (P.only_callT hh f) (P.only_call0 d))
  | map i r f =>
    have hr : r ∈ [i, r] := ht _ hh
    refine wrap _ ((P.only_hasValue i).bind fun _ => Only.ite ((P.only_getCheck i).bind fun _ => (P.only_newObj hr).bind fun _ => ?_)
      (P.only_ctorDefault hr))
    exact Only.bind (Only.onThrow ((P.only_callT hh f).bind fun _ => P.only_constructInPlace hr (by nofun)) (only_delObj hr))
      fun _ => P.only_seal hr
  | andThen i r f =>
    exact wrap _ ((P.only_hasValue i).bind fun _ => Only.ite ((P.only_callT hh f).bind fun _ => P.only_makeOption (ht _ hh) _)
      (P.only_ctorDefault (ht _ hh)))
  | orElse i r mv x =>
    exact wrap _ ((P.only_hasValue i).bind fun _ => Only.ite (P.only_ctorFrom hh ht) ((P.only_call0 x).bind fun _ =>
      P.only_makeOption hh _))
  | filter i r mv f =>
    have hr : r ∈ [i, r] := ht _ hh
    refine wrap _ ((P.only_hasValue i).bind fun _ => Only.ite ((P.only_callT hh f).bind fun _ =>
      Only.ite ((P.only_getCheck i).bind fun _ => P.only_ctorArg hr (moved_opt ?_)) (P.only_ctorDefault hr)) (P.only_ctorDefault hr))
    cases mv
    · nofun
    · simp [Op.ifMoved]
  | orOp i j r mi mj =>
    exact wrap _ ((P.only_hasValue i).bind fun _ => Only.ite
      (P.only_ctorFrom hh fun k hk => ht _ (List.mem_append_left _ hk)) (P.only_ctorFrom hh fun k hk => ht _ (List.mem_append_right _ hk)))
  | orAssignValue i src =>
    exact wrap _ ((P.only_evalArg src).bind fun _ => (P.only_hasValue i).bind fun _ => Only.ite (P.only_assignValue hh ht) (Only.pure _))
  | orAssignFrom i j mv => exact wrap _ ((P.only_hasValue i).bind fun _ => Only.ite (P.only_assignFrom hh ht) (Only.pure _))
  | andOp i j r mv => exact wrap _ ((P.only_hasValue i).bind fun _ => Only.ite (P.only_ctorFrom hh ht) (P.only_ctorDefault hh))
  | xorOp i j r mi mj =>
    exact wrap _ ((P.only_hasValue i).bind fun _ => (P.only_hasValue j).bind fun _ => Only.ite
      (P.only_ctorFrom hh fun k hk => ht _ (List.mem_append_left _ hk)) (Only.ite
      (P.only_ctorFrom hh fun k hk => ht _ (List.mem_append_right _ hk)) (P.only_ctorDefault hh)))
  | zip is r g =>
    refine wrap _ ((P.only_allHave is).bind fun _ => Only.ite ((P.only_zipElems fun p hp h2 => ?_).bind fun _ =>
      ((P.only_ctorArg hh (by nofun)).onThrow (P.only_dropTmps _)).bind fun _ => P.only_dropTmps _) (P.only_ctorDefault hh))
    exact ht _ (List.mem_map_of_mem (List.mem_filter.2 ⟨hp, h2⟩))
  | zipWith is r g =>
    exact wrap _ ((P.only_allHave _).bind fun _ => Only.ite ((P.only_zipArgs is).bind fun _ =>
      (P.only_call0 _).bind fun _ => ((P.only_ctorArg hh (by nofun)).onThrow (P.only_dropTmp _)).bind fun _ =>
      P.only_dropTmp _) (P.only_ctorDefault hh))
  | ioWrite i d =>
    refine wrap _ ((P.only_hasValue i).bind fun _ => Only.ite ((P.only_getCheck i).bind fun _ => (P.only_readT i).bind fun _ =>
      P.only_call0 _) ?_)
    cases d
    · exact Only.pure _
    · exact P.only_call0 _
  | ioRead i d v =>
    exact wrap _ ((P.only_hasValue i).bind fun _ => Only.ite ((P.only_callT hh _).bind fun _ => Only.pure _) (P.only_call0 v))
  | cmp o rel i j =>
    exact wrap _ ((P.only_hasValue i).bind fun _ => (P.only_hasValue j).bind fun _ => Only.ite
      (((P.only_getCheck i).bind fun _ => P.only_readT i).bind fun _ =>
        ((P.only_getCheck j).bind fun _ => P.only_readT j).bind fun _ => P.only_call0 _) (Only.pure _))
  | cmpNone o i =>
    cases o <;> first
      | exact wrap _ (Only.pure _)
      | exact wrap _ (P.only_hasValue i)
      | exact wrap _ ((P.only_hasValue i).bind fun _ => Only.pure _)
  | noneCmp o i =>
    cases o <;> first
      | exact wrap _ (Only.pure _)
      | exact wrap _ (P.only_hasValue i)
      | exact wrap _ ((P.only_hasValue i).bind fun _ => Only.pure _)
  | cmpVal o rel i v =>
    exact wrap _ ((P.only_hasValue i).bind fun _ => Only.ite (((P.only_getCheck i).bind fun _ => P.only_readT i).bind fun _ =>
      P.only_call0 _) (Only.pure _))
  | valCmp o rel v i =>
    exact wrap _ ((P.only_hasValue i).bind fun _ => Only.ite (((P.only_getCheck i).bind fun _ => P.only_readT i).bind fun _ =>
      P.only_call0 _) (Only.pure _))
  | hash i f =>
    exact wrap _ ((P.only_hasValue i).bind fun _ => Only.ite (((P.only_getCheck i).bind fun _ => P.only_readT i).bind fun _ =>
      P.only_call0 _) (Only.pure _))
  | forEach i f => exact wrap _ (P.only_forEach hh 2 f)
  | unzipArray q i mv rs =>
    refine wrap _ (P.only_unzipList q (fun h => ?_) fun r hr => List.mem_append_left _ hr)
    exact List.mem_append_right _ (by simp [Op.ifMoved, h])
  | unzipTuple q i mv ts ms =>
    have hts : ∀ t ∈ ts, t ∈ (Op.unzipTuple q i mv ts ms).changes := fun t ht => by simp [Op.changes, ht]
    refine wrap _ ((P.only_unzipList q (fun h => ?_) hts).bind fun _ =>
      ((P.only_moveAll fun p hp => ⟨?_, ?_⟩).onThrow (P.only_dtorAll fun t ht => hts t (List.mem_reverse.1 ht))).bind fun _ =>
        P.only_dtorAll fun t ht => hts t (List.mem_reverse.1 ht))
    · exact List.mem_append_right _ (by simp [Op.ifMoved, h])
    · have := List.mem_map_of_mem (f := Prod.fst) hp
      simp only [Op.changes, List.mem_append]
      exact .inl (.inl (.inr this))
    · have := List.mem_map_of_mem (f := Prod.snd) hp
      simp only [Op.changes, List.mem_append]
      exact .inl (.inr this)

end Prog

end Opt
