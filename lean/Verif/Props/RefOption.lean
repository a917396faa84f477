import Verif.Lemmas.RefOption
import Verif.Props.Iter

/-!
# C34 and C39: options of references; C24, C28, C30 and C31 for them
-/

namespace Opt

variable {Val : Type}

namespace Demo

/-- options 0 and 1 refer to elements 2 and 5 of array 7, option 2 is empty; all elements of array 7 are alive, element
`n` holds `n / 4`, all other arrays are dead -/
def refs : RWorld Nat :=
  ⟨fun i => if i = 0 then .elem 7 2 else if i = 1 then .elem 7 3 else .null,
   fun r => if r.1 = 7 then some (r.2 / 4) else none⟩

end Demo

/-! ## C39 -/

/-- **C39**: for every history of operations on options of references, starting from any pointers and any objects, the
library does what the specification says: each option refers to the object it was last bound to, an exchange exchanges,
`take` moves the binding out, copying and moving copy the binding (the moved-from option stays bound), and the objects
change only by what the client and its callables write. -/
theorem C39_history (os : List (ROp Val)) (w : RWorld Val) :
    (ROp.runAll os w).abs = ROp.specAll os (RState.of w) :=
  ROp.runAll_spec os w

/-- a history on the demo world: swap, reset, and a write through the reference, which hits element 3 (formerly of
option 1) and nothing else -/
example : ∃ w, ROp.runAll [.swap 0 1, .reset 1, .writeThrough 0 9, .hasValue 1, .get 0] Demo.refs =
    .ok [.unit, .unit, .unit, .bool false, .loc (7, 3)] w ∧ w.cell (7, 3) = some 9 ∧ w.cell (7, 2) = some 0 :=
  ⟨_, rfl, by decide, by decide⟩

theorem Still.after {α : Type} {f : M (Cells Val) α} (hf : Still f) {s : RState Val}
    {k : α → RState Val → Out (RState Val) RRet} {r : RRet} {t : RState Val}
    (hk : ∀ a u r t, k a u = .ok r t → t.mem = u.mem) (h : s.after (f s.mem) k = .ok r t) : t.mem = s.mem := by
  have hc := hf s.mem
  simp only [RState.after] at h
  cases e : f s.mem with
  | ok a c => rw [e] at h hc; exact (hk _ _ _ _ h).trans hc
  | throw c => rw [e] at h hc; simp only [Out.ok.injEq] at h; rw [← h.2]; exact hc
  | verify => rw [e] at h; cases h
  | ub => rw [e] at h; cases h

theorem ROp.spec_mem (o : ROp Val) (ho : o.ReadOnly) (s : RState Val) {r : RRet} {t : RState Val}
    (h : o.spec s = .ok r t) : t.mem = s.mem := by
  cases o <;> simp only [spec, ReadOnly, RState.must] at h ho
  case takeIf i k f =>
    split at h
    · cases h; rfl
    · refine (ho _).after (fun b u r t hk => ?_) h
      cases hk; split <;> rfl
  case hasValueAnd i f =>
    split at h
    · exact (ho _).after (fun b u r t hk => by cases hk; rfl) h
    · cases h; rfl
  case inspect i f =>
    split at h
    · exact (ho _).after (fun b u r t hk => by cases hk; rfl) h
    · cases h; rfl
  case filter i k f =>
    split at h
    · exact (ho _).after (fun b u r t hk => by cases hk; rfl) h
    · cases h; rfl
  case map i k f =>
    split at h
    · exact (ho _).after (fun b u r t hk => by cases hk; rfl) h
    · cases h; rfl
  case andThen i k f =>
    split at h
    · exact (ho _).after (fun b u r t hk => by cases hk; rfl) h
    · cases h; rfl
  case orElse i k f =>
    split at h
    · cases h; rfl
    · exact ho.after (fun b u r t hk => by cases hk; rfl) h
  case cmp op rel i j =>
    split at h
    · split at h
      · cases h; rfl
      · cases h
    · cases h; rfl
  all_goals first
    | (cases h; rfl)
    | (split at h <;> first | (cases h; rfl) | cases h)

/-- **C39**: no operation of the library writes to a referenced object: if neither the client nor its callables write, the
objects are the same after any history, whatever was assigned, emplaced, swapped, taken or reset. -/
theorem C39_never_writes_through (os : List (ROp Val)) (ho : ∀ o ∈ os, o.ReadOnly) (w w' : RWorld Val) (rs : List RRet)
    (h : ROp.runAll os w = .ok rs w') : w'.cell = w.cell := by
  have hs := C39_history os w
  rw [h] at hs
  have key : ∀ (os : List (ROp Val)), (∀ o ∈ os, o.ReadOnly) → ∀ (s t : RState Val) rs,
      ROp.specAll os s = .ok rs t → t.mem = s.mem := by
    intro os
    induction os with
    | nil => intro _ s t rs h; cases h; rfl
    | cons o os ih =>
      intro ho s t rs h
      simp only [ROp.specAll] at h
      cases e : o.spec s with
      | ok r u =>
        rw [e] at h
        simp only at h
        cases e' : ROp.specAll os u with
        | ok rs' v =>
          rw [e'] at h
          simp only [Out.ok.injEq] at h
          rw [← h.2, ih (fun o' h' => ho o' (List.mem_cons_of_mem _ h')) u v rs' e']
          exact o.spec_mem (ho o List.mem_cons_self) s e
        | throw _ => rw [e'] at h; cases h
        | verify => rw [e'] at h; cases h
        | ub => rw [e'] at h; cases h
      | throw _ => rw [e] at h; cases h
      | verify => rw [e] at h; cases h
      | ub => rw [e] at h; cases h
  exact key os ho _ _ _ hs.symm

example : ∃ w rs, ROp.runAll [.assignRef 0 (7, 5), .swap 0 1, .emplace 2 (7, 6), .take 2 3] Demo.refs = .ok rs w ∧
    w.cell = Demo.refs.cell :=
  ⟨_, _, rfl, C39_never_writes_through [.assignRef 0 (7, 5), .swap 0 1, .emplace 2 (7, 6), .take 2 3] (by
    intro o ho
    simp only [List.mem_cons, List.not_mem_nil, or_false] at ho
    rcases ho with rfl | rfl | rfl | rfl <;> trivial) _ _ _ rfl⟩

/-- **C39**: an option of a reference is engaged exactly when it is bound to an object, and then every accessor yields that
object; when it is not bound, every accessor stops in the library's check, throws, or yields the given default or null. -/
theorem C39_accessors (w : RWorld Val) (i : Nat) (d : Loc) :
    (∀ r, (RState.of w).ref i = some r →
      RefOpt.hasValue i w = .ok true w ∧ RefOpt.get i w = .ok r w ∧ RefOpt.getUnchecked i w = .ok r w ∧
      RefOpt.valueOrThrow i w = .ok r w ∧ RefOpt.valueOr i d w = .ok r w ∧
      RefOpt.ptrOrNull i w = .ok (.elem r.1 r.2) w) ∧
    ((RState.of w).ref i = none →
      RefOpt.hasValue i w = .ok false w ∧ RefOpt.get i w = .verify ∧ RefOpt.getUnchecked i w = .verify ∧
      RefOpt.valueOrThrow i w = .throw w ∧ RefOpt.valueOr i d w = .ok d w ∧ RefOpt.ptrOrNull i w = .ok .null w) := by
  constructor
  · intro r hr
    obtain ⟨a, n⟩ := r
    have hp : w.ptr i = .elem a n := by
      rw [RState.of_ref] at hr
      cases e : w.ptr i with
      | null => rw [e] at hr; cases hr
      | elem b m => rw [e] at hr; cases hr; rfl
    have hg : RefOpt.get i w = .ok (a, n) w := by simp only [RefOpt.get_run, hp]
    refine ⟨?_, hg, ?_, ?_, ?_, ?_⟩
    · simp only [RefOpt.hasValue_run, hp]; rfl
    · simp only [RefOpt.getUnchecked, bind_run, RefOpt.load_run, obind_ok, hp]; rfl
    · simp only [RefOpt.valueOrThrow, bind_run, RefOpt.hasValue_run, hp, obind_ok, elem_ne_null, Bool.not_true,
        Bool.false_eq_true, if_false, hg]
    · simp only [RefOpt.valueOr, bind_run, RefOpt.hasValue_run, hp, obind_ok, elem_ne_null, if_true, hg]
    · simp only [RefOpt.ptrOrNull, bind_run, RefOpt.hasValue_run, hp, obind_ok, elem_ne_null, if_true, hg]; rfl
  · intro hr
    have hp : w.ptr i = .null := by
      rw [RState.of_ref] at hr
      cases e : w.ptr i with
      | null => rfl
      | elem b m => rw [e] at hr; cases hr
    have hg : RefOpt.get i w = .verify := by simp only [RefOpt.get_run, hp]
    refine ⟨?_, hg, ?_, ?_, ?_, ?_⟩
    · simp only [RefOpt.hasValue_run, hp]; rfl
    · simp only [RefOpt.getUnchecked, bind_run, RefOpt.load_run, obind_ok, hp]; rfl
    · simp only [RefOpt.valueOrThrow, bind_run, RefOpt.hasValue_run, hp, obind_ok, null_ne_null, Bool.not_false, if_true]; rfl
    · simp only [RefOpt.valueOr, bind_run, RefOpt.hasValue_run, hp, obind_ok, null_ne_null, Bool.false_eq_true, if_false]; rfl
    · simp only [RefOpt.ptrOrNull, bind_run, RefOpt.hasValue_run, hp, obind_ok, null_ne_null, Bool.false_eq_true, if_false]; rfl

example : (RState.of Demo.refs).ref 0 = some (7, 2) ∧ (RState.of Demo.refs).ref 2 = none := ⟨rfl, rfl⟩

/-- **C39**: swapping exchanges the referents, in all four combinations of empty and engaged and also with itself, and
touches nothing else. -/
theorem C39_swap (w : RWorld Val) (i j : Nat) :
    ∃ w', RefOpt.swap i j w = .ok () w' ∧ w'.cell = w.cell ∧ w'.ptr i = w.ptr j ∧ w'.ptr j = w.ptr i ∧
      ∀ k, k ≠ i → k ≠ j → w'.ptr k = w.ptr k := by
  simp only [RefOpt.swap, bind_run, RefOpt.hasValue_run, obind_ok, ite_run]
  cases hi : w.ptr i <;> cases hj : w.ptr j <;>
    simp only [elem_ne_null, null_ne_null, Bool.not_false, Bool.not_true, Bool.and_self, Bool.and_false, Bool.and_true,
      Bool.false_eq_true, if_true, if_false, pure_run, bind_run, RefOpt.load_run, obind_ok, RefOpt.get_run, hi, hj,
      RefOpt.construct, RefOpt.reset, RefOpt.store_run, RefOpt.refToPtr]
  · exact ⟨_, rfl, rfl, hi, hj, fun k _ _ => rfl⟩
  · refine ⟨_, rfl, rfl, ?_, ?_, fun k h1 h2 => ?_⟩ <;> simp_all [upd]
    rintro rfl; rw [hi] at hj; cases hj
  · refine ⟨_, rfl, rfl, ?_, ?_, fun k h1 h2 => ?_⟩ <;> simp_all [upd]
    rintro rfl; rw [hi] at hj; cases hj
  · refine ⟨_, rfl, rfl, ?_, ?_, fun k h1 h2 => ?_⟩ <;> simp_all [upd]
    rintro rfl; rw [hi] at hj; exact Ptr.elem.injEq .. ▸ hj

example : Demo.refs.ptr 0 ≠ Demo.refs.ptr 1 := by decide

/-! ## C34 -/

/-- **C34**: `from_nullable(p)` always completes; the result is engaged exactly if `p` is not null, refers to `*p`, and
`ptr_or_null()` of it is `p`.  No other option and no object changes. -/
theorem C34_from_nullable (w : RWorld Val) (i : Nat) (p : Ptr) :
    ∃ w', RefOpt.fromNullable i p w = .ok () w' ∧ RState.of w' = (RState.of w).rebind i p.loc ∧
      RefOpt.ptrOrNull i w' = .ok p w' ∧ RefOpt.hasValue i w' = .ok (decide (p ≠ .null)) w' ∧
      ∀ a n, p = .elem a n → RefOpt.get i w' = .ok (a, n) w' := by
  refine ⟨⟨upd w.ptr i p, w.cell⟩, ?_, ?_, ?_, ?_, ?_⟩
  · cases p <;> rfl
  · exact RState.of_store _ _ _ _
  · have h := C39_accessors (Val := Val) ⟨upd w.ptr i p, w.cell⟩ i (0, 0)
    rw [RState.of_ref] at h
    cases p with
    | null => exact (h.2 (by simp only [upd, if_true, Ptr.loc])).2.2.2.2.2
    | elem a n => exact (h.1 (a, n) (by simp only [upd, if_true, Ptr.loc])).2.2.2.2.2
  · simp only [RefOpt.hasValue_run, upd, if_true]
    cases p <;> rfl
  · rintro a n rfl
    simp only [RefOpt.get_run, upd, if_true]

example : ∃ w', RefOpt.fromNullable 2 (.elem 7 4) Demo.refs = .ok () w' ∧ RefOpt.get 2 w' = .ok (7, 4) w' := by
  obtain ⟨w', h, _, _, _, hg⟩ := C34_from_nullable Demo.refs 2 (.elem 7 4)
  exact ⟨w', h, hg _ _ rfl⟩

/-- **C34**: `from_nullable(o.ptr_or_null())` has the state of `o`, for every option of a reference `o`. -/
theorem C34_inverse (w : RWorld Val) (i k : Nat) :
    ∃ p w', RefOpt.ptrOrNull i w = .ok p w ∧ RefOpt.fromNullable k p w = .ok () w' ∧
      (RState.of w').ref k = (RState.of w).ref i := by
  have hp : RefOpt.ptrOrNull i w = .ok (w.ptr i) w := by
    have h := C39_accessors w i (0, 0)
    rw [RState.of_ref] at h
    cases e : w.ptr i with
    | null => exact (h.2 (by rw [e]; rfl)).2.2.2.2.2
    | elem a n => exact (h.1 (a, n) (by rw [e]; rfl)).2.2.2.2.2
  obtain ⟨w', h, hs, _⟩ := C34_from_nullable w k (w.ptr i)
  refine ⟨_, w', hp, h, ?_⟩
  rw [hs]
  simp only [RState.rebind, if_true, RState.of_ref]

example : ∃ p w', RefOpt.ptrOrNull 1 Demo.refs = .ok p Demo.refs ∧ RefOpt.fromNullable 2 p Demo.refs = .ok () w' ∧
    (RState.of w').ref 2 = some (7, 3) := C34_inverse Demo.refs 1 2

/-- **C34**, options of values: `from_nullable(o.ptr_or_null())` is engaged exactly if `o` is, and refers to the object
contained in `o`. -/
theorem C34_value_option {P : Prog Val} {w : World} {i : Nat} (hw : P.Inv w) {x : Option Val}
    (hx : P.view w i = some x) (r : RWorld Val) (k : Nat) :
    ∃ p r', P.addressOrNull i w = .ok p w ∧ RefOpt.fromNullable k p r = .ok () r' ∧
      (RState.of r').ref k = if x.isSome then some (i, 0) else none := by
  have h := Prog.hasValue_eq hw hx
  cases x with
  | none =>
    obtain ⟨r', h1, h2, _⟩ := C34_from_nullable r k .null
    refine ⟨.null, r', ?_, h1, ?_⟩
    · simp only [Prog.addressOrNull, bind_run, h, obind_ok, Option.isSome]; rfl
    · rw [h2]; simp only [RState.rebind, if_true, Ptr.loc]; rfl
  | some v =>
    obtain ⟨r', h1, h2, _⟩ := C34_from_nullable r k (.elem i 0)
    have hg : P.getCheck i w = .ok () w := by simp only [Prog.getCheck, bind_run, h, obind_ok, Option.isSome]; rfl
    refine ⟨.elem i 0, r', ?_, h1, ?_⟩
    · simp only [Prog.addressOrNull, bind_run, h, obind_ok, Option.isSome, if_true, hg]; rfl
    · rw [h2]; simp only [RState.rebind, if_true, Ptr.loc]; rfl

example (r : RWorld Byte) : ∃ p r', Demo.calm.addressOrNull 1 Demo.world = .ok p Demo.world ∧
    RefOpt.fromNullable 0 p r = .ok () r' ∧ (RState.of r').ref 0 = some (1, 0) :=
  C34_value_option (P := Demo.calm) Demo.inv Demo.view1 r 0

/-! ## C28, C30, C31 for options of references -/

/-- the value an option of a reference stands for -/
def RState.val (s : RState Val) (i : Nat) : Option Val := (s.ref i).bind s.mem

/-- every bound option refers to a living object -/
def RState.NoDangling (s : RState Val) : Prop := ∀ i r, s.ref i = some r → ∃ v, s.mem r = some v

/-- **C28**, options of references: they compare like the values they refer to, an unbound one below every value. -/
theorem C28_reference (op : CmpOp) (rel : CmpOp → Val → Val → Bool) (i j : Nat) (w : RWorld Val)
    (hd : (RState.of w).NoDangling) :
    RefOpt.cmp op rel i j w = .ok (below rel op ((RState.of w).val i) ((RState.of w).val j)) w := by
  have hi := hd i
  have hj := hd j
  simp only [RState.val, RState.of_ref, RState.of_mem] at hi hj ⊢
  simp only [RefOpt.cmp, bind_run, RefOpt.hasValue_run, obind_ok, ite_run, RefOpt.get_run]
  cases h1 : w.ptr i <;> cases h2 : w.ptr j <;>
    simp only [h1, h2, elem_ne_null, null_ne_null, Bool.and_self, Bool.and_false, Bool.and_true, Bool.false_eq_true, if_true,
      if_false, pure_run, obind_ok, Ptr.loc, bind_run, RefOpt.get_run, RefOpt.value_run, Option.bind] at hi hj ⊢
  · cases op <;> rfl
  · obtain ⟨v, hv⟩ := hj _ rfl
    rw [hv]; cases op <;> rfl
  · obtain ⟨v, hv⟩ := hi _ rfl
    rw [hv]; cases op <;> rfl
  · obtain ⟨v, hv⟩ := hi _ rfl
    obtain ⟨u, hu⟩ := hj _ rfl
    simp only [hv, hu, obind_ok, bind_run, RefOpt.value_run, pure_run, below]

theorem Demo.refs_ok : (RState.of Demo.refs).NoDangling := by
  intro i r h
  simp only [RState.of, Demo.refs] at h
  by_cases h0 : i = 0
  · subst h0; cases h; exact ⟨_, rfl⟩
  · by_cases h1 : i = 1
    · subst h1; cases h; exact ⟨_, rfl⟩
    · simp only [h0, h1, if_false] at h; cases h

example : RefOpt.cmp .lt (fun _ a b => decide (a < b)) 2 0 Demo.refs = .ok true Demo.refs :=
  C28_reference _ _ _ _ _ Demo.refs_ok

/-- **C30**, options of references: two options bound to the same object, and two unbound ones, have the same hash. -/
theorem C30_reference_partial (hp : Ptr → U64) (w : RWorld Val) (i j : Nat)
    (h : (RState.of w).ref i = (RState.of w).ref j) :
    ∃ n, RefOpt.hash hp i w = .ok n w ∧ RefOpt.hash hp j w = .ok n w := by
  have key : ∀ k, RefOpt.hash hp k w = .ok (hp (w.ptr k)) w := by
    intro k
    have hk := C39_accessors w k (0, 0)
    rw [RState.of_ref] at hk
    have e : RefOpt.ptrOrNull k w = .ok (w.ptr k) w := by
      cases e : w.ptr k with
      | null => exact (hk.2 (by rw [e]; rfl)).2.2.2.2.2
      | elem a n => exact (hk.1 (a, n) (by rw [e]; rfl)).2.2.2.2.2
    simp only [RefOpt.hash, bind_run, e, obind_ok, pure_run]
  have hptr : w.ptr i = w.ptr j := by
    simp only [RState.of_ref] at h
    cases e1 : w.ptr i <;> cases e2 : w.ptr j <;> rw [e1, e2] at h <;> simp only [Ptr.loc] at h <;> cases h <;> rfl
  exact ⟨_, key i, by rw [key j, hptr]⟩

example : (RState.of Demo.refs).ref 2 = (RState.of Demo.refs).ref 3 := rfl

/-- **C30 is violated for options of references**: two of them can compare equal and have different hashes, whatever hash
of pointers is used, as long as it distinguishes two pointers at all: `==` compares the objects (3738-3745), the hash takes
the addresses (4080-4093).  Nothing is assumed about `T` but one value equal to itself. -/
theorem C30_violated_reference (hp : Ptr → U64) (r s : Loc) (hne : hp (.elem r.1 r.2) ≠ hp (.elem s.1 s.2))
    (rel : CmpOp → Val → Val → Bool) (v : Val) (hv : rel .eq v v = true) :
    ∃ w : RWorld Val, (RState.of w).NoDangling ∧ RefOpt.cmp .eq rel 0 1 w = .ok true w ∧
      ∃ m n, RefOpt.hash hp 0 w = .ok m w ∧ RefOpt.hash hp 1 w = .ok n w ∧ m ≠ n := by
  refine ⟨⟨fun i => if i = 0 then .elem r.1 r.2 else .elem s.1 s.2, fun _ => some v⟩, fun _ _ _ => ⟨v, rfl⟩, ?_, _, _, rfl,
    rfl, hne⟩
  rw [C28_reference _ _ _ _ _ (fun _ _ _ => ⟨v, rfl⟩)]
  show Out.ok (rel .eq v v) _ = _
  rw [hv]

/-- with a hash that is the position in the array -/
example : ∃ w : RWorld Nat, (RState.of w).NoDangling ∧
    RefOpt.cmp .eq (fun _ a b => a == b) 0 1 w = .ok true w ∧ ∃ m n,
      RefOpt.hash (fun p => match p with | .null => 0 | .elem _ i => BitVec.ofNat 64 i) 0 w = .ok m w ∧
      RefOpt.hash (fun p => match p with | .null => 0 | .elem _ i => BitVec.ofNat 64 i) 1 w = .ok n w ∧ m ≠ n :=
  C30_violated_reference _ (7, 2) (7, 3) (by decide) _ (5 : Nat) rfl

/-- **C31**, options of references: `begin()` points to the referenced object and `end()` one past it (also when the object
is an element of an array), or both are null. -/
theorem C31_reference (len : Nat → Nat) (w : RWorld Val) (i : Nat) :
    (∀ a n, (RState.of w).ref i = some (a, n) → n < len a →
      RefOpt.begin_ i w = .ok (.elem a n) w ∧ RefOpt.end_ len i w = .ok (.elem a (n + 1)) w ∧
      Iter.deref len (.elem a n) = .ok (a, n) ∧ Iter.diff (.elem a (n + 1)) (.elem a n) = .ok 1) ∧
    ((RState.of w).ref i = none → RefOpt.begin_ i w = .ok .null w ∧ RefOpt.end_ len i w = .ok .null w) := by
  constructor
  · intro a n hr hl
    have h := (C39_accessors w i (0, 0)).1 _ hr
    refine ⟨?_, ?_, ?_, ?_⟩
    · simp only [RefOpt.begin_, bind_run, h.1, h.2.1, obind_ok, if_true]; rfl
    · simp only [RefOpt.end_, bind_run, h.1, h.2.1, obind_ok, if_true, Iter.ptrAdd]
      rw [if_pos ⟨by omega, by omega⟩]
      have : ((n : Int) + 1).toNat = n + 1 := by omega
      simp only [liftRes, pure_run, this]
    · simp only [Iter.deref, Iter.ptrDeref, hl, if_true]
    · simp only [Iter.diff, if_true]; congr 1; omega
  · intro hr
    have h := (C39_accessors w i (0, 0)).2 hr
    exact ⟨by simp only [RefOpt.begin_, bind_run, h.1, obind_ok]; rfl,
      by simp only [RefOpt.end_, bind_run, h.1, obind_ok]; rfl⟩

example : RefOpt.end_ (fun _ => 8) 0 Demo.refs = .ok (.elem 7 3) Demo.refs :=
  ((C31_reference (fun _ => 8) Demo.refs 0).1 7 2 rfl (by decide)).2.1

end Opt
