import Verif.Spec.Accessor

/-!
# C53 Accessors give the contained object, C54 value_or and value_or_construct
-/

namespace Opt.Accessor

open Opt.RefBind

/-! ## All accesses are one expression -/

/-- the expression that all accessors turn out to give -/
def content (T : QTy) (s : Self) : Ex :=
  ⟨if s.rvalue = true ∧ T.ref ≠ .lv then .xvalue else .lvalue,
    ⟨T.cv.const || (s.const && T.ref == .none), T.cv.volatile⟩, T.core, .contained, fun c => c == T.core⟩

theorem content_access (T : QTy) (s : Self) : Access T s (content T s) := by
  refine ⟨rfl, rfl, rfl, ?_, ?_, ?_⟩
  · simp only [content, Bool.or_eq_true, Bool.and_eq_true, beq_iff_eq]
  · simp only [content]; split <;> simp_all
  · simp only [content]; split <;> simp_all

theorem choose_four (s : Self) : choose four s = some ⟨s.const, if s.rvalue then .rv else .lv⟩ := by
  revert s; rintro ⟨_ | _, _ | _⟩ <;> rfl

theorem choose_two (s : Self) : choose two s = some (if s.rvalue && !s.const then ⟨false, .rv⟩ else ⟨true, .lv⟩) := by
  revert s; rintro ⟨_ | _, _ | _⟩ <;> rfl

theorem choose_plain (s : Self) : choose plain s = some ⟨s.const, .none⟩ := by
  revert s; rintro ⟨_ | _, _ | _⟩ <;> rfl

theorem get_content (T : QTy) (s : Self) : get T s = some (content T s) := by
  obtain ⟨r, ⟨c, v⟩, core⟩ := T
  obtain ⟨sc, sr⟩ := s
  simp only [get, choose_four, Option.bind_some]
  cases r <;> cases c <;> cases sc <;> cases sr <;>
    simp [getBody, declared, addConst, lref, rref, castRef, returnRef, stored, qualsKept, bindsRvalue, asRef, content]

theorem star_content (T : QTy) (s : Self) : star T s = some (content T s) := by
  obtain ⟨r, ⟨c, v⟩, core⟩ := T
  obtain ⟨sc, sr⟩ := s
  simp only [star, choose_four, Option.bind_some, starBody, get_content]
  cases r <;> cases c <;> cases sc <;> cases sr <;>
    simp [declared, addConst, lref, rref, castRef, returnRef, Qual.this, qualsKept, bindsRvalue, asRef, content]

theorem valueOrThrow_content (T : QTy) (s : Self) : valueOrThrow T s = some (content T s) := by
  obtain ⟨r, ⟨c, v⟩, core⟩ := T
  obtain ⟨sc, sr⟩ := s
  simp only [valueOrThrow, choose_four, Option.bind_some, valueOrThrowBody, star_content]
  cases r <;> cases c <;> cases sc <;> cases sr <;>
    simp [declared, addConst, lref, rref, returnRef, Qual.forwarded, qualsKept, bindsRvalue, asRef, content]

theorem value_content (T : QTy) (s : Self) : value T s = some (content T s) := by
  obtain ⟨r, ⟨c, v⟩, core⟩ := T
  obtain ⟨sc, sr⟩ := s
  simp only [value, choose_four, Option.bind_some, valueBody, valueOrThrow_content]
  cases r <;> cases c <;> cases sc <;> cases sr <;>
    simp [declared, addConst, lref, rref, castRef, returnRef, Qual.this, qualsKept, bindsRvalue, asRef, content]

/-! ## C53 -/

/-- C53: `get`, `get_unchecked`, `operator*`, `value` and `value_or_throw` compile for every `T` and every option expression, and
give the contained object (or what the contained reference refers to) with the right qualifiers and category. -/
theorem C53_reference_accessors (T : QTy) (s : Self)
    (acc : QTy → Self → Option Ex) (ha : acc ∈ [get, getUnchecked, star, value, valueOrThrow]) :
    ∃ e, acc T s = some e ∧ Access T s e := by
  simp only [List.mem_cons, List.not_mem_nil, or_false] at ha
  rcases ha with rfl | rfl | rfl | rfl | rfl
  · exact ⟨_, get_content T s, content_access T s⟩
  · exact ⟨_, get_content T s, content_access T s⟩
  · exact ⟨_, star_content T s, content_access T s⟩
  · exact ⟨_, value_content T s, content_access T s⟩
  · exact ⟨_, valueOrThrow_content T s, content_access T s⟩

/-- the rvalue `option<int>`, const `option<int&&>` lvalue, const rvalue `option<int&>` -/
example : (get ⟨.none, ⟨false, false⟩, .cls 0⟩ ⟨false, true⟩).map (fun e => (e.cat, e.cv.const)) = some (.xvalue, false) ∧
    (value ⟨.rv, ⟨false, false⟩, .cls 0⟩ ⟨true, false⟩).map (fun e => (e.cat, e.cv.const)) = some (.lvalue, false) ∧
    (star ⟨.lv, ⟨false, false⟩, .cls 0⟩ ⟨true, true⟩).map (fun e => (e.cat, e.cv.const)) = some (.lvalue, false) := by
  decide

/-- C53: `operator->`, `ptr_or_null`, `begin` and `end` compile for every `T` and every option expression, and point to the
contents with the right qualifiers. -/
theorem C53_pointer_accessors (T : QTy) (s : Self) : ∃ p, pointer T s = some p ∧ PointerTo T s p := by
  obtain ⟨r, ⟨c, v⟩, core⟩ := T
  obtain ⟨sc, sr⟩ := s
  refine ⟨⟨⟨c || (sc && r == .none), v⟩, core, .contained⟩, ?_, rfl, rfl, rfl, by simp⟩
  simp only [pointer, choose_plain, Option.bind_some, pointerBody, get_content]
  cases r <;> cases c <;> cases sc <;> simp [addressAs, content, lref, addConst, qualsKept, Qual.this]

example : pointer ⟨.none, ⟨false, false⟩, .cls 0⟩ ⟨true, true⟩ = some ⟨⟨true, false⟩, .cls 0, .contained⟩ := by decide

/-- C53: callables get the contents as the accessors give them for the option expression the member is called on
(`has_value_and`, `inspect`, `map_or`, `map_or_else`: `argGet`; `and_then`, `map`: `argStar`). -/
theorem C53_callable_argument (T : QTy) (s : Self) (arg : QTy → Self → Option Ex) (ha : arg ∈ [argGet, argStar]) :
    ∃ e, arg T s = some e ∧ Access T s e := by
  simp only [List.mem_cons, List.not_mem_nil, or_false] at ha
  have hs : Qual.forwarded ⟨s.const, if s.rvalue then .rv else .lv⟩ = s := by
    obtain ⟨_ | _, _ | _⟩ := s <;> rfl
  rcases ha with rfl | rfl
  · refine ⟨_, ?_, content_access T s⟩
    simp only [argGet, choose_four, Option.bind_some, hs, get_content]
  · refine ⟨_, ?_, content_access T s⟩
    simp only [argStar, choose_four, Option.bind_some, hs, star_content]

/-- C53: the predicates of `filter` and `take_if` get the contents of the option as an lvalue, so they cannot be moved from by
accident; `take_if` needs an option that is not const. -/
theorem C53_predicate_argument (T : QTy) (s : Self) :
    (∃ e, argFilter T s = some e ∧ Access T ⟨s.const, false⟩ e) ∧
    (s.const = false → ∃ e, argTakeIf T s = some e ∧ Access T ⟨false, false⟩ e) ∧
    (s.const = true → argTakeIf T s = none) := by
  refine ⟨⟨_, ?_, content_access T ⟨s.const, false⟩⟩, fun h => ⟨_, ?_, content_access T ⟨false, false⟩⟩, fun h => ?_⟩
  · simp only [argFilter, choose_four, Option.bind_some, get_content, Qual.this]
  · obtain ⟨sc, _ | _⟩ := s <;> simp only at h <;> subst h <;> exact get_content T ⟨false, false⟩
  · obtain ⟨sc, _ | _⟩ := s <;> simp only at h <;> subst h <;> rfl

example : (argFilter ⟨.none, ⟨false, false⟩, .cls 0⟩ ⟨false, true⟩).map (·.cat) = some .lvalue := by decide

/-! ## C54 -/

/-- C54, the contained value: for a type without qualifiers, `value_or` and `value_or_construct` compile for every option
expression of an object or of an lvalue reference, and give the value as specified; for an rvalue reference on rvalues that
are not const.
Missing: qualified types (`C54_violated_const`), lvalues that contain an rvalue reference (`C54_value_or_exact`). -/
theorem C54_contained_partial (T : QTy) (s : Self) (hc : T.ref = .none → T.cv = ⟨false, false⟩)
    (hr : T.ref = .rv → s.rvalue = true ∧ s.const = false)
    (acc : QTy → Self → Option Result) (ha : acc ∈ [valueOrThen, constructThen]) :
    ∃ r, acc T s = some r ∧ FromValue T s r := by
  obtain ⟨r, ⟨c, v⟩, core⟩ := T
  obtain ⟨sc, sr⟩ := s
  simp only [List.mem_cons, List.not_mem_nil, or_false] at ha
  have key : ∀ x : Option Result, (∃ r', x = some r' ∧ FromValue ⟨r, ⟨c, v⟩, core⟩ ⟨sc, sr⟩ r') ↔
      x.elim False (FromValue ⟨r, ⟨c, v⟩, core⟩ ⟨sc, sr⟩) := by
    intro x
    cases x <;> simp
  rw [key]
  rcases ha with rfl | rfl <;>
    simp only [valueOrThen, constructThen, choose_two, get_content, Option.bind_some] <;>
    cases r <;> cases c <;> cases v <;> cases sc <;> cases sr <;> simp at hc hr <;>
    simp [castRef, returnRef, returnAs, returnVal, removeCv, rref, content, Qual.this, Qual.forwarded, qualsKept, asRef, bindsRvalue,
      FromValue]

/-- the rvalue `option<std::string>` gives its value by a move, the lvalue by a copy -/
example : (∃ o, valueOrThen ⟨.none, ⟨false, false⟩, .cls 0⟩ ⟨false, true⟩ = some (.val ⟨.none, ⟨false, false⟩, .cls 0⟩ .move o)) ∧
    (∃ o, valueOrThen ⟨.none, ⟨false, false⟩, .cls 0⟩ ⟨false, false⟩ = some (.val ⟨.none, ⟨false, false⟩, .cls 0⟩ .copy o)) :=
  ⟨⟨_, rfl⟩, ⟨_, rfl⟩⟩

/-- C54: exactly when the contained value can be returned by `value_or`: not from an rvalue `option<const X>` or
`option<volatile X>`, and not from a const or lvalue `option<X&&>`. -/
theorem C54_value_or_exact (T : QTy) (s : Self) :
    (∃ r, valueOrThen T s = some r) ↔
      (T.ref = .none → s.rvalue = true → s.const = false → T.cv = ⟨false, false⟩) ∧
      (T.ref = .rv → s.rvalue = true ∧ s.const = false) := by
  obtain ⟨r, ⟨c, v⟩, core⟩ := T
  obtain ⟨sc, sr⟩ := s
  rw [← Option.isSome_iff_exists]
  simp only [valueOrThen, choose_two, get_content, Option.bind_some]
  cases r <;> cases c <;> cases v <;> cases sc <;> cases sr <;>
    simp [castRef, returnRef, returnAs, returnVal, removeCv, rref, content, Qual.this, qualsKept, asRef, bindsRvalue]

/-- C54 is violated for const types: `opt::option<const X>{x}.value_or(y)` does not compile (the cast to `X&&` would lose the
`const`), although the same call on an lvalue, and `value_or_construct` on the rvalue, do. -/
theorem C54_violated_const (core : Core) :
    valueOrThen ⟨.none, ⟨true, false⟩, core⟩ ⟨false, true⟩ = none ∧
    (∃ r, valueOrThen ⟨.none, ⟨true, false⟩, core⟩ ⟨false, false⟩ = some r ∧
      FromValue ⟨.none, ⟨true, false⟩, core⟩ ⟨false, false⟩ r) ∧
    (∃ r, constructThen ⟨.none, ⟨true, false⟩, core⟩ ⟨false, true⟩ = some r ∧
      FromValue ⟨.none, ⟨true, false⟩, core⟩ ⟨false, true⟩ r) := by
  refine ⟨?_, ⟨.val ⟨.none, ⟨false, false⟩, core⟩ .copy .contained, ?_, ?_⟩,
    ⟨.val ⟨.none, ⟨false, false⟩, core⟩ .copy .contained, ?_, ?_⟩⟩ <;>
    simp [valueOrThen, constructThen, choose_two, get_content, castRef, returnRef, returnAs, returnVal, removeCv, rref, content,
      Qual.this, Qual.forwarded, qualsKept, FromValue]

theorem returnRef_same {R : QTy} {e x : Ex} (h : returnRef R e = some x) (hc : e.core = R.core) (hp : e.cat ≠ .prvalue) :
    x.origin = e.origin ∧ x.core = R.core ∧ x.cv = R.cv ∧ x.cat ≠ .prvalue ∧ qualsKept e.cv R.cv = true := by
  unfold returnRef at h
  rw [if_pos hc] at h
  split at h
  · cases h
  · rename_i hq
    have hx : asRef R e.origin e.converts = x := by
      split at h
      · split at h <;> cases h; rfl
      · split at h <;> cases h; rfl
      · rename_i hcat; exact absurd hcat hp
    subst hx
    refine ⟨rfl, rfl, rfl, ?_, by simpa using hq⟩
    simp only [asRef]; split <;> simp

theorem castRef_same {R : QTy} {e x : Ex} (h : castRef R e = some x) (hc : e.core = R.core) (hp : e.cat ≠ .prvalue) :
    x.origin = e.origin ∧ x.core = R.core ∧ x.cv = R.cv ∧ x.cat ≠ .prvalue ∧ qualsKept e.cv R.cv = true := by
  unfold castRef at h
  split at h
  · rename_i hq
    cases h
    simp only [Bool.and_eq_true, decide_eq_true_eq] at hq
    refine ⟨rfl, rfl, rfl, ?_, hq.1.1.2⟩
    simp only [asRef]; split <;> simp
  · exact returnRef_same h hc hp

/-- C54, the fallback of `value_or`: with an object type it is an object of its own; with a reference it is the caller's
argument, provided that is of the type referred to, and no qualifier is lost.
Missing: arguments of other types (`C54_violated_temporary`). -/
theorem C54_fallback_partial (T : QTy) (d : Ex) (hd : d.origin = .argument) (hg : d.cat ≠ .prvalue)
    (h : T.ref = .none ∨ d.core = T.core) (r : Result) (hr : valueOrElse T d = some r) :
    r.Safe ∧ (T.ref ≠ .none → ∃ e, r = .ref e ∧ e.origin = .argument ∧ e.core = T.core ∧ e.cv = T.cv ∧
      qualsKept d.cv T.cv = true) := by
  by_cases ht : T.ref = .none
  · refine ⟨?_, fun h => absurd ht h⟩
    have ht' : (removeCv T).ref = .none := by simp [removeCv, ht]
    simp only [valueOrElse, castReturn, returnAs, ht', if_true, Option.map_eq_some_iff] at hr
    obtain ⟨how, -, rfl⟩ := hr
    trivial
  · have hc := h.resolve_left ht
    have hR : removeCv T = T := by simp [removeCv, ht]
    simp only [valueOrElse, castReturn, returnAs, hR, if_neg ht, Option.bind_eq_some_iff, Option.map_eq_some_iff] at hr
    obtain ⟨x, hx, y, hy, rfl⟩ := hr
    obtain ⟨a1, a2, a3, a4, a5⟩ := castRef_same hx hc hg
    obtain ⟨b1, b2, b3, b4, b5⟩ := returnRef_same hy a2 a4
    have ho : y.origin = .argument := b1.trans (a1.trans hd)
    exact ⟨by simp [Result.Safe, ho], fun _ => ⟨y, rfl, ho, b2, b3, a5⟩⟩

/-- an lvalue of class 1 that converts to class 0 -/
def lvalueOfOther : Ex := ⟨.lvalue, ⟨false, false⟩, .cls 1, .argument, fun c => c == .cls 0⟩

/-- an rvalue of class 0 -/
def rvalueOfSame : Ex := ⟨.xvalue, ⟨false, false⟩, .cls 0, .argument, fun _ => false⟩

/-- `option<const X&>::value_or(X{})` refers to the argument -/
example : ∃ r, valueOrElse ⟨.lv, ⟨true, false⟩, .cls 0⟩ rvalueOfSame = some r ∧ r.Safe := ⟨_, rfl, by simp [Result.Safe, asRef, rvalueOfSame]⟩

/-- C54 is violated: for an option of a const reference, `value_or` with an argument of another type (say
`option<const std::string&>` and a `const char*`) compiles and returns a reference to a temporary that is gone. -/
theorem C54_violated_temporary :
    ∃ T d r, d.origin = .argument ∧ d.cat = .lvalue ∧ T.ref = .lv ∧ valueOrElse T d = some r ∧ ¬r.Safe :=
  ⟨⟨.lv, ⟨true, false⟩, .cls 0⟩, lvalueOfOther, _, rfl, rfl, rfl, rfl, by simp [Result.Safe, asRef]⟩

/-- C54: exactly when the fallback of `value_or` is safe for an option of a reference. -/
theorem C54_fallback_exact (T : QTy) (d : Ex) (ht : T.ref ≠ .none) (hd : d.origin = .argument) (hg : d.cat ≠ .prvalue)
    (r : Result) (hr : valueOrElse T d = some r) : r.Safe ↔ d.core = T.core := by
  refine ⟨fun hs => ?_, fun h => (C54_fallback_partial T d hd hg (.inr h) r hr).1⟩
  have hR : removeCv T = T := by simp [removeCv, ht]
  simp only [valueOrElse, castReturn, returnAs, hR, if_neg ht, Option.bind_eq_some_iff, Option.map_eq_some_iff] at hr
  obtain ⟨x, hx, y, hy, rfl⟩ := hr
  refine Decidable.byContradiction fun hc => hs ?_
  have hxt : x.origin = .temporary ∧ x.core = T.core ∧ x.cat ≠ .prvalue := by
    unfold castRef at hx
    rw [if_neg (by simp [hc])] at hx
    unfold returnRef at hx
    rw [if_neg hc] at hx
    split at hx <;> cases hx
    refine ⟨rfl, rfl, ?_⟩
    simp only [asRef]; split <;> simp
  exact (returnRef_same hy hxt.2.1 hxt.2.2).1.trans hxt.1

/-- C54, the fallback of `value_or_construct` with one lvalue argument, for an option of a reference: it always compiles, and it is
an honest reference to the argument exactly if the argument is of the type referred to and no qualifier is lost.
Missing: other arguments (`C54_violated_cast`). -/
theorem C54_construct_fallback_partial (T : QTy) (d : Ex) (ht : T.ref ≠ .none) (hd : d.origin = .argument) (hg : d.cat = .lvalue) :
    ∃ k e, constructElse T d = some (k, .ref e) ∧ e.core = T.core ∧ e.cv = T.cv ∧
      (k = .static ∧ e.origin = .argument ↔ d.core = T.core ∧ qualsKept d.cv T.cv = true) := by
  have hR : removeCv T = T := by simp [removeCv, ht]
  have hq : qualsKept T.cv T.cv = true := by obtain ⟨_, ⟨c, v⟩, _⟩ := T; cases c <;> cases v <;> rfl
  have hret : ∀ o conv, returnAs T (asRef T o conv) = some (.ref (asRef T o conv)) := by
    intro o conv
    obtain ⟨tr, cv, core⟩ := T
    cases tr
    · exact absurd rfl ht
    · simp only at hq; simp [returnAs, returnRef, asRef, hq]
    · simp only at hq; simp [returnAs, returnRef, asRef, hq, bindsRvalue]
  unfold constructElse
  rw [hR]
  by_cases hc : d.core = T.core
  · simp only [functionalCast, if_pos hc, Option.bind_some, hret, Option.map_some]
    refine ⟨_, _, rfl, rfl, rfl, ?_⟩
    simp only [asRef, hd, hc, and_true, true_and]
    split <;> simp_all
  · simp only [functionalCast, if_neg hc]
    have hcast : castRef T d = if d.converts T.core && bindsRvalue T then some (asRef T .temporary (fun c => c == T.core)) else none := by
      unfold castRef
      rw [if_neg (by simp [hc])]
      simp only [returnRef, if_neg hc]
    rw [hcast]
    cases d.converts T.core && bindsRvalue T <;> simp only [Bool.false_eq_true, if_false, if_true, Option.bind_some, hret, Option.map_some]
    · exact ⟨_, _, rfl, rfl, rfl, by simp [hc]⟩
    · exact ⟨_, _, rfl, rfl, rfl, by simp [hc, asRef]⟩

example : ∃ e, constructElse ⟨.lv, ⟨true, false⟩, .cls 0⟩ ⟨.lvalue, ⟨false, false⟩, .cls 0, .argument, fun _ => false⟩ =
    some (.static, .ref e) ∧ e.origin = .argument := ⟨_, rfl, rfl⟩

/-- C54 is violated by `value_or_construct` on options of references, because `T(arg)` is a cast: an object of an unrelated type is
taken for one of the right type, a const object for one that may be changed, and a reference to a temporary is returned. -/
theorem C54_violated_cast :
    (∃ e, constructElse ⟨.lv, ⟨false, false⟩, .cls 0⟩ ⟨.lvalue, ⟨false, false⟩, .cls 1, .argument, fun _ => false⟩ =
      some (.reinterpret, .ref e) ∧ e.origin = .argument ∧ e.core = .cls 0) ∧
    (∃ e, constructElse ⟨.lv, ⟨false, false⟩, .cls 0⟩ ⟨.lvalue, ⟨true, false⟩, .cls 0, .argument, fun _ => false⟩ =
      some (.constCast, .ref e) ∧ e.origin = .argument ∧ e.cv.const = false) ∧
    (∃ e, constructElse ⟨.lv, ⟨true, false⟩, .cls 0⟩ lvalueOfOther = some (.static, .ref e) ∧ e.origin = .temporary) :=
  ⟨⟨_, rfl, rfl, rfl⟩, ⟨_, rfl, rfl, rfl⟩, ⟨_, rfl, rfl⟩⟩

end Opt.Accessor
