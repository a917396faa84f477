import Verif.Spec.Manual
import Verif.Props.Overload
import Verif.Props.RefBind
import Verif.Props.RefOption
import Verif.Props.Iter

/-!
# C69 The reference manual
-/

namespace Opt.Manual

open Opt.Overload Opt.Overload.Std Opt.RefBind Opt.Accessor

/-! ## Constructors and assignments of options of objects -/

/-- the value constructor that `Model/Overload` looks at is the one with another option as its argument -/
theorem valueCtor_option (F : Facts) (q : Cat) (e : Bool) :
    Overload.valueCtor F q e = fromValueCtor F .otherOption (F.opt q) e := by
  unfold Overload.valueCtor fromValueCtor
  cases F.isBool <;> simp [Head.isOption]

theorem explicit_iff (s : SrcFacts) (e : Bool) : Doc.Explicit s e ↔ (s.convertible != e) = true := by
  unfold Doc.Explicit
  cases s.convertible <;> cases e <;> simp

theorem init_iff (F : Facts) (s : SrcFacts) :
    initializable F s = true ↔ s.constructible = true ∨ (F.cxx20 = false ∧ F.aggregate = true ∧ s.braced = true) := by
  unfold initializable
  cases F.cxx20 <;> cases s.constructible <;> simp

/-- **C69**: the value constructor is enabled exactly as documented, and moreover, before C++20, for aggregates that can only be
initialised with braces. -/
theorem C69_value_ctor (F : Facts) (h : Head) (s : SrcFacts) (e : Bool) :
    fromValueCtor F h s e = true ↔ Doc.ValueCtor F h { s with constructible :=
      s.constructible || (!F.cxx20 && F.aggregate && s.braced) } e := by
  unfold fromValueCtor Doc.ValueCtor
  rw [explicit_iff]
  split
  · rename_i hc
    rw [Bool.and_eq_true, init_iff]
    cases h <;> simp_all [Head.isOption, and_assoc] <;> exact and_comm
  · rename_i hc
    cases h <;> simp_all [Head.isOption]

/-- **C69** (part): as documented in C++20, and for `T` that is no aggregate. -/
theorem C69_value_ctor_partial (F : Facts) (hr : Regular F) (h : Head) (s : SrcFacts) (e : Bool) :
    fromValueCtor F h s e = true ↔ Doc.ValueCtor F h s e := by
  rw [C69_value_ctor]
  rcases hr with hr | hr <;> simp [hr]

/-- the facts for `T` from `int` in both directions, no options involved -/
def plainFacts (cxx20 aggregate : Bool) (s : SrcFacts) : Facts :=
  ⟨cxx20, aggregate, false, fun _ => ⟨false, false, false, false⟩, s, s⟩

example : fromValueCtor (plainFacts true false ⟨true, true, true, true⟩) .other ⟨true, true, true, true⟩ false = true ∧
    Doc.ValueCtor (plainFacts true false ⟨true, true, true, true⟩) .other ⟨true, true, true, true⟩ false :=
  have h : fromValueCtor (plainFacts true false ⟨true, true, true, true⟩) .other ⟨true, true, true, true⟩ false = true := by
    decide
  ⟨h, (C69_value_ctor_partial _ (.inl rfl) _ _ _).mp h⟩

/-- **C69** fails for the value constructor: a C++17 aggregate (`struct { int x; }` from an `int`). -/
theorem C69_violated_value_ctor : ∃ (F : Facts) (h : Head) (s : SrcFacts) (e : Bool),
    fromValueCtor F h s e = true ∧ ¬ Doc.ValueCtor F h s e :=
  ⟨plainFacts false true ⟨false, false, true, false⟩, .other, ⟨false, false, true, false⟩, true, by decide,
    fun h => absurd h.1 (by decide)⟩

/-- **C69**: the constructor from several arguments needs more than is documented: two arguments at least, no `std::in_place_t` in
front, and before C++20 an aggregate, if the arguments only fit in braces; from C++20 on they do not help at all. -/
theorem C69_args_ctor (F : Facts) (n : Nat) (h : Head) (s : SrcFacts) :
    fromArgsCtor F n h s = true ↔
      Doc.ArgsCtor n h s ∧ 2 ≤ n ∧ h ≠ .inPlace ∧ (s.constructible = true ∨ (F.cxx20 = false ∧ F.aggregate = true)) := by
  unfold fromArgsCtor Doc.ArgsCtor Doc.Initializable
  simp only [Bool.and_eq_true, decide_eq_true_eq, bne_iff_ne, ne_eq, init_iff]
  constructor
  · rintro ⟨hn, ⟨h1, h2⟩, h3⟩
    refine ⟨⟨by omega, h3.imp id (fun x => x.2.2), h1⟩, hn, h2, h3.imp id (fun x => ⟨x.1, x.2.1⟩)⟩
  · rintro ⟨⟨_, h1, h2⟩, hn, h3, h4⟩
    refine ⟨hn, ⟨h2, h3⟩, ?_⟩
    rcases h4 with h4 | h4
    · exact .inl h4
    · exact h1.imp id (fun x => ⟨h4.1, h4.2, x⟩)

example : fromArgsCtor (plainFacts true false ⟨true, true, true, true⟩) 2 .other ⟨true, true, true, true⟩ = true :=
  (C69_args_ctor _ _ _ _).mpr ⟨⟨by decide, .inl rfl, nofun⟩, by decide, nofun, .inl rfl⟩

/-- **C69** fails for the constructor from several arguments in each of the three ways: one argument, `std::in_place_t` in front,
and a list in braces (elements for a `std::vector`, or brace elision). -/
theorem C69_violated_args_ctor (F : Facts) :
    (∃ h s, Doc.ArgsCtor 1 h s ∧ fromArgsCtor F 1 h s = false) ∧
    (∃ n s, 2 ≤ n ∧ s.constructible = true ∧ Doc.ArgsCtor n .inPlace s ∧ fromArgsCtor F n .inPlace s = false) ∧
    (F.aggregate = false ∨ F.cxx20 = true → ∃ n s, 2 ≤ n ∧ Doc.ArgsCtor n .other s ∧ fromArgsCtor F n .other s = false) := by
  refine ⟨⟨.other, ⟨true, true, true, true⟩, ⟨by decide, .inl rfl, nofun⟩, rfl⟩,
    ⟨2, ⟨true, true, true, true⟩, by decide, rfl, ⟨by decide, .inl rfl, nofun⟩, rfl⟩, fun hF => ?_⟩
  refine ⟨2, ⟨false, false, true, false⟩, by decide, ⟨by decide, .inr rfl, nofun⟩, ?_⟩
  rcases hF with hF | hF <;> simp [fromArgsCtor, initializable, hF]

/-- **C69**: the in-place constructor is enabled when documented and `T` can be initialised from the arguments. -/
theorem C69_in_place_ctor (F : Facts) (h : Head) (s : SrcFacts) :
    fromInPlaceCtor F h s = true ↔
      Doc.InPlaceCtor h ∧ (s.constructible = true ∨ (F.cxx20 = false ∧ F.aggregate = true ∧ s.braced = true)) := by
  unfold fromInPlaceCtor Doc.InPlaceCtor
  rw [Bool.and_eq_true, init_iff, beq_iff_eq]

example : fromInPlaceCtor (plainFacts false true ⟨false, false, true, false⟩) .inPlace ⟨false, false, true, false⟩ = true :=
  (C69_in_place_ctor _ _ _).mpr ⟨rfl, .inr ⟨rfl, rfl, rfl⟩⟩

theorem swallow_iff (F : Facts) : constructibleFromOption F = true ↔ Doc.ConstructibleFromOption F := constructible_iff

theorem bool_or_iff (F : Facts) : (F.isBool || !constructibleFromOption F) = true ↔
    (F.isBool = true ∨ ¬ Doc.ConstructibleFromOption F) := by
  rw [Bool.or_eq_true, ← swallow_iff]
  cases constructibleFromOption F <;> simp

theorem fromOptionCtor_iff (F : Facts) (hr : Regular F) (same : Bool) (s : SrcFacts) (e : Bool) :
    fromOptionCtor F same s e = true ↔
      s.constructible = true ∧ same = false ∧ (F.isBool = true ∨ ¬ Doc.ConstructibleFromOption F) ∧ Doc.Explicit s e := by
  unfold fromOptionCtor Overload.convCtor
  rw [Bool.and_eq_true, Bool.and_eq_true, Bool.and_eq_true, bool_or_iff, explicit_iff, init_regular hr, Bool.not_eq_true']
  constructor
  · rintro ⟨h1, ⟨h2, h3⟩, h4⟩; exact ⟨h2, h1, h4, h3⟩
  · rintro ⟨h2, h1, h4, h3⟩; exact ⟨h1, ⟨h2, h3⟩, h4⟩

/-- **C69**: the converting copy constructor is enabled exactly as documented (in C++20, or for `T` that is no aggregate). -/
theorem C69_copy_conversion_partial (F : Facts) (hr : Regular F) (same e : Bool) :
    fromOptionCtor F same F.elemConst e = true ↔ Doc.CopyConv F same e :=
  fromOptionCtor_iff F hr same F.elemConst e

example : fromOptionCtor (plainFacts true false ⟨true, false, true, true⟩) false ⟨true, false, true, true⟩ true = true :=
  (C69_copy_conversion_partial (plainFacts true false ⟨true, false, true, true⟩) (.inl rfl) false true).mpr
    ⟨rfl, rfl, .inr (by rintro ⟨q, h | h⟩ <;> exact nomatch h), by simp [Doc.Explicit, plainFacts]⟩

/-- **C69**: what the condition on the converting move constructor should say is that `T` is constructible from `U&&`; the manual
asks whether `T` converts to `U&&`.  The two conditions agree exactly when these two facts do or nothing is enabled anyway. -/
theorem C69_move_conversion (F : Facts) (hr : Regular F) (same back e : Bool) :
    (fromOptionCtor F same F.elemMove e = true ↔ Doc.MoveConv F same back e) ↔
      (F.elemMove.constructible = back ∨ same = true ∨ (F.isBool = false ∧ Doc.ConstructibleFromOption F) ∨
        ¬ Doc.Explicit F.elemMove e) := by
  rw [fromOptionCtor_iff F hr]
  unfold Doc.MoveConv
  by_cases h1 : Doc.ConstructibleFromOption F <;> by_cases h2 : Doc.Explicit F.elemMove e <;>
    cases F.isBool <;> cases same <;> cases F.elemMove.constructible <;> cases back <;> simp [h1, h2]

/-- **C69** fails for the converting move constructor, in both directions. -/
theorem C69_violated_move_conversion :
    (∃ F : Facts, Regular F ∧ fromOptionCtor F false F.elemMove false = true ∧ ¬ Doc.MoveConv F false false false) ∧
    (∃ F : Facts, Regular F ∧ Doc.MoveConv F false true true ∧ ∀ e, fromOptionCtor F false F.elemMove e = false) := by
  refine ⟨⟨plainFacts true false ⟨true, true, true, true⟩, .inl rfl, by decide, fun h => nomatch h.1⟩,
    ⟨plainFacts true false ⟨false, false, false, false⟩, .inl rfl, ⟨rfl, rfl, .inr ?_, by simp [Doc.Explicit, plainFacts]⟩,
      by decide⟩⟩
  rintro ⟨q, h | h⟩ <;> exact nomatch h

/-- the facts under which the manual's `is_initializable_from` and the one of the code agree about `s` -/
def BracesAgree (F : Facts) (s : SrcFacts) : Prop :=
  s.braced = true ↔ s.constructible = true ∨ (F.cxx20 = false ∧ F.aggregate = true ∧ s.braced = true)

/-- **C69** (part): assigning a value is enabled as documented exactly if list-initialisation is possible when construction is, or
the assignment is disabled anyway. -/
theorem C69_value_assign (F : Facts) (h : Head) (s : SrcFacts) :
    (fromValueAssign F h s = true ↔ Doc.ValueAssign h s) ↔ (BracesAgree F s ∨ h = .same ∨ s.assignable = false) := by
  unfold fromValueAssign Doc.ValueAssign Doc.Initializable BracesAgree
  simp only [Bool.and_eq_true, bne_iff_ne, ne_eq, init_iff]
  by_cases h1 : h = .same <;> cases s.assignable <;> cases s.braced <;> cases s.constructible <;> cases F.cxx20 <;>
    cases F.aggregate <;> simp [h1]

example : fromValueAssign (plainFacts true false ⟨true, true, true, true⟩) .other ⟨true, true, true, true⟩ = true ↔
    Doc.ValueAssign .other ⟨true, true, true, true⟩ :=
  (C69_value_assign _ _ _).mpr (.inl ⟨fun _ => .inl rfl, fun _ => rfl⟩)

/-- **C69** (part): the same for assigning another option. -/
theorem C69_option_assign (F : Facts) (same : Bool) (s : SrcFacts) :
    (fromOptionAssign F same s = true ↔ Doc.OptionAssign F same s) ↔
      (BracesAgree F s ∨ same = true ∨ s.assignable = false ∨ Doc.ConstructibleFromOption F ∨ Doc.AssignableFromOption F) := by
  have ha : assignableFromOption F = true ↔ Doc.AssignableFromOption F := assignable_iff
  have hc := swallow_iff F
  unfold fromOptionAssign Overload.convAssign Doc.OptionAssign Doc.Initializable BracesAgree
  rw [← ha, ← hc]
  simp only [Bool.and_eq_true, Bool.not_eq_true', init_iff]
  cases same <;> cases s.assignable <;> cases s.braced <;> cases s.constructible <;> cases F.cxx20 <;>
    cases F.aggregate <;> cases constructibleFromOption F <;> cases assignableFromOption F <;> simp

/-- **C69** fails for the assignments: a `double` (or an `option<double>`) assigned to an `option<int>` would be a narrowing
conversion in braces, so that the manual excludes it; the code accepts it.  An `explicit` constructor that can only be used in
braces is the opposite case. -/
theorem C69_violated_narrowing : ∃ (F : Facts) (s : SrcFacts), F.cxx20 = true ∧
    fromValueAssign F .other s = true ∧ ¬ Doc.ValueAssign .other s ∧
    fromOptionAssign F false s = true ∧ ¬ Doc.OptionAssign F false s :=
  ⟨plainFacts true false ⟨true, true, false, true⟩, ⟨true, true, false, true⟩, rfl, by decide,
    fun h => Bool.noConfusion (show false = true from h.2.1), by decide,
    fun h => Bool.noConfusion (show false = true from h.2.1)⟩

/-! ## Options of references -/

/-- **C69**: what the formula for `can_bind_reference` says, as it is written, is more than the code accepts, exactly for rvalues
of unrelated types. -/
theorem C69_violated_can_bind (B : Bases) (T U : QTy) :
    (binds B T U = true → Doc.CanBindLiteral B T U) ∧
    (Doc.CanBindLiteral B T U ∧ binds B T U = false ↔
      U.ref ≠ .lv ∧ ¬ Compatible B T U ∧ ¬ Wraps U { T.cv with const := false } T.core ∧ ¬ Wraps U T.cv T.core) := by
  rw [← Bool.not_eq_true, binds_iff]
  unfold CanBind Doc.CanBindLiteral
  by_cases h1 : Compatible B T U <;> by_cases h2 : T.ref = .lv <;> by_cases h3 : U.ref = .lv <;>
    by_cases h4 : Wraps U { T.cv with const := false } T.core <;> by_cases h5 : Wraps U T.cv T.core <;>
    simp only [h1, h2, h3, h4, h5, true_and, false_and, true_or, false_or, or_true, or_false, and_true, and_false, not_true_eq_false,
      not_false_eq_true, iff_true, iff_false, ne_eq, implies_true, and_self, true_implies, false_implies]

example : ∃ (B : Bases) (T U : QTy), Doc.CanBindLiteral B T U ∧ binds B T U = false := by
  refine ⟨fun _ _ => false, ⟨.lv, ⟨false, false⟩, .cls 0⟩, ⟨.none, ⟨false, false⟩, .cls 1⟩, ?_⟩
  refine (C69_violated_can_bind _ _ _).2.mpr ⟨nofun, ?_, ?_, ?_⟩
  · intro h
    rcases h.core with h | ⟨_, _, _, _, h⟩ <;> exact nomatch h
  · exact fun h => nomatch h.2
  · exact fun h => nomatch h.2

/-- **C69** fails for references: no option of a reference can be constructed from an option of another type, although this is
documented whenever the reference can be bound: the converting constructors are never enabled, nor does one of the other
constructors take an option as its only argument. -/
theorem C69_violated_reference_conversion :
    (∀ (B : Bases) (T U S : QTy), (∀ e, refOptionCtor B T U e = false) ∧
      (isOption S = true → RefBind.fromValueCtor B T S = false) ∧ RefBind.fromArgsCtor = false ∧
      RefBind.fromInPlaceCtor T S 0 = false) ∧
    ∃ (B : Bases) (T U : QTy), Doc.RefFromOption B T U := by
  refine ⟨fun B T U S => ⟨fun e => ?_, fun h => ?_, rfl, rfl⟩,
    ⟨fun _ _ => false, ⟨.lv, ⟨true, false⟩, .cls 0⟩, ⟨.lv, ⟨false, false⟩, .cls 0⟩, nofun,
      .inr (.inr ⟨⟨nofun, nofun, .inl rfl⟩, Iff.rfl⟩)⟩⟩
  · unfold refOptionCtor refFromOptionCtor
    cases U != T && binds B T U <;> rfl
  · unfold RefBind.fromValueCtor
    rw [h]
    simp

/-- **C69**: the assignments from options are enabled as documented (with `can_bind_reference` as it is meant). -/
theorem C69_reference_assign (B : Bases) (T U : QTy) : refOptionAssign B T U = true ↔ Doc.RefFromOption B T U := by
  unfold refOptionAssign refFromOptionAssign Doc.RefFromOption
  rw [← binds_iff]
  by_cases h1 : U = T
  · subst h1; simp [checkFail]
  · cases binds B T U <;> simp [h1, Ne.symm h1, alwaysAssign, checkFail]

example : refOptionAssign (fun _ _ => false) ⟨.lv, ⟨true, false⟩, .cls 0⟩ ⟨.lv, ⟨false, false⟩, .cls 0⟩ = true :=
  (C69_reference_assign _ _ _).mpr ⟨nofun, .inr (.inr ⟨⟨nofun, nofun, .inl rfl⟩, Iff.rfl⟩)⟩

theorem Core.ne_opt_refWrap (cv cv' : Cv) (r : Ref) (c : Core) : c ≠ .refWrap cv (.opt cv' c r) := by
  intro h
  have := congrArg sizeOf h
  simp at this
  omega

/-- **C69** fails for the assignment of an lvalue option to an option of another reference type, wherever it is enabled: it leaves
the option referring to a temporary (exactly if the temporary option that the cast makes converts to the type referred to and the
reference can be bound to a temporary) or does not compile; it never refers to what the other option refers to. -/
theorem C69_violated_reference_assign (B : Bases) (T U : QTy) (ok : Bool) (tmp : Loc) (conv : Core → Bool) :
    refAssignOptionLvalue B T U ok tmp conv =
      if refOptionAssign B T U && ok && conv T.core && (T.ref != .lv || (T.cv.const && !T.cv.volatile)) then .temporary
      else .illFormed := by
  unfold refAssignOptionLvalue
  cases he : refOptionAssign B T U with
  | false => rfl
  | true =>
    cases ok with
    | false => rfl
    | true =>
      have hne : T.core ≠ .opt U.cv U.core U.ref := by
        intro hc
        rcases ((C69_reference_assign B T U).mp he).2 with h | h | h
        · rw [Wraps, hc] at h; exact Core.ne_opt_refWrap _ _ _ _ h.2
        · rw [Wraps, hc] at h; exact Core.ne_opt_refWrap _ _ _ _ h.2
        · rcases h.1.core with h | ⟨b, d, h, _⟩
          · rw [hc] at h; exact Core.ne_opt _ _ _ h
          · rw [hc] at h; cases h
      have hp : ptrConvertible B ⟨.none, ⟨false, false⟩, .opt U.cv U.core U.ref⟩ T = false := by
        rw [Bool.eq_false_iff, ne_eq, ptrConvertible_iff]
        intro h
        rcases h.core with h | ⟨b, d, _, h, _⟩
        · exact hne h.symm
        · cases h
      simp only [refToPtr, bindParam, Expr.deduced, Bool.false_eq_true, if_false, if_true, hp, Bool.true_and]
      have hb : (Core.opt U.cv U.core U.ref != T.core) = true := by
        rw [bne_iff_ne]; exact hne.symm
      rw [hb, Bool.true_and]

example : refAssignOptionLvalue (fun _ _ => false) ⟨.lv, ⟨true, false⟩, .cls 0⟩ ⟨.lv, ⟨false, false⟩, .cls 0⟩ true (0, 0)
    (fun c => c == .cls 0) = .temporary := by
  rw [C69_violated_reference_assign]
  decide

/-- The constructor with an `initializer_list` parameter makes an option of a reference to such a list refer to its own
parameter, which is gone when it returns; `option(in_place, arg)` would refer to the argument. -/
theorem C69_violated_initializer_list (B : Bases) (T tag : QTy) (e : Expr) (param : Loc) (hT : T.ref = .lv)
    (he : e.core = T.core) (hn : ∀ cv c, e.core ≠ .refWrap cv c) (hl : e.lvalue = true) (hcv : e.cv = ⟨false, false⟩) :
    ctorInPlaceList B T tag e param = .object param ∧ ctorInPlace B T tag e = .object e.place := by
  obtain ⟨l, cv, c, p, wr, conv⟩ := e
  obtain ⟨r, ⟨a, b⟩, d⟩ := T
  simp only at hT he hn hl hcv
  subst hT; subst he; subst hl; subst hcv
  unfold ctorInPlaceList ctorInPlace RefBind.fromInPlaceCtor refToPtr
  cases c <;> first | exact absurd rfl (hn _ _) | simp [bindParam, ptrConvertible, Expr.deduced]

example : ctorInPlaceList (fun _ _ => false) ⟨.lv, ⟨false, false⟩, .cls 7⟩ ⟨.none, ⟨false, false⟩, .inPlace⟩
    ⟨true, ⟨false, false⟩, .cls 7, (1, 0), (0, 0), fun _ => false⟩ (2, 0) = .object (2, 0) :=
  (C69_violated_initializer_list _ _ _ _ _ rfl rfl (fun _ _ h => Core.noConfusion h) rfl rfl).1

end Opt.Manual

namespace Opt

variable {Val : Type} {P : Prog Val} {w : World} {i j : Nat}

open Manual

/-! ### The code equivalents, for options of references -/

theorem RefOpt.construct_run (i : Nat) (r : Loc) (w : RWorld Val) :
    RefOpt.construct i r w = .ok () { w with ptr := upd w.ptr i (RefOpt.refToPtr r) } := rfl

theorem cell_write_self (c : Cells Val) (r : Loc) (v : Val) (h : c r = some v) :
    (fun s => if s = r then some v else c s) = c := by
  funext s
  split
  · rename_i h'; rw [h', h]
  · rfl

theorem ptr_null_or (p : Ptr) : p = .null ∨ ∃ r, p = RefOpt.refToPtr r := by
  cases p with
  | null => exact .inl rfl
  | elem a n => exact .inr ⟨(a, n), rfl⟩

theorem refToPtr_inj {r s : Loc} : RefOpt.refToPtr r = RefOpt.refToPtr s ↔ r = s := by
  obtain ⟨a, b⟩ := r
  obtain ⟨c, d⟩ := s
  simp [RefOpt.refToPtr]

theorem RefOpt.hasValue_at {i : Nat} {r : Loc} {w : RWorld Val} (h : w.ptr i = RefOpt.refToPtr r) :
    RefOpt.hasValue i w = .ok true w := by rw [RefOpt.hasValue_run, h]; rfl

theorem RefOpt.hasValue_null {i : Nat} {w : RWorld Val} (h : w.ptr i = .null) : RefOpt.hasValue i w = .ok false w := by
  rw [RefOpt.hasValue_run, h]; rfl

theorem RefOpt.get_at {i : Nat} {r : Loc} {w : RWorld Val} (h : w.ptr i = RefOpt.refToPtr r) : RefOpt.get i w = .ok r w := by
  rw [RefOpt.get_run, h]; rfl

theorem RefOpt.value_at {r : Loc} {v : Val} {w : RWorld Val} (h : w.cell r = some v) : RefOpt.value r w = .ok v w := by
  rw [RefOpt.value_run, h]

theorem RefOpt.value_none {r : Loc} {w : RWorld Val} (h : w.cell r = none) : RefOpt.value r w = .ub := by
  rw [RefOpt.value_run, h]

/-- the two worlds that writing through and rebinding lead to -/
theorem write_eq_rebind {w : RWorld Val} {i : Nat} {r s : Loc} {v : Val} (hi : w.ptr i = RefOpt.refToPtr r) (hv : w.cell s = some v) :
    (Doc.write r v w = .ok () { w with ptr := upd w.ptr i (RefOpt.refToPtr s) }) ↔ r = s := by
  constructor
  · intro h
    simp only [Doc.write, Out.ok.injEq, true_and, RWorld.mk.injEq] at h
    have := congrFun h.1 i
    rw [hi] at this
    simp only [upd, if_true] at this
    exact refToPtr_inj.mp this
  · rintro rfl
    simp only [Doc.write, cell_write_self _ _ _ hv, upd_self hi]

/-- **C69** fails for the assignment of an option of a reference: the code equivalent of the manual writes the value through the
reference, the code rebinds.  They do the same exactly if one of the options is empty or both refer to one place with an object. -/
theorem C69_violated_rebinding (i j : Nat) (w : RWorld Val) :
    Doc.assign i j w = RefOpt.assignFrom i j w ↔
      (w.ptr i = .null ∨ w.ptr j = .null ∨ ∃ r v, w.ptr i = RefOpt.refToPtr r ∧ w.ptr j = RefOpt.refToPtr r ∧ w.cell r = some v) := by
  have hc : RefOpt.assignFrom i j w = .ok () { w with ptr := upd w.ptr i (w.ptr j) } := rfl
  rw [hc]
  rcases ptr_null_or (w.ptr j) with hj | ⟨s, hj⟩
  · simp only [Doc.assign, bind_run, RefOpt.hasValue_null hj, obind_ok, Bool.false_eq_true, if_false, hj, true_or, or_true]
    exact iff_true_intro rfl
  · rcases ptr_null_or (w.ptr i) with hi | ⟨r, hi⟩
    · simp only [Doc.assign, bind_run, RefOpt.hasValue_at hj, RefOpt.hasValue_null hi, obind_ok, Bool.false_eq_true, if_false,
        if_true, RefOpt.get_at hj, RefOpt.construct_run, hi, hj, true_or]
    · simp only [Doc.assign, bind_run, RefOpt.hasValue_at hj, RefOpt.hasValue_at hi, obind_ok, if_true, RefOpt.get_at hj,
        RefOpt.get_at hi]
      rw [hj]
      cases hv : w.cell s with
      | none =>
        simp only [RefOpt.value_none hv, obind_ub, reduceCtorEq, false_iff, hi]
        rintro (h | h | ⟨q, v, h1, h2, h3⟩)
        · cases h
        · cases h
        · rw [refToPtr_inj] at h2
          subst h2
          rw [hv] at h3; cases h3
      | some v =>
        simp only [RefOpt.value_at hv, obind_ok]
        rw [write_eq_rebind hi hv, hi]
        constructor
        · rintro rfl; exact .inr (.inr ⟨r, v, rfl, rfl, hv⟩)
        · rintro (h | h | ⟨q, v, h1, h2, h3⟩)
          · cases h
          · cases h
          · rw [refToPtr_inj] at h1 h2; rw [h1, h2]

/-- two options of references to different elements -/
example : Doc.assign 0 1 Demo.refs ≠ RefOpt.assignFrom 0 1 Demo.refs := by
  rw [ne_eq, C69_violated_rebinding]
  rintro (h | h | ⟨r, v, h1, h2, _⟩)
  · cases h
  · cases h
  · rw [← h2] at h1; cases h1

/-- **C69** fails for the assignment of a reference in the same way: it rebinds instead of assigning through. -/
theorem C69_violated_assign_through (i : Nat) (s : Loc) (w : RWorld Val) :
    Doc.assignRef i s w = RefOpt.assignRef i s w ↔
      (w.ptr i = .null ∨ (w.ptr i = RefOpt.refToPtr s ∧ ∃ v, w.cell s = some v)) := by
  have hc : RefOpt.assignRef i s w = .ok () { w with ptr := upd w.ptr i (RefOpt.refToPtr s) } := rfl
  rw [hc]
  rcases ptr_null_or (w.ptr i) with hi | ⟨r, hi⟩
  · simp only [Doc.assignRef, bind_run, RefOpt.hasValue_null hi, obind_ok, Bool.false_eq_true, if_false, RefOpt.construct_run, hi,
      true_or]
  · simp only [Doc.assignRef, bind_run, RefOpt.hasValue_at hi, obind_ok, if_true, RefOpt.get_at hi]
    have hn : RefOpt.refToPtr r ≠ .null := nofun
    cases hv : w.cell s with
    | none => simp [RefOpt.value_none hv, obind_ub, hi, hn]
    | some v =>
      simp only [RefOpt.value_at hv, obind_ok, write_eq_rebind hi hv, hi, hn, false_or, refToPtr_inj, Option.some.injEq,
        exists_eq', and_true]

/-- **C69** fails for `swap` of options of references: the manual exchanges the objects referred to, the code the references.  They
do the same exactly if one of the options is empty or both refer to one place with an object. -/
theorem C69_violated_swap (i j : Nat) (w : RWorld Val) :
    Doc.swap i j w = RefOpt.swap i j w ↔
      (w.ptr i = .null ∨ w.ptr j = .null ∨ ∃ r v, w.ptr i = RefOpt.refToPtr r ∧ w.ptr j = RefOpt.refToPtr r ∧ w.cell r = some v) := by
  rcases ptr_null_or (w.ptr i) with hi | ⟨r, hi⟩
  · rcases ptr_null_or (w.ptr j) with hj | ⟨s, hj⟩
    · simp only [Doc.swap, RefOpt.swap, bind_run, RefOpt.hasValue_null hi, RefOpt.hasValue_null hj, obind_ok]
      simp [hi]
    · simp only [Doc.swap, RefOpt.swap, bind_run, RefOpt.hasValue_null hi, RefOpt.hasValue_at hj, obind_ok]
      simp [hi]
  · rcases ptr_null_or (w.ptr j) with hj | ⟨s, hj⟩
    · simp only [Doc.swap, RefOpt.swap, bind_run, RefOpt.hasValue_at hi, RefOpt.hasValue_null hj, obind_ok]
      simp [hj]
    · have hn : RefOpt.refToPtr r ≠ .null := nofun
      have hn' : RefOpt.refToPtr s ≠ .null := nofun
      simp only [Doc.swap, RefOpt.swap, bind_run, RefOpt.hasValue_at hi, RefOpt.hasValue_at hj, obind_ok, Bool.not_true,
        Bool.and_self, Bool.false_eq_true, if_false, if_true, RefOpt.get_at hi, RefOpt.get_at hj, RefOpt.load_run,
        RefOpt.store_run, hi, hj, hn, hn', false_or]
      constructor
      · intro h
        cases hr : w.cell r with
        | none => simp [RefOpt.value_none hr, obind_ub] at h
        | some a =>
          cases hs : w.cell s with
          | none => simp [RefOpt.value_at hr, RefOpt.value_none hs, obind_ub, obind_ok, bind_run] at h
          | some b =>
            simp only [RefOpt.value_at hr, RefOpt.value_at hs, obind_ok, bind_run, Doc.write, Out.ok.injEq, true_and, RWorld.mk.injEq] at h
            have hp := congrFun h.1 j
            simp only [upd, if_true] at hp
            rw [hj, refToPtr_inj] at hp
            subst hp
            exact ⟨s, b, rfl, rfl, hs⟩
      · rintro ⟨q, v, h1, h2, hv⟩
        rw [refToPtr_inj] at h1 h2
        subst h1; subst h2
        simp only [RefOpt.value_at hv, obind_ok, bind_run, Doc.write, cell_write_self _ _ _ hv, upd_self hi, upd_self hj]

example : Doc.swap 0 1 Demo.refs ≠ RefOpt.swap 0 1 Demo.refs := by
  rw [ne_eq, C69_violated_swap]
  rintro (h | h | ⟨r, v, h1, h2, _⟩)
  · cases h
  · cases h
  · rw [← h2] at h1; cases h1

/-- **C69** fails for `get_unchecked` of an empty option of a reference: it does check.  On an option of an object it does not. -/
theorem C69_violated_unchecked (i : Nat) :
    (∀ w : RWorld Val, RefOpt.getUnchecked i w = .verify ↔ w.ptr i = .null) ∧
    ∀ (P : Prog Val) (w : World), P.getUnchecked i w ≠ .verify := by
  constructor
  · intro w
    rcases ptr_null_or (w.ptr i) with hi | ⟨r, hi⟩
    · simp only [hi, iff_true]
      unfold RefOpt.getUnchecked
      simp only [bind_run, RefOpt.load_run, obind_ok, hi]
      rfl
    · simp only [RefOpt.getUnchecked, bind_run, RefOpt.load_run, obind_ok, hi]
      exact ⟨nofun, nofun⟩
  · intro P w
    simp only [Prog.getUnchecked, Prog.readT, bind_run, Prog.obj]
    cases w.mem i with
    | none => nofun
    | some o =>
      simp only [obind_ok]
      split <;> nofun

/-! ### Iterators and hash -/

/-- **C69**: `end()` is `begin() + has_value()` as documented exactly for an option with a value; for an empty option the sum stops
in the check of the iterator. -/
theorem C69_violated_end (hw : P.Inv w) {x : Option Val} (hx : P.view w i = some x) :
    (Doc.end_ P i w = P.end_ i w ↔ x.isSome = true) ∧ (x = none → Doc.end_ P i w = .verify ∧ P.end_ i w = .ok .null w) := by
  have h := Prog.hasValue_eq hw hx
  cases x with
  | none =>
    have he := C31_empty hw hx
    have hd : Doc.end_ P i w = .verify := by
      simp only [Doc.end_, bind_run, he.1, h, obind_ok]; rfl
    exact ⟨by rw [hd, he.2.1]; simp, fun _ => ⟨hd, he.2.1⟩⟩
  | some v =>
    have he := C31_engaged hw hx
    have hd : Doc.end_ P i w = .ok (.elem i 1) w := by
      simp only [Doc.end_, bind_run, he.1, h, obind_ok]; rfl
    exact ⟨by rw [hd, he.2.1]; simp, nofun⟩

example : Doc.end_ Demo.calm 5 Demo.world = .verify := ((C69_violated_end Demo.inv Demo.view5).2 rfl).1
example : Doc.end_ Demo.calm 1 Demo.world = Demo.calm.end_ 1 Demo.world := (C69_violated_end Demo.inv Demo.view1).1.mpr rfl

/-- **C69** fails for the hash of an empty option. -/
theorem C69_violated_hash (hw : P.Inv w) (hx : P.view w i = some none) (hash : Val → U64) :
    P.hash hash i w ≠ .ok Doc.emptyHash w := by
  simp only [Prog.hash, bind_run, Prog.hasValue_eq hw hx, obind_ok]
  intro h
  have h' : (Out.ok (0 : U64) w : Out World U64) = .ok Doc.emptyHash w := h
  injection h' with h' _
  exact absurd h' (by decide)

example : Demo.calm.hash (fun _ => 1) 5 Demo.world ≠ .ok Doc.emptyHash Demo.world := C69_violated_hash Demo.inv Demo.view5 _

end Opt

namespace Opt.Manual

open Opt.RefBind Opt.Accessor

/-- **C69**: `std::hash` of an option needs more than is documented. -/
theorem C69_hash_enabled (h : HashFacts) :
    hashEnabled h = true ↔ Doc.HashEnabled h ∧ h.copyConstructible = true ∧ h.moveConstructible = true ∧
      h.destructible = true ∧ h.invocable = true := by
  unfold hashEnabled Doc.HashEnabled
  simp only [Bool.and_eq_true, and_assoc]

/-- **C69** fails for the condition: a hash that cannot be called. -/
theorem C69_violated_hash_enabled : ∃ h : HashFacts, Doc.HashEnabled h ∧ hashEnabled h = false :=
  ⟨⟨true, true, true, true, false⟩, rfl, rfl⟩

/-! ## Types -/

/-- **C69**: the reference accessors return the documented types exactly for object types, for lvalue options, and for options of
rvalue references, unless the option is const and what it refers to is not. -/
theorem C69_violated_accessor_types (T : QTy) (q : Qual) :
    declared T q = Doc.getType T q ↔
      (T.ref = .none ∨ q.ref ≠ .rv ∨ (T.ref = .rv ∧ (q.const = true → T.cv.const = true))) := by
  obtain ⟨r, ⟨c, v⟩, core⟩ := T
  obtain ⟨qc, qr⟩ := q
  unfold declared Doc.getType
  cases r <;> cases qr <;> cases qc <;> cases c <;> simp [lref, rref, addConst]

/-- `option<X&>`: an lvalue instead of the documented xvalue -/
example : declared ⟨.lv, ⟨false, false⟩, .cls 0⟩ ⟨false, .rv⟩ = ⟨.lv, ⟨false, false⟩, .cls 0⟩ ∧
    Doc.getType ⟨.lv, ⟨false, false⟩, .cls 0⟩ ⟨false, .rv⟩ = ⟨.rv, ⟨false, false⟩, .cls 0⟩ := by decide

/-- **C69**: `map` returns the type that the code equivalent `opt::option{fn(get())}` deduces exactly if the function returns
neither a reference nor an option. -/
theorem C69_violated_map_type (R : QTy) : mapType R = Doc.deduced R ↔ (R.ref = .none ∧ isOption R = false) := by
  obtain ⟨r, ⟨c, v⟩, core⟩ := R
  cases core with
  | opt cv d s =>
    simp only [isOption, Bool.true_eq_false, and_false, iff_false]
    intro h
    have h2 := congrArg QTy.core h
    have h3 : (mapType ⟨r, ⟨c, v⟩, .opt cv d s⟩).core = .opt cv d s := by unfold mapType removeCv; split <;> rfl
    rw [h3] at h2
    exact Core.ne_opt cv s d h2.symm
  | _ => cases r <;> simp [mapType, removeCv, Doc.deduced, isOption]

example : mapType ⟨.lv, ⟨false, false⟩, .cls 0⟩ ≠ Doc.deduced ⟨.lv, ⟨false, false⟩, .cls 0⟩ := by
  rw [ne_eq, C69_violated_map_type]; nofun

/-- **C69**: the same for the elements that `unzip` wraps (without qualifiers, which the guide would drop). -/
theorem C69_violated_unzip_type (E : QTy) :
    unzipType E = Doc.deduced E ↔ (E.ref = .none ∧ E.cv = ⟨false, false⟩ ∧ isOption E = false) := by
  obtain ⟨r, ⟨c, v⟩, core⟩ := E
  cases core with
  | opt cv d s =>
    simp only [isOption, Bool.true_eq_false, and_false, iff_false]
    intro h
    exact Core.ne_opt cv s d (congrArg QTy.core h).symm
  | _ => cases r <;> cases c <;> cases v <;> simp [unzipType, Doc.deduced, isOption]

/-- **C69**: `option_cast` to a reference is the documented `static_cast` whenever that is possible; it is a function-style cast,
so otherwise it drops qualifiers or reinterprets the object instead of being ill-formed. -/
theorem C69_violated_cast (To From : QTy) (conv : Core → Bool) (hT : To.ref ≠ .none) :
    (∀ x, Doc.staticCast To From conv = some x → optionCast To From conv = some (.static, x)) ∧
    (Doc.staticCast To From conv = none → ∃ k x, k ≠ .static ∧ optionCast To From conv = some (k, x) ∧
      (k = .constCast ↔ To.core = From.core)) := by
  obtain ⟨r, ⟨c, v⟩, core⟩ := To
  obtain ⟨r', ⟨c', v'⟩, core'⟩ := From
  unfold Doc.staticCast optionCast functionalCast
  by_cases hc : core' = core
  · subst hc
    simp only [castRef, returnRef, if_true, decide_true, Bool.true_and]
    cases r
    · exact absurd rfl hT
    all_goals
      cases qualsKept (addConst ⟨r', ⟨c', v'⟩, core'⟩).cv ⟨c, v⟩ <;> simp [asRef]
  · simp only [if_neg hc]
    constructor
    · intro x h
      rw [h]
    · intro h
      rw [h]
      exact ⟨.reinterpret, _, nofun, rfl, ⟨nofun, fun h => absurd h.symm hc⟩⟩

/-- a const option's value, made mutable -/
example : ∃ x, optionCast ⟨.lv, ⟨false, false⟩, .cls 0⟩ ⟨.none, ⟨false, false⟩, .cls 0⟩ (fun _ => false) = some (.constCast, x) :=
  ⟨_, rfl⟩

end Opt.Manual
