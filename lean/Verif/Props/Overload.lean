import Verif.Spec.Overload

/-!
# C48: constructing and assigning an `option<T>` from an `option<U>`
-/

namespace Opt.Overload

open Std

variable {F : Facts}

theorem init_regular (h : Regular F) (s : SrcFacts) : initializable F s = s.constructible := by
  unfold initializable
  rcases h with h | h
  · simp [h]
  · cases F.cxx20 <;> cases s.constructible <;> simp [h]

theorem constructible_iff : constructibleFromOption F = true ↔
    ∃ q, (F.opt q).constructible = true ∨ (F.opt q).convertible = true := by
  unfold constructibleFromOption
  simp only [Bool.or_eq_true]
  constructor
  · rintro (((((((h | h) | h) | h) | h) | h) | h) | h)
    · exact ⟨_, .inl h⟩
    · exact ⟨_, .inl h⟩
    · exact ⟨_, .inl h⟩
    · exact ⟨_, .inl h⟩
    · exact ⟨_, .inr h⟩
    · exact ⟨_, .inr h⟩
    · exact ⟨_, .inr h⟩
    · exact ⟨_, .inr h⟩
  · rintro ⟨q, h | h⟩ <;> cases q <;> simp [h]

theorem assignable_iff : assignableFromOption F = true ↔ ∃ q, (F.opt q).assignable = true := by
  unfold assignableFromOption
  simp only [Bool.or_eq_true]
  constructor
  · rintro (((h | h) | h) | h) <;> exact ⟨_, h⟩
  · rintro ⟨q, h⟩
    cases q <;> simp [h]

theorem swallows_iff : Swallows F ↔ (F.isBool || !constructibleFromOption F) = false := by
  simp [Swallows, ← constructible_iff]

/-- the converting constructor is usable in direct initialisation -/
theorem conv_direct (h : Regular F) (s : SrcFacts) :
    (convCtor F s false || (true && convCtor F s true)) = true ↔ s.constructible = true ∧ ¬ Swallows F := by
  rw [swallows_iff]
  unfold convCtor
  rw [init_regular h]
  cases s.constructible <;> cases s.convertible <;> cases (F.isBool || !constructibleFromOption F) <;> simp

/-- the value constructor is usable in direct initialisation -/
theorem value_direct (h : Regular F) (q : Cat) :
    (valueCtor F q false || (true && valueCtor F q true)) = true ↔ F.isBool = false ∧ (F.opt q).constructible = true := by
  unfold valueCtor
  rw [init_regular h]
  cases F.isBool <;> cases (F.opt q).constructible <;> cases (F.opt q).convertible <;> simp

/-- More usable candidates do not change whether the value constructor wins, if it excludes the others. -/
theorem resolve_mono (q : Cat) : ∀ v0 c0 e0 v1 c1 e1 : Bool, (v0 = true → v1 = true) → (c0 = true → c1 = true) →
    (e0 = true → e1 = true) → (v1 = true → c1 = false) → (v1 = true → e1 = false) →
    resolve q v0 c0 e0 = none ∨
      (resolve q v0 c0 e0).map (· == .value) = (resolve q v1 c1 e1).map (· == .value) := by
  cases q <;> decide

/-- facts about a `T` that is convertible from `U` and has nothing to do with `option<U>` -/
def wide (cxx20 : Bool) : Facts :=
  { cxx20, aggregate := false, isBool := false
    opt := fun _ => ⟨false, false, false, false⟩
    elemConst := ⟨true, true, true, true⟩
    elemMove := ⟨true, true, true, true⟩ }

/-- facts about `std::any`: everything converts to it -/
def anyFacts : Facts := { wide true with opt := fun _ => ⟨true, true, true, true⟩ }

/-- facts about `bool` and a `U` convertible to `bool` -/
def boolFacts : Facts := { wide true with isBool := true, opt := fun _ => ⟨true, false, true, false⟩ }

/-- **C48.** A constructor family is usable at all exactly if its explicit or its implicit overload is enabled, and never
both are: the pairs of constructors do not make calls ambiguous. -/
theorem C48_one_overload (F : Facts) (q : Cat) (s : SrcFacts) :
    ¬ (valueCtor F q true = true ∧ valueCtor F q false = true) ∧
    ¬ (convCtor F s true = true ∧ convCtor F s false = true) := by
  unfold valueCtor convCtor
  cases (F.opt q).convertible <;> cases s.convertible <;> simp

example : valueCtor anyFacts .lvalue false = true ∧ valueCtor anyFacts .lvalue true = false := by decide

/-- **C48** (partial: not for C++17 aggregates).  The constraints are those of `std::optional` in C++20, and in C++17 unless `T` is an aggregate. -/
theorem C48_as_std_optional_partial (F : Facts) (h : Regular F) (q : Cat) (s : SrcFacts) (explicit : Bool) :
    (Overload.valueCtor F q explicit = true ↔ Std.valueCtor F q explicit) ∧
    (Overload.convCtor F s explicit = true ↔ Std.convCtor F s explicit) ∧
    (Overload.valueAssign F q = true ↔ Std.valueAssign F q) ∧
    (Overload.convAssign F s = true ↔ Std.convAssign F s) := by
  refine ⟨?_, ?_, ?_, ?_⟩
  · unfold Overload.valueCtor Std.valueCtor
    rw [init_regular h]
    cases F.isBool <;> cases (F.opt q).constructible <;> cases (F.opt q).convertible <;> cases explicit <;> simp
  · unfold Overload.convCtor Std.convCtor
    rw [swallows_iff, init_regular h]
    cases s.constructible <;> cases s.convertible <;> cases explicit <;>
      cases (F.isBool || !constructibleFromOption F) <;> simp
  · unfold Overload.valueAssign Std.valueAssign
    rw [init_regular h]
    simp
  · unfold Overload.convAssign Std.convAssign
    rw [init_regular h]
    have e : (!constructibleFromOption F && !assignableFromOption F) = true ↔
        ∀ q, (F.opt q).constructible = false ∧ (F.opt q).convertible = false ∧ (F.opt q).assignable = false := by
      rw [Bool.and_eq_true, Bool.not_eq_true', Bool.not_eq_true', ← Bool.not_eq_true, ← Bool.not_eq_true,
        constructible_iff, assignable_iff]
      constructor
      · rintro ⟨h1, h2⟩ q
        refine ⟨?_, ?_, ?_⟩
        · exact Bool.eq_false_iff.2 fun h => h1 ⟨q, .inl h⟩
        · exact Bool.eq_false_iff.2 fun h => h1 ⟨q, .inr h⟩
        · exact Bool.eq_false_iff.2 fun h => h2 ⟨q, h⟩
      · intro h
        refine ⟨?_, ?_⟩
        · rintro ⟨q, hq⟩
          have := h q
          rcases hq with hq | hq
          · rw [this.1] at hq; cases hq
          · rw [this.2.1] at hq; cases hq
        · rintro ⟨q, hq⟩
          rw [(h q).2.2] at hq; cases hq
    rw [← e]
    cases s.constructible <;> cases s.assignable <;> simp

example : Std.convCtor (wide false) (wide false).elemConst false := by
  refine ⟨rfl, ?_, rfl⟩
  rintro ⟨_, q, h | h⟩ <;> cases h

/-- **C48** (partial: not for C++17 aggregates).  What `option<T>(e)` does for `e` of type `option<U>` of any category: it stores `T(e)` exactly if `T` (not
`bool`) can be made from `e`, and otherwise converts the element, moving from an rvalue where possible. -/
theorem C48_direct_partial (F : Facts) (h : Regular F) (q : Cat) (r : Option Choice) :
    construct F q true = r ↔ Direct F q r := by
  have hv := value_direct h q
  have hc := conv_direct h F.elemConst
  have hm := conv_direct h F.elemMove
  have hs : (F.isBool = false ∧ (F.opt q).constructible = true) → Swallows F := fun ⟨a, b⟩ => ⟨a, q, .inl b⟩
  have ex : Direct F q (construct F q true) := by
    unfold construct
    by_cases hS : Swallows F
    · have hc' : (convCtor F F.elemConst false || (true && convCtor F F.elemConst true)) = false :=
        Bool.eq_false_iff.2 fun h => (hc.1 h).2 hS
      have hm' : (convCtor F F.elemMove false || (true && convCtor F F.elemMove true)) = false :=
        Bool.eq_false_iff.2 fun h => (hm.1 h).2 hS
      rw [hc', hm']
      by_cases hq : (F.opt q).constructible = true
      · rw [hv.2 ⟨hS.1, hq⟩]
        cases q <;> exact .value hS.1 hq
      · have hv' : (valueCtor F q false || (true && valueCtor F q true)) = false :=
          Bool.eq_false_iff.2 fun h => hq (hv.1 h).2
        rw [hv']
        cases q <;> exact .swallowed hS (Bool.eq_false_iff.2 hq)
    · have hv' : (valueCtor F q false || (true && valueCtor F q true)) = false :=
        Bool.eq_false_iff.2 fun h => hS (hs (hv.1 h))
      rw [hv']
      cases hce : F.elemConst.constructible
      · have hc' : (convCtor F F.elemConst false || (true && convCtor F F.elemConst true)) = false :=
          Bool.eq_false_iff.2 fun h => by rw [hce] at hc; cases (hc.1 h).1
        rw [hc']
        cases hme : F.elemMove.constructible
        · have hm' : (convCtor F F.elemMove false || (true && convCtor F F.elemMove true)) = false :=
            Bool.eq_false_iff.2 fun h => by rw [hme] at hm; cases (hm.1 h).1
          rw [hm']
          cases q <;> exact .unrelated hS (fun _ => hme) hce
        · rw [hm.2 ⟨hme, hS⟩]
          cases q
          case rvalue => exact .move hS rfl hme
          all_goals exact .unrelated hS (fun h => by cases h) hce
      · rw [hc.2 ⟨hce, hS⟩]
        cases hme : F.elemMove.constructible
        · have hm' : (convCtor F F.elemMove false || (true && convCtor F F.elemMove true)) = false :=
            Bool.eq_false_iff.2 fun h => by rw [hme] at hm; cases (hm.1 h).1
          rw [hm']
          cases q <;> exact .const hS (fun _ => hme) hce
        · rw [hm.2 ⟨hme, hS⟩]
          cases q
          case rvalue => exact .move hS rfl hme
          all_goals exact .const hS (fun h => by cases h) hce
  constructor
  · rintro rfl; exact ex
  · intro hr
    generalize construct F q true = r' at ex
    cases hr <;> cases ex <;> first | rfl | simp_all | (exact absurd (hs ⟨‹_›, ‹_›⟩) ‹_›)

example : construct (wide false) .rvalue true = some .fromMove ∧ construct anyFacts .constLvalue true = some .value ∧
    construct boolFacts .lvalue true = some .fromConst := by decide
example : Direct anyFacts .constLvalue (some .value) := (C48_direct_partial anyFacts (.inl rfl) .constLvalue _).1 (by decide)

/-- **C48** (partial: not for C++17 aggregates).  Initialisation without `explicit` constructors and direct initialisation agree on whether the option itself
becomes the value. -/
theorem C48_implicit_agrees_partial (F : Facts) (h : Regular F) (q : Cat) (c : Choice) (hc : construct F q false = some c) :
    ∃ c', construct F q true = some c' ∧ (c' = .value ↔ c = .value) := by
  have mono : ∀ x y : Bool, (x || (false && y)) = true → (x || (true && y)) = true := by decide
  have hv := value_direct h q
  have hcc := conv_direct h F.elemConst
  have hm := conv_direct h F.elemMove
  unfold construct at *
  have m1 := mono (valueCtor F q false) (valueCtor F q true)
  have m2 := mono (convCtor F F.elemConst false) (convCtor F F.elemConst true)
  have m3 := mono (convCtor F F.elemMove false) (convCtor F F.elemMove true)
  generalize (valueCtor F q false || (false && valueCtor F q true)) = v0 at *
  generalize (convCtor F F.elemConst false || (false && convCtor F F.elemConst true)) = c0 at *
  generalize (convCtor F F.elemMove false || (false && convCtor F F.elemMove true)) = e0 at *
  have x1 : (valueCtor F q false || (true && valueCtor F q true)) = true →
      (convCtor F F.elemConst false || (true && convCtor F F.elemConst true)) = false := fun h =>
    Bool.eq_false_iff.2 fun h' => (hcc.1 h').2 ⟨(hv.1 h).1, q, .inl (hv.1 h).2⟩
  have x2 : (valueCtor F q false || (true && valueCtor F q true)) = true →
      (convCtor F F.elemMove false || (true && convCtor F F.elemMove true)) = false := fun h =>
    Bool.eq_false_iff.2 fun h' => (hm.1 h').2 ⟨(hv.1 h).1, q, .inl (hv.1 h).2⟩
  generalize (valueCtor F q false || (true && valueCtor F q true)) = v1 at *
  generalize (convCtor F F.elemConst false || (true && convCtor F F.elemConst true)) = c1 at *
  generalize (convCtor F F.elemMove false || (true && convCtor F F.elemMove true)) = e1 at *
  have key := resolve_mono q v0 c0 e0 v1 c1 e1 m1 m2 m3 x1 x2
  rw [hc] at key
  cases hr : resolve q v1 c1 e1 with
  | none => rw [hr] at key; simp at key
  | some c' =>
    rw [hr] at key
    refine ⟨c', rfl, ?_⟩
    simp at key
    cases c <;> cases c' <;> simp at key ⊢

example : construct (wide true) .lvalue false = some .fromConst := by decide

/-- **C48** (partial: not for C++17 aggregates).  Assignment does what construction would do: if `x = e` is well-formed then so is `option<T>(e)`, and they
agree on whether the option itself becomes the value. -/
theorem C48_assign_agrees_partial (F : Facts) (h : Regular F) (hb : BoolFacts F) (q : Cat) (c : Choice)
    (hc : assign F q = some c) : ∃ c', construct F q true = some c' ∧ (c' = .value ↔ c = .value) := by
  unfold assign at hc
  cases hr : resolve q (Overload.valueAssign F q) (Overload.convAssign F F.elemConst)
      (Overload.convAssign F F.elemMove) with
  | none => rw [hr] at hc; exact C48_implicit_agrees_partial F h q c hc
  | some c0 =>
    rw [hr] at hc
    cases hc
    have std := fun s => C48_as_std_optional_partial F h q s false
    have conv : ∀ s, Overload.convAssign F s = true → s.constructible = true ∧ ¬ Swallows F := by
      intro s hs
      have := ((std s).2.2.2).1 hs
      refine ⟨this.1, ?_⟩
      rintro ⟨_, q, hq | hq⟩
      · rw [(this.2.2 q).1] at hq; cases hq
      · rw [(this.2.2 q).2.1] at hq; cases hq
    have val : Overload.valueAssign F q = true → F.isBool = false ∧ (F.opt q).constructible = true := by
      intro hs
      have := ((std F.elemConst).2.2.1).1 hs
      refine ⟨Bool.eq_false_iff.2 fun hB => ?_, this.1⟩
      have := this.2
      rw [(hb hB q).2.2] at this; cases this
    by_cases hv : Overload.valueAssign F q = true
    · have hS : Swallows F := ⟨(val hv).1, q, .inl (val hv).2⟩
      have e1 : Overload.convAssign F F.elemConst = false := Bool.eq_false_iff.2 fun h => (conv _ h).2 hS
      have e2 : Overload.convAssign F F.elemMove = false := Bool.eq_false_iff.2 fun h => (conv _ h).2 hS
      rw [hv, e1, e2] at hr
      have : c = .value := by cases q <;> simp [resolve] at hr <;> exact hr.symm
      exact ⟨.value, (C48_direct_partial F h q _).2 (.value (val hv).1 (val hv).2), by simp [this]⟩
    · rw [Bool.not_eq_true] at hv
      have ne : c ≠ .value := by
        rintro rfl
        rw [hv] at hr
        cases q <;> revert hr <;> cases Overload.convAssign F F.elemConst <;> cases Overload.convAssign F F.elemMove <;>
          simp [resolve]
      have some_conv : Overload.convAssign F F.elemConst = true ∨
          (q = .rvalue ∧ Overload.convAssign F F.elemMove = true) := by
        rw [hv] at hr
        revert hr
        cases q <;> cases Overload.convAssign F F.elemConst <;> cases Overload.convAssign F F.elemMove <;>
          simp [resolve]
      have fin : ∀ c', Direct F q (some c') → c' ≠ .value →
          ∃ c', construct F q true = some c' ∧ (c' = .value ↔ c = .value) := fun c' hd hn =>
        ⟨c', (C48_direct_partial F h q _).2 hd, by simp [hn, ne]⟩
      rcases some_conv with hk | ⟨rfl, hk⟩
      · obtain ⟨k1, k2⟩ := conv _ hk
        by_cases hmv : q = .rvalue ∧ F.elemMove.constructible = true
        · exact fin .fromMove (.move k2 hmv.1 hmv.2) (by decide)
        · exact fin .fromConst (.const k2 (fun hq => Bool.eq_false_iff.2 fun h => hmv ⟨hq, h⟩) k1) (by decide)
      · obtain ⟨k1, k2⟩ := conv _ hk
        exact fin .fromMove (.move k2 rfl k1) (by decide)

example : assign (wide true) .rvalue = some .fromMove ∧ assign anyFacts .lvalue = some .value ∧
    assign boolFacts .rvalue = some .fromMove ∧ BoolFacts boolFacts :=
  ⟨by decide, by decide, by decide, fun _ _ => ⟨rfl, rfl, rfl⟩⟩

/-- **C48** (partial: not for C++17 aggregates).  If no `T` can be made from an `option<U>` (or `T` is `bool`), then however the option is constructed or
assigned from an `option<U>`, it holds a value afterwards exactly if the source did. -/
theorem C48_empty_stays_empty_partial (F : Facts) (h : Regular F) (hb : BoolFacts F) (hS : ¬ Swallows F) (q : Cat) (c : Choice)
    (hc : construct F q true = some c ∨ construct F q false = some c ∨ assign F q = some c) (src : Bool) :
    c.engaged src = src := by
  have key : ∀ c', construct F q true = some c' → c' ≠ .value := by
    rintro c' hd rfl
    have hd := (C48_direct_partial F h q _).1 hd
    cases hd with
    | value a b => exact hS ⟨a, q, .inl b⟩
  have ne : c ≠ .value := by
    rcases hc with hc | hc | hc
    · exact key c hc
    · obtain ⟨c', h1, h2⟩ := C48_implicit_agrees_partial F h q c hc
      exact fun e => key c' h1 (h2.2 e)
    · obtain ⟨c', h1, h2⟩ := C48_assign_agrees_partial F h hb q c hc
      exact fun e => key c' h1 (h2.2 e)
  cases c with
  | value => exact absurd rfl ne
  | fromConst => rfl
  | fromMove => rfl

example : ∀ src, Choice.fromConst.engaged src = src := fun src =>
  C48_empty_stays_empty_partial boolFacts (.inl rfl) (fun _ _ => ⟨rfl, rfl, rfl⟩) (fun h => by cases h.1) .lvalue .fromConst
    (.inl (by decide)) src

/-- **C48**, for all types: when exactly does an empty `option<U>` become an engaged `option<T>` although no `T` is
constructible from an `option<U>`?  In C++17, for an aggregate `T` that `{o}` can initialise, when the source is neither a
const lvalue that the converting constructor takes nor an rvalue that the moving one takes. -/
theorem C48_exact (F : Facts) (hS : ¬ Swallows F) (q : Cat) :
    construct F q true = some .value ↔
      (F.cxx20 = false ∧ F.aggregate = true ∧ F.isBool = false ∧ (F.opt q).braced = true ∧
        ¬ (q = .constLvalue ∧ (F.elemConst.constructible = true ∨ F.elemConst.braced = true)) ∧
        ¬ (q = .rvalue ∧ (F.elemMove.constructible = true ∨ F.elemMove.braced = true))) := by
  have hc : (F.isBool || !constructibleFromOption F) = true := by
    rw [swallows_iff] at hS
    exact Bool.not_eq_false _ |>.mp hS
  have hq : F.isBool = false → (F.opt q).constructible = false := fun hb =>
    Bool.eq_false_iff.2 fun h => hS ⟨hb, q, .inl h⟩
  unfold construct convCtor valueCtor initializable
  rw [hc]
  revert hq
  generalize F.cxx20 = a, F.aggregate = b, F.isBool = c
  generalize (F.opt q).constructible = d, (F.opt q).convertible = e, (F.opt q).braced = f
  generalize F.elemConst.constructible = g, F.elemConst.convertible = h, F.elemConst.braced = k
  generalize F.elemMove.constructible = l, F.elemMove.convertible = m, F.elemMove.braced = n
  cases q <;> simp only [resolve] <;> cases a <;> cases b <;> cases c <;> cases d <;> simp <;>
    cases e <;> cases f <;> cases g <;> cases h <;> cases k <;> (try simp) <;>
    cases l <;> cases m <;> cases n <;> simp

/-- `std::any` is not such a type, and neither is `bool` -/
example : ¬ construct boolFacts .lvalue true = some .value := fun h =>
  absurd ((C48_exact boolFacts (fun h => by cases h.1) .lvalue).1 h).1 (by decide)

/-- C++17 facts about `struct A { option<int> x; };` and `U = int`: an aggregate is constructible from nothing but
itself; `A{o}` and `A{i}` are well-formed. -/
def aggregate17 : Facts :=
  { cxx20 := false, aggregate := true, isBool := false
    opt := fun _ => ⟨false, false, true, false⟩
    elemConst := ⟨false, false, true, false⟩
    elemMove := ⟨false, false, true, false⟩ }

/-- **C48, violated for C++17 aggregates.** For `A` as above, `option<A>(o)` from an empty `option<int>` holds a value if
`o` is a non-const lvalue and does not if it is a const lvalue or an rvalue: the test for "can be made from the option" ignores brace initialisation while the
value constructor uses it. -/
theorem C48_violated_aggregate : ∃ F : Facts, F.cxx20 = false ∧ F.aggregate = true ∧ ¬ Swallows F ∧
    construct F .lvalue true = some .value ∧ Choice.value.engaged false = true ∧
    construct F .constLvalue true = some .fromConst ∧ Choice.fromConst.engaged false = false ∧
    construct F .rvalue true = some .fromMove ∧ Choice.fromMove.engaged false = false := by
  refine ⟨aggregate17, rfl, rfl, ?_, by decide, rfl, by decide, rfl, by decide, rfl⟩
  rintro ⟨_, q, h | h⟩ <;> cases h

end Opt.Overload
