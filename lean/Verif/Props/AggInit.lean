import Verif.Lemmas.Init

/-!
# C76: what is made from the arguments given to an option

`paren E T as` is `T(args...)`, which `std::optional` does in all places.
-/

namespace Opt.Init

variable {E : Env} {cxx20 : Bool} {T : Ty} {n : Nat} {fs : List Ty} {as : List Arg}

/-- a conversion of the source to the aggregate itself exists -/
def Converts (E : Env) (T : Ty) (as : List Arg) : Prop := ∃ a, as = [a] ∧ a.ty ≠ T ∧ E.user a.ty T = true

/-- the parenthesised members, if nothing converts the argument to the aggregate, lose information -/
def Loses (E : Env) (n : Nat) (fs : List Ty) (as : List Arg) : Prop :=
  (∀ a, as = [a] → copyInit E a (.agg n fs) = none) ∧ as ≠ [] ∧
  ∃ hs, parenMembers E fs as = some hs ∧ hs.any (narrows E) = true

/-- two numbers `0` and `1`: `double` to `int` narrows; class `0` converts to everything, class `1` only to `Point` -/
def Demo.point : Ty := .agg 0 [.arith 0, .arith 0]
/-- `struct Line { Point p; int w; }` -/
def Demo.line : Ty := .agg 1 [Demo.point, .arith 0]
def Demo.env (parenInit : Bool) : Env where
  parenInit := parenInit
  narrow s t := s == 1 && t == 0
  user s T := s == .cls 0 || (s == .cls 1 && T == Demo.point)
  ctor _ ts := ts.length == 2
  dflt _ := true
  assign _ _ := true
def Demo.json : Arg := ⟨7, .cls 0⟩
def Demo.proxy : Arg := ⟨8, .cls 1⟩
def Demo.num (i : Nat) : Arg := ⟨i, .arith 0⟩
def Demo.dbl (i : Nat) : Arg := ⟨i, .arith 1⟩

/-- **C76**: an option of a type that is no aggregate makes exactly `T(args...)`, and offers this exactly if it is well-formed, like
`std::optional`. -/
theorem C76_class (hT : T.isAgg = false) (w : Way) (hw : w = .valueCtor ∨ w = .argsCtor ∨ w = .inPlace ∨ w = .convCtor)
    (hf : w.fits T as = true) :
    w.call E cxx20 T as = match paren E T as with | some h => .made h | none => .rejected := by
  have hi : initializable E cxx20 T as = (paren E T as).isSome := by
    cases T with
    | agg _ _ => cases hT
    | _ => simp only [initializable]; cases paren E _ as <;> cases cxx20 <;> rfl
  have hb : baseCtor E T as = paren E T as := by
    cases T with
    | agg _ _ => cases hT
    | _ => rfl
  have hc : constructAt E cxx20 T as = paren E T as := by
    cases T with
    | agg _ _ => cases hT
    | _ => simp only [constructAt, ite_self]
  rcases hw with rfl | rfl | rfl | rfl <;>
    (simp only [Way.call, hf, Way.enabled, hi, Way.body, hb, hc, Bool.true_and]
     cases paren E T as <;> rfl)

example : Way.argsCtor.call (Demo.env true) true (.cls 5) [Demo.num 1, Demo.num 2] = .made (.ctor 5 [Demo.num 1, Demo.num 2]) ∧
    Way.inPlace.call (Demo.env true) false (.cls 5) [Demo.num 1] = .rejected :=
  ⟨C76_class rfl _ (.inr (.inl rfl)) rfl, C76_class rfl _ (.inr (.inr (.inl rfl))) rfl⟩

theorem paren_agg {a : Arg} {as : List Arg} (h : ∀ b, a :: as = [b] → copyInit E b (.agg n fs) = none) :
    paren E (.agg n fs) (a :: as) = if E.parenInit then (parenMembers E fs (a :: as)).map .members else none := by
  have e : (if as = [] then copyInit E a (.agg n fs) else none) = none := by
    split
    · rename_i h1; subst h1; exact h a rfl
    · rfl
  simp only [paren, e]

theorem paren_one {a : Arg} {h : How} (hc : copyInit E a (.agg n fs) = some h) : paren E (.agg n fs) [a] = some h := by
  simp only [paren, if_true, hc]

theorem converts_some {a : Arg} (h1 : a.ty ≠ .agg n fs) (h2 : E.user a.ty (.agg n fs) = true) :
    copyInit E a (.agg n fs) = some (.user a (.agg n fs)) := by rw [copyInit_agg h1, if_pos h2]

/-- **C76**: braces do what parentheses do, where both are well-formed and no argument is converted to the aggregate. -/
theorem C76_brace_as_paren {h : How} (hp : paren E (.agg n fs) as = some h) (hc : ¬ Converts E (.agg n fs) as) :
    brace E n fs as = some h ∨ (brace E n fs as = none ∧ E.parenInit = true ∧ Loses E n fs as) := by
  cases as with
  | nil => exact .inl hp
  | cons a as =>
    by_cases h1 : as = [] ∧ a.ty = .agg n fs
    · obtain ⟨rfl, h2⟩ := h1
      rw [paren_one (copyInit_same h2)] at hp
      cases hp
      left
      simp only [brace, h2, and_self, if_true]
    · have hn : ∀ b, a :: as = [b] → copyInit E b (.agg n fs) = none := by
        intro b hb
        cases hb
        have h2 : a.ty ≠ .agg n fs := fun e => h1 ⟨rfl, e⟩
        rw [copyInit_agg h2, if_neg fun e => hc ⟨a, rfl, h2, e⟩]
      rw [paren_agg hn] at hp
      cases hpi : E.parenInit with
      | false => rw [hpi] at hp; cases hp
      | true =>
        rw [hpi] at hp
        simp only [if_true, Option.map_eq_some_iff] at hp
        obtain ⟨hs, e, rfl⟩ := hp
        have := elements_of_paren e
        by_cases hl : hs.any (narrows E) = true
        · rw [if_pos hl] at this
          right
          refine ⟨?_, rfl, hn, by simp, hs, e, hl⟩
          simp only [brace, h1, if_false, this]
        · rw [if_neg hl] at this
          left
          simp only [brace, h1, if_false, this]

example : brace (Demo.env true) 0 [.arith 0, .arith 0] [Demo.num 1, Demo.num 2] =
    some (.members [.copy (Demo.num 1), .copy (Demo.num 2)]) := by
  rcases C76_brace_as_paren (E := Demo.env true) (n := 0) (fs := [.arith 0, .arith 0]) (as := [Demo.num 1, Demo.num 2]) rfl
    (fun ⟨_, h, _⟩ => by cases h) with h | h
  · exact h
  · exact absurd h.1 (by intro h; cases h)

/-- the constructors of options -/
def Way.IsCtor (w : Way) : Prop := w = .valueCtor ∨ w = .argsCtor ∨ w = .inPlace

/-- **C76** (partial: aggregates need that nothing is narrowed and the argument is not converted to the aggregate).  Whatever
`std::optional` accepts in its constructors, because `T(args...)` is well-formed, an option makes too, and the same. -/
theorem C76_as_std_partial {h : How} (hp : paren E T as = some h) (hc : T.isAgg = true → ¬ Converts E T as)
    (hl : ∀ n fs, T = .agg n fs → ¬ Loses E n fs as) (w : Way)
    (hw : w ≠ .assignEmpty ∧ w ≠ .assignEngaged) (hf : w.fits T as = true) : w.call E cxx20 T as = .made h := by
  have hi : initializable E cxx20 T as = true := by
    simp only [initializable, hp, Option.isSome_some, if_true, ite_self]
  have hb : baseCtor E T as = some h := by
    cases T with
    | agg n fs =>
      rcases C76_brace_as_paren hp (hc rfl) with h1 | ⟨_, _, h1⟩
      · exact h1
      · exact absurd h1 (hl n fs rfl)
    | _ => exact hp
  have hk : constructAt E cxx20 T as = some h := by
    simp only [constructAt]
    cases cxx20 with
    | true => exact hp
    | false =>
      cases T with
      | agg n fs => exact hb
      | _ => exact hp
  cases w <;> first
    | exact absurd rfl hw.1
    | exact absurd rfl hw.2
    | simp only [Way.call, hf, Way.enabled, hi, Way.body, hb, hk, Bool.and_self, if_true]

/-- a line from a point and a number -/
example : Way.emplace.call (Demo.env true) true Demo.line [⟨1, Demo.point⟩, Demo.num 2] =
    .made (.members [.copy ⟨1, Demo.point⟩, .copy (Demo.num 2)]) := by
  refine C76_as_std_partial rfl (fun _ ⟨_, h, _⟩ => by cases h) ?_ _ ⟨by simp, by simp⟩ rfl
  rintro n fs e ⟨_, _, hs, h, hn⟩
  cases e
  cases h
  cases hn

/-- **C76**, when a constructor call that is offered is an error inside the library: exactly if the only argument converts to the
aggregate but braces do not work with it, or (C++20) something is narrowed. -/
theorem C76_error_exact (hpi : E.parenInit = true → cxx20 = true) (w : Way) (hw : w.IsCtor) (hf : w.fits (.agg n fs) as = true) :
    w.call E cxx20 (.agg n fs) as = .error ↔
      (Converts E (.agg n fs) as ∧ brace E n fs as = none) ∨ (E.parenInit = true ∧ Loses E n fs as) := by
  have e1 : w.call E cxx20 (.agg n fs) as = .error ↔
      initializable E cxx20 (.agg n fs) as = true ∧ brace E n fs as = none := by
    rcases hw with rfl | rfl | rfl <;>
      (simp only [Way.call, hf, Way.enabled, Way.body, baseCtor, Bool.true_and]
       cases initializable E cxx20 (.agg n fs) as <;> cases brace E n fs as <;> simp)
  rw [e1]
  constructor
  · rintro ⟨hi, hb⟩
    have hp : (paren E (.agg n fs) as).isSome = true := by
      simp only [initializable, hb, Option.isSome_none] at hi
      cases cxx20 with
      | true => exact hi
      | false => revert hi; cases (paren E (.agg n fs) as).isSome <;> simp
    obtain ⟨h, hp⟩ := Option.isSome_iff_exists.1 hp
    by_cases hc : Converts E (.agg n fs) as
    · exact .inl ⟨hc, hb⟩
    · rcases C76_brace_as_paren hp hc with h1 | ⟨_, h1⟩
      · rw [hb] at h1; cases h1
      · exact .inr h1
  · rintro (⟨⟨a, rfl, h1, h2⟩, hb⟩ | ⟨h1, h2, hne, hs, h3, h4⟩)
    · refine ⟨?_, hb⟩
      simp only [initializable, paren_one (converts_some h1 h2), Option.isSome_some, if_true, ite_self]
    · cases as with
      | nil => exact absurd rfl hne
      | cons a as =>
        have hx := hpi h1
        subst hx
        refine ⟨?_, ?_⟩
        · simp only [initializable, paren_agg h2, h1, if_true, h3, Option.map_some, Option.isSome_some]
        · have := elements_of_paren h3
          rw [if_pos h4] at this
          have hn : ¬ (as = [] ∧ a.ty = .agg n fs) := by
            rintro ⟨rfl, e⟩
            have := h2 a rfl
            rw [copyInit_same e] at this
            cases this
          simp only [brace, hn, if_false, this]

/-- **C76, violated (every aggregate).** If the argument of the constructor of an option of an aggregate converts to the aggregate (which
is what `std::optional` does with it), the option never uses this conversion: it initialises the members from the argument, or the
program does not compile. -/
theorem C76_violated_conversion {a : Arg} (h1 : a.ty ≠ .agg n fs) (h2 : E.user a.ty (.agg n fs) = true) :
    paren E (.agg n fs) [a] = some (.user a (.agg n fs)) ∧
    ((∃ hs, Way.valueCtor.call E cxx20 (.agg n fs) [a] = .made (.members hs)) ∨
      Way.valueCtor.call E cxx20 (.agg n fs) [a] = .error) := by
  have hp := paren_one (converts_some h1 h2)
  refine ⟨hp, ?_⟩
  have hi : initializable E cxx20 (.agg n fs) [a] = true := by
    simp only [initializable, hp, Option.isSome_some, if_true, ite_self]
  have hb : brace E n fs [a] = none ∨ ∃ hs, brace E n fs [a] = some (.members hs) := by
    simp only [brace, h1, and_false, if_false]
    cases elements E fs [a] with
    | none => exact .inl rfl
    | some x =>
      obtain ⟨hs, r⟩ := x
      cases r with
      | nil => exact .inr ⟨hs, rfl⟩
      | cons _ _ => exact .inl rfl
  rcases hb with hb | ⟨hs, hb⟩
  · exact .inr (by simp only [Way.call, Way.fits, List.length_singleton, beq_self_eq_true, Way.enabled, hi, Bool.and_self, if_true,
      Way.body, baseCtor, hb])
  · exact .inl ⟨hs, by simp only [Way.call, Way.fits, List.length_singleton, beq_self_eq_true, Way.enabled, hi, Bool.and_self, if_true,
      Way.body, baseCtor, hb]⟩

/-- a `json` value that converts to everything: the point gets the number the value converts to, and 0 -/
example : Way.valueCtor.call (Demo.env true) true Demo.point [Demo.json] =
    .made (.members [.user Demo.json (.arith 0), .dflt (.arith 0)]) ∧
    paren (Demo.env true) Demo.point [Demo.json] = some (.user Demo.json Demo.point) := ⟨rfl, rfl⟩

/-- a proxy that converts to a point only: does not compile, with every standard -/
example : Way.valueCtor.call (Demo.env cxx20) cxx20 Demo.point [Demo.proxy] = .error := by cases cxx20 <;> rfl

/-- **C76, violated.** In C++17 `o = x` does not give the same value for an empty and for an engaged `o`; in C++20 the constructor and
`emplace` differ. -/
theorem C76_violated_assign : ∃ (E : Env) (T : Ty) (a : Arg) (h1 h2 : How), h1 ≠ h2 ∧
    Way.assignEmpty.call { E with parenInit := false } false T [a] = .made h1 ∧
    Way.assignEngaged.call { E with parenInit := false } false T [a] = .made h2 ∧
    Way.inPlace.call { E with parenInit := true } true T [a] = .made h1 ∧
    Way.emplace.call { E with parenInit := true } true T [a] = .made h2 :=
  ⟨Demo.env true, Demo.point, Demo.json, .members [.user Demo.json (.arith 0), .dflt (.arith 0)], .user Demo.json Demo.point,
    (by intro h; cases h), rfl, rfl, rfl, rfl⟩

/-- **C76, violated in C++20** (docs/feature_list.md 76: "there is no difference with `std::optional`"): arguments that `T(args...)`
narrows are accepted by the constraint and are an error in the constructor; `emplace` works. -/
theorem C76_violated_narrowing : ∃ (E : Env) (T : Ty) (as : List Arg) (h : How), E.parenInit = true ∧ paren E T as = some h ∧
    initializable E true T as = true ∧ Way.inPlace.call E true T as = .error ∧ Way.emplace.call E true T as = .made h :=
  ⟨Demo.env true, Demo.point, [Demo.dbl 1, Demo.num 2], _, rfl, rfl, rfl, rfl, rfl⟩

/-- **C76**: whatever the arguments are, the constructors without the `std::in_place` tag accept them exactly if the one with it does, and
make the same of them: one argument is taken by the converting constructor, two and more by the other, never by both. -/
theorem C76_untagged (hn : as ≠ []) : ∃ w w' : Way, ((w = .valueCtor ∧ w' = .argsCtor) ∨ (w = .argsCtor ∧ w' = .valueCtor)) ∧
    w.call E cxx20 T as = Way.inPlace.call E cxx20 T as ∧ w'.call E cxx20 T as = .rejected := by
  cases as with
  | nil => exact absurd rfl hn
  | cons a as =>
    cases as with
    | nil => exact ⟨.valueCtor, .argsCtor, .inl ⟨rfl, rfl⟩, rfl, rfl⟩
    | cons b as => exact ⟨.argsCtor, .valueCtor, .inr ⟨rfl, rfl⟩, by simp [Way.call, Way.fits, Way.enabled, Way.body], by simp [Way.call, Way.fits]⟩

/-- two numbers for a point: the second constructor makes it -/
example : Way.argsCtor.call (Demo.env true) true Demo.point [Demo.num 1, Demo.num 2] =
    .made (.members [.copy (Demo.num 1), .copy (Demo.num 2)]) ∧
    Way.valueCtor.call (Demo.env true) true Demo.point [Demo.num 1, Demo.num 2] = .rejected := ⟨rfl, rfl⟩

theorem call_made {w : Way} {h : How} (e : w.call E cxx20 T as = .made h) : w.body E cxx20 T as = some h := by
  revert e
  simp only [Way.call]
  split
  · cases w.body E cxx20 T as with
    | none => intro e; cases e
    | some h' => intro e; cases e; rfl
  · intro e; cases e

theorem body_cases {w : Way} {h : How} (e : w.body E cxx20 T as = some h) :
    paren E T as = some h ∨ (∃ n fs, T = .agg n fs ∧ brace E n fs as = some h) ∨ ∃ a, as = [a] ∧ assignFrom E a T = some h := by
  have hb : baseCtor E T as = some h → paren E T as = some h ∨ (∃ n fs, T = .agg n fs ∧ brace E n fs as = some h) := by
    cases T with
    | agg n fs => exact fun e => .inr ⟨n, fs, rfl, e⟩
    | _ => exact fun e => .inl e
  have hk : constructAt E cxx20 T as = some h → paren E T as = some h ∨ (∃ n fs, T = .agg n fs ∧ brace E n fs as = some h) := by
    cases cxx20 with
    | true => exact fun e => .inl e
    | false =>
      cases T with
      | agg n fs => exact fun e => .inr ⟨n, fs, rfl, e⟩
      | _ => exact fun e => .inl e
  have h3 : Way.assignEngaged.body E cxx20 T as = some h → ∃ a, as = [a] ∧ assignFrom E a T = some h := by
    cases as with
    | nil => intro e; cases e
    | cons a as =>
      cases as with
      | nil => exact fun e => ⟨a, rfl, e⟩
      | cons _ _ => intro e; cases e
  cases w <;> first
    | exact (hb e).elim .inl fun h => .inr (.inl h)
    | exact (hk e).elim .inl fun h => .inr (.inl h)
    | exact .inr (.inr (h3 e))

/-- **C76** (partial, see `C76_violated_assign`): two operations that both make a value from the same arguments make the same, unless
an argument converts to the aggregate. -/
theorem C76_agree_partial {w1 w2 : Way} {h1 h2 : How} (e1 : w1.call E cxx20 T as = .made h1) (e2 : w2.call E cxx20 T as = .made h2)
    (hc : T.isAgg = true → ¬ Converts E T as) : h1 = h2 := by
  -- what is assigned is what `T(x)` or `T{x}` would be
  have key : ∀ {w : Way} {h : How}, w.call E cxx20 T as = .made h →
      paren E T as = some h ∨ (∃ n fs, T = .agg n fs ∧ brace E n fs as = some h) ∨
        (∃ n a, T = .cls n ∧ as = [a] ∧ h = if a.ty = .cls n then .copy a else .ctor n [a]) := by
    intro w h e
    rcases body_cases (call_made e) with h1 | h1 | ⟨a, rfl, h1⟩
    · exact .inl h1
    · exact .inr (.inl h1)
    · cases T with
      | arith t => exact .inl h1
      | agg n fs => exact .inl (paren_one h1)
      | cls n =>
        simp only [assignFrom] at h1
        cases ha : E.assign n a.ty with
        | false => rw [ha] at h1; cases h1
        | true => rw [ha] at h1; cases h1; exact .inr (.inr ⟨n, a, rfl, rfl, rfl⟩)
  have pb : ∀ {n fs h h'}, T = .agg n fs → paren E T as = some h → brace E n fs as = some h' → h = h' := by
    intro n fs h h' e hp hb
    subst e
    rcases C76_brace_as_paren hp (hc rfl) with h1 | ⟨h1, _⟩
    · rw [hb] at h1; cases h1; rfl
    · rw [hb] at h1; cases h1
  have pc : ∀ {n a h}, T = .cls n → as = [a] → paren E T as = some h → h = if a.ty = .cls n then .copy a else .ctor n [a] := by
    intro n a h e e' hp
    subst e e'
    simp only [paren] at hp
    split at hp
    · rename_i h1; cases hp; rw [if_pos h1]
    · rename_i h1
      rw [if_neg h1]
      cases hk : E.ctor n [a.ty] with
      | false => rw [hk] at hp; cases hp
      | true => rw [hk] at hp; cases hp; rfl
  rcases key e1 with p1 | ⟨n, fs, t1, b1⟩ | ⟨n, a, t1, a1, c1⟩ <;> rcases key e2 with p2 | ⟨n', fs', t2, b2⟩ | ⟨n', a', t2, a2, c2⟩
  · rw [p1] at p2; cases p2; rfl
  · exact pb t2 p1 b2
  · rw [c2]; exact pc t2 a2 p1
  · exact (pb t1 p2 b1).symm
  · subst t1; cases t2; rw [b1] at b2; cases b2; rfl
  · subst t1; cases t2
  · rw [c1]; exact (pc t1 a1 p2).symm
  · subst t1; cases t2
  · subst t1 a1; cases t2; cases a2; rw [c1, c2]

example {w : Way} {h : How} (e : w.call (Demo.env true) true Demo.line [⟨1, Demo.point⟩, Demo.num 2] = .made h) :
    h = .members [.copy ⟨1, Demo.point⟩, .copy (Demo.num 2)] :=
  C76_agree_partial (w2 := .emplace) e rfl fun _ ⟨_, h, _⟩ => by cases h

/-- **C76**, what changes from C++17 to C++20 (with parenthesised aggregates): the constructors still make the same; what they no longer
accept are exactly arguments of which one cannot initialise the member at its place, or too many (brace elision). -/
theorem C76_standards {w : Way} (hw : w.IsCtor) {h : How}
    (e : Way.call { E with parenInit := false } false w (.agg n fs) as = .made h) :
    (Way.call { E with parenInit := true } true w (.agg n fs) as = .made h ∨
      Way.call { E with parenInit := true } true w (.agg n fs) as = .rejected) ∧
    (Way.call { E with parenInit := true } true w (.agg n fs) as = .rejected ↔
      Direct E fs as = false ∧ ∀ a, as = [a] → copyInit E a (.agg n fs) = none) := by
  have hf : w.fits (.agg n fs) as = true := by
    revert e
    simp only [Way.call]
    cases w.fits (.agg n fs) as
    · intro e; cases e
    · exact fun _ => rfl
  have hb : brace E n fs as = some h := by
    have := call_made e
    rcases hw with rfl | rfl | rfl <;> (rw [← brace_set false]; exact this)
  have e20 : ∀ w : Way, w.IsCtor → w.fits (.agg n fs) as = true → Way.call { E with parenInit := true } true w (.agg n fs) as =
      if (paren { E with parenInit := true } (.agg n fs) as).isSome then .made h else .rejected := by
    intro w hw hf
    rcases hw with rfl | rfl | rfl <;>
      simp only [Way.call, hf, Bool.true_and, Way.enabled, initializable, if_true, Way.body, baseCtor, brace_set, hb]
  rw [e20 w hw hf]
  have hr : (paren { E with parenInit := true } (.agg n fs) as).isSome = false ↔
      Direct E fs as = false ∧ ∀ a, as = [a] → copyInit E a (.agg n fs) = none := by
    cases as with
    | nil =>
      have : paren { E with parenInit := true } (.agg n fs) [] = some h := by
        have : paren { E with parenInit := true } (.agg n fs) [] = empty { E with parenInit := true } (.agg n fs) := rfl
        rw [this, empty_set]; exact hb
      rw [this]
      constructor
      · intro h; cases h
      · rintro ⟨h, _⟩; cases fs <;> cases h
    | cons a as =>
      by_cases hn : ∀ b, a :: as = [b] → copyInit E b (.agg n fs) = none
      · rw [paren_agg (E := { E with parenInit := true }) hn]
        simp only [if_true, parenMembers_set]
        have h1 : ¬ (as = [] ∧ a.ty = .agg n fs) := by
          rintro ⟨rfl, ht⟩
          have := hn a rfl
          rw [copyInit_same ht] at this
          cases this
        simp only [brace, h1, if_false] at hb
        have hel : ∃ hs, elements E fs (a :: as) = some (hs, []) := by
          revert hb
          cases elements E fs (a :: as) with
          | none => intro hb; cases hb
          | some x =>
            obtain ⟨hs, r⟩ := x
            cases r with
            | nil => exact fun _ => ⟨hs, rfl⟩
            | cons _ _ => intro hb; cases hb
        obtain ⟨hs, hel⟩ := hel
        cases hd : Direct E fs (a :: as) with
        | true => simp [paren_of_elements hd hel]
        | false =>
          cases hp : parenMembers E fs (a :: as) with
          | none => simp only [Option.map_none, Option.isSome_none, true_and, true_iff]; exact hn
          | some hs' => rw [direct_of_paren hp] at hd; cases hd
      · have : (paren { E with parenInit := true } (.agg n fs) (a :: as)).isSome = true := by
          by_cases ha : as = []
          · subst ha
            cases hc : copyInit E a (.agg n fs) with
            | none => exact absurd (fun b hb => by cases hb; exact hc) hn
            | some h' => rw [paren_one (E := { E with parenInit := true }) (h := h') hc]; rfl
          · exact absurd (fun b hb => by cases hb; exact absurd rfl ha) hn
        rw [this]
        constructor
        · intro h; cases h
        · rintro ⟨_, h⟩; exact absurd h hn
  rw [← hr]
  cases (paren { E with parenInit := true } (.agg n fs) as).isSome with
  | true => simp
  | false => simp

/-- three numbers for a line: braces are elided around the point; no longer in C++20 -/
example : Way.argsCtor.call (Demo.env false) false Demo.line [Demo.num 1, Demo.num 2, Demo.num 3] =
      .made (.members [.members [.copy (Demo.num 1), .copy (Demo.num 2)], .copy (Demo.num 3)]) ∧
    Way.argsCtor.call (Demo.env true) true Demo.line [Demo.num 1, Demo.num 2, Demo.num 3] = .rejected :=
  ⟨rfl, ((C76_standards (E := Demo.env true) (n := 1) (fs := [Demo.point, .arith 0])
    (as := [Demo.num 1, Demo.num 2, Demo.num 3]) (.inr (.inl rfl)) rfl).2).2 ⟨rfl, fun _ h => by cases h⟩⟩

/-- **C76**, docs/reference.md 2473 says `is_initializable_from` asks for aggregates whether braces work.  In C++17 it accepts exactly
these and conversions to the aggregate. -/
theorem C76_constraint_partial (hE : E.parenInit = false) :
    initializable E false (.agg n fs) as = true ↔ (brace E n fs as).isSome = true ∨ Converts E (.agg n fs) as := by
  constructor
  · intro hi
    cases hb : (brace E n fs as).isSome with
    | true => exact .inl rfl
    | false =>
      right
      have hb' : brace E n fs as = none := by simpa using hb
      have hp : (paren E (.agg n fs) as).isSome = true := by
        simp only [initializable, hb, Bool.false_eq_true, if_false] at hi
        revert hi
        cases (paren E (.agg n fs) as).isSome <;> simp
      obtain ⟨h, hp⟩ := Option.isSome_iff_exists.1 hp
      refine Classical.byContradiction fun hc => ?_
      rcases C76_brace_as_paren hp hc with h1 | ⟨_, h1, _⟩
      · rw [hb'] at h1; cases h1
      · rw [hE] at h1; cases h1
  · rintro (hb | ⟨a, rfl, h1, h2⟩)
    · simp only [initializable, hb, Bool.false_eq_true, if_false, ite_self]
    · simp only [initializable, paren_one (converts_some h1 h2), Option.isSome_some, if_true, ite_self]

example : initializable (Demo.env false) false Demo.line [Demo.num 1, Demo.num 2, Demo.num 3] = true :=
  (C76_constraint_partial rfl).2 (.inl rfl)

/-- **C76, violated**: the documented condition does not hold for a proxy of an aggregate, nor ("can be *list-initialized*") for an `int`
made from a `double`. -/
theorem C76_violated_constraint : ∃ (E : Env) (n : Nat) (fs : List Ty) (a : Arg) (t : Nat) (d : Arg) (h : How),
    initializable E false (.agg n fs) [a] = true ∧ brace E n fs [a] = none ∧
    initializable E cxx20 (.arith t) [d] = true ∧ copyInit E d (.arith t) = some h ∧ narrows E h = true :=
  ⟨Demo.env false, 0, [.arith 0, .arith 0], Demo.proxy, 0, Demo.dbl 1, _, rfl, rfl, by cases cxx20 <;> rfl, rfl, rfl⟩

/-- **C76**: with a C++20 compiler that does not initialise aggregates with parentheses (Clang before 16) an option of an aggregate is only
made from nothing, from the aggregate itself or by a conversion to it; arguments for the members are rejected by every constructor
(and accepted in C++17). -/
theorem C76_without_paren_init (hE : E.parenInit = false) {w : Way} (hw : w.IsCtor) (hn : as ≠ [])
    (hc : ∀ a, as = [a] → copyInit E a (.agg n fs) = none) : w.call E true (.agg n fs) as = .rejected := by
  have hp : paren E (.agg n fs) as = none := by
    cases as with
    | nil => exact absurd rfl hn
    | cons a as => rw [paren_agg hc, hE]; rfl
  rcases hw with rfl | rfl | rfl <;>
    simp only [Way.call, Way.enabled, initializable, if_true, hp, Option.isSome_none, Bool.and_false, Bool.false_eq_true, if_false]

example : Way.argsCtor.call (Demo.env false) true Demo.point [Demo.num 1, Demo.num 2] = .rejected ∧
    Way.argsCtor.call (Demo.env false) false Demo.point [Demo.num 1, Demo.num 2] =
      .made (.members [.copy (Demo.num 1), .copy (Demo.num 2)]) :=
  ⟨C76_without_paren_init rfl (.inr (.inl rfl)) (by simp) (fun _ h => by cases h), rfl⟩

end Opt.Init
