import Verif.Spec.ResultType

/-!
# C84: The types of options made by the library
-/

namespace Opt.ResultType

open CT

theorem removeCv_idem (t : CT) : t.removeCv.removeCv = t.removeCv := by
  fun_induction removeCv t <;> simp_all [removeCv]

theorem removeCv_not_const {t u : CT} : t.removeCv ≠ .const u := by
  fun_induction removeCv t <;> simp_all

theorem decay_option {t u : CT} (h : t.removeRef.removeCv = .opt u) : t.decay = .opt u := by
  unfold decay
  split
  · rename_i hh; rw [hh] at h; simp [removeCv] at h
  · rename_i hh; rw [hh] at h; simp [removeCv] at h
  · exact h

theorem option_decay {t u : CT} (h : t.decay = .opt u) : t.removeRef.removeCv = .opt u := by
  unfold decay at h
  split at h
  · cases h
  · cases h
  · exact h

theorem best_option_lvalue : best betterGuide [.value, .optConstRef, .optValue] = some Param.optValue := by decide
theorem best_option_rvalue : best betterGuide [.value, .optConstRef, .optRref, .optValue] = some Param.optValue := by decide
theorem best_value : best betterGuide [.value] = some Param.value := by decide

theorem not_opt {t : CT} (h : ¬ ∃ u, t.removeCv = .opt u) {α : Type} (f : CT → α) (d : α) :
    (match t.removeCv with | .opt u => f u | _ => d) = d := by
  split
  · rename_i u hu; exact absurd ⟨u, hu⟩ h
  · rfl

/-- **C84 (deduction).**  `option{e}` wraps what a copy of `e` is; an option is not wrapped again, whatever its value category and
qualification. -/
theorem C84_deduction {e : Expr} (he : e.OK) : ctad e = (content (stored e)).option := by
  obtain ⟨t, c⟩ := e
  unfold Expr.OK at he
  dsimp only at he
  simp only [stored]
  by_cases ho : ∃ u, t.removeCv = .opt u
  · obtain ⟨u, hu⟩ := ho
    have hd : t.decay = .opt u := decay_option (by rw [he]; exact hu)
    by_cases hr : c = .rvalue ∧ t = .opt u
    · obtain ⟨rfl, rfl⟩ := hr
      simp only [ctad, guides, List.filter, Param.deduce, hu, Option.isSome, best_option_rvalue, hd, content, bind, Option.bind]
    · have hn : Param.deduce .optRref ⟨t, c⟩ = none := by
        simp only [Param.deduce]
        split
        · rename_i w
          simp only [removeCv, opt.injEq] at hu
          subst hu
          exact absurd ⟨rfl, rfl⟩ hr
        · rfl
      have h1 : Param.deduce .value ⟨t, c⟩ = some t.decay := rfl
      have h2 : Param.deduce .optConstRef ⟨t, c⟩ = some u := by simp only [Param.deduce, hu]
      have h3 : Param.deduce .optValue ⟨t, c⟩ = some u := by simp only [Param.deduce, hu]
      simp only [ctad, guides, List.filter, h1, h2, h3, hn, Option.isSome, best_option_lvalue, hd, content, bind, Option.bind]
  · have h1 : Param.deduce .value ⟨t, c⟩ = some t.decay := rfl
    have h2 : Param.deduce .optConstRef ⟨t, c⟩ = none := not_opt ho _ _
    have h3 : Param.deduce .optValue ⟨t, c⟩ = none := not_opt ho _ _
    have h4 : Param.deduce .optRref ⟨t, c⟩ = none := by
      simp only [Param.deduce]
      split
      · rename_i v
        exact absurd ⟨v, rfl⟩ ho
      · rfl
    simp only [ctad, guides, List.filter, h1, h2, h3, h4, Option.isSome, best_value, bind, Option.bind]
    congr 1
    unfold content
    split
    · rename_i u hu
      exact absurd ⟨u, by rw [← he]; exact option_decay hu⟩ ho
    · rfl

/-- used as it is or as `const` -/
def used (s : Step) (t : CT) : Expr := ⟨if s.const then .const t else t, s.cat⟩

theorem decay_used (s : Step) (t : CT) : (stored (used s (.opt t))) = .opt t := by
  unfold stored used
  dsimp only
  split <;> rfl

theorem used_ok (s : Step) (t : CT) : (used s (.opt t)).OK := by
  unfold Expr.OK used
  dsimp only
  split <;> rfl

/-- one step -/
def step (w : Wrap) (e : Expr) : Option CT :=
  match w with
  | .braces => ctad e
  | .make => makeOption e

theorem wrapAll_cons (s s' : Step) (ss : List Step) (e : Expr) :
    wrapAll (s :: s' :: ss) e = match step s.wrap e with | some t => wrapAll (s' :: ss) (used s t) | none => none := rfl

theorem accepted_opt (t : CT) : (CT.opt t).accepted = true := by simp [accepted, removeCvref, removeRef, removeCv]

theorem layered_succ (n : Nat) (t : CT) : layered n (.opt t) = .opt (layered n t) := by
  induction n with
  | zero => rfl
  | succ n ih => simp only [layered, ih]

theorem layered_add (m n : Nat) (t : CT) : layered m (layered n t) = layered (m + n) t := by
  induction m with
  | zero => simp [layered]
  | succ m ih => rw [Nat.succ_add]; simp only [layered, ih]

/-- from an option on -/
theorem wrapAll_option : ∀ (s : Step) (ss : List Step) (u : Step) {t : CT}, t.accepted = true →
    wrapAll (s :: ss) (used u (.opt t)) = some (layered (makes (s :: ss)) (.opt t))
  | s, [], u, t, ht => by
    cases hw : s.wrap with
    | braces => simp [wrapAll, hw, C84_deduction (used_ok u t), decay_used, content, option, ht, makes, layered]
    | make => 
      have : (used u (.opt t)).ty.decay = .opt t := decay_used u t
      simp [wrapAll, hw, makeOption, this, option, accepted_opt, makes, layered]
  | s, s' :: ss, u, t, ht => by
    rw [wrapAll_cons]
    cases hw : s.wrap with
    | braces =>
      have h1 : step .braces (used u (.opt t)) = some (.opt t) := by
        simp [step, C84_deduction (used_ok u t), decay_used, content, option, ht]
      rw [h1]
      show wrapAll (s' :: ss) (used s (.opt t)) = _
      rw [wrapAll_option s' ss s ht]
      simp [makes, hw]
    | make =>
      have h1 : step .make (used u (.opt t)) = some (.opt (.opt t)) := by
        have : (used u (.opt t)).ty.decay = .opt t := decay_used u t
        simp [step, makeOption, this, option, accepted_opt]
      rw [h1]
      show wrapAll (s' :: ss) (used s (.opt (.opt t))) = _
      rw [wrapAll_option s' ss s (accepted_opt t)]
      have : makes (s :: s' :: ss) = makes (s' :: ss) + 1 := by simp [makes, hw]
      rw [this]
      simp only [layered, layered_succ]

/-- **C84 (layers).**  Any nesting of `option{...}` and `make_option(...)`, with the intermediate results used as objects of any category and
qualification, adds one layer for each `make_option` and one if the innermost is `option{}` around something that is no option. -/
theorem C84_layers {ss : List Step} (hne : ss ≠ []) {e : Expr} (he : e.OK) (ha : (content (stored e)).accepted = true)
    (hs : (stored e).accepted = true) : wrapAll ss e = some (layered (addedLayers ss (stored e)) (stored e)) := by
  cases ss with
  | nil => exact absurd rfl hne
  | cons s ss =>
    have first : ∃ t, step s.wrap e = some (.opt t) ∧ t.accepted = true ∧
        .opt t = layered ((if s.wrap = .make then 1 else 0) + (if s.wrap = .braces ∧ (stored e).isOption = false then 1 else 0)) (stored e) := by
      cases hw : s.wrap with
      | make => exact ⟨stored e, by
        have : e.ty.decay.accepted = true := hs
        simp [step, makeOption, option, this]
        rfl, hs, by simp [layered]⟩
      | braces =>
        refine ⟨content (stored e), by simp [step, C84_deduction he, option, ha], ha, ?_⟩
        cases hq : stored e <;> simp [content, isOption, layered]
    obtain ⟨t, h1, h2, h3⟩ := first
    cases ss with
    | nil =>
      show step s.wrap e = _
      rw [h1, h3]
      simp only [addedLayers, makes, List.countP_cons, List.countP_nil, decide_eq_true_eq]
      congr 2
      omega
    | cons s' ss =>
      rw [wrapAll_cons, h1]
      show wrapAll (s' :: ss) (used s (.opt t)) = _
      rw [wrapAll_option s' ss s h2, h3, layered_add]
      simp only [addedLayers, makes, List.countP_cons, decide_eq_true_eq]
      congr 2
      omega

/-- how an operand can be passed -/
theorem operand (e : Expr) :
    (∃ t, e.ty.removeCv = .opt t ∧ Param.deduce .optConstRef e = some t ∧ Param.deduce .forwardNoOption e = none ∧
      (Param.deduce .optRref e = some t ∨ Param.deduce .optRref e = none)) ∨
    (e.ty.removeCv.isOption = false ∧ Param.deduce .optConstRef e = none ∧ Param.deduce .optRref e = none ∧
      Param.deduce .forwardNoOption e = some e.ty) := by
  obtain ⟨t, c⟩ := e
  by_cases ho : ∃ u, t.removeCv = .opt u
  · obtain ⟨u, hu⟩ := ho
    refine .inl ⟨u, hu, by simp only [Param.deduce, hu], by simp [Param.deduce, hu, isOption], ?_⟩
    simp only [Param.deduce]
    split
    · simp only [removeCv, opt.injEq] at hu
      exact .inl (by rw [hu])
    · exact .inr rfl
  · have hi : t.removeCv.isOption = false := by
      cases h : t.removeCv <;> first | rfl | exact absurd ⟨_, h⟩ ho
    refine .inr ⟨hi, not_opt ho _ _, ?_, by simp [Param.deduce, hi]⟩
    simp only [Param.deduce]
    split
    · rename_i v
      exact absurd ⟨v, rfl⟩ ho
    · rfl

/-- **C84 (`|`).**  `l | r` compiles, without ambiguity, exactly for the documented operands, and has the documented type. -/
theorem C84_or (l r : Expr) (t : CT) : or l r = some t ↔ OrType l r t := by
  constructor
  · intro h
    rcases operand l with ⟨tl, hl, l1, l2, l3⟩ | ⟨hl, l1, l2, l3⟩
    · rcases operand r with ⟨tr, hr, r1, r2, r3⟩ | ⟨hr, r1, r2, r3⟩
      · by_cases e : tl = tr
        · subst e
          rcases l3 with l3 | l3 <;> rcases r3 with r3 | r3 <;>
            simp [or, resolve, orOverloads, List.filter, Overload.apply, l1, l2, l3, r1, r2, r3, Overload.better, Param.betterConv] at h <;>
            exact h ▸ .options hl hr
        · rcases l3 with l3 | l3 <;> rcases r3 with r3 | r3 <;>
            simp [or, resolve, orOverloads, List.filter, Overload.apply, l1, l2, l3, r1, r2, r3, Overload.better, Param.betterConv, e] at h
      · rcases l3 with l3 | l3 <;>
          simp [or, resolve, orOverloads, List.filter, Overload.apply, l1, l2, l3, r1, r2, r3, Overload.better, Param.betterConv] at h <;>
          exact h ▸ .fallback hl hr
    · simp [or, resolve, orOverloads, List.filter, Overload.apply, l1, l2, l3] at h
  · intro h
    rcases operand l with ⟨tl, hl, l1, l2, l3⟩ | ⟨hl, l1, l2, l3⟩
    · cases h with
      | options hl' hr =>
        rename_i u
        have : tl = u := by rw [hl] at hl'; exact (opt.inj hl')
        subst this
        rcases operand r with ⟨tr, hr', r1, r2, r3⟩ | ⟨hr', r1, r2, r3⟩
        · have : tr = tl := by rw [hr'] at hr; exact (opt.inj hr)
          subst this
          rcases l3 with l3 | l3 <;> rcases r3 with r3 | r3 <;>
            simp [or, resolve, orOverloads, List.filter, Overload.apply, l1, l2, l3, r1, r2, r3, Overload.better, Param.betterConv]
        · rw [hr] at hr'; exact absurd hr' (by simp [isOption])
      | fallback hl' hr =>
        rename_i u
        have : tl = u := by rw [hl] at hl'; exact (opt.inj hl')
        subst this
        rcases operand r with ⟨tr, hr', r1, r2, r3⟩ | ⟨hr', r1, r2, r3⟩
        · rw [hr'] at hr; exact absurd hr (by simp [isOption])
        · rcases l3 with l3 | l3 <;>
            simp [or, resolve, orOverloads, List.filter, Overload.apply, l1, l2, l3, r1, r2, r3, Overload.better, Param.betterConv]
    · cases h with
      | options hl' _ => rw [hl'] at hl; exact absurd hl (by simp [isOption])
      | fallback hl' _ => rw [hl'] at hl; exact absurd hl (by simp [isOption])

/-- **C84 (`^`).** -/
theorem C84_xor (l r : Expr) (t : CT) : xor l r = some t ↔ XorType l r t := by
  constructor
  · intro h
    rcases operand l with ⟨tl, hl, l1, l2, l3⟩ | ⟨hl, l1, l2, l3⟩
    · rcases operand r with ⟨tr, hr, r1, r2, r3⟩ | ⟨hr, r1, r2, r3⟩
      · by_cases e : tl = tr
        · subst e
          rcases l3 with l3 | l3 <;> rcases r3 with r3 | r3 <;>
            simp [xor, resolve, xorOverloads, List.filter, Overload.apply, l1, l3, r1, r3, Overload.better, Param.betterConv] at h <;>
            exact h ▸ .options hl hr
        · rcases l3 with l3 | l3 <;> rcases r3 with r3 | r3 <;>
            simp [xor, resolve, xorOverloads, List.filter, Overload.apply, l1, l3, r1, r3, e] at h
      · rcases l3 with l3 | l3 <;>
          simp [xor, resolve, xorOverloads, List.filter, Overload.apply, l1, l3, r1, r2] at h
    · simp [xor, resolve, xorOverloads, List.filter, Overload.apply, l1, l2] at h
  · intro h
    cases h with
    | options hl' hr =>
      rename_i u
      rcases operand l with ⟨tl, hl, l1, l2, l3⟩ | ⟨hl, l1, l2, l3⟩
      · have : tl = u := by rw [hl] at hl'; exact (opt.inj hl')
        subst this
        rcases operand r with ⟨tr, hr', r1, r2, r3⟩ | ⟨hr', r1, r2, r3⟩
        · have : tr = tl := by rw [hr'] at hr; exact (opt.inj hr)
          subst this
          rcases l3 with l3 | l3 <;> rcases r3 with r3 | r3 <;>
            simp [xor, resolve, xorOverloads, List.filter, Overload.apply, l1, l3, r1, r3, Overload.better, Param.betterConv]
        · rw [hr] at hr'; exact absurd hr' (by simp [isOption])
      · rw [hl'] at hl; exact absurd hl (by simp [isOption])

/-- **C84 (`&`).** -/
theorem C84_and (l r : Expr) (t : CT) : and l r = some t ↔ AndType l r t := by
  constructor
  · intro h
    rcases operand l with ⟨tl, hl, l1, l2, l3⟩ | ⟨hl, l1, l2, l3⟩
    · rcases operand r with ⟨tr, hr, r1, r2, r3⟩ | ⟨hr, r1, r2, r3⟩
      · rcases r3 with r3 | r3 <;>
          simp [and, resolve, andOverloads, List.filter, Overload.apply, l1, r1, r3, Overload.better, Param.betterConv] at h <;>
          exact h ▸ .options hl hr
      · simp [and, resolve, andOverloads, List.filter, Overload.apply, l1, r1, r2] at h
    · simp [and, resolve, andOverloads, List.filter, Overload.apply, l1] at h
  · intro h
    cases h with
    | options hl' hr =>
      rename_i t' u
      rcases operand l with ⟨tl, hl, l1, l2, l3⟩ | ⟨hl, l1, l2, l3⟩
      · rcases operand r with ⟨tr, hr', r1, r2, r3⟩ | ⟨hr', r1, r2, r3⟩
        · have : tr = u := by rw [hr'] at hr; exact (opt.inj hr)
          subst this
          rcases r3 with r3 | r3 <;>
            simp [and, resolve, andOverloads, List.filter, Overload.apply, l1, r1, r3, Overload.better, Param.betterConv]
        · rw [hr] at hr'; exact absurd hr' (by simp [isOption])
      · rw [hl'] at hl; exact absurd hl (by simp [isOption])

/-! ## Chains of `|` -/

theorem call_ty (t : CT) : (call t).ty = t.removeRef := by
  unfold call removeRef
  split <;> first | rfl | (split <;> simp_all)

theorem call_opt (t : CT) : call (.opt t) = ⟨.opt t, .rvalue⟩ := rfl

theorem size_removeRef (t : CT) : sizeOf t.removeRef ≤ sizeOf t := by
  unfold removeRef
  split <;> simp <;> omega

theorem size_removeCv (t : CT) : sizeOf t.removeCv ≤ sizeOf t := by
  induction t <;> simp [removeCv] <;> omega

theorem call_value {R : CT} (hr : R.removeRef = R) : call R = ⟨R, .rvalue⟩ := by
  cases R <;> first
    | rfl
    | (have := congrArg sizeOf hr; simp [removeRef] at this)

/-- **C84 (grouping).**  If both groupings of `a | b | c` compile, they have the same type. -/
theorem C84_or_grouping {a b c : Expr} {t u v w : CT} (h1 : or a b = some t) (h2 : or (call t) c = some u)
    (h3 : or b c = some v) (h4 : or a (call v) = some w) : u = w := by
  rw [C84_or] at h1 h2 h3 h4
  cases h1 with
  | options ha hb =>
    rename_i x
    rw [call_opt] at h2
    cases h2 with
    | options h5 h6 =>
      cases h5
      cases h3 with
      | options h7 h8 =>
        rw [hb] at h7; cases h7
        cases h4 with
        | options h9 h10 => rw [ha] at h9; cases h9; rfl
        | fallback h9 h10 => rw [call_opt] at h10; simp [removeCv, isOption] at h10
      | fallback h7 h8 => rw [h6] at h8; simp [isOption] at h8
    | fallback h5 h6 =>
      cases h5
      cases h3 with
      | options h7 h8 => rw [h8] at h6; simp [isOption] at h6
      | fallback h7 h8 =>
        rw [hb] at h7; cases h7
        cases h4 with
        | options h9 h10 =>
          rw [ha] at h9; cases h9
          rw [call_ty] at h10
          have a1 := size_removeCv x.removeCv.removeRef
          have a2 := size_removeRef x.removeCv
          have a3 := size_removeCv x
          rw [h10] at a1
          simp only [CT.opt.sizeOf_spec] at a1
          omega
        | fallback h9 h10 => rw [ha] at h9; cases h9; rfl
  | fallback ha hb =>
    cases h3 with
    | options h7 h8 => rw [h7] at hb; simp [isOption] at hb
    | fallback h7 h8 => rw [h7] at hb; simp [isOption] at hb

theorem or_none {l r : Expr} (h : ∀ t, ¬ OrType l r t) : or l r = none := by
  cases e : or l r with
  | none => rfl
  | some t => exact absurd ((C84_or l r t).1 e) (h t)

/-- **C84 (chain).**  `l | r1 | ... | rn`, where `l` is an `option<T>` and `T` neither an option nor a reference to one, compiles exactly if
the operands are options of `T`, the last one perhaps a value, and is an `option<T>` or a `T` accordingly. -/
theorem C84_chain {t : CT} (ht : t.removeCv.removeRef.removeCv.isOption = false) : ∀ (rs : List Expr) {l : Expr}, rs ≠ [] →
    l.ty.removeCv = .opt t →
    (Fallbacks t rs ∧ chain l rs = some (call (chainType t rs))) ∨ (¬ Fallbacks t rs ∧ chain l rs = none)
  | [], _, h, _ => absurd rfl h
  | [r], l, _, hl => by
    by_cases h1 : r.ty.removeCv = .opt t
    · refine .inl ⟨.inl h1, ?_⟩
      simp [chain, (C84_or l r _).2 (.options hl h1), chainType, h1, isOption]
    · by_cases h2 : r.ty.removeCv.isOption = false
      · refine .inl ⟨.inr h2, ?_⟩
        simp [chain, (C84_or l r _).2 (.fallback hl h2), chainType, h2]
      · refine .inr ⟨fun h => h.elim h1 h2, ?_⟩
        have : or l r = none := or_none fun u hu => by
          cases hu with
          | options h3 h4 => rw [hl] at h3; cases h3; exact h1 h4
          | fallback h3 h4 => exact h2 h4
        simp [chain, this]
  | r :: r' :: rs, l, _, hl => by
    by_cases h1 : r.ty.removeCv = .opt t
    · have hc : chain l (r :: r' :: rs) = chain (call (.opt t)) (r' :: rs) := by
        rw [chain, (C84_or l r _).2 (.options hl h1)]
      have hg : chainType t (r :: r' :: rs) = chainType t (r' :: rs) := by simp [chainType]
      rw [hc, hg]
      rcases C84_chain ht (r' :: rs) (l := call (.opt t)) (by simp) rfl with ⟨a, b⟩ | ⟨a, b⟩
      · exact .inl ⟨⟨h1, a⟩, b⟩
      · exact .inr ⟨fun h => a h.2, b⟩
    · refine .inr ⟨fun h => h1 h.1, ?_⟩
      rw [chain]
      split
      · rename_i u hu
        rw [C84_or] at hu
        cases hu with
        | options h3 h4 => rw [hl] at h3; cases h3; exact absurd h4 h1
        | fallback h3 h4 =>
          rw [hl] at h3; cases h3
          have : or (call t.removeCv) r' = none := or_none fun w hw => by
            cases hw with
            | options h5 h6 => rw [call_ty] at h5; rw [h5] at ht; simp [isOption] at ht
            | fallback h5 h6 => rw [call_ty] at h5; rw [h5] at ht; simp [isOption] at ht
          simp [chain, this]
      · rfl

/-! ## `map`, `and_then`, `zip`, `zip_with` -/

/-- **C84 (`map`, partly).**  The manual (docs/reference.md 943) describes `map(f)` as `opt::option{f(get())}`; the types agree if `f` returns
an object that is no option. -/
theorem C84_map_partial {R : CT} (hr : R.removeRef = R) (hd : R.decay = R.removeCv) (ho : R.removeCv.isOption = false) :
    map R = ctad (call R) := by
  have hc := call_value hr
  rw [hc, C84_deduction (by exact hr)]
  simp only [stored, hd, map]
  congr 1
  cases h : R.removeCv <;> first | rfl | (rw [h] at ho; simp [isOption] at ho)

/-- for a function that returns an option, `map` nests and the described code does not; `and_then` is the function that does not -/
theorem C84_violated_map_option {R u : CT} (hr : R.removeRef = R) (hu : R.removeCv = .opt u) (ha : u.accepted = true) :
    map R = some (.opt (.opt u)) ∧ ctad (call R) = some (.opt u) ∧ andThen R = some (.opt u) := by
  have hc := call_value hr
  have hd : R.decay = .opt u := decay_option (by rw [hr]; exact hu)
  refine ⟨by simp [map, hu, option, accepted_opt], ?_, ?_⟩
  · rw [hc, C84_deduction (by exact hr)]
    simp [stored, hd, content, option, ha]
  · have : R.removeCvref = .opt u := by rw [removeCvref, hr, hu]
    simp [andThen, this, hd, isOption]

/-- for a function that returns a reference, `map` gives an option of the reference and the described code one of a copy -/
theorem C84_violated_map_reference {t : CT} (ht : t.removeRef = t) (ha : (CT.lref t).accepted = true) :
    map (.lref t) = some (.opt (.lref t)) ∧ ctad (call (.lref t)) = (content t.decay).option ∧ ctad (call (.lref t)) ≠ map (.lref t) := by
  have h1 : map (.lref t) = some (.opt (.lref t)) := by simp [map, removeCv, option, ha]
  have h2 : ctad (call (.lref t)) = (content t.decay).option := C84_deduction (e := ⟨t, .lvalue⟩) ht
  refine ⟨h1, h2, fun h => ?_⟩
  rw [h1, h2, option] at h
  split at h
  · simp only [Option.some.injEq, opt.injEq] at h
    have hs := size_removeCv t
    by_cases ho : ∃ u, t.decay = .opt u
    · obtain ⟨u, hu⟩ := ho
      have hv := option_decay hu
      rw [ht] at hv
      rw [hu] at h
      simp only [content] at h
      rw [hv, h] at hs
      simp at hs
      omega
    · have hc : content t.decay = t.decay := by
        cases hq : t.decay <;> first | rfl | exact absurd ⟨_, hq⟩ ho
      rw [hc, decay, ht] at h
      split at h
      · simp at h
      · simp at h
      · rw [h] at hs
        simp at hs
        omega
  · simp at h

/-- **C84 (`zip_with`).**  `zip_with(f, o)` has the type of `o.map(f)` unless `f` returns a `const` object or nothing. -/
theorem C84_zip_with {R : CT} (hv : R.removeCv ≠ .void) : zipWith R = map R ↔ R.removeCv = R ∨ (R.accepted = false ∧ R.removeCv.accepted = false) := by
  simp only [zipWith, if_neg hv, map, option]
  constructor
  · intro h
    split at h
    · split at h
      · simp only [Option.some.injEq, opt.injEq] at h
        exact .inl h.symm
      · simp at h
    · rename_i h1
      split at h
      · simp at h
      · rename_i h2
        exact .inr ⟨by simpa using h1, by simpa using h2⟩
  · rintro (h | ⟨h1, h2⟩)
    · rw [h]
    · simp [h1, h2]

/-- `f` returning nothing -/
theorem C84_zip_with_void {R : CT} (hv : R.removeCv = .void) : zipWith R = some .void ∧ map R = none := by
  simp [zipWith, hv, map, option, accepted, removeCv]

/-- the tuple's types -/
def valueType (e : Expr) : Option CT :=
  match e.ty.removeCvref with
  | .opt t => some t
  | _ => none

theorem tuple_accepted (ts : List CT) : (CT.tuple ts).accepted = true ∧ (CT.tuple ts).decay = CT.tuple ts ∧
    (CT.tuple ts).removeRef = CT.tuple ts ∧ content (CT.tuple ts) = CT.tuple ts := by
  cases ts <;> simp [CT.tuple, accepted, removeCvref, removeRef, removeCv, decay, content]

theorem zip_eq (es : List Expr) : zip es = (es.mapM valueType).map fun ts => .opt (.tuple ts) := by
  show (es.mapM valueType).bind _ = _
  cases es.mapM valueType with
  | none => rfl
  | some ts =>
    obtain ⟨h1, h2, h3, h4⟩ := tuple_accepted ts
    have : ctad ⟨.tuple ts, .rvalue⟩ = some (.opt (.tuple ts)) := by
      rw [C84_deduction (by exact h3)]
      simp [stored, h2, h4, option, h1]
    simp [this, option, h1]

/-- **C84 (`zip`).**  `zip` has a type exactly for options, and then it is an option of the tuple of their contained types. -/
theorem C84_zip (es : List Expr) (t : CT) :
    zip es = some t ↔ ∃ ts, es.map (fun e => e.ty.removeCvref) = ts.map .opt ∧ t = .opt (.tuple ts) := by
  rw [zip_eq]
  have key : ∀ (es : List Expr) (ts : List CT), es.mapM valueType = some ts ↔ es.map (fun e => e.ty.removeCvref) = ts.map .opt := by
    intro es
    induction es with
    | nil => intro ts; cases ts <;> simp
    | cons e es ih =>
      intro ts
      simp only [List.mapM_cons, List.map_cons, bind, pure]
      cases hv : e.ty.removeCvref with
      | opt u =>
        have : valueType e = some u := by simp [valueType, hv]
        rw [this]
        cases ts with
        | nil => cases h : es.mapM valueType <;> simp
        | cons t ts =>
          have := ih ts
          cases h : es.mapM valueType with
          | none => rw [h] at this; simp at this; simp; intro _; exact this
          | some us => rw [h] at this; simp at this; simp [this]
      | _ => 
        have : valueType e = none := by simp [valueType, hv]
        rw [this]
        cases ts <;> simp
  simp only [Option.map_eq_some_iff, key]
  constructor
  · rintro ⟨ts, h, rfl⟩; exact ⟨ts, h, rfl⟩
  · rintro ⟨ts, h, rfl⟩; exact ⟨ts, h, rfl⟩

/-! ## Nested options on the left -/

theorem unfit_iff : ∀ t : CT, Unfit t ↔ t.removeCv = .none_t ∨ t.removeCv = .inPlace_t ∨ t.removeCv = .void := by
  intro t
  induction t with
  | const t ih =>
    simp only [removeCv]
    rw [← ih]
    exact ⟨fun h => by cases h; assumption, .const⟩
  | none_t => simp [removeCv, Unfit.none_t]
  | inPlace_t => simp [removeCv, Unfit.inPlace_t]
  | void => simp [removeCv, Unfit.void]
  | _ => simp only [removeCv, reduceCtorEq, or_self, iff_false]; intro h; cases h

/-- **C84**: `option<t>` can be instantiated except for the tags `none_t` and `in_place_t`, however qualified or referred to, and `void`. -/
theorem C84_instantiable (t : CT) : (NoOption t → t.option = none) ∧ (¬ NoOption t → t.option = some (.opt t)) := by
  have key : t.accepted = false ↔ NoOption t := by
    have plain : t.removeRef = t → (t.accepted = false ↔ Unfit t) := by
      intro h
      rw [unfit_iff]
      simp only [accepted, removeCvref, h]
      by_cases h1 : t.removeCv = .none_t
      · simp [h1]
      by_cases h2 : t.removeCv = .inPlace_t
      · simp [h2]
      by_cases h3 : t.removeCv = .void <;> simp [h1, h2, h3]
    have refs : ∀ u, t = .lref u ∨ t = .rref u → (t.accepted = false ↔ Unfit u ∧ u.removeCv ≠ .void) := by
      intro u h
      rw [unfit_iff]
      have h1 : t.removeCvref = u.removeCv := by rcases h with h | h <;> rw [h] <;> rfl
      have h2 : (t.removeCv != void) = true := by rcases h with h | h <;> rw [h] <;> rfl
      simp only [accepted, h1, h2]
      by_cases h1 : u.removeCv = .none_t
      · simp [h1]
      by_cases h2 : u.removeCv = .inPlace_t
      · simp [h2]
      by_cases h3 : u.removeCv = .void <;> simp [h1, h2, h3]
    cases t with
    | lref u =>
      rw [refs u (.inl rfl)]
      exact ⟨fun h => .lref h.1 h.2, fun h => by cases h with | object h => cases h | lref h hv => exact ⟨h, hv⟩⟩
    | rref u =>
      rw [refs u (.inr rfl)]
      exact ⟨fun h => .rref h.1 h.2, fun h => by cases h with | object h => cases h | rref h hv => exact ⟨h, hv⟩⟩
    | _ =>
      rw [plain rfl]
      exact ⟨.object, fun h => by cases h; assumption⟩
  rw [← key]
  simp only [option]
  cases t.accepted <;> simp

example : NoOption (.lref (.const .none_t)) ∧ ¬ NoOption (.lref (.opt (.obj 0))) ∧ ¬ NoOption (.opt .none_t) := by
  refine ⟨.lref (.const .none_t) (by decide), ?_, ?_⟩ <;>
    · intro h
      have := (C84_instantiable _).1 h
      revert this
      decide


/-- `l | r` with an `option<option<u>>` and a fallback of its contained type `option<u>`, which `value_or` would take: no overload fits -/
theorem C84_or_nested {l r : Expr} {u : CT} (hl : l.ty.removeCv = .opt (.opt u)) (hr : r.ty.removeCv = .opt u) : or l r = none :=
  or_none fun t h => by
    cases h with
    | options h1 h2 =>
      rw [hl] at h1; cases h1
      rw [hr] at h2
      have := congrArg sizeOf h2
      simp at this
    | fallback h1 h2 => rw [hr] at h2; simp [isOption] at h2

/-- Without the condition of `C84_chain`: `(a | b) | c` compiles for an `option<option<u>>`, a value and an `option<u>` or a value; the
other grouping, `a | (b | c)`, compiles for no `b` that is a value. -/
theorem C84_grouping_left_only {a b c : Expr} {u : CT} (ha : a.ty.removeCv = .opt (.opt u)) (hb : b.ty.removeCv.isOption = false)
    (hc : c.ty.removeCv = .opt u) :
    (or a b).bind (fun t => or (call t) c) = some (.opt u) ∧ (or b c).bind (fun t => or a (call t)) = none := by
  have h1 : or a b = some (.opt u) := (C84_or a b _).2 (.fallback ha hb)
  have h2 : or b c = none := or_none fun t h => by
    cases h with
    | options h1 _ => rw [h1] at hb; simp [isOption] at hb
    | fallback h1 _ => rw [h1] at hb; simp [isOption] at hb
  rw [h1, h2]
  refine ⟨?_, rfl⟩
  simp only [Option.bind_some, call_opt]
  exact (C84_or _ c _).2 (.options rfl hc)

/-- And the other way around: options of different types group only to the right. -/
theorem C84_grouping_right_only {a b c : Expr} {t u : CT} (ha : a.ty.removeCv = .opt t) (hb : b.ty.removeCv = .opt u) (hn : t ≠ u)
    (hc : c.ty.removeCv.isOption = false) (hu : u.removeCv.removeRef.removeCv.isOption = false) :
    (or a b).bind (fun t => or (call t) c) = none ∧ (or b c).bind (fun t => or a (call t)) = some t.removeCv := by
  have h1 : or a b = none := or_none fun w h => by
    cases h with
    | options h1 h2 => rw [ha] at h1; rw [hb] at h2; cases h1; cases h2; exact hn rfl
    | fallback h1 h2 => rw [hb] at h2; simp [isOption] at h2
  have h2 : or b c = some u.removeCv := (C84_or b c _).2 (.fallback hb hc)
  rw [h1, h2]
  refine ⟨rfl, ?_⟩
  simp only [Option.bind_some]
  exact (C84_or a _ _).2 (.fallback ha (by rw [call_ty]; exact hu))

/-! ## Cases that meet the hypotheses -/

section Examples

def int : CT := .obj 0
def double : CT := .obj 1

/-- `opt::option{const option<int>&}`, `opt::option{"abc"}`, `opt::option{f}` and `opt::option{none}` -/
example : ctad ⟨.const (.opt int), .lvalue⟩ = some (.opt int) ∧ ctad ⟨.array (.const int) 4, .lvalue⟩ = some (.opt (.ptr (.const int))) ∧
    ctad ⟨.func 0, .lvalue⟩ = some (.opt (.ptr (.func 0))) ∧ ctad ⟨.const .none_t, .lvalue⟩ = none := by decide

/-- test/option.test.cpp 612-641: `opt::option{opt::make_option(opt::option{1})}` is an `option<option<int>>` -/
example : wrapAll [⟨.braces, false, .rvalue⟩, ⟨.make, true, .lvalue⟩, ⟨.braces, false, .rvalue⟩] ⟨int, .rvalue⟩ = some (.opt (.opt int)) := by
  decide

example : (⟨int, .rvalue⟩ : Expr).OK ∧ (content (stored ⟨int, .rvalue⟩)).accepted = true ∧ (stored ⟨int, .rvalue⟩).accepted = true := by
  exact ⟨rfl, rfl, rfl⟩

/-- `a | b | 1.5`, `a & c`, `a ^ std::move(b)` -/
example : or ⟨.const (.opt int), .lvalue⟩ ⟨double, .rvalue⟩ = some int ∧ and ⟨.opt int, .lvalue⟩ ⟨.opt double, .rvalue⟩ = some (.opt double) ∧
    xor ⟨.opt int, .lvalue⟩ ⟨.opt int, .rvalue⟩ = some (.opt int) ∧ xor ⟨.opt int, .lvalue⟩ ⟨.opt double, .rvalue⟩ = none ∧
    or ⟨int, .lvalue⟩ ⟨.opt int, .rvalue⟩ = none := by decide

example : chain ⟨.opt int, .lvalue⟩ [⟨.const (.opt int), .lvalue⟩, ⟨.opt int, .rvalue⟩, ⟨double, .rvalue⟩] = some ⟨int, .rvalue⟩ ∧
    Fallbacks int [⟨.const (.opt int), .lvalue⟩, ⟨.opt int, .rvalue⟩, ⟨double, .rvalue⟩] := by
  refine ⟨by decide, rfl, rfl, .inr rfl⟩

/-- the hypotheses of `C84_or_grouping` -/
example : or ⟨.opt int, .lvalue⟩ ⟨.opt int, .lvalue⟩ = some (.opt int) ∧ or (call (.opt int)) ⟨double, .rvalue⟩ = some int ∧
    or ⟨.opt int, .lvalue⟩ ⟨double, .rvalue⟩ = some int ∧ or ⟨.opt int, .lvalue⟩ (call int) = some int := by decide

example : map (.const int) = ctad (call (.const int)) ∧ map (.const int) = some (.opt int) ∧ zipWith (.const int) = some (.opt (.const int)) := by
  decide

example : zip [⟨.const (.opt int), .lvalue⟩, ⟨.opt (.opt double), .rvalue⟩] = some (.opt (.tuple [int, .opt double])) ∧
    zip [⟨int, .lvalue⟩] = none := by decide

end Examples

end Opt.ResultType

open Opt.ResultType
#print axioms C84_deduction
#print axioms C84_layers
#print axioms C84_or
#print axioms C84_and
#print axioms C84_xor
#print axioms C84_or_grouping
#print axioms C84_chain
#print axioms C84_map_partial
#print axioms C84_violated_map_option
#print axioms C84_violated_map_reference
#print axioms C84_zip_with
#print axioms C84_zip_with_void
#print axioms C84_zip
#print axioms C84_instantiable
#print axioms C84_or_nested
#print axioms C84_grouping_left_only
#print axioms C84_grouping_right_only
