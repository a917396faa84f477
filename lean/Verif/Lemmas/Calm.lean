import Verif.Spec.Calm

/-!
# Options when nothing throws: the specification machine follows `Calm.step`
-/

namespace Opt.Calm

variable {Val : Type}

/-- the computation completes from memory `m`, whatever calls were made before, and the postcondition holds -/
def Does {α : Type} (x : M (AState Val) α) (m : Nat → Option (Option Val)) (Q : α → (Nat → Option (Option Val)) → Prop) : Prop :=
  ∀ env, ∃ r m' env', x ⟨m, env⟩ = .ok r ⟨m', env'⟩ ∧ Q r m'

section
variable {α β : Type} {m : Nat → Option (Option Val)}

theorem Does.ret {a : α} {Q : α → (Nat → Option (Option Val)) → Prop} (h : Q a m) : Does (Pure.pure a : M (AState Val) α) m Q :=
  fun env => ⟨a, m, env, rfl, h⟩

theorem Does.bind {x : M (AState Val) α} {f : α → M (AState Val) β} {Q : β → (Nat → Option (Option Val)) → Prop}
    (h : Does x m (fun r m' => Does (f r) m' Q)) : Does (x >>= f) m Q := by
  intro env
  obtain ⟨r, m', env', he, h⟩ := h env
  obtain ⟨r2, m2, env2, he2, h2⟩ := h env'
  refine ⟨r2, m2, env2, ?_, h2⟩
  show M.seq x f _ = _
  unfold M.seq
  rw [he]; exact he2

theorem Does.mono {x : M (AState Val) α} {Q R : α → (Nat → Option (Option Val)) → Prop} (h : Does x m Q)
    (hq : ∀ r m', Q r m' → R r m') : Does x m R := by
  intro env
  obtain ⟨r, m', env', he, h⟩ := h env
  exact ⟨r, m', env', he, hq _ _ h⟩

theorem Does.onThrow {x : M (AState Val) α} {y : M (AState Val) Unit} {Q : α → (Nat → Option (Option Val)) → Prop}
    (h : Does x m Q) : Does (M.onThrow x y) m Q := by
  intro env
  obtain ⟨r, m', env', he, h⟩ := h env
  exact ⟨r, m', env', by unfold M.onThrow; rw [he], h⟩

theorem Does.asRet {x : M (AState Val) α} {f : α → Ret Val} {Q : Ret Val → (Nat → Option (Option Val)) → Prop}
    (h : Does x m (fun r m' => Q (f r) m')) : Does (Prog.asRet f x) m Q :=
  Does.bind (h.mono fun _ _ h => Does.ret h)

variable {i j : Nat} {x : Option Val} {v : Val}

theorem Does.get {Q : Option Val → (Nat → Option (Option Val)) → Prop} (hx : m i = some x) (h : Q x m) :
    Does (Spec.get i) m Q := fun env => ⟨x, m, env, by simp [Spec.get, hx], h⟩

theorem Does.put {Q : Unit → (Nat → Option (Option Val)) → Prop} (h : Q () (upd m i (some x))) :
    Does (Spec.put i x) m Q := fun env => ⟨(), _, env, rfl, h⟩

theorem Does.new {Q : Unit → (Nat → Option (Option Val)) → Prop} (hx : m i = none) (h : Q () (upd m i (some none))) :
    Does (Spec.new i) m Q := fun env => ⟨(), _, env, by simp [Spec.new, hx], h⟩

theorem Does.del {Q : Unit → (Nat → Option (Option Val)) → Prop} (h : Q () (upd m i none)) :
    Does (Spec.del i) m Q := fun env => ⟨(), _, env, rfl, h⟩

theorem Does.note {e : Event} {Q : Unit → (Nat → Option (Option Val)) → Prop} (h : Q () m) :
    Does (Spec.note e) m Q := fun _ => ⟨(), _, _, rfl, h⟩

theorem Does.clock {Q : Nat → (Nat → Option (Option Val)) → Prop} (h : ∀ n, Q n m) :
    Does Spec.clock m Q := fun _ => ⟨_, _, _, rfl, h _⟩

theorem Does.user {P : Prog Val} (hT : ∀ n, P.throwsAt n = false) {e f : Event}
    {Q : Nat × Bool → (Nat → Option (Option Val)) → Prop} (h : ∀ n, Q (n, false) m) :
    Does (Spec.user P e f) m Q := by
  intro env
  refine ⟨(env.tick, false), m, ⟨env.tick + 1, env.log ++ [e]⟩, ?_, h _⟩
  simp [Spec.user, hT]

theorem Does.val {Q : Val → (Nat → Option (Option Val)) → Prop} (hx : m i = some (some v)) (h : Q v m) :
    Does (Spec.val i) m Q := Does.bind (Does.get hx (Does.ret h))

theorem Does.checked {Q : Unit → (Nat → Option (Option Val)) → Prop} (hx : m i = some (some v)) (h : Q () m) :
    Does (Spec.checked i) m Q := Does.bind (Does.get hx fun env => ⟨(), m, env, rfl, h⟩)

theorem Does.call0 {P : Prog Val} (hT : ∀ n, P.throwsAt n = false) {b : β} {Q : β → (Nat → Option (Option Val)) → Prop} (h : Q b m) :
    Does (Spec.call0 P b) m Q := Does.bind (Does.user hT fun _ => Does.ret h)

theorem Does.call {P : Prog Val} (hT : ∀ n, P.throwsAt n = false) {f : Prog.Fn Val β} {Q : β → (Nat → Option (Option Val)) → Prop}
    (hx : m i = some (some v)) (h : Q (f.ret v) (upd m i (some (some (f.after v))))) : Does (Spec.call P i f) m Q :=
  Does.bind (Does.checked hx (Does.bind (Does.val hx (Does.bind (Does.user hT fun _ =>
    Does.bind (Does.put (Does.ret h)))))))

end

/-! ## What is known -/

section
variable {M : Mem Val} {m : Nat → Option (Option Val)} {i j : Nat}

theorem set_same (M : Mem Val) (i : Nat) (x : Slot Val) : set M i x i = some x := by simp [set]

theorem set_other (M : Mem Val) (x : Slot Val) (h : j ≠ i) : set M i x j = M j := by simp [set, h]

theorem upd_same' {α : Type} (f : Nat → α) (i : Nat) (x : α) : upd f i x i = x := by simp [upd]

theorem upd_other' {α : Type} (f : Nat → α) (x : α) (h : j ≠ i) : upd f i x j = f j := by simp [upd, h]

theorem Sees.put (h : Sees M m) {x : Slot Val} {y : Option Val} (hx : Fits (some x) (some y)) : Sees (set M i x) (upd m i (some y)) := by
  intro a
  by_cases ha : a = i
  · subst ha; rw [set_same, upd_same']; exact hx
  · rw [set_other _ _ ha, upd_other' _ _ ha]; exact h a

theorem Sees.touch (h : Sees M m) {x : Slot Val} (hx : Fits (some x) (m i)) : Sees (Calm.set M i x) m := by
  intro a
  by_cases ha : a = i
  · subst ha; rw [set_same]; exact hx
  · rw [set_other _ _ ha]; exact h a

theorem Sees.drop (h : Sees M m) : Sees (Calm.del M i) (upd m i Option.none) := by
  intro a
  by_cases ha : a = i
  · subst ha; simp [Calm.del, upd, Fits]
  · simp only [Calm.del, upd, if_neg ha]; exact h a

theorem Sees.isNone (h : Sees M m) (hi : M i = none) : m i = none := by
  have := h i
  rw [hi] at this
  cases hm : m i <;> simp [hm, Fits] at this ⊢

theorem Sees.isEmpty (h : Sees M m) (hi : M i = some .empty) : m i = some none := by
  have := h i
  rw [hi] at this
  rcases hm : m i with _ | _ | v <;> simp [hm, Fits] at this ⊢

theorem Sees.isFull (h : Sees M m) {v : Val} (hi : M i = some (.full v)) : m i = some (some v) := by
  have := h i
  rw [hi] at this
  rcases hm : m i with _ | _ | v <;> simp [hm, Fits] at this ⊢
  exact this

theorem Sees.isMoved (h : Sees M m) (hi : M i = some .moved) : ∃ v, m i = some (some v) := by
  have := h i
  rw [hi] at this
  rcases hm : m i with _ | _ | v <;> simp [hm, Fits] at this ⊢

theorem Sees.isSome (h : Sees M m) {x : Slot Val} (hi : M i = some x) : ∃ y, m i = some y ∧ Fits (some x) (some y) := by
  have := h i
  rw [hi] at this
  cases hm : m i with
  | none => cases x <;> simp [hm, Fits] at this
  | some y => exact ⟨y, rfl, hm ▸ this⟩

/-- what a slot holds when it fits an engaged one -/
theorem Fits.map {x : Slot Val} {v : Val} (f : Val → Val) (h : Fits (some x) (some (some v))) : Fits (some (x.map f)) (some (some (f v))) := by
  cases x <;> simp_all [Fits, Slot.map]

end

/-! ## The pieces of the operations -/

section
variable {P : Prog Val} (hT : ∀ n, P.throwsAt n = false) {M : Mem Val} {m : Nat → Option (Option Val)} (h : Sees M m)
  {i j : Nat}

include h

/-- the value of a source -/
theorem Does.value {src : Src Val} {x : Slot Val} (hs : source P.convFrom M i src = some x)
    {Q : Val → (Nat → Option (Option Val)) → Prop} (hq : ∀ v, Fits (some x) (some (some v)) → Q v m) :
    Does (Spec.value P i src) m Q := by
  cases src with
  | args v => simp [source] at hs; subst hs; exact Does.ret (hq v rfl)
  | copy v => simp [source] at hs; subst hs; exact Does.ret (hq v rfl)
  | move v => simp [source] at hs; subst hs; exact Does.ret (hq v rfl)
  | opt j mv =>
    simp only [source] at hs
    split at hs
    · cases hs
    · split at hs
      · rename_i v hv
        cases hs
        exact Does.bind (Does.val (h.isFull hv) (Does.ret (hq _ rfl)))
      · rename_i hv
        cases hs
        obtain ⟨v, hm⟩ := h.isMoved hv
        exact Does.bind (Does.val hm (Does.ret (hq _ trivial)))
      · cases hs

/-- a source that is an option is another one, and engaged -/
theorem source_opt {mv : Bool} {x : Slot Val} (hs : source P.convFrom M i (.opt j mv) = some x) :
    j ≠ i ∧ ∃ v, m j = some (some v) := by
  simp only [source] at hs
  split at hs
  · cases hs
  · rename_i hn
    refine ⟨hn, ?_⟩
    split at hs
    · rename_i v hv; exact ⟨v, h.isFull hv⟩
    · rename_i hv; exact h.isMoved hv
    · cases hs

theorem source_self {src : Src Val} {x : Slot Val} (hs : source P.convFrom M i src = some x) : src.isSelf i = false := by
  cases src with
  | opt j mv => have := (source_opt h hs).1; simp [Src.isSelf, this]
  | _ => rfl

theorem Does.evalArg {src : Src Val} {x : Slot Val} (hs : source P.convFrom M i src = some x)
    {Q : Unit → (Nat → Option (Option Val)) → Prop} (hq : Q () m) : Does (Spec.evalArg src) m Q := by
  cases src with
  | opt j mv => obtain ⟨_, v, hv⟩ := source_opt h hs; exact Does.checked hv hq
  | _ => exact Does.ret hq

/-- the source after it was used -/
theorem Does.movedFrom {src : Src Val} {x : Slot Val} (hs : source P.convFrom M i src = some x) {n : Nat} {b : Bool}
    {Q : Unit → (Nat → Option (Option Val)) → Prop} (hq : ∀ m', Sees (spent M src) m' → m' i = m i → Q () m') :
    Does (Spec.movedFrom P b n src) m Q := by
  cases src with
  | opt j mv =>
    cases mv with
    | false => exact Does.ret (hq m h rfl)
    | true =>
      obtain ⟨hn, v, hv⟩ := source_opt h hs
      exact Does.bind (Does.val hv (Does.put (hq _ (h.put trivial) (upd_other' _ _ (Ne.symm hn)))))
  | _ => exact Does.ret (hq m h rfl)

omit h in
theorem sees_spent (h : Sees M m) {src : Src Val} {x : Slot Val} (hs : source P.convFrom M i src = some x) : Sees (spent M src) m := by
  cases src with
  | opt j mv =>
    cases mv with
    | false => exact h
    | true => obtain ⟨hn, v, hv⟩ := source_opt h hs; exact h.touch (by rw [hv]; trivial)
  | _ => exact h

include hT

theorem Does.initAs {t : Bool} {src : Src Val} {x : Slot Val} (hs : source P.convFrom M i src = some x) {y : Option Val}
    (hi : m i = some y) (hy : y = none ∨ (P.elem i).scalar = true) :
    Does (Spec.initAs P t i src) m (fun _ m' => Sees (set (spent M src) i x) m') := by
  unfold Spec.initAs
  refine Does.bind (Does.get hi ?_)
  have hc : ((y.isSome || src.isSelf i) && !(P.elem i).scalar) = false := by
    rw [source_self h hs]
    rcases hy with rfl | hy
    · rfl
    · simp [hy]
  simp only [hc, Bool.false_eq_true, if_false]
  refine Does.bind (Does.value h hs fun v hv => ?_)
  split
  · exact Does.put ((sees_spent h hs).put hv)
  · refine Does.bind (Does.user hT fun n => ?_)
    refine Does.bind (Does.movedFrom h hs fun m' h' _ => ?_)
    simp only [Bool.false_eq_true, if_false]
    refine Does.bind (Does.put ?_)
    cases t
    · exact Does.ret (h'.put hv)
    · exact Does.note (h'.put hv)

theorem Does.init {src : Src Val} {x : Slot Val} (hs : source P.convFrom M i src = some x) {y : Option Val}
    (hi : m i = some y) (hy : y = none ∨ (P.elem i).scalar = true) :
    Does (Spec.init P i src) m (fun _ m' => Sees (set (spent M src) i x) m') := Does.initAs hT h hs hi hy

theorem Does.assign {src : Src Val} {x : Slot Val} (hs : source P.convFrom M i src = some x) {old : Val}
    (hi : m i = some (some old)) : Does (Spec.assign P i src) m (fun _ m' => Sees (set (spent M src) i x) m') := by
  unfold Spec.assign
  refine Does.bind (Does.val hi ?_)
  refine Does.bind (Does.value h hs fun v hv => ?_)
  split
  · exact Does.put ((sees_spent h hs).put hv)
  · refine Does.bind (Does.user hT fun n => ?_)
    simp only [Bool.false_eq_true, if_false, source_self h hs]
    refine Does.bind (Does.movedFrom h hs fun m' h' _ => ?_)
    exact Does.put (h'.put hv)

omit hT in
theorem Does.clear {y : Slot Val} (hi : M i = some y) : Does (Spec.clear P i) m (fun _ m' => Sees (set M i .empty) m') := by
  unfold Spec.clear
  obtain ⟨x, hx, _⟩ := h.isSome hi
  refine Does.bind (Does.get hx ?_)
  cases x with
  | none => exact Does.ret (h.touch (by rw [hx]; trivial))
  | some v =>
    show Does (if (P.elem i).trivDtor = true then Spec.put i none else Spec.note (Event.dtor i) >>= fun _ => Spec.put i none) m _
    split
    · exact Does.put (h.put trivial)
    · exact Does.bind (Does.note (Does.put (h.put trivial)))

omit hT in
theorem Does.destroy {y : Slot Val} (hi : M i = some y) : Does (Spec.destroy P i) m (fun _ m' => Sees (Calm.del M i) m') := by
  unfold Spec.destroy
  refine Does.bind ((Does.clear (P := P) h hi).mono fun _ m' h' => Does.del ?_)
  have := h'.drop (i := i)
  have e : Calm.del (set M i .empty) i = Calm.del M i := by funext a; simp only [Calm.del, set]; split <;> rfl
  rwa [e] at this

/-! ## Operations -/

omit hT h in
theorem source_set (conv : Nat → Nat → Val → Val) (M : Mem Val) (i : Nat) (a : Slot Val) (src : Src Val) :
    source conv (set M i a) i src = source conv M i src := by
  cases src with
  | opt j mv =>
    simp only [source]
    split
    · rfl
    · rename_i hn; rw [set_other _ _ hn]
  | _ => rfl

omit hT h in
theorem set_spent (M : Mem Val) (i : Nat) (a x : Slot Val) (src : Src Val) :
    set (spent (set M i a) src) i x = set (spent M src) i x := by
  funext k
  by_cases hk : k = i
  · simp [set, hk]
  · rw [set_other _ _ hk, set_other _ _ hk]
    cases src with
    | opt j mv => cases mv <;> simp [spent, set, hk]
    | _ => simp [spent, set, hk]

theorem Does.createAs {t : Bool} {src : Src Val} {x : Slot Val} (hs : source P.convFrom M i src = some x) (hi : M i = none) :
    Does (Spec.new i >>= fun _ => Opt.M.onThrow (Spec.initAs P t i src) (Spec.del i)) m
      (fun _ m' => Sees (set (spent M src) i x) m') := by
  refine Does.bind (Does.new (h.isNone hi) ?_)
  have h1 : Sees (set M i .empty) (upd m i (some none)) := h.put trivial
  refine Does.onThrow ((Does.initAs hT h1 (by rw [source_set]; exact hs) (upd_same' _ _ _) (.inl rfl)).mono fun _ m' h' => ?_)
  rwa [set_spent] at h'

theorem Does.create {src : Src Val} {x : Slot Val} (hs : source P.convFrom M i src = some x) (hi : M i = none) :
    Does (Spec.create P i src) m (fun _ m' => Sees (set (spent M src) i x) m') := Does.createAs hT h hs hi

theorem Does.createVia {src : Src Val} {x : Slot Val} (hs : source P.convFrom M i src = some x) (hi : M i = none) :
    Does (Spec.createVia P i src) m (fun _ m' => Sees (set (spent M src) i x) m') := Does.createAs hT h hs hi

omit hT h in
theorem source_of {mv : Bool} {x : Slot Val} (hij : j ≠ i) (hj : M j = some x) (hx : x.engaged = true) :
    source P.convFrom M i (.opt j mv) = some (x.map (P.convFrom i j)) ∧ spent M (.opt j mv) = spend M j mv x := by
  cases x with
  | empty => simp [Slot.engaged] at hx
  | full v => cases mv <;> simp [source, hij, hj, Slot.map, spent, spend]
  | moved => cases mv <;> simp [source, hij, hj, Slot.map, spent, spend]

omit hT in
theorem Sees.isFilled {x : Slot Val} (hi : M i = some x) (hx : x.engaged = true) : ∃ v, m i = some (some v) ∧ Fits (some x) (some (some v)) := by
  cases x with
  | empty => simp [Slot.engaged] at hx
  | full v => exact ⟨v, h.isFull hi, rfl⟩
  | moved => obtain ⟨v, hv⟩ := h.isMoved hi; exact ⟨v, hv, trivial⟩

omit hT h in
theorem Slot.cases (x : Slot Val) : x = .empty ∨ x.engaged = true := by cases x <;> simp [Slot.engaged]

theorem Does.ctorFrom {mv : Bool} {x : Slot Val} (hi : M i = none) (hj : M j = some x) :
    Does (Spec.ctorFrom P i j mv) m (fun _ m' => Sees (set (spend M j mv x) i (x.map (P.convFrom i j))) m') := by
  have hij : j ≠ i := by rintro rfl; rw [hi] at hj; cases hj
  unfold Spec.ctorFrom
  rcases Slot.cases x with rfl | hx
  · exact Does.bind (Does.get (h.isEmpty hj) (Does.new (h.isNone hi) (h.put trivial)))
  · obtain ⟨v, hv, _⟩ := h.isFilled hj hx
    obtain ⟨hs, he⟩ := source_of (P := P) (mv := mv) hij hj hx
    refine Does.bind (Does.get hv ?_)
    rw [← he]
    exact Does.createVia hT h hs hi

theorem Does.assignFrom {mv : Bool} {x y : Slot Val} (hij : i ≠ j) (hi : M i = some y) (hj : M j = some x) :
    Does (Spec.assignFrom P i j mv) m (fun _ m' => Sees (set (spend M j mv x) i (x.map (P.convFrom i j))) m') := by
  unfold Spec.assignFrom
  obtain ⟨w, hw, _⟩ := h.isSome hi
  refine Does.bind (Does.get hw ?_)
  rcases Slot.cases x with rfl | hx
  · exact Does.bind (Does.get (h.isEmpty hj) (Does.clear h hi))
  · obtain ⟨v, hv, _⟩ := h.isFilled hj hx
    obtain ⟨hs, he⟩ := source_of (P := P) (mv := mv) (Ne.symm hij) hj hx
    refine Does.bind (Does.get hv (Does.bind (Does.get hw ?_)))
    rw [← he]
    cases w with
    | none => exact Does.init hT h hs hw (.inl rfl)
    | some u => exact Does.assign hT h hs hw

theorem Does.assignValue {src : Src Val} {x y : Slot Val} (hi : M i = some y) (hs : source P.convFrom M i src = some x) :
    Does (Spec.assignValue P i src) m (fun _ m' => Sees (set (spent M src) i x) m') := by
  unfold Spec.assignValue
  obtain ⟨w, hw, _⟩ := h.isSome hi
  refine Does.bind (Does.evalArg h hs ?_)
  split
  · rename_i hsc; exact Does.init hT h hs hw (.inr hsc)
  · refine Does.bind (Does.get hw ?_)
    cases w with
    | none => exact Does.init hT h hs hw (.inl rfl)
    | some u => exact Does.assign hT h hs hw

theorem Does.emplace {src : Src Val} {x y : Slot Val} (hi : M i = some y) (hs : source P.convFrom M i src = some x) :
    Does (Spec.emplace P i src) m (fun _ m' => Sees (set (spent M src) i x) m') := by
  unfold Spec.emplace
  refine Does.bind (Does.evalArg h hs (Does.bind ((Does.clear h hi).mono fun _ m' h' => ?_)))
  refine (Does.init hT h' (by rw [source_set]; exact hs) (h'.isEmpty (set_same _ _ _)) (.inl rfl)).mono fun _ m' h' => ?_
  rwa [set_spent] at h'

theorem Does.fill {src : Src Val} {x y : Slot Val} (hi : M i = some y) (hs : source P.convFrom M i src = some x) :
    Does (do match ← Spec.get i with
      | some _ => pure ()
      | none => Spec.init P i src) m
      (fun _ m' => Sees (match y with | .empty => set (spent M src) i x | _ => M) m') := by
  rcases Slot.cases y with rfl | hy
  · exact Does.bind (Does.get (h.isEmpty hi) (Does.init hT h hs (h.isEmpty hi) (.inl rfl)))
  · obtain ⟨v, hv, _⟩ := h.isFilled hi hy
    refine Does.bind (Does.get hv (Does.ret ?_))
    cases y with
    | empty => simp [Slot.engaged] at hy
    | _ => exact h

theorem Does.swap {x y : Slot Val} (hij : i ≠ j) (hi : M i = some x) (hj : M j = some y) :
    Does (Spec.swap P i j) m
      (fun _ m' => Sees (set (set M i (y.map (P.convFrom i j))) j (x.map (P.convFrom j i))) m') := by
  unfold Spec.swap
  rcases Slot.cases x with rfl | hx <;> rcases Slot.cases y with rfl | hy
  · refine Does.bind (Does.get (h.isEmpty hi) (Does.bind (Does.get (h.isEmpty hj) (Does.ret ?_))))
    exact (h.touch (by rw [h.isEmpty hi]; trivial)).touch (by rw [h.isEmpty hj]; trivial)
  · obtain ⟨v, hv, hf⟩ := h.isFilled hj hy
    obtain ⟨hs, he⟩ := source_of (P := P) (mv := true) (Ne.symm hij) hj hy
    refine Does.bind (Does.get (h.isEmpty hi) (Does.bind (Does.get hv ?_)))
    refine Does.bind ((Does.init hT h hs (h.isEmpty hi) (.inl rfl)).mono fun _ m' h' => ?_)
    have hj' : set (spent M (.opt j true)) i (y.map (P.convFrom i j)) j = some .moved := by
      rw [set_other _ _ (Ne.symm hij)]; exact set_same _ _ _
    refine (Does.clear h' hj').mono fun _ m' h' => ?_
    have e : set (set (spent M (.opt j true)) i (y.map (P.convFrom i j))) j .empty =
        set (set M i (y.map (P.convFrom i j))) j (Slot.map (P.convFrom j i) .empty) := by
      funext k; simp only [set, spent, Slot.map]; split
      · rfl
      · split <;> rfl
    rwa [e] at h'
  · obtain ⟨v, hv, hf⟩ := h.isFilled hi hx
    obtain ⟨hs, he⟩ := source_of (P := P) (mv := true) hij hi hx
    refine Does.bind (Does.get hv (Does.bind (Does.get (h.isEmpty hj) ?_)))
    refine Does.bind ((Does.init hT h hs (h.isEmpty hj) (.inl rfl)).mono fun _ m' h' => ?_)
    have hj' : set (spent M (.opt i true)) j (x.map (P.convFrom j i)) i = some .moved := by
      rw [set_other _ _ hij]; exact set_same _ _ _
    refine (Does.clear h' hj').mono fun _ m' h' => ?_
    have e : set (set (spent M (.opt i true)) j (x.map (P.convFrom j i))) i .empty =
        set (set M i (Slot.map (P.convFrom i j) .empty)) j (x.map (P.convFrom j i)) := by
      funext k; simp only [set, spent, Slot.map]
      by_cases h1 : k = i
      · subst h1; simp [hij]
      · simp [h1]
    rwa [e] at h'
  · obtain ⟨u, hu, hf⟩ := h.isFilled hi hx
    obtain ⟨v, hv, hf2⟩ := h.isFilled hj hy
    refine Does.bind (Does.get hu (Does.bind (Does.get hv ?_)))
    refine Does.bind (Does.user hT fun n => ?_)
    exact Does.bind (Does.put (Does.put ((h.put (hf2.map _)).put (hf.map _))))

theorem Does.take {r : Nat} {x : Slot Val} (hi : M i = some x) (hr : M r = none) :
    Does (Spec.take P i r) m (fun _ m' => Sees (set (set M i .empty) r (x.map (P.convFrom r i))) m') := by
  unfold Spec.take
  have hir : i ≠ r := by rintro rfl; rw [hi] at hr; cases hr
  refine Does.bind ((Does.ctorFrom hT h (mv := true) hr hi).mono fun _ m' h' => ?_)
  have hi' : ∃ y, set (spend M i true x) r (x.map (P.convFrom r i)) i = some y := by
    rw [set_other _ _ hir]
    cases x <;> simp [spend, set, hi]
  obtain ⟨y, hi'⟩ := hi'
  refine (Does.clear h' hi').mono fun _ m' h' => ?_
  have e : set (set (spend M i true x) r (x.map (P.convFrom r i))) i .empty =
      set (set M i .empty) r (x.map (P.convFrom r i)) := by
    funext k
    by_cases h1 : k = i
    · subst h1; simp [set, hir]
    · by_cases h2 : k = r
      · subst h2; simp [set, h1]
      · cases x <;> simp [set, h1, h2, spend]
  rwa [e] at h'

omit h in
theorem Does.give {src : Src Val} {v : Val} (hv : Does (Spec.value P i src) m (fun u m' => u = v ∧ m' = m)) {Q : Val → (Nat → Option (Option Val)) → Prop}
    (h1 : Q v m) (h2 : ∀ n, Does (Spec.movedFrom P false n src) m (fun _ m' => Q v m')) : Does (Spec.give P i src) m Q := by
  unfold Spec.give
  refine Does.bind (hv.mono ?_)
  rintro _ _ ⟨rfl, rfl⟩
  split
  · exact Does.ret h1
  · refine Does.bind (Does.user hT fun n => Does.bind ((h2 n).mono fun _ m' h => ?_))
    simp only [Bool.false_eq_true, if_false]
    exact Does.ret h

/-- a copy of the contained value -/
theorem Does.giveOwn {mv : Bool} {v : Val} (hi : M i = some (.full v)) :
    Does (Spec.give P i (.opt i mv)) m (fun r m' => r = v ∧ Sees (if mv then set M i .moved else M) m') := by
  have hc : P.convFrom i i v = v := by simp [Prog.convFrom]
  have hm := h.isFull hi
  have hval : Does (Spec.value P i (.opt i mv)) m (fun u m' => u = v ∧ m' = m) := Does.bind (Does.val hm (Does.ret ⟨hc, rfl⟩))
  refine Does.give hT hval ⟨rfl, ?_⟩ fun n => ?_
  · cases mv
    · exact h
    · exact h.touch (by rw [hm]; trivial)
  · cases mv
    · exact Does.ret ⟨rfl, h⟩
    · exact Does.bind (Does.val hm (Does.put ⟨rfl, h.put trivial⟩))

theorem Does.giveFrom {src : Src Val} {v : Val} (hs : source P.convFrom M i src = some (.full v)) :
    Does (Spec.give P i src) m (fun r m' => r = v ∧ Sees (spent M src) m') :=
  Does.give hT (Does.value h hs fun _ hv => ⟨hv, rfl⟩) ⟨rfl, sees_spent h hs⟩ fun _ => Does.movedFrom h hs fun _ h' _ => ⟨rfl, h'⟩

theorem Does.make {r : Nat} {x : Option Val} (hr : M r = none) :
    Does (Spec.make P r x) m (fun _ m' => Sees (set M r (.of x)) m') := by
  cases x with
  | none => exact Does.new (h.isNone hr) (h.put trivial)
  | some v => exact Does.create hT h (src := .args v) rfl hr

end

end Opt.Calm
