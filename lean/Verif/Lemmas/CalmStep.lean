import Verif.Lemmas.Calm

/-!
# Options when nothing throws: every operation, every program of the specification machine
-/

namespace Opt.Calm

variable {Val : Type}

section
variable {P : Prog Val} (hT : ∀ n, P.throwsAt n = false) {M : Mem Val} {m : Nat → Option (Option Val)} (h : Sees M m)
  {i j : Nat}

/-! ## Several options -/

theorem Does.dropTmp {i : Nat} {Q : Unit → (Nat → Option (Option Val)) → Prop} (hq : Q () m) : Does (Spec.dropTmp P i) m Q := by
  unfold Spec.dropTmp
  split
  · exact Does.ret hq
  · exact Does.note hq

theorem Does.dropTmps {is : List Nat} {Q : Unit → (Nat → Option (Option Val)) → Prop} (hq : Q () m) :
    Does (Spec.dropTmps P is) m Q := by
  induction is with
  | nil => exact Does.ret hq
  | cons i is ih => exact Does.bind (Does.dropTmp ih)

include h in
theorem Does.allHave {is : List (Nat × Bool)} {b : Bool} (hb : allFull M (is.map (·.1)) = some b)
    {Q : Bool → (Nat → Option (Option Val)) → Prop} (hq : Q b m) : Does (Spec.allHave is) m Q := by
  induction is generalizing b with
  | nil => simp [allFull] at hb; subst hb; exact Does.ret hq
  | cons p is ih =>
    obtain ⟨i, mv⟩ := p
    simp only [List.map_cons, allFull] at hb
    split at hb
    · rename_i x c hx hc
      cases hb
      rcases Slot.cases x with rfl | hx'
      · exact Does.bind (Does.get (h.isEmpty hx) (Does.ret hq))
      · obtain ⟨v, hv, _⟩ := h.isFilled hx hx'
        refine Does.bind (Does.get hv (ih hc ?_))
        simpa [hx'] using hq
    · cases hb

theorem values_none {is : List (Nat × Bool)} {M' : Mem Val} {vs : List Val} {r : Nat} (hv : values M is = some (M', vs))
    (hr : M r = none) : M' r = none := by
  induction is generalizing M M' vs with
  | nil => simp [values] at hv; rw [← hv.1]; exact hr
  | cons p is ih =>
    obtain ⟨i, mv⟩ := p
    simp only [values] at hv
    split at hv
    · rename_i v hi
      split at hv
      · rename_i M2 vs2 h2
        cases hv
        refine ih h2 ?_
        have : r ≠ i := by rintro rfl; rw [hr] at hi; cases hi
        cases mv <;> simp [set, this, hr]
      · cases hv
    · cases hv

include hT h in
theorem Does.zipElems {is : List (Nat × Bool)} {M' : Mem Val} {vs : List Val} (hv : values M is = some (M', vs)) :
    Does (Spec.zipElems P is) m (fun r m' => r = vs ∧ Sees M' m') := by
  induction is generalizing M M' m vs with
  | nil => simp [values] at hv; rw [← hv.1, hv.2]; exact Does.ret ⟨rfl, h⟩
  | cons p is ih =>
    obtain ⟨i, mv⟩ := p
    simp only [values] at hv
    split at hv
    · rename_i v hi
      split at hv
      · rename_i M2 vs2 h2
        cases hv
        refine Does.bind ((Does.giveOwn hT h hi).mono ?_)
        rintro _ m' ⟨rfl, h'⟩
        refine Does.bind (Does.onThrow ((ih h' h2).mono ?_))
        rintro _ m' ⟨rfl, h'⟩
        exact Does.ret ⟨rfl, h'⟩
      · cases hv
    · cases hv

include h in
theorem Does.vals {is : List Nat} {M' : Mem Val} {vs : List Val} (hv : values M (is.map (·, false)) = some (M', vs))
    {Q : List Val → (Nat → Option (Option Val)) → Prop} (hq : Q vs m) : Does (Spec.vals is) m Q := by
  induction is generalizing vs M' Q with
  | nil => simp [values] at hv; rw [hv.2] at hq; exact Does.ret hq
  | cons i is ih =>
    simp only [List.map_cons, values, Bool.false_eq_true, if_false] at hv
    split at hv
    · rename_i v hi
      split at hv
      · rename_i M2 vs2 h2
        cases hv
        exact Does.bind (Does.val (h.isFull hi) (Does.bind (ih h2 (Does.ret hq))))
      · cases hv
    · cases hv

theorem parts_other {q : Parts Val} {v : Val} {ps : List (Nat × Nat)} {a : Nat} (ha : a ∉ ps.map (·.2)) :
    parts q v M ps a = M a := by
  induction ps generalizing M with
  | nil => rfl
  | cons p ps ih =>
    simp only [List.map_cons, List.mem_cons, not_or] at ha
    rw [parts, ih ha.2, set_other _ _ ha.1]

theorem parts_some {q : Parts Val} {v : Val} {ps : List (Nat × Nat)} {a : Nat} (ha : a ∈ ps.map (·.2) ∨ ∃ x, M a = some x) :
    ∃ x, parts q v M ps a = some x := by
  induction ps generalizing M with
  | nil => simpa [parts] using ha
  | cons p ps ih =>
    refine ih ?_
    simp only [List.map_cons, List.mem_cons] at ha
    by_cases hp : a = p.2
    · exact .inr ⟨_, by rw [hp]; exact set_same _ _ _⟩
    · rw [set_other _ _ hp]; rcases ha with (ha | ha) | ha
      · exact absurd ha hp
      · exact .inl ha
      · exact .inr ha

theorem empties_other {rs : List Nat} {a : Nat} (ha : a ∉ rs) : empties M rs a = M a := by
  induction rs generalizing M with
  | nil => rfl
  | cons p ps ih =>
    simp only [List.mem_cons, not_or] at ha
    rw [empties, ih ha.2, set_other _ _ ha.1]

theorem empties_some {rs : List Nat} {a : Nat} (ha : a ∈ rs ∨ ∃ x, M a = some x) : ∃ x, empties M rs a = some x := by
  induction rs generalizing M with
  | nil => simpa [empties] using ha
  | cons p ps ih =>
    refine ih ?_
    simp only [List.mem_cons] at ha
    by_cases hp : a = p
    · exact .inr ⟨_, by rw [hp]; exact set_same _ _ _⟩
    · rw [set_other _ _ hp]; rcases ha with (ha | ha) | ha
      · exact absurd ha hp
      · exact .inl ha
      · exact .inr ha

theorem Sees.again (h : Sees M m) {v : Val} (hi : M i = some (.full v)) : Sees M (upd m i (some (some v))) := by
  intro a
  by_cases ha : a = i
  · subst ha; rw [upd_same', hi]; rfl
  · rw [upd_other' _ _ ha]; exact h a

include hT h in
theorem Does.unzipParts {q : Parts Val} {v : Val} {ps : List (Nat × Nat)} (hi : M i = some (.full v))
    (hf : ∀ p ∈ ps, M p.2 = none) (hn : (ps.map (·.2)).Nodup) :
    Does (Spec.unzipParts P q i false ps) m (fun _ m' => Sees (parts q v M ps) m') := by
  induction ps generalizing M m with
  | nil => exact Does.ret h
  | cons p ps ih =>
    obtain ⟨k, r⟩ := p
    have hr : M r = none := hf _ List.mem_cons_self
    have hir : i ≠ r := by rintro rfl; rw [hi] at hr; cases hr
    simp only [List.map_cons, List.nodup_cons] at hn
    have hi' : set M r (.full (q.part k v)) i = some (.full v) := by rw [set_other _ _ hir]; exact hi
    refine Does.bind (Does.bind (Does.val (h.isFull hi) (Does.bind (Does.clock fun n => ?_))))
    refine Does.bind (Does.onThrow ((Does.create hT h (src := .copy (q.part k v)) rfl hr).mono fun _ m' h' => ?_))
    refine Does.put (Does.onThrow (ih ?_ hi' ?_ hn.2))
    · exact Sees.again h' hi'
    · intro p hp
      have : p.2 ≠ r := by rintro rfl; exact hn.1 (List.mem_map_of_mem hp)
      rw [set_other _ _ this]; exact hf p (List.mem_cons_of_mem _ hp)

include h in
theorem Does.newAll {rs : List Nat} (hf : ∀ r ∈ rs, M r = none) (hn : rs.Nodup) :
    Does (Spec.newAll rs) m (fun _ m' => Sees (empties M rs) m') := by
  induction rs generalizing M m with
  | nil => exact Does.ret h
  | cons r rs ih =>
    simp only [List.nodup_cons] at hn
    refine Does.bind (Does.new (h.isNone (hf r List.mem_cons_self)) (ih (h.put trivial) (fun a ha => ?_) hn.2))
    have : a ≠ r := by rintro rfl; exact hn.1 ha
    rw [set_other _ _ this]; exact hf a (List.mem_cons_of_mem _ ha)

theorem indexed_snd (rs : List Nat) : (Prog.indexed rs).map (·.2) = rs := by
  unfold Prog.indexed; exact List.map_snd_zip (by simp)

include hT h in
theorem Does.unzipNew {q : Parts Val} {rs : List Nat} {M' : Mem Val} (hu : unzip q M i rs = some M')
    (hf : ∀ r ∈ rs, M r = none) (hn : rs.Nodup) :
    Does (Spec.unzipNew P q i false rs) m (fun _ m' => Sees M' m') := by
  unfold unzip at hu
  unfold Spec.unzipNew
  split at hu
  · rename_i v hi
    cases hu
    refine Does.bind (Does.get (h.isFull hi) (Does.unzipParts hT h hi (fun p hp => ?_) (by rw [indexed_snd]; exact hn)))
    refine hf _ ?_
    rw [← indexed_snd rs]; exact List.mem_map_of_mem hp
  · rename_i hi
    cases hu
    exact Does.bind (Does.get (h.isEmpty hi) (Does.newAll h hf hn))
  · cases hu

theorem unzip_other {q : Parts Val} {rs : List Nat} {M' : Mem Val} (hu : unzip q M i rs = some M') {a : Nat} (ha : a ∉ rs) :
    M' a = M a := by
  unfold unzip at hu
  split at hu
  · cases hu; exact parts_other (by rw [indexed_snd]; exact ha)
  · cases hu; exact empties_other ha
  · cases hu

theorem unzip_some {q : Parts Val} {rs : List Nat} {M' : Mem Val} (hu : unzip q M i rs = some M') {a : Nat} (ha : a ∈ rs) :
    ∃ x, M' a = some x := by
  unfold unzip at hu
  split at hu
  · cases hu; exact parts_some (.inl (by rw [indexed_snd]; exact ha))
  · cases hu; exact empties_some (.inl ha)
  · cases hu

theorem spend_other {mv : Bool} {x : Slot Val} {a : Nat} (ha : a ≠ j) : spend M j mv x a = M a := by
  cases x <;> cases mv <;> simp [spend, set, ha]

theorem spend_some {mv : Bool} {x : Slot Val} {a : Nat} (ha : ∃ y, M a = some y) : ∃ y, spend M j mv x a = some y := by
  by_cases h : a = j
  · subst h; cases x <;> cases mv <;> simp [spend, set, ha]
  · rw [spend_other h]; exact ha

theorem set_some {x : Slot Val} {a : Nat} (ha : ∃ y, M a = some y) : ∃ y, set M j x a = some y := by
  by_cases h : a = j
  · subst h; exact ⟨_, set_same _ _ _⟩
  · rw [set_other _ _ h]; exact ha

theorem moves_some {conv : Nat → Nat → Val → Val} {ps : List (Nat × Nat)} {M' : Mem Val} (hm : moves conv M ps = some M') {a : Nat}
    (ha : ∃ y, M a = some y) : ∃ y, M' a = some y := by
  induction ps generalizing M with
  | nil => cases hm; exact ha
  | cons p ps ih =>
    obtain ⟨r, t⟩ := p
    simp only [moves] at hm
    split at hm
    · exact ih hm (set_some (spend_some ha))
    · cases hm

include hT h in
theorem Does.moveAll {ps : List (Nat × Nat)} {M' : Mem Val} (hm : moves P.convFrom M ps = some M')
    (hf : ∀ p ∈ ps, M p.1 = none) (hn : (ps.map (·.1)).Nodup) : Does (Spec.moveAll P ps) m (fun _ m' => Sees M' m') := by
  induction ps generalizing M m with
  | nil => cases hm; exact Does.ret h
  | cons p ps ih =>
    obtain ⟨r, t⟩ := p
    simp only [moves] at hm
    split at hm
    · rename_i x hx
      simp only [List.map_cons, List.nodup_cons] at hn
      refine Does.bind ((Does.ctorFrom hT h (hf (r, t) List.mem_cons_self) hx).mono fun _ m' h' => Does.onThrow (ih h' hm ?_ hn.2))
      intro p hp
      have h1 : p.1 ≠ r := by rintro rfl; exact hn.1 (List.mem_map_of_mem hp)
      have h2 : p.1 ≠ t := by rintro rfl; rw [hf p (List.mem_cons_of_mem _ hp)] at hx; cases hx
      rw [set_other _ _ h1, spend_other h2]; exact hf p (List.mem_cons_of_mem _ hp)
    · cases hm

include h in
theorem Does.destroyAll {ts : List Nat} (hf : ∀ t ∈ ts, ∃ x, M t = some x) (hn : ts.Nodup) :
    Does (Spec.destroyAll P ts) m (fun _ m' => Sees (dels M ts) m') := by
  induction ts generalizing M m with
  | nil => exact Does.ret h
  | cons t ts ih =>
    simp only [List.nodup_cons] at hn
    obtain ⟨x, hx⟩ := hf t List.mem_cons_self
    refine Does.bind ((Does.destroy h hx).mono fun _ m' h' => ih h' (fun a ha => ?_) hn.2)
    have : a ≠ t := by rintro rfl; exact hn.1 ha
    simp only [Calm.del, this, if_false]
    exact hf a (List.mem_cons_of_mem _ ha)

end

/-! ## Every operation -/

theorem Does.catch_ {x : M (AState Val) (Ret Val)} {m : Nat → Option (Option Val)} {Q : Ret Val → (Nat → Option (Option Val)) → Prop}
    (h : Does x m Q) : Does (Prog.catch_ x) m Q := by
  intro env
  obtain ⟨r, m', env', he, h⟩ := h env
  exact ⟨r, m', env', by unfold Prog.catch_; rw [he], h⟩

theorem Does.asRetUnit {x : M (AState Val) Unit} {m : Nat → Option (Option Val)} {Q : (Nat → Option (Option Val)) → Prop}
    (h : Does x m (fun _ m' => Q m')) :
    Does (Prog.catch_ (Prog.asRet (fun _ => (.unit : Ret Val)) x)) m (fun r m' => r = .unit ∧ Q m') :=
  Does.catch_ (Does.asRet (h.mono fun _ _ h => ⟨rfl, h⟩))

theorem step_does {P : Prog Val} (hT : ∀ n, P.throwsAt n = false) {M M' : Mem Val} {m : Nat → Option (Option Val)} (h : Sees M m)
    {op : Op Val} {ret : Ret Val} (hs : step P.convFrom M op = some (M', ret)) :
    Does (Prog.catch_ (Spec.runOp P op)) m (fun r m' => r = ret ∧ Sees M' m') := by
  cases op with
  | ctorDefault i =>
    simp only [step] at hs; split at hs <;> cases hs
    rename_i hi
    exact Does.asRetUnit (Does.new (h.isNone hi) (h.put trivial))
  | ctorValue i src =>
    simp only [step] at hs; split at hs <;> cases hs
    rename_i x hi hx
    exact Does.asRetUnit (Does.bind (Does.evalArg h hx (Does.create hT h hx hi)))
  | ctorFrom i j mv =>
    simp only [step] at hs; split at hs <;> cases hs
    rename_i x hi hx
    exact Does.asRetUnit (Does.ctorFrom hT h hi hx)
  | dtor i =>
    simp only [step] at hs; split at hs <;> cases hs
    rename_i x hi
    exact Does.asRetUnit (Does.destroy h hi)
  | reset i =>
    simp only [step] at hs; split at hs <;> cases hs
    rename_i x hi
    exact Does.asRetUnit (Does.clear h hi)
  | assignFrom i j mv =>
    simp only [step] at hs; split at hs
    · cases hs
    · rename_i hij
      split at hs <;> cases hs
      rename_i y x hi hx
      exact Does.asRetUnit (Does.assignFrom hT h hij hi hx)
  | assignValue i src =>
    simp only [step] at hs; split at hs <;> cases hs
    rename_i y x hi hx
    exact Does.asRetUnit (Does.assignValue hT h hi hx)
  | emplace i src =>
    simp only [step] at hs; split at hs <;> cases hs
    rename_i y x hi hx
    exact Does.asRetUnit (Does.emplace hT h hi hx)
  | tryEmplace i src =>
    simp only [step] at hs; split at hs <;> cases hs
    · rename_i x hi hx
      exact Does.asRetUnit (Does.bind (Does.evalArg h hx (Does.fill hT h hi hx)))
    · rename_i y x _ hi hx
      refine Does.asRetUnit (Does.bind (Does.evalArg h hx ((Does.fill hT h hi hx).mono fun _ m' h' => ?_)))
      cases y with
      | empty => rename_i hne; exact absurd rfl hne
      | _ => exact h'
  | swap i j =>
    simp only [step] at hs; split at hs
    · cases hs
    · rename_i hij
      split at hs <;> cases hs
      rename_i y x hi hx
      exact Does.asRetUnit (Does.swap hT h hij hi hx)
  | take i r =>
    simp only [step] at hs; split at hs <;> cases hs
    rename_i x hi hr
    exact Does.asRetUnit (Does.take hT h hi hr)
  | takeIf i r f =>
    simp only [step] at hs; split at hs
    · rename_i hi hr
      cases hs
      exact Does.asRetUnit (Does.bind (Does.get (h.isEmpty hi) (Does.new (h.isNone hr) (h.put trivial))))
    · rename_i v hi hr
      have hir : r ≠ i := by rintro rfl; rw [hi] at hr; cases hr
      have h1 : Sees (set M i (.full (f.after v))) (upd m i (some (some (f.after v)))) := h.put rfl
      have hr' : set M i (.full (f.after v)) r = none := by rw [set_other _ _ hir]; exact hr
      split at hs <;> cases hs
      · rename_i hf
        refine Does.asRetUnit (Does.bind (Does.get (h.isFull hi) (Does.bind (Does.call hT (h.isFull hi) ?_))))
        rw [if_pos hf]
        refine (Does.take hT h1 (set_same _ _ _) hr').mono fun _ m' h' => ?_
        have e : set (set (set M i (.full (f.after v))) i .empty) r (Slot.map (P.convFrom r i) (.full (f.after v))) =
            set (set M i .empty) r (.full (P.convFrom r i (f.after v))) := by
          funext k; simp only [set, Slot.map]; split
          · rfl
          · split <;> rfl
        rwa [e] at h'
      · rename_i hf
        refine Does.asRetUnit (Does.bind (Does.get (h.isFull hi) (Does.bind (Does.call hT (h.isFull hi) ?_))))
        rw [if_neg hf]
        exact Does.new (h1.isNone hr') (h1.put trivial)
    · cases hs
  | hasValue i =>
    simp only [step] at hs; split at hs <;> cases hs
    rename_i x hi
    refine Does.catch_ (Does.asRet ?_)
    rcases Slot.cases x with rfl | hx
    · exact Does.bind (Does.get (h.isEmpty hi) (Does.ret ⟨rfl, h⟩))
    · obtain ⟨v, hv, _⟩ := h.isFilled hi hx
      exact Does.bind (Does.get hv (Does.ret ⟨by rw [hx]; rfl, h⟩))
  | get i =>
    simp only [step] at hs; split at hs <;> cases hs
    rename_i v hi
    exact Does.catch_ (Does.asRet (Does.bind (Does.get (h.isFull hi) (Does.ret ⟨rfl, h⟩))))
  | getUnchecked i =>
    simp only [step] at hs; split at hs <;> cases hs
    rename_i v hi
    exact Does.catch_ (Does.asRet (Does.val (h.isFull hi) ⟨rfl, h⟩))
  | valueOrThrow i =>
    simp only [step] at hs; split at hs <;> cases hs
    · rename_i v hi
      exact Does.catch_ (Does.asRet (Does.bind (Does.get (h.isFull hi) (Does.ret ⟨rfl, h⟩))))
    · rename_i hi
      have hm := h.isEmpty hi
      intro env
      refine ⟨.threw, m, env, ?_, rfl, h⟩
      simp [Prog.catch_, Spec.runOp, Prog.asRet, Spec.getOrThrow, Spec.get, bind, Opt.M.seq, hm, Opt.M.raise]
  | ptrOrNull i =>
    simp only [step] at hs; split at hs <;> cases hs
    · rename_i v hi
      exact Does.catch_ (Does.asRet (Does.get (h.isFull hi) ⟨rfl, h⟩))
    · rename_i hi
      exact Does.catch_ (Does.asRet (Does.get (h.isEmpty hi) ⟨rfl, h⟩))
  | valueOr i mv d =>
    simp only [step] at hs; split at hs <;> cases hs
    · rename_i v x hi hx
      refine Does.catch_ (Does.asRet (Does.bind (Does.evalArg h hx (Does.bind (Does.get (h.isFull hi) ?_)))))
      refine (Does.giveOwn hT h hi).mono ?_
      rintro _ m' ⟨rfl, h'⟩
      exact ⟨rfl, h'⟩
    · rename_i u hi hx
      refine Does.catch_ (Does.asRet (Does.bind (Does.evalArg h hx (Does.bind (Does.get (h.isEmpty hi) ?_)))))
      refine (Does.giveFrom hT h hx).mono ?_
      rintro _ m' ⟨rfl, h'⟩
      exact ⟨rfl, h'⟩
  | hasValueAnd i f =>
    simp only [step] at hs; split at hs <;> cases hs
    · rename_i v hi
      exact Does.catch_ (Does.asRet (Does.bind (Does.get (h.isFull hi) (Does.call hT (h.isFull hi) ⟨rfl, h.put rfl⟩))))
    · rename_i hi
      exact Does.catch_ (Does.asRet (Does.bind (Does.get (h.isEmpty hi) (Does.ret ⟨rfl, h⟩))))
  | inspect i f =>
    simp only [step] at hs; split at hs <;> cases hs
    · rename_i v hi
      exact Does.catch_ (Does.asRet (Does.bind (Does.get (h.isFull hi) (Does.call hT (h.isFull hi) ⟨rfl, h.put rfl⟩))))
    · rename_i hi
      exact Does.catch_ (Does.asRet (Does.bind (Does.get (h.isEmpty hi) (Does.ret ⟨rfl, h⟩))))
  | forEach i f =>
    simp only [step] at hs; split at hs <;> cases hs
    · rename_i v hi
      exact Does.catch_ (Does.asRet (Does.bind (Does.get (h.isFull hi) (Does.call hT (h.isFull hi) ⟨rfl, h.put rfl⟩))))
    · rename_i hi
      exact Does.catch_ (Does.asRet (Does.bind (Does.get (h.isEmpty hi) (Does.ret ⟨rfl, h⟩))))
  | mapOr i d f =>
    simp only [step] at hs; split at hs <;> cases hs
    · rename_i v hi
      exact Does.catch_ (Does.asRet (Does.bind (Does.get (h.isFull hi) (Does.call hT (h.isFull hi) ⟨rfl, h.put rfl⟩))))
    · rename_i hi
      exact Does.catch_ (Does.asRet (Does.bind (Does.get (h.isEmpty hi) (Does.bind (Does.user hT fun _ => Does.ret ⟨rfl, h⟩)))))
  | mapOrElse i d f =>
    simp only [step] at hs; split at hs <;> cases hs
    · rename_i v hi
      exact Does.catch_ (Does.asRet (Does.bind (Does.get (h.isFull hi) (Does.call hT (h.isFull hi) ⟨rfl, h.put rfl⟩))))
    · rename_i hi
      exact Does.catch_ (Does.asRet (Does.bind (Does.get (h.isEmpty hi) (Does.call0 hT ⟨rfl, h⟩))))
  | map i r f =>
    simp only [step] at hs; split at hs <;> cases hs
    · rename_i v hi hr
      have hir : i ≠ r := by rintro rfl; rw [hi] at hr; cases hr
      refine Does.asRetUnit (Does.bind (Does.get (h.isFull hi) (Does.bind (Does.new (h.isNone hr) (Does.onThrow ?_)))))
      have h1 : Sees (set M r .empty) (upd m r (some none)) := h.put trivial
      have hi' : upd m r (some none) i = some (some v) := by rw [upd_other' _ _ hir]; exact h.isFull hi
      refine Does.bind (Does.call hT hi' ?_)
      have h2 : Sees (set (set M r .empty) i (.full (f.after v))) (upd (upd m r (some none)) i (some (some (f.after v)))) :=
        h1.put rfl
      refine (Does.initAs hT h2 (src := .args (f.ret v)) (x := .full (f.ret v)) rfl
        (h2.isEmpty (by rw [set_other _ _ (Ne.symm hir)]; exact set_same _ _ _)) (.inl rfl)).mono fun _ m' h' => ?_
      have e : set (spent (set (set M r .empty) i (.full (f.after v))) (.args (f.ret v))) r (.full (f.ret v)) =
          set (set M i (.full (f.after v))) r (.full (f.ret v)) := by
        funext k; simp only [set, spent]; split
        · rfl
        · split <;> rfl
      rwa [e] at h'
    · rename_i hi hr
      exact Does.asRetUnit (Does.bind (Does.get (h.isEmpty hi) (Does.new (h.isNone hr) (h.put trivial))))
  | andThen i r f =>
    simp only [step] at hs; split at hs <;> cases hs
    · rename_i v hi hr
      have hir : r ≠ i := by rintro rfl; rw [hi] at hr; cases hr
      have h1 : Sees (set M i (.full (f.after v))) (upd m i (some (some (f.after v)))) := h.put rfl
      exact Does.asRetUnit (Does.bind (Does.get (h.isFull hi) (Does.bind (Does.call hT (h.isFull hi)
        (Does.make hT h1 (by rw [set_other _ _ hir]; exact hr))))))
    · rename_i hi hr
      exact Does.asRetUnit (Does.bind (Does.get (h.isEmpty hi) (Does.new (h.isNone hr) (h.put trivial))))
  | orElse i r mv x =>
    simp only [step] at hs; split at hs <;> cases hs
    · rename_i hi hr
      exact Does.asRetUnit (Does.bind (Does.get (h.isEmpty hi) (Does.bind (Does.call0 hT (Does.make hT h hr)))))
    · rename_i y hne hi hr
      have hy : y.engaged = true := by
        rcases Slot.cases y with rfl | hy
        · exact absurd rfl hne
        · exact hy
      obtain ⟨v, hv, _⟩ := h.isFilled hi hy
      exact Does.asRetUnit (Does.bind (Does.get hv (Does.ctorFrom hT h hr hi)))
  | filter i r mv f =>
    simp only [step] at hs; split at hs
    · rename_i v hi hr
      have hir : r ≠ i := by rintro rfl; rw [hi] at hr; cases hr
      have h1 : Sees (set M i (.full (f.after v))) (upd m i (some (some (f.after v)))) := h.put rfl
      have hr' : set M i (.full (f.after v)) r = none := by rw [set_other _ _ hir]; exact hr
      split at hs <;> cases hs
      · rename_i hf
        refine Does.asRetUnit (Does.bind (Does.get (h.isFull hi) (Does.bind (Does.call hT (h.isFull hi) ?_))))
        rw [if_pos hf]
        obtain ⟨hsrc, he⟩ := source_of (P := P) (mv := mv) (Ne.symm hir) (set_same M i (.full (f.after v))) rfl
        refine (Does.create hT h1 hsrc hr').mono fun _ m' h' => ?_
        rw [he] at h'
        have e : spend (set M i (.full (f.after v))) i mv (.full (f.after v)) =
            (if mv then set M i .moved else set M i (.full (f.after v))) := by
          cases mv
          · rfl
          · funext k; simp only [spend, set, if_true]; split <;> rfl
        rwa [e] at h'
      · rename_i hf
        refine Does.asRetUnit (Does.bind (Does.get (h.isFull hi) (Does.bind (Does.call hT (h.isFull hi) ?_))))
        rw [if_neg hf]
        exact Does.new (h1.isNone hr') (h1.put trivial)
    · rename_i hi hr
      cases hs
      exact Does.asRetUnit (Does.bind (Does.get (h.isEmpty hi) (Does.new (h.isNone hr) (h.put trivial))))
    · cases hs
  | orOp i j r mi mj =>
    simp only [step] at hs; split at hs <;> cases hs
    · rename_i y hi hj hr
      exact Does.asRetUnit (Does.bind (Does.get (h.isEmpty hi) (Does.ctorFrom hT h hr hj)))
    · rename_i x y hne hi hj hr
      have hx : x.engaged = true := by
        rcases Slot.cases x with rfl | hx
        · exact absurd rfl hne
        · exact hx
      obtain ⟨v, hv, _⟩ := h.isFilled hi hx
      exact Does.asRetUnit (Does.bind (Does.get hv (Does.ctorFrom hT h hr hi)))
  | orAssignValue i src =>
    simp only [step] at hs; split at hs <;> cases hs
    · rename_i x hi hx
      exact Does.asRetUnit (Does.bind (Does.evalArg h hx (Does.fill hT h hi hx)))
    · rename_i y x _ hi hx
      refine Does.asRetUnit (Does.bind (Does.evalArg h hx ((Does.fill hT h hi hx).mono fun _ m' h' => ?_)))
      cases y with
      | empty => rename_i hne; exact absurd rfl hne
      | _ => exact h'
  | orAssignFrom i j mv =>
    simp only [step] at hs; split at hs
    · cases hs
    · rename_i hij
      split at hs <;> cases hs
      · rename_i y hi hj
        refine Does.asRetUnit (Does.bind (Does.get (h.isEmpty hi) ?_))
        rcases Slot.cases y with rfl | hy
        · exact Does.bind (Does.get (h.isEmpty hj) (Does.ret (h.touch (by rw [h.isEmpty hi]; trivial))))
        · obtain ⟨v, hv, _⟩ := h.isFilled hj hy
          obtain ⟨hsrc, he⟩ := source_of (P := P) (mv := mv) (Ne.symm hij) hj hy
          refine Does.bind (Does.get hv ?_)
          rw [← he]
          exact Does.init hT h hsrc (h.isEmpty hi) (.inl rfl)
      · rename_i x y hne hi hj
        have hx : x.engaged = true := by
          rcases Slot.cases x with rfl | hx
          · exact absurd rfl hne
          · exact hx
        obtain ⟨v, hv, _⟩ := h.isFilled hi hx
        exact Does.asRetUnit (Does.bind (Does.get hv (Does.ret h)))
  | andOp i j r mv =>
    simp only [step] at hs; split at hs <;> cases hs
    · rename_i y hi hj hr
      exact Does.asRetUnit (Does.bind (Does.get (h.isEmpty hi) (Does.new (h.isNone hr) (h.put trivial))))
    · rename_i x y hne hi hj hr
      have hx : x.engaged = true := by
        rcases Slot.cases x with rfl | hx
        · exact absurd rfl hne
        · exact hx
      obtain ⟨v, hv, _⟩ := h.isFilled hi hx
      exact Does.asRetUnit (Does.bind (Does.get hv (Does.ctorFrom hT h hr hj)))
  | xorOp i j r mi mj =>
    simp only [step] at hs; split at hs <;> cases hs
    · rename_i y hi hj hr
      refine Does.asRetUnit (Does.bind (Does.get (h.isEmpty hi) ?_))
      rcases Slot.cases y with rfl | hy
      · exact Does.bind (Does.get (h.isEmpty hj) (Does.new (h.isNone hr) (h.put trivial)))
      · obtain ⟨v, hv, _⟩ := h.isFilled hj hy
        exact Does.bind (Does.get hv (Does.ctorFrom hT h hr hj))
    · rename_i x hne hi hj hr
      have hx : x.engaged = true := by
        rcases Slot.cases x with rfl | hx
        · exact absurd rfl hne
        · exact hx
      obtain ⟨v, hv, _⟩ := h.isFilled hi hx
      exact Does.asRetUnit (Does.bind (Does.get hv (Does.bind (Does.get (h.isEmpty hj) (Does.ctorFrom hT h hr hi)))))
    · rename_i x y hne hne2 hi hj hr
      have hx : x.engaged = true := by
        rcases Slot.cases x with rfl | hx
        · exact absurd rfl hne
        · exact hx
      have hy : y.engaged = true := by
        rcases Slot.cases y with rfl | hy
        · exact absurd rfl hne2
        · exact hy
      obtain ⟨v, hv, _⟩ := h.isFilled hi hx
      obtain ⟨u, hu, _⟩ := h.isFilled hj hy
      exact Does.asRetUnit (Does.bind (Does.get hv (Does.bind (Does.get hu (Does.new (h.isNone hr) (h.put trivial))))))
  | zip is r g =>
    simp only [step] at hs; split at hs
    · rename_i hr ha
      split at hs <;> cases hs
      rename_i M2 vs hv
      refine Does.asRetUnit (Does.bind (Does.allHave h ha ?_))
      simp only [if_true]
      refine Does.bind ((Does.zipElems hT h hv).mono ?_)
      rintro ws m' ⟨hw, h'⟩
      subst hw
      refine Does.bind (Does.onThrow ((Does.create hT h' (src := .move (g ws)) rfl (values_none hv hr)).mono fun _ m' h' => ?_))
      exact Does.dropTmps h'
    · rename_i hr ha
      cases hs
      refine Does.asRetUnit (Does.bind (Does.allHave h ha ?_))
      simp only [Bool.false_eq_true, if_false]
      exact Does.new (h.isNone hr) (h.put trivial)
    · cases hs
  | zipWith is r g =>
    have hmap : (is.map (·, false)).map (·.1) = is := by rw [List.map_map]; exact List.map_id' _
    simp only [step] at hs; split at hs
    · rename_i hr ha
      split at hs <;> cases hs
      rename_i M2 vs hv
      refine Does.asRetUnit (Does.bind (Does.allHave h (by rw [hmap]; exact ha) ?_))
      simp only [if_true]
      refine Does.bind (Does.vals h hv (Does.bind (Does.call0 hT ?_)))
      refine Does.bind (Does.onThrow ((Does.create hT h (src := .move (g vs)) rfl hr).mono fun _ m' h' => ?_))
      exact Does.dropTmp h'
    · rename_i hr ha
      cases hs
      refine Does.asRetUnit (Does.bind (Does.allHave h (by rw [hmap]; exact ha) ?_))
      simp only [Bool.false_eq_true, if_false]
      exact Does.new (h.isNone hr) (h.put trivial)
    · cases hs
  | ioWrite i d =>
    simp only [step] at hs; split at hs <;> cases hs
    · rename_i v hi
      exact Does.catch_ (Does.asRet (Does.bind (Does.get (h.isFull hi) (Does.call0 hT ⟨rfl, h⟩))))
    · rename_i hi
      refine Does.catch_ (Does.asRet (Does.bind (Does.get (h.isEmpty hi) ?_)))
      cases d with
      | none => exact Does.ret ⟨rfl, h⟩
      | some d => exact Does.call0 hT ⟨rfl, h⟩
  | ioRead i d v =>
    simp only [step] at hs; split at hs <;> cases hs
    · rename_i hi
      exact Does.catch_ (Does.asRet (Does.bind (Does.get (h.isEmpty hi) (Does.call0 hT ⟨rfl, h⟩))))
    · rename_i x hne hi
      have hx : x.engaged = true := by
        rcases Slot.cases x with rfl | hx
        · exact absurd rfl hne
        · exact hx
      obtain ⟨u, hu, _⟩ := h.isFilled hi hx
      exact Does.catch_ (Does.asRet (Does.bind (Does.get hu (Does.bind (Does.user hT fun _ =>
        Does.bind (Does.put (Does.ret ⟨rfl, h.put rfl⟩)))))))
  | cmp o rel i j =>
    simp only [step] at hs; split at hs <;> cases hs
    · rename_i a b hi hj
      exact Does.catch_ (Does.asRet (Does.bind (Does.get (h.isFull hi) (Does.bind (Does.get (h.isFull hj) (Does.call0 hT ⟨rfl, h⟩))))))
    · rename_i hi hj
      exact Does.catch_ (Does.asRet (Does.bind (Does.get (h.isEmpty hi) (Does.bind (Does.get (h.isEmpty hj) (Does.ret ⟨rfl, h⟩))))))
    · rename_i a hi hj
      exact Does.catch_ (Does.asRet (Does.bind (Does.get (h.isFull hi) (Does.bind (Does.get (h.isEmpty hj) (Does.ret ⟨rfl, h⟩))))))
    · rename_i a hi hj
      exact Does.catch_ (Does.asRet (Does.bind (Does.get (h.isEmpty hi) (Does.bind (Does.get (h.isFull hj) (Does.ret ⟨rfl, h⟩))))))
  | cmpNone o i =>
    simp only [step] at hs; split at hs <;> cases hs
    · rename_i hi
      exact Does.catch_ (Does.asRet (Does.bind (Does.get (h.isEmpty hi) (Does.ret ⟨by cases o <;> rfl, h⟩))))
    · rename_i x hne hi
      have hx : x.engaged = true := by
        rcases Slot.cases x with rfl | hx
        · exact absurd rfl hne
        · exact hx
      obtain ⟨u, hu, _⟩ := h.isFilled hi hx
      exact Does.catch_ (Does.asRet (Does.bind (Does.get hu (Does.ret ⟨by cases o <;> rfl, h⟩))))
  | noneCmp o i =>
    simp only [step] at hs; split at hs <;> cases hs
    · rename_i hi
      exact Does.catch_ (Does.asRet (Does.bind (Does.get (h.isEmpty hi) (Does.ret ⟨by cases o <;> rfl, h⟩))))
    · rename_i x hne hi
      have hx : x.engaged = true := by
        rcases Slot.cases x with rfl | hx
        · exact absurd rfl hne
        · exact hx
      obtain ⟨u, hu, _⟩ := h.isFilled hi hx
      exact Does.catch_ (Does.asRet (Does.bind (Does.get hu (Does.ret ⟨by cases o <;> rfl, h⟩))))
  | cmpVal o rel i v =>
    simp only [step] at hs; split at hs <;> cases hs
    · rename_i a hi
      exact Does.catch_ (Does.asRet (Does.bind (Does.get (h.isFull hi) (Does.call0 hT ⟨rfl, h⟩))))
    · rename_i hi
      exact Does.catch_ (Does.asRet (Does.bind (Does.get (h.isEmpty hi) (Does.ret ⟨rfl, h⟩))))
  | valCmp o rel v i =>
    simp only [step] at hs; split at hs <;> cases hs
    · rename_i a hi
      exact Does.catch_ (Does.asRet (Does.bind (Does.get (h.isFull hi) (Does.call0 hT ⟨rfl, h⟩))))
    · rename_i hi
      exact Does.catch_ (Does.asRet (Does.bind (Does.get (h.isEmpty hi) (Does.ret ⟨rfl, h⟩))))
  | hash i f =>
    simp only [step] at hs; split at hs <;> cases hs
    · rename_i a hi
      exact Does.catch_ (Does.asRet (Does.bind (Does.get (h.isFull hi) (Does.call0 hT ⟨rfl, h⟩))))
    · rename_i hi
      exact Does.catch_ (Does.asRet (Does.bind (Does.get (h.isEmpty hi) (Does.ret ⟨rfl, h⟩))))
  | unzipArray q i mv rs =>
    simp only [step] at hs; split at hs
    · cases hs
    · rename_i hc
      simp only [Bool.or_eq_true, not_or, Bool.not_eq_true, Bool.not_eq_false', decide_eq_true_eq, vacant, List.all_eq_true,
        Option.isNone_iff_eq_none] at hc
      obtain ⟨⟨rfl, hv⟩, hn⟩ := hc
      obtain ⟨M2, hu, he⟩ := Option.map_eq_some_iff.1 hs
      cases he
      exact Does.asRetUnit (Does.unzipNew hT h hu hv hn)
  | unzipTuple q i mv ts ms =>
    simp only [step] at hs; split at hs
    · cases hs
    · rename_i hc
      simp only [Bool.or_eq_true, not_or, Bool.not_eq_true, Bool.not_eq_false', decide_eq_true_eq, vacant, List.all_eq_true,
        Option.isNone_iff_eq_none, List.mem_append, List.nodup_append] at hc
      obtain ⟨⟨⟨rfl, hv⟩, hn1, hn2, hd⟩, _⟩ := hc
      split at hs
      · rename_i M1 hu
        obtain ⟨M2, hm, he⟩ := Option.map_eq_some_iff.1 hs
        cases he
        refine Does.asRetUnit (Does.bind ((Does.unzipNew hT h hu (fun r hr => hv r (.inl hr)) hn1).mono fun _ m' h' => ?_))
        have hf : ∀ p ∈ ms, M1 p.1 = none := fun p hp => by
          have hp' := List.mem_map_of_mem (f := (·.1)) hp
          rw [unzip_other hu (fun hin => hd _ hin _ hp' rfl)]
          exact hv _ (.inr hp')
        refine Does.bind (Does.onThrow ((Does.moveAll hT h' hm hf hn2).mono fun _ m' h' => ?_))
        refine Does.destroyAll h' (fun t ht => moves_some hm (unzip_some hu (List.mem_reverse.1 ht))) (by simpa [List.Nodup, List.pairwise_reverse, ne_comm] using hn1)
      · cases hs

/-! ## What has an answer is allowed -/

theorem source_uses {conv : Nat → Nat → Val → Val} {M : Mem Val} {i : Nat} {src : Src Val} {x : Slot Val}
    (hs : source conv M i src = some x) : ∀ j ∈ Op.srcUses src, M j ≠ none := by
  cases src with
  | opt j mv =>
    simp only [source] at hs
    split at hs
    · cases hs
    · split at hs
      · rename_i hj; simp [Op.srcUses, hj]
      · rename_i hj; simp [Op.srcUses, hj]
      · cases hs
  | _ => simp [Op.srcUses]

theorem source_notSelf {conv : Nat → Nat → Val → Val} {M : Mem Val} {i : Nat} {src : Src Val} {x : Slot Val}
    (hs : source conv M i src = some x) : src.isSelf i = false := by
  cases src with
  | opt j mv =>
    simp only [source] at hs
    split at hs
    · cases hs
    · rename_i hn; simp [Src.isSelf, hn]
  | _ => rfl

theorem allFull_some {M : Mem Val} {is : List Nat} {b : Bool} (h : allFull M is = some b) : ∀ i ∈ is, M i ≠ none := by
  induction is generalizing b with
  | nil => simp
  | cons i is ih =>
    simp only [allFull] at h
    split at h
    · rename_i x c hx hc
      intro j hj
      rcases List.mem_cons.1 hj with rfl | hj
      · simp [hx]
      · exact ih hc j hj
    · cases h

theorem step_allowed {conv : Nat → Nat → Val → Val} {M M' : Mem Val} {op : Op Val} {ret : Ret Val}
    (hs : step conv M op = some (M', ret)) {m : Nat → Option (Option Val)} (h : Sees M m) : op.Allowed m := by
  have hn : ∀ i, M i = none → m i = none := fun i hi => h.isNone hi
  have he : ∀ i, M i ≠ none → m i ≠ none := fun i hi hm => by
    have := h i; rw [hm] at this; cases hx : M i with
    | none => exact hi hx
    | some x => rw [hx] at this; cases x <;> exact this
  have he' : ∀ i x, M i = some x → m i ≠ none := fun i x hx => he i (by simp [hx])
  have hfull : ∀ i v, M i = some (.full v) → m i = some (some v) := fun i v hi => h.isFull hi
  cases op
  case zip is r g =>
    simp only [step] at hs
    have : ∃ b, allFull M (is.map (·.1)) = some b ∧ M r = none := by split at hs <;> simp_all
    obtain ⟨b, hb, hr⟩ := this
    exact ⟨fun i hi => he i (allFull_some hb i hi), by simp [Op.makes, hn r hr], by simp [Op.makes], trivial⟩
  case zipWith is r g =>
    simp only [step] at hs
    have : ∃ b, allFull M is = some b ∧ M r = none := by split at hs <;> simp_all
    obtain ⟨b, hb, hr⟩ := this
    exact ⟨fun i hi => he i (allFull_some hb i hi), by simp [Op.makes, hn r hr], by simp [Op.makes], trivial⟩
  case unzipArray q i mv rs =>
    simp only [step] at hs
    split at hs
    · cases hs
    · rename_i hc
      simp only [Bool.or_eq_true, not_or, Bool.not_eq_true, Bool.not_eq_false', decide_eq_true_eq, vacant, List.all_eq_true,
        Option.isNone_iff_eq_none] at hc
      obtain ⟨M2, hu, _⟩ := Option.map_eq_some_iff.1 hs
      have hi : M i ≠ none := by intro hi; simp [unzip, hi] at hu
      exact ⟨by simpa [Op.uses] using he i hi, fun r hr => hn r (hc.1.2 r hr), hc.2, trivial⟩
  case unzipTuple q i mv ts ms =>
    simp only [step] at hs
    split at hs
    · cases hs
    · rename_i hc
      simp only [Bool.or_eq_true, not_or, Bool.not_eq_true, Bool.not_eq_false', decide_eq_true_eq, vacant, List.all_eq_true,
        Option.isNone_iff_eq_none, List.contains_iff_mem] at hc
      split at hs
      · rename_i M1 hu
        have hi : M i ≠ none := by intro hi; simp [unzip, hi] at hu
        exact ⟨by simpa [Op.uses] using he i hi, fun r hr => hn r (hc.1.1.2 r hr), hc.1.2, hc.2⟩
      · cases hs
  all_goals
    simp only [step] at hs
    simp only [Op.Allowed, Op.uses, Op.makes, List.mem_cons, List.not_mem_nil, or_false, forall_eq_or_imp, forall_eq,
      List.nodup_cons, List.nodup_nil, false_implies, implies_true, and_true, true_and, not_false_eq_true, List.mem_nil_iff]
    repeat' split at hs
    all_goals first
      | cases hs; done
      | grind [source_uses, source_notSelf]

theorem run_does {P : Prog Val} (hT : ∀ n, P.throwsAt n = false) {ops : List (Op Val)} {M M' : Mem Val} {rs : List (Ret Val)}
    {a : AState Val} (h : Sees M a.mem) (hs : run P.convFrom M ops = some (M', rs)) :
    Op.AllAllowed P ops a ∧ ∃ a', Spec.run P ops a = .ok rs a' ∧ Sees M' a'.mem := by
  induction ops generalizing M a rs with
  | nil => cases hs; exact ⟨trivial, a, rfl, h⟩
  | cons op ops ih =>
    simp only [run] at hs
    split at hs
    · rename_i M1 r h1
      split at hs
      · rename_i M2 rs2 h2
        cases hs
        obtain ⟨r', m', env', hr, rfl, h'⟩ := step_does hT h h1 a.env
        obtain ⟨ha, a2, hr2, h2'⟩ := ih (a := ⟨m', env'⟩) h' h2
        refine ⟨⟨step_allowed h1 h, ?_⟩, a2, ?_, h2'⟩
        · rw [hr]; exact ha
        · show Opt.M.seq _ _ _ = _
          unfold Opt.M.seq
          rw [hr]
          show Opt.M.seq _ _ _ = _
          unfold Opt.M.seq
          rw [hr2]; rfl
      · cases hs
    · cases hs

end Opt.Calm
