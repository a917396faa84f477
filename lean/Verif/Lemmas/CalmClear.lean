import Verif.Lemmas.CalmStep

/-!
# Options when nothing throws: which operations have a known outcome
-/

namespace Opt.Calm

variable {Val : Type}

theorem source_clear {conv : Nat → Nat → Val → Val} {M : Mem Val} {i : Nat} {src : Src Val}
    (h1 : ∀ j ∈ Op.srcUses src, M j ≠ none) (h2 : ∀ j ∈ Op.srcUses src, M j ≠ some .empty) (h3 : src.isSelf i = false) :
    ∃ x, source conv M i src = some x ∧ ((∀ j ∈ Op.srcUses src, M j ≠ some .moved) → ∃ v, x = .full v) := by
  cases src with
  | opt j mv =>
    simp only [Op.srcUses, List.mem_singleton, forall_eq, Src.isSelf, decide_eq_false_iff_not] at h1 h2 h3 ⊢
    have h3 : j ≠ i := by simpa using h3
    cases hj : M j with
    | none => exact absurd hj h1
    | some x =>
      cases x with
      | empty => exact absurd hj h2
      | full v => exact ⟨.full (conv i j v), by simp [source, h3, hj], fun _ => ⟨_, rfl⟩⟩
      | moved => exact ⟨.moved, by simp [source, h3, hj], fun h => absurd rfl h⟩
  | args v => exact ⟨_, rfl, fun _ => ⟨_, rfl⟩⟩
  | copy v => exact ⟨_, rfl, fun _ => ⟨_, rfl⟩⟩
  | move v => exact ⟨_, rfl, fun _ => ⟨_, rfl⟩⟩

theorem allFull_ne {M : Mem Val} {is : List Nat} (h : ∀ i ∈ is, M i ≠ none) : ∃ b, allFull M is = some b ∧
    (b = true → ∀ i ∈ is, M i ≠ some .empty) := by
  induction is with
  | nil => exact ⟨true, rfl, by simp⟩
  | cons i is ih =>
    obtain ⟨b, hb, h2⟩ := ih fun j hj => h j (List.mem_cons_of_mem _ hj)
    cases hi : M i with
    | none => exact absurd hi (h i List.mem_cons_self)
    | some x =>
      refine ⟨x.engaged && b, by simp [allFull, hi, hb], fun he => ?_⟩
      simp only [Bool.and_eq_true] at he
      intro j hj
      rcases List.mem_cons.1 hj with rfl | hj
      · rw [hi]; rintro ⟨⟩; simp [Slot.engaged] at he
      · exact h2 he.2 j hj

theorem values_ne {M : Mem Val} {is : List (Nat × Bool)} (h : ∀ p ∈ is, ∃ v, M p.1 = some (.full v)) (hn : (is.map (·.1)).Nodup ∨ ∀ p ∈ is, p.2 = false) :
    ∃ M' vs, values M is = some (M', vs) := by
  induction is generalizing M with
  | nil => exact ⟨M, [], rfl⟩
  | cons p is ih =>
    obtain ⟨i, mv⟩ := p
    obtain ⟨v, hv⟩ := h _ List.mem_cons_self
    have := ih (M := if mv then set M i .moved else M) (fun p hp => ?_) ?_
    · obtain ⟨M', vs, hm⟩ := this
      exact ⟨M', v :: vs, by simp only [values, hv, hm]⟩
    · obtain ⟨u, hu⟩ := h p (List.mem_cons_of_mem _ hp)
      refine ⟨u, ?_⟩
      cases mv
      · exact hu
      · rcases hn with hn | hn
        · simp only [List.map_cons, List.nodup_cons] at hn
          have : p.1 ≠ i := by rintro rfl; exact hn.1 (List.mem_map_of_mem hp)
          simp [set, this, hu]
        · exact absurd (hn (i, true) List.mem_cons_self) (by simp)
    · rcases hn with hn | hn
      · simp only [List.map_cons, List.nodup_cons] at hn; exact .inl hn.2
      · exact .inr fun p hp => hn p (List.mem_cons_of_mem _ hp)

theorem moves_ne {conv : Nat → Nat → Val → Val} {M : Mem Val} {ps : List (Nat × Nat)} (h : ∀ p ∈ ps, ∃ x, M p.2 = some x) :
    ∃ M', moves conv M ps = some M' := by
  induction ps generalizing M with
  | nil => exact ⟨M, rfl⟩
  | cons p ps ih =>
    obtain ⟨r, t⟩ := p
    obtain ⟨x, hx⟩ := h _ List.mem_cons_self
    simp only [moves, hx]
    exact ih fun p hp => set_some (spend_some (h p (List.mem_cons_of_mem _ hp)))

theorem clear_answers {conv : Nat → Nat → Val → Val} {M : Mem Val} {op : Op Val} (h : Clear M op) :
    ∃ M' r, step conv M op = some (M', r) := by
  obtain ⟨hu, hm, hn, hr, hne, ha⟩ := h
  have key : ∀ i, M i ≠ none → M i ≠ some .moved → M i = some .empty ∨ ∃ v, M i = some (.full v) := by
    intro i h1 h2
    cases hi : M i with
    | none => exact absurd hi h1
    | some x => cases x with
      | empty => exact .inl rfl
      | full v => exact .inr ⟨v, rfl⟩
      | moved => exact absurd hi h2
  have ex : ∀ i, M i ≠ none → ∃ x, M i = some x := fun i h => Option.ne_none_iff_exists'.1 h
  cases op
  case zip is r g =>
    simp only [Op.uses, reads, apart, Op.makes, List.mem_singleton, forall_eq] at hu hr ha hm
    obtain ⟨b, hb, hb2⟩ := allFull_ne hu
    cases b with
    | false => exact ⟨_, _, by simp only [step, hm, hb]; rfl⟩
    | true =>
      obtain ⟨M', vs, hv⟩ := values_ne (M := M) (is := is) (fun p hp => by
        have hp' := List.mem_map_of_mem (f := (·.1)) hp
        rcases key p.1 (hu _ hp') (hr _ hp') with h | h
        · exact absurd h (hb2 rfl _ hp')
        · exact h) (.inl ha)
      exact ⟨_, _, by simp only [step, hm, hb, hv]; rfl⟩
  case zipWith is r g =>
    simp only [Op.uses, reads, Op.makes, List.mem_singleton, forall_eq] at hu hr hm
    obtain ⟨b, hb, hb2⟩ := allFull_ne hu
    cases b with
    | false => exact ⟨_, _, by simp only [step, hm, hb]; rfl⟩
    | true =>
      obtain ⟨M', vs, hv⟩ := values_ne (M := M) (is := is.map (·, false)) (fun p hp => by
        obtain ⟨i, hi, rfl⟩ := List.mem_map.1 hp
        rcases key i (hu _ hi) (hr _ hi) with h | h
        · exact absurd h (hb2 rfl _ hi)
        · exact h) (.inr (by simp))
      exact ⟨_, _, by simp only [step, hm, hb, hv]; rfl⟩
  case unzipArray q i mv rs =>
    simp only [Op.uses, reads, apart, Op.makes, List.mem_singleton, forall_eq] at hu hr ha hm hn
    have hv : vacant M rs = true := by simpa [vacant] using hm
    subst ha
    rcases key i hu hr with h | ⟨v, h⟩
    · exact ⟨_, _, by simp only [step, hv, hn, unzip, h]; rfl⟩
    · exact ⟨_, _, by simp only [step, hv, hn, unzip, h]; rfl⟩
  case unzipTuple q i mv ts ms =>
    simp only [Op.uses, reads, apart, Op.makes, List.mem_singleton, forall_eq] at hu hr ha hm hn
    have hv : vacant M (ts ++ ms.map (·.1)) = true := by
      simp only [vacant, List.all_eq_true, Option.isNone_iff_eq_none]; exact hm
    obtain ⟨rfl, hts⟩ := ha
    have hc : (ms.all fun p => ts.contains p.2) = true := by simpa using hts
    have hun : ∃ M1, unzip q M i ts = some M1 := by
      rcases key i hu hr with h | ⟨v, h⟩
      · exact ⟨_, by simp only [unzip, h]; rfl⟩
      · exact ⟨_, by simp only [unzip, h]; rfl⟩
    obtain ⟨M1, h1⟩ := hun
    obtain ⟨M2, h2⟩ := moves_ne (conv := conv) (M := M1) (ps := ms) fun p hp => unzip_some h1 (hts p hp)
    exact ⟨_, _, by simp only [step, hv, hn, hc, h1, h2]; rfl⟩
  case ctorValue i src =>
    simp only [Op.uses, needs, apart, Op.makes, List.mem_singleton, forall_eq] at hu hne ha hm
    obtain ⟨x, hx, _⟩ := source_clear (conv := conv) hu hne ha
    exact ⟨_, _, by simp only [step, hm, hx]; rfl⟩
  case assignValue i src =>
    simp only [Op.uses, needs, apart, List.mem_cons, forall_eq_or_imp] at hu hne ha
    obtain ⟨x, hx, _⟩ := source_clear (conv := conv) hu.2 hne ha
    obtain ⟨y, hy⟩ := ex i hu.1
    exact ⟨_, _, by simp only [step, hy, hx]; rfl⟩
  case emplace i src =>
    simp only [Op.uses, needs, apart, List.mem_cons, forall_eq_or_imp] at hu hne ha
    obtain ⟨x, hx, _⟩ := source_clear (conv := conv) hu.2 hne ha
    obtain ⟨y, hy⟩ := ex i hu.1
    exact ⟨_, _, by simp only [step, hy, hx]; rfl⟩
  case tryEmplace i src =>
    simp only [Op.uses, needs, apart, List.mem_cons, forall_eq_or_imp] at hu hne ha
    obtain ⟨x, hx, _⟩ := source_clear (conv := conv) hu.2 hne ha
    obtain ⟨y, hy⟩ := ex i hu.1
    cases y <;> exact ⟨_, _, by simp only [step, hy, hx]; rfl⟩
  case orAssignValue i src =>
    simp only [Op.uses, needs, apart, List.mem_cons, forall_eq_or_imp] at hu hne ha
    obtain ⟨x, hx, _⟩ := source_clear (conv := conv) hu.2 hne ha
    obtain ⟨y, hy⟩ := ex i hu.1
    cases y <;> exact ⟨_, _, by simp only [step, hy, hx]; rfl⟩
  case valueOr i mv d =>
    simp only [Op.uses, needs, reads, apart, List.mem_cons, forall_eq_or_imp] at hu hne ha hr
    obtain ⟨x, hx, hx'⟩ := source_clear (conv := conv) hu.2 hne ha
    obtain ⟨u, rfl⟩ := hx' hr.2
    rcases key i hu.1 hr.1 with h | ⟨v, h⟩
    · exact ⟨_, _, by simp only [step, h, hx]; rfl⟩
    · exact ⟨_, _, by simp only [step, h, hx]; rfl⟩
  all_goals
    simp only [Op.uses, reads, needs, apart, Op.makes, List.mem_cons, List.not_mem_nil, or_false, forall_eq_or_imp, forall_eq,
      false_implies, implies_true] at hu hr hne ha hm
    simp only [step]
    repeat' split
    all_goals grind

end Opt.Calm
