import Verif.Spec.CmpSelect

/-!
# Lemmas about overload resolution for comparisons
-/

namespace Opt.CmpSel

variable {L α : Type}

theorem better_asymm (c d : Cand) : c.better d = true → d.better c = false := by
  unfold Cand.better
  intro h
  revert h
  cases c.le d <;> cases d.le c <;> cases c.rewritten <;> cases d.rewritten <;> cases c.rev <;> cases d.rev <;> simp

theorem best_of {l : List Cand} {c : Cand} (hc : c ∈ l) (h : ∀ d ∈ l, d = c ∨ c.better d = true) : best l = some c := by
  unfold best
  have hp : (l.all fun d => decide (d = c) || c.better d) = true := by
    simp only [List.all_eq_true, Bool.or_eq_true, decide_eq_true_eq]
    exact h
  have huniq : ∀ d ∈ l, (l.all fun d' => decide (d' = d) || d.better d') = true → d = c := by
    intro d hd hall
    simp only [List.all_eq_true, Bool.or_eq_true, decide_eq_true_eq] at hall
    rcases hall c hc with e | hb
    · exact e.symm
    · rcases h d hd with e | hb'
      · exact e
      · rw [better_asymm _ _ hb'] at hb; cases hb
  cases hf : l.find? (fun c => l.all fun d => decide (d = c) || c.better d) with
  | none =>
    have := (List.find?_eq_none.mp hf) c hc
    exact absurd hp (by simpa using this)
  | some d =>
    have hd := List.mem_of_find?_eq_some hf
    have hp' := List.find?_some hf
    rw [huniq d hd hp']

/-- the kind of an operand -/
def kind (t : Ty L) : Pat := if t.isOpt then .opt else if t.isNone then .none else .any

/-- the template meant for two kinds of operands -/
def meant : Pat → Pat → Form
  | .opt, .none => .noneR
  | .none, .opt => .noneL
  | .opt, .any => .left
  | .any, .opt => .right
  | _, _ => .both

/-- the template with the parameters the other way round -/
def Form.mirror : Form → Form
  | .both => .both
  | .left => .right
  | .right => .left
  | .noneR => .noneL
  | .noneL => .noneR

theorem fits_iff (p : Pat) (t : Ty L) : p.fits t = true ↔ p = .any ∨ p = kind t := by
  rcases t with ⟨n, b⟩
  cases n <;> cases b <;> cases p <;> simp [Pat.fits, kind, Ty.isOpt, Ty.isNone]

theorem isOpt_kind (t : Ty L) : t.isOpt = true ↔ kind t = .opt := by
  rcases t with ⟨n, b⟩
  cases n <;> cases b <;> simp [kind, Ty.isOpt, Ty.isNone]

/-- a candidate of the meant kind, in any of its rewritings, is at least as specialised as every other one that fits -/
theorem meant_le {p q : Pat} (h : p = .opt ∨ q = .opt) {d : Cand} (h1 : d.pats.1 = .any ∨ d.pats.1 = p)
    (h2 : d.pats.2 = .any ∨ d.pats.2 = q) {c : Cand} (hc : c.pats = (meant p q).pats) :
    c.le d = true ∧ (d.le c = true → d.pats = (meant p q).pats) := by
  unfold Cand.le
  rw [hc]
  rcases d with ⟨f, r, n⟩
  cases p <;> cases q <;> cases f <;> cases r <;>
    simp_all [Cand.pats, meant, Form.pats, Pat.le]

theorem pats_meant {p q : Pat} {d : Cand} (h : d.pats = (meant p q).pats) :
    (d.rev = false ∧ d.form = meant p q) ∨ (d.rev = true ∧ d.form = (meant p q).mirror) := by
  rcases d with ⟨f, r, n⟩
  cases p <;> cases q <;> cases f <;> cases r <;> simp_all [Cand.pats, meant, Form.pats, Form.mirror]

theorem meant_pats (p q : Pat) (n : Bool) : (Cand.mk (meant p q) false n).pats = (meant p q).pats := rfl

theorem mirror_pats (p q : Pat) (n : Bool) : (Cand.mk (meant p q).mirror true n).pats = (meant p q).pats := by
  cases p <;> cases q <;> rfl

theorem meant_mirror (p q : Pat) : (meant p q).mirror = meant q p := by
  cases p <;> cases q <;> rfl

theorem mem_forms (f : Form) : f ∈ forms := by cases f <;> decide

theorem mem_direct (lang : Lang) (op : CmpOp) (f : Form) : (⟨f, false, false⟩ : Cand) ∈ candidates lang op := by
  cases op <;> simp [candidates, mem_forms]

theorem mem_candidates_eq (lang : Lang) (c : Cand) : c ∈ candidates lang .eq ↔
    c.neg = false ∧ (c.rev = true → lang.exchanged c.form = true) := by
  rcases c with ⟨f, r, n⟩
  cases r <;> cases n <;> simp [candidates, mem_forms]

theorem mem_candidates_ne (lang : Lang) (c : Cand) : c ∈ candidates lang .ne ↔
    (c.neg = false ∧ c.rev = false) ∨ (c.neg = true ∧ lang.negated c.form = true ∧
      (c.rev = true → lang.exchanged c.form = true)) := by
  rcases c with ⟨f, r, n⟩
  cases r <;> cases n <;> simp [candidates, mem_forms]

theorem mem_candidates_ord (lang : Lang) {op : CmpOp} (h : op ≠ .eq) (h' : op ≠ .ne) (c : Cand) :
    c ∈ candidates lang op ↔ c.neg = false ∧ c.rev = false := by
  rcases c with ⟨f, r, n⟩
  cases op <;> cases r <;> cases n <;> simp_all [candidates, mem_forms]

theorem viable_fits {u : CmpOp → Ty L → Ty L → Bool} {op : CmpOp} {s t : Ty L} {d : Cand} (h : d.viable u op s t = true) :
    (d.pats.1 = .any ∨ d.pats.1 = kind s) ∧ (d.pats.2 = .any ∨ d.pats.2 = kind t) := by
  simp only [Cand.viable, Bool.and_eq_true] at h
  exact ⟨(fits_iff _ _).1 h.1.1, (fits_iff _ _).1 h.1.2⟩

theorem viable_meant (u : CmpOp → Ty L → Ty L → Bool) (op : CmpOp) {s t : Ty L} {c : Cand}
    (hc : c.pats = (meant (kind s) (kind t)).pats) (h : SomeOption s t) :
    c.viable u op s t = if c.rev then c.form.needs u (c.op op) t s else c.form.needs u (c.op op) s t := by
  have h1 : c.pats.1.fits s = true ∧ c.pats.2.fits t = true := by
    rw [fits_iff, fits_iff, hc]
    have h : kind s = .opt ∨ kind t = .opt := by
      rw [← isOpt_kind, ← isOpt_kind]; simpa [SomeOption, Ty.isOpt] using h
    revert h
    cases kind s <;> cases kind t <;> simp [meant, Form.pats]
  simp only [Cand.viable, h1.1, h1.2, Bool.true_and]

/-- the meant candidate that comes first is chosen -/
theorem best_meant {lang : Lang} {u : CmpOp → Ty L → Ty L → Bool} {op : CmpOp} {s t : Ty L} (h : SomeOption s t) {c : Cand}
    (hc : c.pats = (meant (kind s) (kind t)).pats) (hm : c ∈ viable lang u op s t)
    (hbest : ∀ d ∈ viable lang u op s t, d.pats = (meant (kind s) (kind t)).pats → d = c ∨
      (!c.rewritten && d.rewritten) = true ∨ (c.rewritten = d.rewritten ∧ c.rev = false ∧ d.rev = true)) :
    best (viable lang u op s t) = some c := by
  apply best_of hm
  intro d hd
  have hk : kind s = .opt ∨ kind t = .opt := by
    rw [← isOpt_kind, ← isOpt_kind]; simpa [SomeOption, Ty.isOpt] using h
  have hv := (List.mem_filter.1 hd).2
  obtain ⟨hle, hge⟩ := meant_le hk (viable_fits hv).1 (viable_fits hv).2 hc
  by_cases hdc : d.le c = true
  · rcases hbest d hd (hge hdc) with e | e | e
    · exact Or.inl e
    · refine Or.inr ?_
      simp only [Bool.and_eq_true, Bool.not_eq_true'] at e
      simp [Cand.better, hle, hdc, e.1, e.2]
    · refine Or.inr ?_
      simp [Cand.better, hle, hdc, e.1, e.2.1, e.2.2]
  · refine Or.inr ?_
    simp only [Bool.not_eq_true] at hdc
    simp [Cand.better, hle, hdc]

/-- the template meant for the operands is chosen as soon as it can be called -/
theorem best_direct {lang : Lang} {u : CmpOp → Ty L → Ty L → Bool} {op : CmpOp} {s t : Ty L} (h : SomeOption s t)
    (hn : (meant (kind s) (kind t)).needs u op s t = true) :
    best (viable lang u op s t) = some ⟨meant (kind s) (kind t), false, false⟩ := by
  refine best_meant h rfl ?_ ?_
  · refine List.mem_filter.2 ⟨mem_direct _ _ _, ?_⟩
    rw [viable_meant u op rfl h]
    simpa [Cand.op] using hn
  · intro d _ hd
    rcases d with ⟨f, r, n⟩
    rcases pats_meant hd with ⟨hr, hf⟩ | ⟨hr, hf⟩ <;> cases n <;> simp_all [Cand.rewritten]

theorem isOpt_depth (t : Ty L) : t.isOpt = true ↔ 1 ≤ t.depth := by simp [Ty.isOpt]

theorem someOption_iff (s t : Ty L) : (s.isOpt || t.isOpt) = true ↔ SomeOption s t := by
  simp [Ty.isOpt, SomeOption]

theorem usable_succ {lang : Lang} {ok : CmpOp → Base L → Base L → Bool} {k : Nat} {op : CmpOp} {s t : Ty L}
    (h : SomeOption s t) :
    usable lang ok (k + 1) op s t = (best (viable lang (usable lang ok k) op s t)).isSome := by
  rw [usable, if_pos ((someOption_iff s t).2 h)]

theorem usable_base {lang : Lang} {ok : CmpOp → Base L → Base L → Bool} {k : Nat} {op : CmpOp} {s t : Ty L}
    (h : ¬ SomeOption s t) : usable lang ok (k + 1) op s t = ok op s.base t.base := by
  rw [usable, if_neg (fun e => h ((someOption_iff s t).1 e))]

/-- what the template meant for the operands needs, in terms of smaller operands around the same types -/
theorem needs_meant {u : CmpOp → Ty L → Ty L → Bool} {op : CmpOp} {s t : Ty L} (h : SomeOption s t)
    (hu : ¬ WithNone s t → ∀ s' t' : Ty L, s'.base = s.base → t'.base = t.base → s'.depth ≤ s.depth → t'.depth ≤ t.depth →
      s'.depth + t'.depth < s.depth + t.depth → u op s' t' = true) :
    (meant (kind s) (kind t)).needs u op s t = true := by
  rcases s with ⟨m, b⟩
  rcases t with ⟨n, c⟩
  cases m with
  | zero => cases n with
    | zero => simp [SomeOption] at h
    | succ n =>
      cases b with
      | none => simp [kind, Ty.isOpt, Ty.isNone, meant, Form.needs]
      | leaf l =>
        simp only [kind, Ty.isOpt, Ty.isNone, meant, Form.needs]
        refine hu ?_ ⟨0, .leaf l⟩ ⟨n, c⟩ rfl rfl (by simp) (by simp) (by simp)
        simp [WithNone]
  | succ m => cases n with
    | zero =>
      cases c with
      | none => simp [kind, Ty.isOpt, Ty.isNone, meant, Form.needs]
      | leaf l =>
        simp only [kind, Ty.isOpt, Ty.isNone, meant, Form.needs]
        refine hu ?_ ⟨m, b⟩ ⟨0, .leaf l⟩ rfl rfl (by simp) (by simp) (by simp)
        simp [WithNone]
    | succ n =>
      simp only [kind, Ty.isOpt, meant, Form.needs]
      refine hu ?_ ⟨m, b⟩ ⟨n, c⟩ rfl rfl (by simp) (by simp) (by simp; omega)
      simp [WithNone]

theorem wf_of_le {s s' : Ty L} (h : s.Wf) (hb : s'.base = s.base) (hd : s'.depth ≤ s.depth) : s'.Wf := by
  rcases h with h | h
  · exact Or.inl (by omega)
  · exact Or.inr (hb ▸ h)

/-- whenever the innermost types can be compared as written, so can the operands, in every version of the language -/
theorem usable_direct {lang : Lang} {ok : CmpOp → Base L → Base L → Bool} {k : Nat} {op : CmpOp} {s t : Ty L}
    (hk : s.depth + t.depth < k) (h : ok op s.base t.base = true ∨ WithNone s t) : usable lang ok k op s t = true := by
  induction k generalizing s t with
  | zero => omega
  | succ k ih =>
    by_cases ho : SomeOption s t
    · rw [usable_succ ho, best_direct ho ?_]
      · rfl
      · refine needs_meant ho fun hw s' t' hs ht _ _ hd => ih (by omega) (Or.inl ?_)
        rw [hs, ht]
        exact h.resolve_right hw
    · rw [usable_base ho]
      refine h.resolve_right fun hw => ho ?_
      rcases hw with hw | hw
      · exact Or.inl hw.1
      · exact Or.inr hw.1

/-- if the innermost types cannot be compared in any way the language allows, no candidate can be called -/
theorem viable_nil {lang : Lang} {ok Q : CmpOp → Base L → Base L → Bool} {k : Nat} {op : CmpOp} {s t : Ty L}
    (hQ : ∀ op b c, ok op b c = true → Q op b c = true)
    (hc : ∀ op, ∀ c ∈ candidates lang op, ∀ b b', (if c.rev then Q (c.op op) b' b else Q (c.op op) b b') = true →
      Q op b b' = true)
    (hs : s.Wf) (ht : t.Wf) (hw : ¬ WithNone s t) (h : Q op s.base t.base = false) :
    usable lang ok k op s t = false ∧ viable lang (usable lang ok k) op s t = [] := by
  have hv : ∀ k, (∀ op (s t : Ty L), s.Wf → t.Wf → ¬ WithNone s t → Q op s.base t.base = false →
      usable lang ok k op s t = false) → ∀ op (s t : Ty L), s.Wf → t.Wf → ¬ WithNone s t → Q op s.base t.base = false →
      viable lang (usable lang ok k) op s t = [] := by
    intro k ih op s t hs ht hw h
    unfold viable
    rw [List.filter_eq_nil_iff]
    rintro c hcm hcv
    have key : ∀ (op : CmpOp) (s t : Ty L) (f : Form), s.Wf → t.Wf → ¬ WithNone s t → Q op s.base t.base = false →
        f.pats.1.fits s = true → f.pats.2.fits t = true → f.needs (usable lang ok k) op s t = true → False := by
      intro op s t f hs ht hw h h1 h2 hn
      rcases s with ⟨m, b⟩
      rcases t with ⟨n, d⟩
      cases f with
      | both =>
        simp only [Form.pats, Pat.fits, Ty.isOpt, decide_eq_true_eq] at h1 h2
        simp only [Form.needs] at hn
        rw [ih op (Ty.inner ⟨m, b⟩) (Ty.inner ⟨n, d⟩) (wf_of_le hs rfl (by simp [Ty.inner])) (wf_of_le ht rfl (by simp [Ty.inner]))
          ?_ h] at hn
        · cases hn
        · simp only [Ty.Wf] at hs ht
          simp only [WithNone, Ty.inner]
          rintro (⟨_, _, e⟩ | ⟨_, _, e⟩)
          · exact ht.elim (by omega) (· e)
          · exact hs.elim (by omega) (· e)
      | left =>
        simp only [Form.pats, Pat.fits, Ty.isOpt, decide_eq_true_eq] at h1 h2
        simp only [Form.needs] at hn
        rw [ih op (Ty.inner ⟨m, b⟩) ⟨n, d⟩ (wf_of_le hs rfl (by simp [Ty.inner])) ht ?_ h] at hn
        · cases hn
        · simp only [Ty.Wf] at hs ht
          simp only [WithNone, Ty.inner] at hw ⊢
          rintro (⟨_, e', e⟩ | ⟨_, _, e⟩)
          · exact hw (Or.inl ⟨h1, e', e⟩)
          · exact hs.elim (by omega) (· e)
      | right =>
        simp only [Form.pats, Pat.fits, Ty.isOpt, decide_eq_true_eq] at h1 h2
        simp only [Form.needs] at hn
        rw [ih op ⟨m, b⟩ (Ty.inner ⟨n, d⟩) hs (wf_of_le ht rfl (by simp [Ty.inner])) ?_ h] at hn
        · cases hn
        · simp only [Ty.Wf] at hs ht
          simp only [WithNone, Ty.inner] at hw ⊢
          rintro (⟨_, _, e⟩ | ⟨_, e', e⟩)
          · exact ht.elim (by omega) (· e)
          · exact hw (Or.inr ⟨h2, e', e⟩)
      | noneR =>
        cases n <;> cases d <;> simp_all [Form.pats, Pat.fits, Ty.isOpt, Ty.isNone, WithNone]
      | noneL =>
        cases m <;> cases b <;> simp_all [Form.pats, Pat.fits, Ty.isOpt, Ty.isNone, WithNone]
    have hqc : (if c.rev then Q (c.op op) t.base s.base else Q (c.op op) s.base t.base) = false := by
      rw [Bool.eq_false_iff]
      intro e
      rw [hc op c hcm _ _ e] at h
      cases h
    simp only [Cand.viable, Bool.and_eq_true] at hcv
    obtain ⟨⟨h1, h2⟩, hn⟩ := hcv
    rcases c with ⟨f, r, n⟩
    cases r
    · exact key _ s t f hs ht hw hqc h1 h2 hn
    · exact key _ t s f ht hs (fun e => hw e.symm) hqc h2 h1 hn
  have hu : ∀ k op (s t : Ty L), s.Wf → t.Wf → ¬ WithNone s t → Q op s.base t.base = false →
      usable lang ok k op s t = false := by
    intro k
    induction k with
    | zero => intros; rfl
    | succ k ih =>
      intro op s t hs ht hw h
      by_cases ho : SomeOption s t
      · rw [usable_succ ho, hv k ih op s t hs ht hw h]; rfl
      · rw [usable_base ho, Bool.eq_false_iff]
        intro e
        rw [hQ _ _ _ e] at h; cases h
  exact ⟨hu k op s t hs ht hw h, hv k (hu k) op s t hs ht hw h⟩

theorem natRel_ne (i j : Nat) : natRel .ne i j = !natRel .eq i j := by simp [natRel]

theorem natRel_eq_comm (i j : Nat) : natRel .eq i j = natRel .eq j i := by
  simp only [natRel, decide_eq_decide]; exact eq_comm

/-- the body of the template meant for the operands -/
theorem body_meant {e : CmpOp → Ty L → Ty L → V α → V α → Option Bool} {u : CmpOp → Ty L → Ty L → Bool} {op : CmpOp}
    {s t : Ty L} {x y : V α} {R : CmpOp → α → α → Bool} (h : SomeOption s t)
    (hx : x.HasTy s.depth s.base) (hy : y.HasTy t.depth t.base)
    (hn : (meant (kind s) (kind t)).needs u op s t = true)
    (he : ¬ WithNone s t → ∀ (s' t' : Ty L) (x' y' : V α), s'.base = s.base → t'.base = t.base → s'.depth ≤ s.depth →
      t'.depth ≤ t.depth → s'.depth + t'.depth < s.depth + t.depth → x'.HasTy s'.depth s'.base →
      y'.HasTy t'.depth t'.base → u op s' t' = true → e op s' t' x' y' = some (keyRel R op x'.key y'.key)) :
    (meant (kind s) (kind t)).body e op s t x y = some (keyRel R op x.key y.key) := by
  rcases s with ⟨m, b⟩
  rcases t with ⟨n, c⟩
  cases m with
  | zero => cases n with
    | zero => simp [SomeOption] at h
    | succ n =>
      cases b with
      | none =>
        cases x <;> simp only [V.HasTy] at hx
        have : (meant (kind (⟨0, .none⟩ : Ty L)) (kind ⟨n + 1, c⟩)) = .noneL := by
          simp [kind, Ty.isOpt, Ty.isNone, meant]
        rw [this]
        cases y <;> simp only [V.HasTy] at hy
        · simp only [Form.body, V.has, V.key, keyRel]
          cases op <;> rfl
        · rename_i v
          simp only [Form.body, V.has, V.key]
          cases v.key <;> cases op <;> simp [keyRel, natRel, noneVs]
      | leaf l =>
        have hk : (meant (kind (⟨0, .leaf l⟩ : Ty L)) (kind ⟨n + 1, c⟩)) = .right := by
          simp [kind, Ty.isOpt, Ty.isNone, meant]
        rw [hk] at hn ⊢
        have hw : ¬ WithNone (⟨0, .leaf l⟩ : Ty L) ⟨n + 1, c⟩ := by simp [WithNone]
        cases y <;> simp only [V.HasTy] at hy
        · cases x <;> simp only [V.HasTy] at hx
          simp only [Form.body, V.key, keyRel]
          cases op <;> rfl
        · rename_i v
          simp only [Form.body]
          refine (he hw ⟨0, .leaf l⟩ ⟨n, c⟩ x v rfl rfl (by simp) (by simp) (by simp) hx hy hn).trans ?_
          cases x <;> simp only [V.HasTy] at hx
          simp only [V.key]
          cases v.key <;> cases op <;> simp [keyRel, natRel]
  | succ m => cases n with
    | zero =>
      cases c with
      | none =>
        cases y <;> simp only [V.HasTy] at hy
        have : (meant (kind (⟨m + 1, b⟩ : Ty L)) (kind (⟨0, .none⟩ : Ty L))) = .noneR := by
          simp [kind, Ty.isOpt, Ty.isNone, meant]
        rw [this]
        cases x <;> simp only [V.HasTy] at hx
        · simp only [Form.body, V.has, V.key, keyRel]
          cases op <;> rfl
        · rename_i v
          simp only [Form.body, V.has, V.key]
          cases v.key <;> cases op <;> simp [keyRel, natRel, vsNone]
      | leaf l =>
        have hk : (meant (kind (⟨m + 1, b⟩ : Ty L)) (kind ⟨0, .leaf l⟩)) = .left := by
          simp [kind, Ty.isOpt, Ty.isNone, meant]
        rw [hk] at hn ⊢
        have hw : ¬ WithNone (⟨m + 1, b⟩ : Ty L) ⟨0, .leaf l⟩ := by simp [WithNone]
        cases x <;> simp only [V.HasTy] at hx
        · cases y <;> simp only [V.HasTy] at hy
          simp only [Form.body, V.key, keyRel]
          cases op <;> rfl
        · rename_i v
          simp only [Form.body]
          refine (he hw ⟨m, b⟩ ⟨0, .leaf l⟩ v y rfl rfl (by simp) (by simp) (by simp) hx hy hn).trans ?_
          cases y <;> simp only [V.HasTy] at hy
          simp only [V.key]
          cases v.key <;> cases op <;> simp [keyRel, natRel]
    | succ n =>
      have hk : (meant (kind (⟨m + 1, b⟩ : Ty L)) (kind ⟨n + 1, c⟩)) = .both := by
        simp [kind, Ty.isOpt, meant]
      rw [hk] at hn ⊢
      have hw : ¬ WithNone (⟨m + 1, b⟩ : Ty L) ⟨n + 1, c⟩ := by simp [WithNone]
      cases x <;> simp only [V.HasTy] at hx <;> cases y <;> simp only [V.HasTy] at hy
      · simp only [Form.body, V.has, V.key, keyRel]; cases op <;> rfl
      · rename_i v
        simp only [Form.body, V.has, V.key]
        cases v.key <;> cases op <;> simp [keyRel, natRel, CmpOp.onBool]
      · rename_i v
        simp only [Form.body, V.has, V.key]
        cases v.key <;> cases op <;> simp [keyRel, natRel, CmpOp.onBool]
      · rename_i v w
        simp only [Form.body]
        refine (he hw ⟨m, b⟩ ⟨n, c⟩ v w rfl rfl (by simp) (by simp) (by simp; omega) hx hy hn).trans ?_
        simp only [V.key]
        cases v.key <;> cases w.key <;> cases op <;> simp [keyRel, natRel]

theorem keyRel_congr {R R' : CmpOp → α → α → Bool} {op : CmpOp} (h : ∀ a b, R op a b = R' op a b) (i j : Nat ⊕ α) :
    keyRel R op i j = keyRel R' op i j := by
  cases i <;> cases j <;> simp [keyRel, h]

theorem keyRel_swap {R R' : CmpOp → α → α → Bool} (h : ∀ a b, R .eq a b = R' .eq b a) (i j : Nat ⊕ α) :
    keyRel R .eq i j = keyRel R' .eq j i := by
  cases i <;> cases j <;> simp only [keyRel, h, natRel_eq_comm]

theorem keyRel_not {R R' : CmpOp → α → α → Bool} (h : ∀ a b, R .ne a b = !R' .eq a b) (i j : Nat ⊕ α) :
    keyRel R .ne i j = !keyRel R' .eq i j := by
  cases i <;> cases j <;> simp only [keyRel, h, natRel_ne]

theorem leaves {s t : Ty L} (h : SomeOption s t) (hs : s.Wf) (ht : t.Wf) (hw : ¬ WithNone s t) :
    s.base ≠ .none ∧ t.base ≠ .none := by
  simp only [SomeOption, Ty.Wf, WithNone] at *
  constructor
  · intro e
    have hs' : s.depth = 0 := hs.elim id (fun h => absurd e h)
    exact hw (Or.inr ⟨by omega, hs', e⟩)
  · intro e
    have ht' : t.depth = 0 := ht.elim id (fun h => absurd e h)
    exact hw (Or.inl ⟨by omega, ht', e⟩)

theorem key_leaf {x : V α} {b : Base L} (h : x.HasTy 0 b) (hb : b ≠ .none) : ∃ a, x = .val a := by
  cases x <;> cases b <;> simp_all [V.HasTy]

theorem eval_base {lang : Lang} {ok : CmpOp → Base L → Base L → Bool}
    {rel : CmpOp → Base L → Base L → V α → V α → Bool} {k : Nat} {op : CmpOp} {s t : Ty L} (h : ¬ SomeOption s t)
    (hok : ok op s.base t.base = true) (x y : V α) :
    eval lang ok rel (k + 1) op s t x y = some (rel op s.base t.base x y) := by
  rw [eval, if_neg (fun e => h ((someOption_iff s t).1 e)), if_pos hok]

theorem eval_succ {lang : Lang} {ok : CmpOp → Base L → Base L → Bool}
    {rel : CmpOp → Base L → Base L → V α → V α → Bool} {k : Nat} {op : CmpOp} {s t : Ty L} {c : Cand} (h : SomeOption s t)
    (hb : best (viable lang (usable lang ok k) op s t) = some c) (x y : V α) :
    eval lang ok rel (k + 1) op s t x y = c.call (eval lang ok rel k) op s t x y := by
  rw [eval, if_pos ((someOption_iff s t).2 h), hb]

/-- the value of a comparison whose innermost types can be compared as written, in every version of the language -/
theorem eval_direct {lang : Lang} {ok : CmpOp → Base L → Base L → Bool}
    {rel : CmpOp → Base L → Base L → V α → V α → Bool} {k : Nat} {op : CmpOp} {s t : Ty L} {x y : V α}
    (hk : s.depth + t.depth < k) (h : (s.base ≠ .none ∧ t.base ≠ .none ∧ ok op s.base t.base = true) ∨ WithNone s t)
    (hx : x.HasTy s.depth s.base) (hy : y.HasTy t.depth t.base) :
    eval lang ok rel k op s t x y =
      some (keyRel (fun op a a' => rel op s.base t.base (.val a) (.val a')) op x.key y.key) := by
  induction k generalizing s t x y with
  | zero => omega
  | succ k ih =>
    by_cases ho : SomeOption s t
    · have hn : (meant (kind s) (kind t)).needs (usable lang ok k) op s t = true := by
        refine needs_meant ho fun hw s' t' hs ht _ _ hd => usable_direct (by omega) (Or.inl ?_)
        rw [hs, ht]
        exact (h.resolve_right hw).2.2
      rw [eval_succ ho (best_direct ho hn)]
      simp only [Cand.call, Cand.op, Bool.false_eq_true, if_false]
      refine body_meant (R := fun op a a' => rel op s.base t.base (.val a) (.val a')) ho hx hy hn ?_
      intro hw s' t' x' y' hs ht _ _ hd hx' hy' _
      have := ih (s := s') (t := t') (by omega) (Or.inl (by rw [hs, ht]; exact h.resolve_right hw)) hx' hy'
      rw [hs, ht] at this
      exact this
    · have hw : ¬ WithNone s t := fun hw => ho (by
        rcases hw with hw | hw
        · exact Or.inl hw.1
        · exact Or.inr hw.1)
      obtain ⟨h1, h2, h3⟩ := h.resolve_right hw
      rw [eval_base ho h3]
      simp only [SomeOption, not_or, Nat.not_le, Nat.lt_one_iff] at ho
      rw [ho.1] at hx
      rw [ho.2] at hy
      obtain ⟨a, rfl⟩ := key_leaf hx h1
      obtain ⟨a', rfl⟩ := key_leaf hy h2
      rfl

theorem cpp20_meant {nl nr : Bool} {s t : Ty L} (hw : ¬ WithNone s t) :
    (cpp20 nl nr).exchanged (meant (kind s) (kind t)) = true ∧ (cpp20 nl nr).negated (meant (kind s) (kind t)) = true := by
  rcases s with ⟨m, b⟩
  rcases t with ⟨n, c⟩
  cases m <;> cases n <;> cases b <;> cases c <;>
    simp_all [WithNone, kind, Ty.isOpt, Ty.isNone, meant, cpp20]

/-- which candidate is chosen in C++20 -/
theorem choice20 {nl nr : Bool} {ok : CmpOp → Base L → Base L → Bool} {k : Nat} {op : CmpOp} {s t : Ty L}
    (hk : s.depth + t.depth ≤ k) (ho : SomeOption s t) (hw : ¬ WithNone s t)
    (h : rewritable ok op s.base t.base = true) :
    let u := usable (cpp20 nl nr) ok k
    let f := meant (kind s) (kind t)
    let l := viable (cpp20 nl nr) u op s t
    (f.needs u op s t = true ∧ best l = some ⟨f, false, false⟩) ∨
    (op = .eq ∧ ok .eq s.base t.base = false ∧ ok .eq t.base s.base = true ∧ f.mirror.needs u .eq t s = true ∧
      best l = some ⟨f.mirror, true, false⟩) ∨
    (op = .ne ∧ ok .ne s.base t.base = false ∧ f.needs u .eq s t = true ∧
      best l = some ⟨f, false, true⟩) ∨
    (op = .ne ∧ ok .ne s.base t.base = false ∧ ok .eq s.base t.base = false ∧ ok .eq t.base s.base = true ∧
      f.mirror.needs u .eq t s = true ∧ best l = some ⟨f.mirror, true, true⟩) := by
  intro u f l
  have hw' : ¬ WithNone t s := fun e => hw e.symm
  have ho' : SomeOption t s := ho.symm
  have hdirect : ∀ op, ok op s.base t.base = true → f.needs u op s t = true := fun op hok =>
    needs_meant ho fun _ s' t' hs ht _ _ hd => usable_direct (by omega) (Or.inl (by rw [hs, ht]; exact hok))
  have hturned : ok .eq t.base s.base = true → f.mirror.needs u .eq t s = true := fun hok => by
    show (meant (kind s) (kind t)).mirror.needs u .eq t s = true
    rw [meant_mirror]
    exact needs_meant ho' fun _ s' t' hs ht _ _ hd => usable_direct (by omega) (Or.inl (by rw [hs, ht]; exact hok))
  have hf : f.pats = (meant (kind s) (kind t)).pats := rfl
  have hmem : ∀ c : Cand, c.pats = (meant (kind s) (kind t)).pats → (c ∈ l ↔ c ∈ candidates (cpp20 nl nr) op ∧
      (if c.rev then c.form.needs u (c.op op) t s else c.form.needs u (c.op op) s t) = true) := by
    intro c hc
    show c ∈ List.filter _ _ ↔ _
    rw [List.mem_filter, viable_meant u op hc ho]
  by_cases hd : f.needs u op s t = true
  · exact Or.inl ⟨hd, best_direct ho hd⟩
  refine Or.inr ?_
  have hnok : ok op s.base t.base = false := by
    rw [Bool.eq_false_iff]; exact fun e => hd (hdirect op e)
  have hex := (cpp20_meant (nl := nl) (nr := nr) hw)
  have hexm : (cpp20 nl nr).exchanged f.mirror = true ∧ (cpp20 nl nr).negated f.mirror = true := by
    show (cpp20 nl nr).exchanged (meant (kind s) (kind t)).mirror = true ∧ _
    rw [meant_mirror]
    exact cpp20_meant hw'
  have hmp := mirror_pats (kind s) (kind t)
  cases op with
  | eq =>
    refine Or.inl ⟨rfl, hnok, ?_⟩
    have hok : ok .eq t.base s.base = true := by simpa [rewritable, hnok] using h
    refine ⟨hok, hturned hok, ?_⟩
    refine best_meant ho (hmp false) ?_ ?_
    · refine (hmem _ (hmp false)).2 ⟨(mem_candidates_eq _ _).2 ⟨rfl, fun _ => hexm.1⟩, ?_⟩
      simpa [Cand.op] using hturned hok
    · intro d hdm hdp
      obtain ⟨hc, hn⟩ := (hmem d hdp).1 hdm
      have hneg := ((mem_candidates_eq _ _).1 hc).1
      rcases d with ⟨g, r, n⟩
      simp only at hneg
      subst hneg
      rcases pats_meant hdp with ⟨hr, hg⟩ | ⟨hr, hg⟩ <;> simp only at hr hg <;> subst hr <;> subst hg
      · exact absurd (by simpa [Cand.op] using hn) hd
      · exact Or.inl rfl
  | ne =>
    refine Or.inr ?_
    by_cases hd' : f.needs u .eq s t = true
    · refine Or.inl ⟨rfl, hnok, hd', ?_⟩
      refine best_meant ho rfl ?_ ?_
      · refine (hmem _ rfl).2 ⟨(mem_candidates_ne _ _).2 (Or.inr ⟨rfl, hex.2, by simp⟩), ?_⟩
        simpa [Cand.op] using hd'
      · intro d hdm hdp
        obtain ⟨hc, hn⟩ := (hmem d hdp).1 hdm
        rcases d with ⟨g, r, n⟩
        rcases pats_meant hdp with ⟨hr, hg⟩ | ⟨hr, hg⟩ <;> simp only at hr hg <;> subst hr <;> subst hg <;> cases n
        · exact absurd (by simpa [Cand.op] using hn) hd
        · exact Or.inl rfl
        · have := (mem_candidates_ne _ _).1 hc; simp at this
        · exact Or.inr (Or.inr ⟨rfl, rfl, rfl⟩)
    · have hnok' : ok .eq s.base t.base = false := by
        rw [Bool.eq_false_iff]; exact fun e => hd' (hdirect _ e)
      have hok : ok .eq t.base s.base = true := by simpa [rewritable, hnok, hnok'] using h
      refine Or.inr ⟨rfl, hnok, hnok', hok, hturned hok, ?_⟩
      refine best_meant ho (hmp true) ?_ ?_
      · refine (hmem _ (hmp true)).2 ⟨(mem_candidates_ne _ _).2 (Or.inr ⟨rfl, hexm.2, fun _ => hexm.1⟩), ?_⟩
        simpa [Cand.op] using hturned hok
      · intro d hdm hdp
        obtain ⟨hc, hn⟩ := (hmem d hdp).1 hdm
        rcases d with ⟨g, r, n⟩
        rcases pats_meant hdp with ⟨hr, hg⟩ | ⟨hr, hg⟩ <;> simp only at hr hg <;> subst hr <;> subst hg <;> cases n
        · exact absurd (by simpa [Cand.op] using hn) hd
        · exact absurd (by simpa [Cand.op] using hn) hd'
        · have := (mem_candidates_ne _ _).1 hc; simp at this
        · exact Or.inl rfl
  | lt => simp [rewritable, hnok] at h
  | le => simp [rewritable, hnok] at h
  | gt => simp [rewritable, hnok] at h
  | ge => simp [rewritable, hnok] at h

theorem usable20 {nl nr : Bool} {ok : CmpOp → Base L → Base L → Bool} {k : Nat} {op : CmpOp} {s t : Ty L}
    (hk : s.depth + t.depth < k) (ho : SomeOption s t) (h : rewritable ok op s.base t.base = true ∨ WithNone s t) :
    usable (cpp20 nl nr) ok k op s t = true := by
  cases k with
  | zero => omega
  | succ k =>
    by_cases hw : WithNone s t
    · exact usable_direct hk (Or.inr hw)
    · rw [usable_succ ho]
      rcases choice20 (nl := nl) (nr := nr) (k := k) (by omega) ho hw (h.resolve_right hw) with h | h | h | h
      · rw [h.2]; rfl
      · rw [h.2.2.2.2]; rfl
      · rw [h.2.2.2]; rfl
      · rw [h.2.2.2.2.2]; rfl

theorem ok_rewritable {ok : CmpOp → Base L → Base L → Bool} (op : CmpOp) (b c : Base L) (h : ok op b c = true) :
    rewritable ok op b c = true := by
  cases op <;> simp [rewritable, h]

theorem candidates_rewritable {ok : CmpOp → Base L → Base L → Bool} {lang : Lang} (op : CmpOp) :
    ∀ c ∈ candidates lang op, ∀ b b', (if c.rev then rewritable ok (c.op op) b' b else rewritable ok (c.op op) b b') = true →
      rewritable ok op b b' = true := by
  rintro ⟨f, r, n⟩ hc b b' h
  cases op with
  | eq =>
    rw [mem_candidates_eq] at hc
    cases r <;> simp_all [Cand.op, rewritable, Bool.or_comm]
  | ne =>
    rw [mem_candidates_ne] at hc
    cases r <;> cases n <;> simp_all [Cand.op, rewritable]
    · rcases h with h | h <;> simp [h]
    · rcases h with h | h <;> simp [h]
  | lt => rw [mem_candidates_ord _ (by decide) (by decide)] at hc; simp_all [Cand.op]
  | le => rw [mem_candidates_ord _ (by decide) (by decide)] at hc; simp_all [Cand.op]
  | gt => rw [mem_candidates_ord _ (by decide) (by decide)] at hc; simp_all [Cand.op]
  | ge => rw [mem_candidates_ord _ (by decide) (by decide)] at hc; simp_all [Cand.op]

theorem candidates17 {ok : CmpOp → Base L → Base L → Bool} (op : CmpOp) :
    ∀ c ∈ candidates cpp17 op, ∀ b b', (if c.rev then ok (c.op op) b' b else ok (c.op op) b b') = true →
      ok op b b' = true := by
  rintro ⟨f, r, n⟩ hc b b' h
  cases op with
  | eq =>
    rw [mem_candidates_eq] at hc
    cases r <;> simp_all [Cand.op, cpp17]
  | ne =>
    rw [mem_candidates_ne] at hc
    cases r <;> cases n <;> simp_all [Cand.op, cpp17]
  | lt => rw [mem_candidates_ord _ (by decide) (by decide)] at hc; simp_all [Cand.op]
  | le => rw [mem_candidates_ord _ (by decide) (by decide)] at hc; simp_all [Cand.op]
  | gt => rw [mem_candidates_ord _ (by decide) (by decide)] at hc; simp_all [Cand.op]
  | ge => rw [mem_candidates_ord _ (by decide) (by decide)] at hc; simp_all [Cand.op]

/-- the value of a comparison in C++20, for innermost types other than `none_t` -/
theorem eval20 {nl nr : Bool} {ok : CmpOp → Base L → Base L → Bool}
    {rel : CmpOp → Base L → Base L → V α → V α → Bool} {k : Nat} {op : CmpOp} {s t : Ty L} {x y : V α}
    (hk : s.depth + t.depth < k) (hs : s.base ≠ .none) (ht : t.base ≠ .none)
    (hu : usable (cpp20 nl nr) ok k op s t = true)
    (hx : x.HasTy s.depth s.base) (hy : y.HasTy t.depth t.base) :
    eval (cpp20 nl nr) ok rel k op s t x y = some (keyRel (meaning ok rel s.base t.base) op x.key y.key) := by
  induction k generalizing op s t x y with
  | zero => omega
  | succ k ih =>
    by_cases ho : SomeOption s t
    · have hw : ¬ WithNone s t := by
        rintro (h | h)
        · exact ht h.2.2
        · exact hs h.2.2
      have hs' : s.Wf := Or.inr hs
      have ht' : t.Wf := Or.inr ht
      have hr : rewritable ok op s.base t.base = true := by
        rw [← Bool.not_eq_false]
        intro e
        rw [(viable_nil ok_rewritable candidates_rewritable hs' ht' hw e).1] at hu
        cases hu
      have sub : ∀ (op' : CmpOp) (s t : Ty L) (x y : V α), s.base ≠ .none → t.base ≠ .none → SomeOption s t →
          s.depth + t.depth < k + 1 → x.HasTy s.depth s.base → y.HasTy t.depth t.base →
          (meant (kind s) (kind t)).needs (usable (cpp20 nl nr) ok k) op' s t = true →
          (meant (kind s) (kind t)).body (eval (cpp20 nl nr) ok rel k) op' s t x y =
            some (keyRel (meaning ok rel s.base t.base) op' x.key y.key) := by
        intro op' s t x y hs ht ho hk hx hy hn
        refine body_meant ho hx hy hn ?_
        intro _ s' t' x' y' hbs hbt _ _ hd hx' hy' hu'
        have := ih (op := op') (s := s') (t := t') (by omega) (hbs ▸ hs) (hbt ▸ ht) hu' hx' hy'
        rw [hbs, hbt] at this
        exact this
      rcases choice20 (nl := nl) (nr := nr) (k := k) (by omega) ho hw hr with ⟨hn, hb⟩ | ⟨rfl, h1, h2, hn, hb⟩ |
        ⟨rfl, h1, hn, hb⟩ | ⟨rfl, h1, h2, h3, hn, hb⟩
      · rw [eval_succ ho hb]
        simp only [Cand.call, Cand.op, Bool.false_eq_true, if_false]
        exact sub op s t x y hs ht ho hk hx hy hn
      · rw [eval_succ ho hb]
        simp only [Cand.call, Cand.op, Bool.false_eq_true, if_false, if_true]
        rw [meant_mirror] at hn ⊢
        rw [sub .eq t s y x ht hs ho.symm (by omega) hy hx hn]
        rw [keyRel_swap (R := meaning ok rel s.base t.base) (R' := meaning ok rel t.base s.base)]
        intro a b
        simp [meaning, h1, h2]
      · rw [eval_succ ho hb]
        simp only [Cand.call, Cand.op, Bool.false_eq_true, if_false, if_true]
        rw [sub .eq s t x y hs ht ho hk hx hy hn, Option.map_some]
        rw [keyRel_not (R := meaning ok rel s.base t.base) (R' := meaning ok rel s.base t.base)]
        intro a b
        simp only [meaning, h1, Bool.false_eq_true, if_false]
        split <;> rfl
      · rw [eval_succ ho hb]
        simp only [Cand.call, Cand.op, if_true]
        rw [meant_mirror] at hn ⊢
        rw [sub .eq t s y x ht hs ho.symm (by omega) hy hx hn, Option.map_some]
        rw [keyRel_not (R := meaning ok rel s.base t.base) (R' := meaning ok rel s.base t.base),
          keyRel_swap (R := meaning ok rel s.base t.base) (R' := meaning ok rel t.base s.base)]
        · intro a b
          simp [meaning, h2, h3]
        · intro a b
          simp [meaning, h1, h2]
    · rw [usable_base ho] at hu
      rw [eval_base ho hu]
      simp only [SomeOption, not_or, Nat.not_le, Nat.lt_one_iff] at ho
      rw [ho.1] at hx
      rw [ho.2] at hy
      obtain ⟨a, rfl⟩ := key_leaf hx hs
      obtain ⟨a', rfl⟩ := key_leaf hy ht
      cases op <;> simp [V.key, keyRel, meaning, hu]

end Opt.CmpSel
