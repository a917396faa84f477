import Verif.Spec.ConstEval

/-! # Steps in constant expressions follow the plain meaning -/

namespace Opt.ConstEval

variable {V : Type}

def Act.isVal : Act V → Bool
  | .value _ => true
  | _ => false

/-- an object in a constant expression stands for an optional value -/
def Rel (c : Cls V) (o : Obj V) (x : Option V) : Prop :=
  match c.storage with
  | .flag => o.flag = x.isSome ∧ ∀ v, x = some v → o.act = .value v
  | .ref => (o.act = .dummy ∧ x = none) ∨ ∃ v, o.act = .value v ∧ x = some v
  | .assign _ isSent => ∃ w, o.act = .value w ∧ x = if isSent w then none else some w
  | .opaque => False

/-- the same, with what is known about the storage in C++17 -/
structure Cell (k : Cfg) (c : Cls V) (o : Obj V) (x : Option V) (b : Bool) : Prop where
  rel : Rel c o x
  lit : literal k c = true
  used : k.cxx20 = false → c.storage ≠ .ref → b = o.act.isVal

section
variable {k : Cfg} {c : Cls V} {o : Obj V} {x : Option V} {b : Bool} {v : V}

theorem Rel.act (h : Rel c o (some v)) : o.act = .value v := by
  unfold Rel at h
  split at h
  · exact h.2 v rfl
  · rcases h with ⟨_, h⟩ | ⟨w, h, h2⟩
    · cases h
    · cases h2; exact h
  · obtain ⟨w, h, h2⟩ := h
    split at h2
    · cases h2
    · cases h2; exact h
  · exact h.elim

theorem Rel.read (h : Rel c o (some v)) : o.act.read = some v := by rw [h.act]; rfl

theorem Rel.legal (h : Rel c o (some v)) : c.legal v = true := by
  unfold Rel at h
  unfold Cls.legal
  match hs : c.storage with
  | .flag => rfl
  | .ref => rfl
  | .opaque => rfl
  | .assign _ isSent =>
    rw [hs] at h
    obtain ⟨w, _, h2⟩ := h
    dsimp only
    split at h2
    · cases h2
    · cases h2; simp_all

theorem Rel.has (h : Rel c o x) : hasValue c o = some x.isSome := by
  unfold Rel at h
  unfold hasValue
  split at h <;> rename_i hs <;> simp only [hs]
  · rw [h.1]
  · rcases h with ⟨h, rfl⟩ | ⟨w, h, rfl⟩ <;> rw [h] <;> rfl
  · obtain ⟨w, h, rfl⟩ := h
    rw [h]
    by_cases hw : ‹V → Bool› w <;> simp [Act.read, hw]
  · exact h.elim

theorem Rel.get (h : Rel c o x) (e : k.evalVerify = true ∨ x.isSome = true) : get k c o = x := by
  unfold ConstEval.get verify
  rw [h.has]
  cases x with
  | some v => simp [h.read]
  | none => simp at e; simp [e]

theorem Rel.noOpaque (h : Rel c o x) : c.storage ≠ .opaque := by
  unfold Rel at h; intro hs; rw [hs] at h; exact h

theorem Cell.usedFull (h : Cell k c o (some v) b) (h17 : k.cxx20 = false) (hr : c.storage ≠ .ref) : b = true := by
  rw [h.used h17 hr, h.rel.act]; rfl

theorem constructAt_eq (h : Cell k c o x b) (hr : c.storage ≠ .ref) :
    constructAt k c o.act v = if fillOk k c b then some (.value v) else none := by
  unfold constructAt
  have hf : fillOk k c b = (k.cxx20 || (c.trivMoveAssign && b)) := by
    unfold fillOk; split
    · rename_i hs; exact absurd hs hr
    · rfl
  rw [hf]
  cases hc : k.cxx20
  · have hb := h.used hc hr
    subst hb
    cases c.trivMoveAssign <;> cases o.act <;> simp [Act.isVal]
  · simp

theorem Cell.construct (h : Cell k c o x b) (e : k.evalVerify = true ∨ c.legal v = true) :
    if fillOk k c b && c.legal v then ∃ o', construct k c o v = some o' ∧ Cell k c o' (some v) b
    else construct k c o v = none := by
  have hno := h.rel.noOpaque
  unfold ConstEval.construct
  match hs : c.storage with
  | .ref =>
    have hg : (fillOk k c b && c.legal v) = true := by simp [fillOk, hs, Cls.legal]
    simp only [hg, if_true]
    refine ⟨_, rfl, ⟨?_, h.lit, ?_⟩⟩
    · unfold Rel; rw [hs]; exact .inr ⟨v, rfl, rfl⟩
    · intro _ hr; exact absurd hs hr
  | .flag =>
    have hr : c.storage ≠ .ref := by rw [hs]; nofun
    rw [constructAt_eq h hr]
    have hl : c.legal v = true := by simp [Cls.legal, hs]
    rw [hl]
    cases hf : fillOk k c b
    · simp
    · simp only [Bool.and_self, if_true]
      refine ⟨_, rfl, ⟨?_, h.lit, ?_⟩⟩
      · unfold Rel; rw [hs]; exact ⟨rfl, fun w hw => by cases hw; rfl⟩
      · intro h17 _
        simp [fillOk, hs, h17] at hf
        simp [Act.isVal, hf.2]
  | .opaque => exact absurd hs hno
  | .assign sent isSent =>
      have hr : c.storage ≠ .ref := by rw [hs]; nofun
      rw [constructAt_eq h hr]
      have hl : c.legal v = !isSent v := by simp [Cls.legal, hs]
      cases hf : fillOk k c b
      · simp
      · simp only [if_true, Option.bind_eq_bind, Option.bind_some, Bool.true_and]
        have hv : hasValue c { o with act := .value v } = some (!isSent v) := by simp [hasValue, hs, Act.read]
        rw [hv, hl]
        cases hsv : isSent v
        · simp only [Bool.not_false, if_true]
          refine ⟨{ o with act := .value v }, by simp [verify], ⟨?_, h.lit, ?_⟩⟩
          · unfold Rel; rw [hs]; exact ⟨v, rfl, by simp [hsv]⟩
          · intro h17 _
            simp [fillOk, hs, h17] at hf
            simp [Act.isVal, hf.2]
        · simp only [Bool.not_true, Bool.false_eq_true, if_false]
          rw [hl, hsv] at e
          simp at e
          simp [verify, e]

theorem born (hno : c.storage ≠ .opaque) :
    if bornOk k c then ∃ o', defaultInit k c = some o' ∧ Cell k c o' none false else defaultInit k c = none := by
  unfold bornOk defaultInit literal
  cases hl : (k.cxx20 || c.trivDtor)
  · simp
  · match hs : c.storage with
    | .flag =>
      simp only [Bool.and_self, if_true]
      exact ⟨_, rfl, ⟨by unfold Rel; rw [hs]; exact ⟨rfl, nofun⟩, hl, fun _ _ => rfl⟩⟩
    | .ref =>
      simp only [Bool.and_self, if_true]
      exact ⟨_, rfl, ⟨by unfold Rel; rw [hs]; exact .inl ⟨rfl, rfl⟩, hl, fun _ _ => rfl⟩⟩
    | .assign _ _ => simp [setLevel0, hs]
    | .opaque => exact absurd hs hno

theorem made (hno : c.storage ≠ .opaque) (e : k.evalVerify = true ∨ c.legal v = true) :
    if makeOk k c true && c.legal v then ∃ o', initValue k c v = some o' ∧ Cell k c o' (some v) true
    else initValue k c v = none := by
  unfold makeOk initValue literal
  simp only [if_true]
  cases hl : (k.cxx20 || c.trivDtor)
  · simp
  · match hs : c.storage with
    | .flag =>
      simp only [Bool.true_and, if_true, Cls.legal, hs]
      exact ⟨_, rfl, ⟨by unfold Rel; rw [hs]; exact ⟨rfl, fun w hw => by cases hw; rfl⟩, hl, fun _ _ => rfl⟩⟩
    | .ref =>
      simp only [Bool.true_and, if_true, Cls.legal, hs]
      exact ⟨_, rfl, ⟨by unfold Rel; rw [hs]; exact .inr ⟨_, rfl, rfl⟩, hl, fun _ _ => rfl⟩⟩
    | .opaque => exact absurd hs hno
    | .assign sent isSent =>
      have hlv : c.legal v = !isSent v := by simp [Cls.legal, hs]
      have hv : hasValue c ⟨.value v, false⟩ = some (!isSent v) := by simp [hasValue, hs, Act.read]
      simp only [hlv, hv, if_true, Bool.true_and]
      rw [hlv] at e
      cases hsv : isSent v
      · simp only [Bool.not_false, if_true]
        exact ⟨⟨.value v, false⟩, by simp [verify],
          ⟨by unfold Rel; rw [hs]; exact ⟨v, rfl, by simp [hsv]⟩, hl, fun _ _ => rfl⟩⟩
      · simp [hsv] at e
        simp [verify, e]

theorem Cell.reset (hw : c.WF) (h : Cell k c o x b) :
    if resetOk c x.isSome then ∃ o', reset k c o = some o' ∧ Cell k c o' none b else reset k c o = none := by
  have hno := h.rel.noOpaque
  unfold ConstEval.reset resetOk
  match hs : c.storage with
  | .flag =>
    simp only [if_true]
    have hr := h.rel
    unfold Rel at hr
    rw [hs] at hr
    cases ht : c.trivDtor
    · have h20 : k.cxx20 = true := by have := h.lit; simp [literal, ht] at this; exact this
      cases x with
      | none =>
        simp at hr
        simp only [hr, Bool.false_eq_true, if_false]
        exact ⟨o, rfl, h.rel, h.lit, h.used⟩
      | some v =>
        simp at hr
        simp only [hr, if_true, Bool.false_eq_true, if_false, destroyAct]
        exact ⟨_, rfl, ⟨by unfold Rel; rw [hs]; exact ⟨rfl, nofun⟩, h.lit, by simp [h20]⟩⟩
    · simp only [if_true]
      exact ⟨_, rfl, ⟨by unfold Rel; rw [hs]; exact ⟨rfl, nofun⟩, h.lit, h.used⟩⟩
  | .ref =>
    simp only [if_true]
    exact ⟨_, rfl, ⟨by unfold Rel; rw [hs]; exact .inl ⟨rfl, rfl⟩, h.lit, fun _ hr => absurd hs hr⟩⟩
  | .opaque => exact absurd hs hno
  | .assign sent isSent =>
    have hr := h.rel
    unfold Rel at hr
    rw [hs] at hr
    obtain ⟨w, ha, hx⟩ := hr
    have hsent := hw.sent _ _ hs
    cases ht : c.trivDtor
    · have h20 : k.cxx20 = true := by have := h.lit; simp [literal, ht] at this; exact this
      simp only [h.rel.has, Bool.false_or, Bool.false_eq_true, if_false]
      cases hi : x.isSome
      · simp only [Bool.not_false, if_true]
        refine ⟨o, by simp, ⟨?_, h.lit, h.used⟩⟩
        have : x = none := by simpa using hi
        rw [← this]; exact h.rel
      · simp [ha, destroyAct, setLevel0, hs]
    · simp only [Bool.true_or, if_true]
      refine ⟨⟨.value sent, o.flag⟩, ?_, ⟨?_, h.lit, ?_⟩⟩
      · simp [setLevel0, hs, ha, hasValue, Act.read, hsent, verify]
      · unfold Rel; rw [hs]; exact ⟨sent, rfl, by simp [hsent]⟩
      · intro h17 hr'; rw [h.used h17 hr', ha]; rfl

theorem Cell.leave (hw : c.WF) (h : Cell k c o x b) : Cell k c (leave c o) (x.map c.moved) b := by
  unfold ConstEval.leave
  rw [h.rel.has]
  cases x with
  | none => exact h
  | some v =>
    have ha := h.rel.act
    have hl := hw.left v h.rel.legal
    simp only [Option.isSome_some, ha, Option.map_some]
    refine ⟨?_, h.lit, ?_⟩
    · have hno := h.rel.noOpaque
      have hr := h.rel
      unfold Rel at hr ⊢
      match hs : c.storage with
      | .flag => rw [hs] at hr; exact ⟨hr.1, fun w hw => by cases hw; rfl⟩
      | .ref => exact .inr ⟨_, rfl, rfl⟩
      | .assign _ isSent =>
        simp [Cls.legal, hs] at hl
        exact ⟨_, rfl, by simp [hl]⟩
      | .opaque => exact absurd hs hno
    · intro h17 hr; rw [h.used h17 hr, ha]; rfl

theorem Cell.assigned (h : Cell k c o (some v) b) {w : V} (hl : c.legal w = true) :
    Cell k c { o with act := .value w } (some w) b := by
  have hno := h.rel.noOpaque
  refine ⟨?_, h.lit, ?_⟩
  · have hr := h.rel
    unfold Rel at hr ⊢
    match hs : c.storage with
    | .flag => rw [hs] at hr; exact ⟨hr.1, fun w hw => by cases hw; rfl⟩
    | .ref => exact .inr ⟨_, rfl, rfl⟩
    | .assign _ isSent =>
      simp [Cls.legal, hs] at hl
      exact ⟨_, rfl, by simp [hl]⟩
    | .opaque => exact absurd hs hno
  · intro h17 hr; rw [h.used h17 hr, h.rel.act]; rfl

theorem Cell.copyCtor (hw : c.WF) (h : Cell k c o x b) :
    if copyOk k c c.trivCopyCtor x.isSome then ∃ o', copyCtor k c o = some o' ∧ Cell k c o' x (c.trivCopyCtor && b)
    else copyCtor k c o = none := by
  have hno := h.rel.noOpaque
  unfold ConstEval.copyCtor copyOk Cls.copyCtorTriv
  cases ht : c.trivCopyCtor
  · simp only [Bool.false_eq_true, if_false, Bool.false_and]
    have hb := born (k := k) hno
    cases hbo : bornOk k c
    · simp only [hbo, Bool.false_eq_true, if_false] at hb
      simp [hb]
    · simp only [hbo, if_true] at hb
      obtain ⟨o1, ho1, hc1⟩ := hb
      simp only [ho1, h.rel.has, Option.bind_eq_bind, Option.bind_some, Bool.true_and]
      cases x with
      | none => simpa using hc1
      | some v =>
        have := hc1.construct (v := v) (.inr h.rel.legal)
        simp only [h.rel.legal, Bool.and_true] at this
        simp only [h.rel.read, Option.isSome_some, if_true, Option.bind_some, Bool.not_true, Bool.false_or]
        exact this
  · have hd := hw.copy ht
    simp only [if_true, Bool.true_and, literal, hd, Bool.or_true]
    exact ⟨o, rfl, h⟩

theorem Cell.moveCtor (hw : c.WF) (h : Cell k c o x b) :
    if copyOk k c c.trivMoveCtor x.isSome then
      ∃ o' s', moveCtor k c o = some (o', s') ∧ Cell k c o' x (c.trivMoveCtor && b) ∧ Cell k c s' (x.map c.moved) b
    else moveCtor k c o = none := by
  have hno := h.rel.noOpaque
  unfold ConstEval.moveCtor copyOk Cls.moveCtorTriv
  cases ht : c.trivMoveCtor
  · simp only [Bool.false_eq_true, if_false, Bool.false_and]
    have hb := born (k := k) hno
    cases hbo : bornOk k c
    · simp only [hbo, Bool.false_eq_true, if_false] at hb
      simp [hb]
    · simp only [hbo, if_true] at hb
      obtain ⟨o1, ho1, hc1⟩ := hb
      simp only [ho1, h.rel.has, Option.bind_eq_bind, Option.bind_some, Bool.true_and]
      cases x with
      | none => exact ⟨o1, o, by simp, hc1, h⟩
      | some v =>
        have := hc1.construct (v := v) (.inr h.rel.legal)
        simp only [h.rel.legal, Bool.and_true] at this
        simp only [h.rel.read, Option.isSome_some, if_true, Option.bind_some, Bool.not_true, Bool.false_or]
        cases hf : fillOk k c false
        · simp only [hf, Bool.false_eq_true, if_false] at this
          simp [this]
        · simp only [hf, if_true] at this
          obtain ⟨o2, ho2, hc2⟩ := this
          simp only [ho2, if_true]
          exact ⟨o2, _, rfl, hc2, h.leave hw⟩
  · have hd := hw.move ht
    simp only [if_true, Bool.true_and, literal, hd, Bool.or_true]
    refine ⟨o, o, rfl, h, ?_⟩
    have : x.map c.moved = x := by cases x <;> simp [hw.same ht]
    rw [this]; exact h

theorem Cell.destroy (h : Cell k c o x b) : destroy c o = some () := by
  have hno := h.rel.noOpaque
  unfold ConstEval.destroy
  cases ht : c.trivDtor
  · have hh := h.rel.has
    match hs : c.storage with
    | .flag =>
      simp [hasValue, hs] at hh
      cases x with
      | none => simp [hh]
      | some v => simp [hh, h.rel.act, destroyAct]
    | .ref => simp
    | .opaque => exact absurd hs hno
    | .assign _ _ =>
      simp only [hh, Bool.false_eq_true, if_false]
      cases x with
      | none => simp
      | some v => simp [h.rel.act, destroyAct]
  · simp

theorem Cell.take (hw : c.WF) (h : Cell k c o x b) :
    if copyOk k c c.trivMoveCtor x.isSome && resetOk c x.isSome then
      ∃ r s', take k c o = some (r, s') ∧ Cell k c r x (c.trivMoveCtor && b) ∧ Cell k c s' none b
    else take k c o = none := by
  unfold ConstEval.take
  have h1 := h.moveCtor hw
  cases hc : copyOk k c c.trivMoveCtor x.isSome
  · simp only [hc, Bool.false_eq_true, if_false] at h1
    simp [h1]
  · simp only [hc, if_true] at h1
    obtain ⟨t, s, hm, ht, hs⟩ := h1
    have h2 := hs.reset hw
    have hi : (x.map c.moved).isSome = x.isSome := by cases x <;> rfl
    rw [hi] at h2
    have h3 := ht.moveCtor hw
    simp only [hc, if_true] at h3
    obtain ⟨r, t', hm2, hr, ht'⟩ := h3
    cases hr' : resetOk c x.isSome
    · simp only [hr', Bool.false_eq_true, if_false] at h2
      simp [hm, h2]
    · simp only [hr', if_true] at h2
      obtain ⟨s2, hs2, hcs2⟩ := h2
      simp only [Bool.and_self, if_true]
      refine ⟨r, s2, ?_, ?_, hcs2⟩
      · simp [hm, hs2, hm2, ht'.destroy]
      · have : (c.trivMoveCtor && (c.trivMoveCtor && b)) = (c.trivMoveCtor && b) := by cases c.trivMoveCtor <;> rfl
        rw [this] at hr; exact hr

/-- `construct`, ready for use -/
theorem Cell.construct_ok (h : Cell k c o x b) (hl : c.legal v = true) (hf : fillOk k c b = true) :
    ∃ o', ConstEval.construct k c o v = some o' ∧ Cell k c o' (some v) b := by
  have := h.construct (v := v) (.inr hl)
  simpa [hl, hf] using this

theorem Cell.construct_no (h : Cell k c o x b) (e : k.evalVerify = true ∨ c.legal v = true)
    (hf : fillOk k c b = false ∨ c.legal v = false) : ConstEval.construct k c o v = none := by
  have := h.construct e
  have hc : (fillOk k c b && c.legal v) = false := by rcases hf with h | h <;> simp [h]
  simpa [hc] using this

/-- a new value for an option that has one -/
theorem Cell.assignAct (h : Cell k c o (some v) b) (w : V) : assignAct o.act w = some (.value w) := by
  rw [h.rel.act]; rfl

theorem wholeCopy_eq (c : Cls V) : wholeCopy c = c.copyAssignTriv := rfl

theorem wholeMove_eq (c : Cls V) : wholeMove c = c.moveAssignTriv := rfl

theorem Cell.assignCopy (hw : c.WF) {o2 : Obj V} {y : Option V} {b2 : Bool} (h : Cell k c o x b) (h2 : Cell k c o2 y b2) :
    if wholeCopy c || (if y.isSome then x.isSome || fillOk k c b else resetOk c x.isSome) then
      ∃ o', assignCopy k c o o2 = some o' ∧ Cell k c o' y (if wholeCopy c then b2 else b)
    else assignCopy k c o o2 = none := by
  rw [wholeCopy_eq]
  unfold ConstEval.assignCopy
  cases ht : c.copyAssignTriv
  · simp only [Bool.false_or, Bool.false_eq_true, if_false, h2.rel.has, h.rel.has, Option.bind_eq_bind, Option.bind_some]
    cases y with
    | none => simpa using h.reset hw
    | some w =>
      simp only [Option.isSome_some, if_true, h2.rel.read, Option.bind_some]
      cases x with
      | some v =>
        simp only [Option.isSome_some, if_true, Bool.true_or, h.assignAct, Option.bind_some]
        exact ⟨_, rfl, h.assigned h2.rel.legal⟩
      | none =>
        simp only [Option.isSome_none, Bool.false_or, Bool.false_eq_true, if_false]
        cases hf : fillOk k c b
        · simpa using h.construct_no (.inr h2.rel.legal) (.inl hf)
        · simpa using h.construct_ok h2.rel.legal hf
  · simp only [Bool.true_or, if_true]
    exact ⟨o2, rfl, h2⟩

theorem Cell.assignMove (hw : c.WF) {o2 : Obj V} {y : Option V} {b2 : Bool} (h : Cell k c o x b) (h2 : Cell k c o2 y b2) :
    if wholeMove c || (if y.isSome then x.isSome || fillOk k c b else resetOk c x.isSome) then
      ∃ o' s', assignMove k c o o2 = some (o', s') ∧ Cell k c o' y (if wholeMove c then b2 else b) ∧
        Cell k c s' (y.map c.moved) b2
    else assignMove k c o o2 = none := by
  rw [wholeMove_eq]
  unfold ConstEval.assignMove
  cases ht : c.moveAssignTriv
  · simp only [Bool.false_or, Bool.false_eq_true, if_false, h2.rel.has, h.rel.has, Option.bind_eq_bind, Option.bind_some]
    cases y with
    | none =>
      have := h.reset hw
      simp only [Option.isSome_none, Bool.false_eq_true, if_false]
      cases hr : resetOk c x.isSome
      · simp only [hr, Bool.false_eq_true, if_false] at this
        simp [this]
      · simp only [hr, if_true] at this
        obtain ⟨o', ho, hc⟩ := this
        simp only [if_true, ho]
        exact ⟨o', o2, rfl, hc, h2⟩
    | some w =>
      simp only [Option.isSome_some, if_true, h2.rel.read, Option.bind_some]
      cases x with
      | some v =>
        simp only [Option.isSome_some, if_true, Bool.true_or, h.assignAct, Option.bind_some]
        exact ⟨_, _, rfl, h.assigned h2.rel.legal, h2.leave hw⟩
      | none =>
        simp only [Option.isSome_none, Bool.false_or, Bool.false_eq_true, if_false]
        cases hf : fillOk k c b
        · simp [h.construct_no (.inr h2.rel.legal) (.inl hf)]
        · obtain ⟨o', ho, hc⟩ := h.construct_ok h2.rel.legal hf
          simp only [if_true, ho]
          exact ⟨o', _, rfl, hc, h2.leave hw⟩
  · simp only [Bool.true_or, if_true]
    refine ⟨o2, o2, rfl, h2, ?_⟩
    have hm : c.trivMoveCtor = true := by unfold Cls.moveAssignTriv at ht; simp_all
    have : y.map c.moved = y := by cases y <;> simp [hw.same hm]
    rw [this]; exact h2

theorem checkedVerify (h : Cell k c o (some v) b) (w : V) (e : k.evalVerify = true ∨ c.legal w = true) :
    verify k (hasValue c { o with act := .value w }) = if c.legal w then some () else none := by
  have hno := h.rel.noOpaque
  cases hl : c.legal w
  · match hs : c.storage with
    | .assign _ isSent =>
      simp [Cls.legal, hs] at hl
      simp [Cls.legal, hs, hl] at e
      simp [verify, hasValue, hs, Act.read, hl, e]
    | .flag => simp [Cls.legal, hs] at hl
    | .ref => simp [Cls.legal, hs] at hl
    | .opaque => exact absurd hs hno
  · rw [(h.assigned hl).rel.has]
    simp [verify]

theorem Cell.assignValue (h : Cell k c o x b) (e : k.evalVerify = true ∨ c.legal v = true) :
    if ((x.isSome && !c.scalar) || fillOk k c b) && c.legal v then
      ∃ o', assignValue k c o v = some o' ∧ Cell k c o' (some v) b
    else assignValue k c o v = none := by
  have hno := h.rel.noOpaque
  by_cases hr : c.storage = .ref
  · have hf : fillOk k c b = true := by simp [fillOk, hr]
    have hl : c.legal v = true := by simp [Cls.legal, hr]
    simp only [hf, hl, Bool.or_true, Bool.and_self, if_true]
    have := h.construct_ok hl hf
    simp only [ConstEval.construct, ConstEval.assignValue, hr] at this ⊢
    exact this
  · have hu : ConstEval.assignValue k c o v = (if c.scalar then ConstEval.construct k c o v
        else do
          if ← hasValue c o then
            let a ← ConstEval.assignAct o.act v
            let o : Obj V := { o with act := a }
            verify k (hasValue c o)
            return o
          else
            ConstEval.construct k c o v) := by
      unfold ConstEval.assignValue
      split
      · rename_i h; exact absurd h hr
      · rfl
    rw [hu]
    cases hs : c.scalar
    · simp only [Bool.false_eq_true, if_false, h.rel.has, Option.bind_eq_bind, Option.bind_some, Bool.not_false, Bool.and_true]
      cases x with
      | none =>
        simp only [Option.isSome_none, Bool.false_or, Bool.false_eq_true, if_false]
        exact h.construct e
      | some w =>
        simp only [Option.isSome_some, Bool.true_or, Bool.true_and, if_true, h.assignAct, Option.bind_some]
        rw [checkedVerify h v e]
        cases hl : c.legal v
        · simp
        · simp only [if_true]
          exact ⟨_, rfl, h.assigned hl⟩
    · simp only [Bool.not_true, Bool.and_false, Bool.false_or, if_true]
      exact h.construct e

theorem Cell.assignConv (hw : c.WF) {cu : Cls V} {o2 : Obj V} {y : Option V} {b2 : Bool} {f : V → V}
    (h : Cell k c o x b) (h2 : Cell k cu o2 y b2) (e : k.evalVerify = true ∨ ∀ w, y = some w → c.legal (f w) = true) :
    if (if y.isSome then x.isSome || fillOk k c b else resetOk c x.isSome) && (checked c (y.map f)).isSome then
      ∃ o', assignConv k c cu o o2 f = some o' ∧ Cell k c o' (y.map f) b
    else assignConv k c cu o o2 f = none := by
  have hno := h.rel.noOpaque
  unfold ConstEval.assignConv
  simp only [h2.rel.has, Option.bind_eq_bind, Option.bind_some]
  cases y with
  | none =>
    simp only [Option.isSome_none, Bool.false_eq_true, if_false, Option.map_none, checked, Option.isSome_some, Bool.and_true]
    exact h.reset hw
  | some w =>
    have hg := h2.rel.get (k := k) (.inr rfl)
    have hch : (checked c (some (f w))).isSome = c.legal (f w) := by simp [checked]; cases c.legal (f w) <;> rfl
    simp only [Option.isSome_some, if_true, Option.map_some, hch, hg, Option.bind_some]
    have e' : k.evalVerify = true ∨ c.legal (f w) = true := e.imp id (fun h => h w rfl)
    by_cases hr : c.storage = .ref
    · have hf : fillOk k c b = true := by simp [fillOk, hr]
      have hl : c.legal (f w) = true := by simp [Cls.legal, hr]
      simp only [hf, hl, Bool.or_true, Bool.and_self, if_true]
      have := h.construct_ok hl hf
      simp only [ConstEval.construct, hr] at this ⊢
      exact this
    · split
      all_goals rename_i hc
      all_goals split
      all_goals first | (rename_i hr'; exact absurd hr' hr) | skip
      · simp only [h.rel.has, Option.bind_some]
        simp only [Bool.and_eq_true, Bool.or_eq_true] at hc
        cases x with
        | none =>
          simp at hc
          simp only [Option.isSome_none, Bool.false_eq_true, if_false]
          exact h.construct_ok hc.2 hc.1
        | some v =>
          simp only [Option.isSome_some, if_true, h.assignAct, Option.bind_some, checkedVerify h _ e', hc.2]
          exact ⟨_, rfl, h.assigned hc.2⟩
      · simp only [h.rel.has, Option.bind_some]
        cases x with
        | none =>
          simp only [Option.isSome_none, Bool.false_eq_true, if_false]
          refine h.construct_no e' ?_
          simp at hc
          cases hf : fillOk k c b
          · exact .inl rfl
          · exact .inr (by simpa using hc hf)
        | some v =>
          simp at hc
          simp [h.assignAct, checkedVerify h _ e', hc]

theorem ctorConv_cell (hno : c.storage ≠ .opaque) {cu : Cls V} {o2 : Obj V} {y : Option V} {b2 : Bool} {f : V → V}
    (h2 : Cell k cu o2 y b2) (e : k.evalVerify = true ∨ ∀ w, y = some w → c.legal (f w) = true) :
    if copyOk k c false y.isSome && (checked c (y.map f)).isSome then
      ∃ o', ctorConv k c cu o2 f = some o' ∧ Cell k c o' (y.map f) false
    else ctorConv k c cu o2 f = none := by
  unfold ctorConv copyOk
  have hb := born (k := k) hno
  cases hbo : bornOk k c
  · simp only [hbo, Bool.false_eq_true, if_false] at hb
    simp [hb]
  · simp only [hbo, if_true] at hb
    obtain ⟨o1, ho1, hc1⟩ := hb
    simp only [ho1, h2.rel.has, Option.bind_eq_bind, Option.bind_some, Bool.true_and, Bool.false_eq_true, if_false]
    cases y with
    | none => simpa [checked] using hc1
    | some w =>
      have hg := h2.rel.get (k := k) (.inr rfl)
      have hch : (checked c (some (f w))).isSome = c.legal (f w) := by simp [checked]; cases c.legal (f w) <;> rfl
      simp only [Option.isSome_some, if_true, Option.map_some, hch, hg, Option.bind_some, Bool.not_true, Bool.false_or]
      exact hc1.construct (e.imp id (fun h => h w rfl))

theorem Cell.emplace (hw : c.WF) (h : Cell k c o x b) (e : k.evalVerify = true ∨ c.legal v = true) :
    if (resetOk c x.isSome && fillOk k c b) && c.legal v then
      ∃ o', emplace k c o v = some (o', v) ∧ Cell k c o' (some v) b
    else emplace k c o v = none := by
  unfold ConstEval.emplace
  have h1 := h.reset hw
  cases hr : resetOk c x.isSome
  · simp only [hr, Bool.false_eq_true, if_false] at h1
    simp [h1]
  · simp only [hr, if_true] at h1
    obtain ⟨o1, ho1, hc1⟩ := h1
    have h2 := hc1.construct e
    simp only [ho1, Option.bind_eq_bind, Option.bind_some, Bool.true_and]
    split
    · rename_i hg
      simp only [hg, if_true] at h2
      obtain ⟨o2, ho2, hc2⟩ := h2
      simp only [ho2, Option.bind_some, hc2.rel.get (k := k) (.inr rfl)]
      exact ⟨o2, rfl, hc2⟩
    · rename_i hg
      rw [if_neg hg] at h2
      simp [h2]

theorem Cell.swap (hw : c.WF) {o2 : Obj V} {y : Option V} {b2 : Bool} (h : Cell k c o x b) (h2 : Cell k c o2 y b2) :
    if (if x.isSome && y.isSome then k.cxx20 || c.ownSwap
        else if x.isSome then fillOk k c b2 && resetOk c true
        else if y.isSome then fillOk k c b && resetOk c true
        else true) then
      ∃ o' o2', swap k c o o2 = some (o', o2') ∧ Cell k c o' y b ∧ Cell k c o2' x b2
    else swap k c o o2 = none := by
  unfold ConstEval.swap
  simp only [h.rel.has, h2.rel.has, Option.bind_eq_bind, Option.bind_some]
  cases x with
  | none =>
    cases y with
    | none => simpa using ⟨_, _, ⟨rfl, rfl⟩, h, h2⟩
    | some w =>
      have hg := h2.rel.get (k := k) (.inr rfl)
      have h3 := (h2.leave hw).reset hw
      simp only [Option.map_some, Option.isSome_some] at h3
      simp only [Option.isSome_none, Option.isSome_some, Bool.false_and, Bool.false_eq_true, if_false, if_true, hg,
        Option.bind_some, Bool.not_true, Bool.and_false]
      cases hf : fillOk k c b
      · simp [h.construct_no (.inr h2.rel.legal) (.inl hf)]
      · obtain ⟨o1, ho1, hc1⟩ := h.construct_ok h2.rel.legal hf
        simp only [ho1, Option.bind_some, Bool.true_and]
        split
        · rename_i hr
          simp only [hr, if_true] at h3
          obtain ⟨o3, ho3, hc3⟩ := h3
          simp only [ho3, Option.bind_some]
          exact ⟨o1, o3, rfl, hc1, hc3⟩
        · rename_i hr
          rw [if_neg hr] at h3
          simp [h3]
  | some v =>
    cases y with
    | none =>
      have hg := h.rel.get (k := k) (.inr rfl)
      have h3 := (h.leave hw).reset hw
      simp only [Option.map_some, Option.isSome_some] at h3
      simp only [Option.isSome_none, Option.isSome_some, Bool.and_false, Bool.false_eq_true, if_false, if_true, hg,
        Option.bind_some, Bool.not_true, Bool.false_and]
      cases hf : fillOk k c b2
      · simp [h2.construct_no (.inr h.rel.legal) (.inl hf)]
      · obtain ⟨o1, ho1, hc1⟩ := h2.construct_ok h.rel.legal hf
        simp only [ho1, Option.bind_some, Bool.true_and]
        split
        · rename_i hr
          simp only [hr, if_true] at h3
          obtain ⟨o3, ho3, hc3⟩ := h3
          simp only [ho3, Option.bind_some]
          exact ⟨o3, o1, rfl, hc3, hc1⟩
        · rename_i hr
          rw [if_neg hr] at h3
          simp [h3]
    | some w =>
      simp only [Option.isSome_some, Bool.and_self, if_true, Bool.not_true, Bool.false_eq_true, if_false, h.rel.read,
        h2.rel.read, Option.bind_some]
      cases k.cxx20 || c.ownSwap
      · simp
      · simp only [if_true]
        exact ⟨_, _, rfl, h.assigned h2.rel.legal, h2.assigned h.rel.legal⟩

end

/-! ## Stores -/

/-- a store of objects stands for a store of optional values -/
structure Sim (k : Cfg) (cls : Nat → Cls V) (s : Store (Obj V)) (p : Store (Option V)) (u : Nat → Bool) : Prop where
  no : ∀ a, p a = none → s a = none
  yes : ∀ a x, p a = some x → ∃ o, s a = some o ∧ Cell k (cls a) o x (u a)

section
variable {k : Cfg} {cls : Nat → Cls V} {s : Store (Obj V)} {p : Store (Option V)} {u u' : Nat → Bool}

theorem Sim.set (h : Sim k cls s p u) {a : Nat} {o : Obj V} {x : Option V} (hc : Cell k (cls a) o x (u' a))
    (hu : ∀ b, b ≠ a → u' b = u b) : Sim k cls (s.set a (some o)) (p.set a (some x)) u' := by
  constructor
  · intro b hb
    unfold Store.set at hb ⊢
    split at hb
    · cases hb
    · rename_i hn; rw [if_neg hn]; exact h.no b hb
  · intro b y hb
    unfold Store.set at hb ⊢
    split at hb
    · rename_i he; subst he; cases hb; exact ⟨o, if_pos rfl, hc⟩
    · rename_i hn; rw [if_neg hn, hu b hn]; exact h.yes b y hb

theorem Sim.drop (h : Sim k cls s p u) (a : Nat) : Sim k cls (s.set a none) (p.set a none) u := by
  constructor
  · intro b hb
    unfold Store.set at hb ⊢
    split
    · rfl
    · rename_i hn; rw [if_neg hn] at hb; exact h.no b hb
  · intro b y hb
    unfold Store.set at hb ⊢
    split at hb
    · cases hb
    · rename_i hn; rw [if_neg hn]; exact h.yes b y hb

/-- what an operation did agrees with what it should do -/
def Agree (k : Cfg) (cls : Nat → Cls V) (R : Option (Store (Obj V) × Obs V)) (A : Bool)
    (P : Option (Store (Option V) × Obs V)) (u' : Nat → Bool) : Prop :=
  match P with
  | some (p', y) => if A then ∃ s', R = some (s', y) ∧ Sim k cls s' p' u' else R = none
  | none => R = none

theorem Agree.none {A : Bool} {P : Option (Store (Option V) × Obs V)} {R : Option (Store (Obj V) × Obs V)}
    (hR : R = none) (h : A = false ∨ P = none) : Agree k cls R A P u' := by
  unfold Agree
  split
  · rcases h with h | h
    · simp [h, hR]
    · cases h
  · exact hR

theorem Agree.some {A : Bool} {p' : Store (Option V)} {y : Obs V} {P : Option (Store (Option V) × Obs V)}
    {R : Option (Store (Obj V) × Obs V)} {s' : Store (Obj V)} (hP : P = some (p', y)) (hA : A = true)
    (hR : R = some (s', y)) (h : Sim k cls s' p' u') : Agree k cls R A P u' := by
  subst hP
  unfold Agree
  simp only [hA, if_true]
  exact ⟨s', hR, h⟩

/-- a new option -/
theorem Sim.new (h : Sim k cls s p u) {d : Nat} {o : Obj V} {x : Option V} {y : Obs V} (hc : Cell k (cls d) o x (u' d))
    (hu : ∀ b, b ≠ d → u' b = u b) :
    Agree k cls ((s.new d o).map fun s => (s, y)) true ((p.new d x).map fun p => (p, y)) u' := by
  unfold Store.new
  cases hp : p d with
  | some z =>
    obtain ⟨o', ho, _⟩ := h.yes d z hp
    rw [ho]
    exact Agree.none rfl (.inr rfl)
  | none =>
    rw [h.no d hp]
    exact Agree.some rfl rfl rfl (h.set hc hu)

end
end Opt.ConstEval
