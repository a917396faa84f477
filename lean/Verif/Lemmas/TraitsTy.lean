import Verif.Lemmas.TraitsLeaf

namespace Opt

theorem lawOK_atField {t : Traits} {n N off cap : Nat} {V W : Bytes → Prop} (h : LawOK t n V cap) (hN : off + n ≤ N)
    (hW : ∀ bs, W bs → bs.length = N ∧ V (rd bs off n)) : LawOK (atField off n t) N W cap where
  max_lt := h.max_lt
  cap_le := h.cap_le
  size_eq := fun bs hv => (hW bs hv).1
  high := fun bs hl hv => h.high _ (by rw [rd_length]; omega) (hW bs hv).2
  roundtrip := fun bs l hl hlt => by
    obtain ⟨bs', h1, h2, h3⟩ := h.roundtrip (rd bs off n) l (by rw [rd_length]; omega) hlt
    refine ⟨wr bs off bs', by simp [atField, h1], by rw [wr_length] <;> omega, ?_⟩
    simp only [atField]
    rw [rd_wr_same h2 (by omega)]
    exact h3

/-! ## Selecting the member with most levels -/

theorem indexOfMaxLoop_spec (pre xs : List Nat) (i maxv idx : Nat) (hi : i = pre.length) (hidx : idx < pre.length)
    (hm : pre[idx]? = some maxv) (hmax : ∀ (j : Nat) (x : Nat), pre[j]? = some x → x ≤ maxv)
    (hfirst : ∀ (j x : Nat), j < idx → pre[j]? = some x → x < maxv) :
    ∃ m, (pre ++ xs)[indexOfMaxLoop xs i maxv idx]? = some m ∧
      (∀ (j x : Nat), (pre ++ xs)[j]? = some x → x ≤ m) ∧
      (∀ (j x : Nat), j < indexOfMaxLoop xs i maxv idx → (pre ++ xs)[j]? = some x → x < m) := by
  induction xs generalizing pre i maxv idx with
  | nil => exact ⟨maxv, by simpa [indexOfMaxLoop] using hm, by simpa using hmax, by simpa [indexOfMaxLoop] using hfirst⟩
  | cons y ys ih =>
    rw [indexOfMaxLoop]
    have happ : pre ++ y :: ys = (pre ++ [y]) ++ ys := by simp
    rw [happ]
    have get_snoc : ∀ (j x : Nat), (pre ++ [y])[j]? = some x → pre[j]? = some x ∨ (j = pre.length ∧ x = y) := by
      intro j x hj
      rcases Nat.lt_trichotomy j pre.length with h | h | h
      · left; rwa [List.getElem?_append_left h] at hj
      · right; subst h; rw [List.getElem?_append_right (Nat.le_refl _)] at hj; simp at hj; exact ⟨rfl, hj.symm⟩
      · rw [List.getElem?_append_right (by omega)] at hj
        have : ¬ (j - pre.length < 1) := by omega
        have := (List.getElem?_eq_some_iff.1 hj).1
        simp only [List.length_singleton] at this
        omega
    split
    · rename_i hgt
      apply ih (pre ++ [y]) (i + 1) y i (by simp [hi]) (by simp [hi])
      · rw [hi, List.getElem?_append_right (Nat.le_refl _)]; simp
      · intro j x hj
        rcases get_snoc j x hj with h | ⟨_, h⟩
        · have := hmax j x h; omega
        · omega
      · intro j x hlt hj
        rcases get_snoc j x hj with h | ⟨h, _⟩
        · have := hmax j x h; omega
        · omega
    · rename_i hle
      apply ih (pre ++ [y]) (i + 1) maxv idx (by simp [hi]) (by simp; omega)
      · rw [List.getElem?_append_left hidx]; exact hm
      · intro j x hj
        rcases get_snoc j x hj with h | ⟨_, h⟩
        · exact hmax j x h
        · omega
      · intro j x hlt hj
        rcases get_snoc j x hj with h | ⟨h, _⟩
        · exact hfirst j x hlt h
        · omega

/-- `index_of_max` finds the first position of the maximum. -/
theorem indexOfMax_spec {xs : List Nat} (h : xs ≠ []) :
    ∃ m, xs[indexOfMax xs]? = some m ∧ (∀ (j x : Nat), xs[j]? = some x → x ≤ m) ∧
      (∀ (j x : Nat), j < indexOfMax xs → xs[j]? = some x → x < m) := by
  cases xs with
  | nil => exact absurd rfl h
  | cons y ys =>
    have := indexOfMaxLoop_spec [y] ys 1 y 0 rfl (by simp) (by simp)
      (by intro j x hj; rw [List.getElem?_eq_some_iff] at hj; obtain ⟨hj, e⟩ := hj
          have : j = 0 := by simp at hj; omega
          subst this; simp at e; omega)
      (by intro j x hj; omega)
    simpa [indexOfMax] using this

theorem findMaxLevel_cons {t : Traits} {ts : List Traits} :
    ∃ i, i < (t :: ts).length ∧ i = indexOfMax ((t :: ts).map (·.maxLevel)) ∧
      (t :: ts)[i]? = some (findMaxLevel (t :: ts)) := by
  obtain ⟨m, h1, _, _⟩ := indexOfMax_spec (xs := (t :: ts).map (·.maxLevel)) (by simp)
  refine ⟨_, ?_, rfl, ?_⟩
  · have := (List.getElem?_eq_some_iff.1 h1).1; simpa using this
  · have hlt : indexOfMax ((t :: ts).map (·.maxLevel)) < (t :: ts).length := by
      have := (List.getElem?_eq_some_iff.1 h1).1; simpa using this
    simp only [findMaxLevel]
    rw [List.getElem?_eq_getElem hlt]
    rfl

theorem Fields.caps_length (pw : Nat) : ∀ fs : Fields, (fs.caps pw).length = (fs.traits pw).length
  | .nil => rfl
  | .cons _ _ rest => by simp [Fields.caps, Fields.traits, Fields.caps_length pw rest]

/-! ## Options -/

theorem lawOK_flag {n N : Nat} (hN : n + 1 ≤ N) {W : Bytes → Prop}
    (hW : ∀ bs, W bs → bs.length = N ∧ (ld 8 bs n = 0 ∨ ld 8 bs n = 1)) :
    LawOK (unavailableOptionTraits n) N W 254 := by
  have h := lawOK_atField (off := n) (N := N) (W := W) (lawOK_bool 64) hN (fun bs hv => by
    refine ⟨(hW bs hv).1, ?_⟩
    simp only [Ty.Valid]
    have hl := (hW bs hv).1
    refine ⟨by rw [rd_length]; omega, ?_⟩
    have : ld 8 (rd bs n 1) 0 = ld 8 bs n := by simp [ld, rd, List.take_take]
    rw [this]; exact (hW bs hv).2)
  exact
    { max_lt := h.max_lt, cap_le := h.cap_le, size_eq := h.size_eq, high := h.high, roundtrip := h.roundtrip }

theorem sub_one_toNat {x : U64} (h : 1 ≤ x.toNat) : (x - 1).toNat = x.toNat - 1 := by
  have := x.isLt
  rw [BitVec.toNat_sub, show BitVec.toNat (1 : U64) = 1 from rfl]; omega

theorem add_one_toNat {x : U64} (h : x.toNat + 1 < 2 ^ 64) : (x + 1).toNat = x.toNat + 1 := by
  rw [BitVec.toNat_add, show BitVec.toNat (1 : U64) = 1 from rfl]; omega

theorem lawOK_available {t : Traits} {n cap : Nat} {V W : Bytes → Prop} (h : LawOK t n V cap)
    (hmax : t.maxLevel ≥ 1)
    (hW : ∀ bs, W bs → bs.length = n ∧ (t.getLevel bs = 0 ∨ V bs)) :
    LawOK (availableOptionTraits t) n W (cap - 1) where
  max_lt := by have := h.max_lt; simp only [availableOptionTraits]; omega
  cap_le := by have := h.cap_le; simp only [availableOptionTraits]; omega
  size_eq := fun bs hv => (hW bs hv).1
  high := fun bs hl hv => by
    have hm := h.max_lt
    simp only [availableOptionTraits]
    rcases (hW bs hv).2 with h0 | h0
    · rw [h0]
      have : (0 - 1 : U64).toNat = 2 ^ 64 - 1 := by decide
      rw [this]; omega
    · have := h.high bs hl h0
      rw [sub_one_toNat (by omega)]; omega
  roundtrip := fun bs l hl hlt => by
    have hm := h.max_lt
    have hc := h.cap_le
    have hl1 : (l + 1).toNat = l.toNat + 1 := add_one_toNat (by omega)
    obtain ⟨bs', h1, h2, h3⟩ := h.roundtrip bs (l + 1) hl (by omega)
    refine ⟨bs', h1, h2, ?_⟩
    simp only [availableOptionTraits, h3]
    apply BitVec.eq_of_toNat_eq
    rw [sub_one_toNat (by omega)]; omega

theorem option_size_flag {pw : Nat} {a : Ty} (h : ¬ (a.traits pw).maxLevel ≥ 1) :
    (Ty.option a).size pw = roundTo (a.size pw + 1) (a.align pw) := by
  simp only [Ty.size, Ty.sizeTraits, Ty.traits] at *
  rw [if_neg h]

theorem option_size_avail {pw : Nat} {a : Ty} (h : (a.traits pw).maxLevel ≥ 1) :
    (Ty.option a).size pw = a.size pw := by
  simp only [Ty.size, Ty.sizeTraits, Ty.traits] at *
  rw [if_pos h]

theorem option_traits_eq {pw : Nat} {a : Ty} : (Ty.option a).traits pw = optionTraits (a.size pw) (a.traits pw) := by
  simp only [Ty.size, Ty.sizeTraits, Ty.traits]

theorem roundTo_ge (n : Nat) {a : Nat} (h : 0 < a) : n ≤ roundTo n a := by
  unfold roundTo
  have := Nat.div_add_mod (n + a - 1) a
  have h2 := Nat.mod_lt (n + a - 1) h
  rw [Nat.mul_comm] at this
  omega

theorem lawOK_option {pw : Nat} {a : Ty} (hwf : (Ty.option a).WF pw)
    (h : LawOK (a.traits pw) (a.size pw) (a.Valid pw) (a.cap pw)) :
    LawOK ((Ty.option a).traits pw) ((Ty.option a).size pw) ((Ty.option a).Valid pw) ((Ty.option a).cap pw) := by
  simp only [Ty.WF] at hwf
  obtain ⟨_, hal, hcap⟩ := hwf
  rw [option_traits_eq]
  by_cases hm : (a.traits pw).maxLevel ≥ 1
  · rw [optionTraits, if_pos hm, option_size_avail hm]
    have hc : (Ty.option a).cap pw = a.cap pw - 1 := by simp only [Ty.cap]; rw [if_pos hm]
    rw [hc]
    apply lawOK_available h hm
    intro bs hv
    simp only [Ty.Valid, option_size_avail hm, Ty.hasValue, if_pos hm, Ty.payload] at hv
    refine ⟨hv.1, ?_⟩
    by_cases h0 : (a.traits pw).getLevel bs = 0
    · exact .inl h0
    · have h1 := hv.2.2 (by simpa using h0)
      rw [rd_all hv.1] at h1
      exact .inr h1
  · rw [optionTraits, if_neg hm, option_size_flag hm]
    have hc : (Ty.option a).cap pw = 254 := by simp only [Ty.cap]; rw [if_neg hm]
    rw [hc]
    have hge := roundTo_ge (a.size pw + 1) hal
    apply lawOK_flag hge
    intro bs hv
    simp only [Ty.Valid, option_size_flag hm] at hv
    exact ⟨hv.1, hv.2.1 (by omega)⟩

/-! ## All types -/

theorem cap_leaf {pw : Nat} {T : Ty} {c : Nat} (h1 : T.cap pw = (T.traits pw).maxLevel) (h2 : (T.traits pw).maxLevel = c) :
    T.cap pw = c := h1.trans h2

mutual
/-- Every well-formed type has lawful levels. -/
theorem Ty.lawOK {pw : Nat} (hpw : pw = 32 ∨ pw = 64) : ∀ (T : Ty), T.WF pw →
    LawOK (T.traits pw) (T.size pw) (T.Valid pw) (T.cap pw)
  | .plain n al, _ => lawOK_noTraits (fun bs h => by simp only [Ty.Valid] at h; exact h)
  | .bool, _ => lawOK_bool pw
  | .refWrapper, _ => lawOK_refWrapper hpw
  | .pointer, _ => by
    rcases hpw with rfl | rfl
    · exact lawOK_pointer32
    · exact lawOK_pointer64
  | .float64 s al, _ => by
    have := lawOK_float64 pw s al
    have hc : (Ty.float64 s al).cap pw = 256 := by cases s <;> rfl
    rw [hc]; exact this
  | .float32 s, _ => by
    have := lawOK_float32 pw s
    have hc : (Ty.float32 s).cap pw = 256 := by cases s <;> rfl
    rw [hc]; exact this
  | .polymorphic n al, h => by
    simp only [Ty.WF] at h
    exact lawOK_ptr (k := 89151) (off := 0) hpw (by decide) (by decide) (by simpa [Ty.size, Ty.sizeTraits] using h) rfl
      (fun _ => rfl) (fun _ _ => rfl) (fun bs hv => by simp only [Ty.Valid] at hv; exact hv)
  | .stringView lf, _ => lawOK_stringView hpw lf
  | .uniquePtr, _ =>
    lawOK_ptr (k := 46508) (off := 0) hpw (by decide) (by decide) (by simp [Ty.size, Ty.sizeTraits]) rfl
      (fun _ => rfl) (fun _ _ => rfl) (fun bs hv => by simp only [Ty.Valid] at hv; exact hv)
  | .string lib, _ => lawOK_string hpw lib
  | .vector, _ =>
    lawOK_ptr (k := 76326) (off := 0) hpw (by decide) (by decide) (by simp [Ty.size, Ty.sizeTraits]; omega) rfl
      (fun _ => rfl) (fun _ _ => rfl) (fun bs hv => by simp only [Ty.Valid] at hv; exact hv)
  | .memberPtr n al, _ => lawOK_memberPtr pw n al
  | .padding n al off w, h => by
    simp only [Ty.WF] at h
    have := lawOK_padding (pw := pw) (al := al) h.1 h.2
    simp only [Ty.cap]; exact this
  | .enumReflect w decl, h => by
    simp only [Ty.WF] at h
    exact lawOK_enumReflect h.1
  | .enumBool, _ => by
    simp only [Ty.cap]; exact lawOK_enumBool pw
  | .enumSentinel w sg s, h => by
    simp only [Ty.WF] at h
    exact lawOK_enumSentinel h sg s
  | .enumStart w sg s, h => lawOK_enumStart h
  | .enumStartEnd w sg s e, h => lawOK_enumStartEnd h
  | .sentinel n al eq vals, h => by
    simp only [Ty.WF] at h
    exact lawOK_sentinel h
  | .sentinelOpt n al eq s, h => by
    simp only [Ty.WF] at h
    exact lawOK_sentinelOpt h.1 h.2
  | .custom n al t valid, h => by
    simp only [Ty.WF] at h
    exact
      { max_lt := h.max_lt
        cap_le := Nat.le_refl _
        size_eq := fun bs hv => by simp only [Ty.Valid] at hv; exact hv.1
        high := fun bs hl hv => by simp only [Ty.Valid] at hv; exact h.high bs hl hv.2
        roundtrip := h.roundtrip }
  | .pair n al o1 a o2 b, h => by
    simp only [Ty.WF] at h
    obtain ⟨ha, hb, h1, h2⟩ := h
    have iha := Ty.lawOK hpw a ha
    have ihb := Ty.lawOK hpw b hb
    have e : (Ty.pair n al o1 a o2 b).traits pw =
      pairTraits (atField o1 (a.size pw) (a.traits pw)) (atField o2 (b.size pw) (b.traits pw)) := by
      simp only [Ty.traits, Ty.sizeTraits, Ty.size]
    have es : (Ty.pair n al o1 a o2 b).size pw = n := by simp only [Ty.size, Ty.sizeTraits]
    rw [e, es, pairTraits]
    have hmax : ∀ o k t, (atField o k t).maxLevel = t.maxLevel := fun _ _ _ => rfl
    simp only [hmax]
    by_cases hgt : (a.traits pw).maxLevel > (b.traits pw).maxLevel
    · rw [if_pos hgt]
      have : (Ty.pair n al o1 a o2 b).cap pw = a.cap pw := by simp only [Ty.cap]; rw [if_pos hgt]
      rw [this]
      exact lawOK_atField iha h1 (fun bs hv => by simp only [Ty.Valid] at hv; exact ⟨hv.1, hv.2.1⟩)
    · rw [if_neg hgt]
      have : (Ty.pair n al o1 a o2 b).cap pw = b.cap pw := by simp only [Ty.cap]; rw [if_neg hgt]
      rw [this]
      exact lawOK_atField ihb h2 (fun bs hv => by simp only [Ty.Valid] at hv; exact ⟨hv.1, hv.2.2⟩)
  | .tuple n al fs, h => by
    simp only [Ty.WF] at h
    have e : (Ty.tuple n al fs).traits pw = findMaxLevel (fs.traits pw) := by
      simp only [Ty.traits, Ty.sizeTraits]
    have es : (Ty.tuple n al fs).size pw = n := by simp only [Ty.size, Ty.sizeTraits]
    have ih := Fields.lawOK hpw n fs h ((Ty.tuple n al fs).Valid pw)
      (fun bs hv => by simp only [Ty.Valid] at hv; exact hv)
    rw [e, es]
    cases hts : fs.traits pw with
    | nil =>
      have hc : (Ty.tuple n al fs).cap pw = 0 := by
        have hl := Fields.caps_length pw fs
        rw [hts] at hl
        simp only [Ty.cap, List.length_eq_zero_iff.1 hl]
        simp
      rw [hc]
      exact lawOK_noTraits (fun bs hv => by simp only [Ty.Valid] at hv; exact hv.1)
    | cons t ts =>
      obtain ⟨i, hi, hidx, hget⟩ := findMaxLevel_cons (t := t) (ts := ts)
      have hl := Fields.caps_length pw fs
      rw [hts] at hl
      have hc : (Ty.tuple n al fs).cap pw = (fs.caps pw)[i]'(by omega) := by
        simp only [Ty.cap, hts, ← hidx]
        rw [List.getElem?_eq_getElem (by omega)]; rfl
      rw [hc]
      refine ih i _ _ (by rw [hts]; exact hget) (List.getElem?_eq_getElem (by omega))
  | .array a n, h => by
    simp only [Ty.WF] at h
    have ih := Ty.lawOK hpw a h
    have es : (Ty.array a n).size pw = n * a.size pw := by simp only [Ty.size, Ty.sizeTraits]
    have e : (Ty.array a n).traits pw = if n = 0 then noTraits else atField 0 (a.size pw) (a.traits pw) := by
      simp only [Ty.traits, Ty.sizeTraits, Ty.size]
    rw [es, e]
    by_cases h0 : n = 0
    · have hc : (Ty.array a n).cap pw = 0 := by simp only [Ty.cap]; rw [if_pos h0]
      rw [if_pos h0, hc]
      exact lawOK_noTraits (fun bs hv => by simp only [Ty.Valid] at hv; exact hv.1)
    · have hc : (Ty.array a n).cap pw = a.cap pw := by simp only [Ty.cap]; rw [if_neg h0]
      rw [if_neg h0, hc]
      refine lawOK_atField ih ?_ (fun bs hv => ?_)
      · have : 1 * a.size pw ≤ n * a.size pw := Nat.mul_le_mul_right _ (by omega)
        omega
      · simp only [Ty.Valid] at hv
        have := hv.2 0 (by omega)
        rw [Nat.zero_mul] at this
        exact ⟨hv.1, this⟩
  | .complex a, h => by
    simp only [Ty.WF] at h
    have ih := Ty.lawOK hpw a h
    have es : (Ty.complex a).size pw = 2 * a.size pw := by simp only [Ty.size, Ty.sizeTraits]
    have e : (Ty.complex a).traits pw = complexTraits (a.size pw) (a.traits pw) := by
      simp only [Ty.traits, Ty.sizeTraits, Ty.size]
    have hc : (Ty.complex a).cap pw = a.cap pw := by simp only [Ty.cap]
    rw [es, e, hc]
    exact
      { max_lt := ih.max_lt
        cap_le := ih.cap_le
        size_eq := fun bs hv => by simp only [Ty.Valid] at hv; exact hv.1
        high := fun bs hl hv => by
          simp only [Ty.Valid] at hv
          exact ih.high _ (by rw [rd_length]; omega) hv.2.1
        roundtrip := fun bs l hl hlt => by
          obtain ⟨bs', h1, h2, h3⟩ := ih.roundtrip (List.replicate (a.size pw) 0) l (by simp) hlt
          have hlm : l.toNat < (a.traits pw).maxLevel := Nat.lt_of_lt_of_le hlt ih.cap_le
          refine ⟨wr bs 0 bs', ?_, by rw [wr_length] <;> omega, ?_⟩
          · simp only [complexTraits]; rw [verifyThen_decide hlm, h1]; rfl
          · simp only [complexTraits]
            rw [rd_wr_same h2 (by omega)]; exact h3 }
  | .member n al off a, h => by
    simp only [Ty.WF] at h
    have ih := Ty.lawOK hpw a h.1
    have es : (Ty.member n al off a).size pw = n := by simp only [Ty.size, Ty.sizeTraits]
    have e : (Ty.member n al off a).traits pw = atField off (a.size pw) (a.traits pw) := by
      simp only [Ty.traits, Ty.sizeTraits, Ty.size]
    have hc : (Ty.member n al off a).cap pw = a.cap pw := by simp only [Ty.cap]
    rw [es, e, hc]
    exact lawOK_atField ih h.2 (fun bs hv => by simp only [Ty.Valid] at hv; exact hv)
  | .enforce a, h => by
    simp only [Ty.WF] at h
    have ih := Ty.lawOK hpw a h.1
    have es : (Ty.enforce a).size pw = a.size pw := by simp only [Ty.size, Ty.sizeTraits]
    have e : (Ty.enforce a).traits pw = a.traits pw := by simp only [Ty.traits, Ty.sizeTraits]
    have hc : (Ty.enforce a).cap pw = a.cap pw := by simp only [Ty.cap]
    rw [es, e, hc]
    exact
      { max_lt := ih.max_lt, cap_le := ih.cap_le, roundtrip := ih.roundtrip
        size_eq := fun bs hv => by simp only [Ty.Valid] at hv; exact ih.size_eq bs hv
        high := fun bs hl hv => by simp only [Ty.Valid] at hv; exact ih.high bs hl hv }
  | .option a, h => by
    have h' := h
    simp only [Ty.WF] at h'
    exact lawOK_option h (Ty.lawOK hpw a h'.1)
  | .optionRef, _ => lawOK_referenceOption hpw

/-- Every member of a well-formed composite has lawful levels inside the composite. -/
theorem Fields.lawOK {pw : Nat} (hpw : pw = 32 ∨ pw = 64) (n : Nat) : ∀ (fs : Fields), fs.WF pw n →
    ∀ (W : Bytes → Prop), (∀ bs, W bs → bs.length = n ∧ fs.Valid pw bs) →
    ∀ (i : Nat) (t : Traits) (c : Nat), (fs.traits pw)[i]? = some t → (fs.caps pw)[i]? = some c → LawOK t n W c
  | .nil, _, _, _, i, t, c, ht, _ => by simp [Fields.traits] at ht
  | .cons off a rest, h, W, hW, i, t, c, ht, hc => by
    simp only [Fields.WF] at h
    obtain ⟨ha, hoff, hr⟩ := h
    simp only [Fields.traits] at ht
    simp only [Fields.caps] at hc
    cases i with
    | zero =>
      simp only [List.getElem?_cons_zero, Option.some.injEq] at ht hc
      subst ht; subst hc
      exact lawOK_atField (Ty.lawOK hpw a ha) hoff (fun bs hv => by
        have := hW bs hv
        simp only [Fields.Valid] at this
        exact ⟨this.1, this.2.1⟩)
    | succ i =>
      simp only [List.getElem?_cons_succ] at ht hc
      exact Fields.lawOK hpw n rest hr W (fun bs hv => by
        have := hW bs hv
        simp only [Fields.Valid] at this
        exact ⟨this.1, this.2.2⟩) i t c ht hc
end

end Opt
