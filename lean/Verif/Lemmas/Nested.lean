import Verif.Lemmas.TraitsTy
import Verif.Spec.Nested

namespace Opt

theorem pair_maxLevel {pw n al o1 o2 : Nat} {a b : Ty} : ((Ty.pair n al o1 a o2 b).traits pw).maxLevel =
    if (a.traits pw).maxLevel > (b.traits pw).maxLevel then (a.traits pw).maxLevel else (b.traits pw).maxLevel := by
  have e : (Ty.pair n al o1 a o2 b).traits pw =
      pairTraits (atField o1 (a.size pw) (a.traits pw)) (atField o2 (b.size pw) (b.traits pw)) := by
    simp only [Ty.traits, Ty.sizeTraits, Ty.size]
  rw [e, pairTraits]
  have hmax : ∀ o k t, (atField o k t).maxLevel = t.maxLevel := fun _ _ _ => rfl
  simp only [hmax]
  split <;> rfl

mutual
/-- The working levels are all the advertised ones, except for narrow `PADDING` and `bool` enums. -/
theorem Ty.cap_eq_maxLevel {pw : Nat} : ∀ (T : Ty), T.WF pw → T.Exact → T.cap pw = (T.traits pw).maxLevel
  | .plain _ _, _, _ => rfl
  | .bool, _, _ => rfl
  | .refWrapper, _, _ => rfl
  | .pointer, _, _ => rfl
  | .float64 _ _, _, _ => rfl
  | .float32 _, _, _ => rfl
  | .polymorphic _ _, _, _ => rfl
  | .stringView _, _, _ => rfl
  | .uniquePtr, _, _ => rfl
  | .string _, _, _ => rfl
  | .vector, _, _ => rfl
  | .memberPtr _ _, _, _ => rfl
  | .padding n al off w, hwf, h => by
    simp only [Ty.WF] at hwf
    simp only [Ty.Exact] at h
    have e : ((Ty.padding n al off w).traits pw).maxLevel = paddingMax w := rfl
    rw [e]
    simp only [Ty.cap]
    rcases hwf.1 with rfl | rfl | rfl | rfl
    · omega
    · omega
    · decide
    · decide
  | .enumReflect _ _, _, _ => rfl
  | .enumBool, _, h => by simp only [Ty.Exact] at h
  | .enumSentinel _ _ _, _, _ => rfl
  | .enumStart _ _ _, _, _ => rfl
  | .enumStartEnd _ _ _ _, _, _ => rfl
  | .sentinel _ _ _ _, _, _ => rfl
  | .sentinelOpt _ _ _ _, _, _ => rfl
  | .custom _ _ _ _, _, _ => rfl
  | .pair n al o1 a o2 b, hwf, h => by
    simp only [Ty.WF] at hwf
    simp only [Ty.Exact] at h
    have ha := Ty.cap_eq_maxLevel a hwf.1 h.1
    have hb := Ty.cap_eq_maxLevel b hwf.2.1 h.2
    rw [pair_maxLevel]
    simp only [Ty.cap, ha, hb]
  | .tuple n al fs, hwf, h => by
    simp only [Ty.WF] at hwf
    simp only [Ty.Exact] at h
    have hc := Fields.caps_eq n fs hwf h
    simp only [Ty.cap, hc]
    simp only [Ty.traits, Ty.sizeTraits, findMaxLevel]
    cases hts : fs.traits pw with
    | nil => simp [noTraits]
    | cons t ts =>
      simp only [List.getElem?_map]
      cases (t :: ts)[indexOfMax (List.map (fun x => x.maxLevel) (t :: ts))]? with
      | none => simp [noTraits]
      | some x => simp
  | .array a n, hwf, h => by
    simp only [Ty.WF] at hwf
    simp only [Ty.Exact] at h
    have ha := Ty.cap_eq_maxLevel a hwf h
    simp only [Ty.cap, ha]
    simp only [Ty.traits, Ty.sizeTraits]
    split <;> rfl
  | .complex a, hwf, h => by
    simp only [Ty.WF] at hwf
    simp only [Ty.Exact] at h
    have ha := Ty.cap_eq_maxLevel a hwf h
    simp only [Ty.cap, ha]
    simp only [Ty.traits, Ty.sizeTraits, complexTraits]
  | .member n al off a, hwf, h => by
    simp only [Ty.WF] at hwf
    simp only [Ty.Exact] at h
    have ha := Ty.cap_eq_maxLevel a hwf.1 h
    simp only [Ty.cap, ha]
    simp only [Ty.traits, Ty.sizeTraits, atField]
  | .enforce a, hwf, h => by
    simp only [Ty.WF] at hwf
    simp only [Ty.Exact] at h
    have ha := Ty.cap_eq_maxLevel a hwf.1 h
    simp only [Ty.cap, ha]
    simp only [Ty.traits, Ty.sizeTraits]
  | .option a, hwf, h => by
    simp only [Ty.WF] at hwf
    simp only [Ty.Exact] at h
    have ha := Ty.cap_eq_maxLevel a hwf.1 h
    simp only [Ty.cap, ha, option_traits_eq, optionTraits]
    split
    · rfl
    · rfl
  | .optionRef, _, _ => rfl
theorem Fields.caps_eq {pw : Nat} (n : Nat) : ∀ (fs : Fields), fs.WF pw n → fs.Exact →
    fs.caps pw = (fs.traits pw).map (·.maxLevel)
  | .nil, _, _ => rfl
  | .cons off t rest, hwf, h => by
    simp only [Fields.WF] at hwf
    simp only [Fields.Exact] at h
    have ht := Ty.cap_eq_maxLevel t hwf.1 h.1
    have hr := Fields.caps_eq n rest hwf.2.2 h.2
    simp only [Fields.caps, Fields.traits, List.map_cons, ht, hr, atField, Ty.traits]
end

theorem nest_align (pw : Nat) (T : Ty) (n : Nat) : (nest n T).align pw = T.align pw := by
  induction n with
  | zero => rfl
  | succ n ih => simp only [nest, Ty.align]; exact ih

theorem nest_exact {T : Ty} (h : T.Exact) (n : Nat) : (nest n T).Exact := by
  induction n with
  | zero => exact h
  | succ n ih => simp only [nest, Ty.Exact]; exact ih

theorem nest_wf {pw : Nat} {T : Ty} (hwf : T.WF pw) (hal : 0 < T.align pw) (hex : T.Exact) (n : Nat) :
    (nest n T).WF pw := by
  induction n with
  | zero => exact hwf
  | succ n ih =>
    simp only [nest, Ty.WF]
    exact ⟨ih, by rw [nest_align]; exact hal, fun h => by
      rw [Ty.cap_eq_maxLevel _ ih (nest_exact hex n)]; exact h⟩

/-- Storing a live value engages the option and keeps the value's bytes. -/
theorem storeValue_spec {pw : Nat} (hpw : pw = 32 ∨ pw = 64) {a : Ty} (hwf : (Ty.option a).WF pw) {g v : Bytes}
    (hg : g.length = (Ty.option a).size pw) (hv : a.Valid pw v) :
    a.hasValue pw (a.storeValue pw g v) = true ∧ a.payload pw (a.storeValue pw g v) = v ∧
      (a.storeValue pw g v).length = (Ty.option a).size pw ∧ (Ty.option a).Valid pw (a.storeValue pw g v) := by
  have hwf' := hwf
  simp only [Ty.WF] at hwf'
  have h := Ty.lawOK hpw a hwf'.1
  have hvl := h.size_eq v hv
  have hp : a.payload pw (a.storeValue pw g v) = v := by
    simp only [Ty.payload, Ty.storeValue]
    by_cases hm : (a.traits pw).maxLevel ≥ 1
    · simp only [if_pos hm]
      rw [option_size_avail hm] at hg
      rw [rd_wr_same hvl (by omega)]
    · simp only [if_neg hm]
      rw [option_size_flag hm] at hg
      have := roundTo_ge (a.size pw + 1) hwf'.2.1
      have hw : (wr g 0 v).length = g.length := by rw [wr_length]; omega
      rw [st, rd_wr_disj, rd_wr_same hvl (by omega)]
      · rw [leBytes_length]; omega
      · rw [leBytes_length]; omega
  have hval : (Ty.option a).Valid pw (a.storeValue pw g v) := by
    simp only [Ty.Valid]
    rw [hp]
    refine ⟨?_, ?_, fun _ => hv⟩
    · simp only [Ty.storeValue]
      by_cases hm : (a.traits pw).maxLevel ≥ 1
      · rw [if_pos hm, wr_length, hg]
        rw [option_size_avail hm] at hg; omega
      · rw [if_neg hm]
        have hg' := hg
        rw [option_size_flag hm] at hg'
        have := roundTo_ge (a.size pw + 1) hwf'.2.1
        rw [st_length _ (by rw [wr_length] <;> omega), wr_length (by omega), hg]
    · intro hm
      have hm : ¬ (a.traits pw).maxLevel ≥ 1 := by omega
      rw [option_size_flag hm] at hg
      have := roundTo_ge (a.size pw + 1) hwf'.2.1
      simp only [Ty.storeValue]
      rw [if_neg hm]
      exact .inr (ld_st_same (by decide) _ (by rw [wr_length] <;> omega))
  refine ⟨?_, hp, (Ty.lawOK hpw _ hwf).size_eq _ hval, hval⟩
  · simp only [Ty.hasValue, Ty.storeValue]
    by_cases hm : (a.traits pw).maxLevel ≥ 1
    · simp only [if_pos hm]
      rw [option_size_avail hm] at hg
      have e : wr g 0 v = v := by simp only [wr]; simp [hg, hvl]
      rw [e]
      have := h.high v hvl hv
      simp only [ne_eq, decide_not, Bool.not_eq_true', decide_eq_false_iff_not]
      intro h0; rw [h0] at this; simp at this; omega
    · simp only [if_neg hm]
      rw [option_size_flag hm] at hg
      have := roundTo_ge (a.size pw + 1) hwf'.2.1
      rw [ld_st_same (by decide) _ (by rw [wr_length] <;> omega)]
      decide

/-- Storing none empties the option. -/
theorem storeNone_spec {pw : Nat} (hpw : pw = 32 ∨ pw = 64) {a : Ty} (hwf : (Ty.option a).WF pw) {g : Bytes}
    (hg : g.length = (Ty.option a).size pw) :
    ∃ bs, a.storeNone pw g = .ok bs ∧ a.hasValue pw bs = false ∧ bs.length = (Ty.option a).size pw ∧
      (Ty.option a).Valid pw bs := by
  have hwf' := hwf
  simp only [Ty.WF] at hwf'
  have h := Ty.lawOK hpw a hwf'.1
  simp only [Ty.storeNone, Ty.hasValue]
  by_cases hm : (a.traits pw).maxLevel ≥ 1
  · have hg' := hg
    rw [option_size_avail hm] at hg'
    obtain ⟨bs, h1, h2, h3⟩ := h.roundtrip g 0 hg' (by have := hwf'.2.2 hm; simp; omega)
    refine ⟨bs, by rw [if_pos hm]; exact h1, by rw [if_pos hm, h3]; decide, by rw [option_size_avail hm]; exact h2, ?_⟩
    simp only [Ty.Valid, Ty.hasValue]
    rw [if_pos hm, h3, option_size_avail hm]
    exact ⟨h2, by omega, by intro h; cases h⟩
  · have hg' := hg
    rw [option_size_flag hm] at hg'
    have := roundTo_ge (a.size pw + 1) hwf'.2.1
    refine ⟨_, by rw [if_neg hm], ?_, by rw [st_length] <;> omega, ?_⟩
    · rw [if_neg hm, ld_st_same (by decide) _ (by omega)]; decide
    · simp only [Ty.Valid, Ty.hasValue]
      rw [if_neg hm, ld_st_same (by decide) _ (by omega)]
      exact ⟨by rw [st_length] <;> omega, fun _ => .inl rfl, by intro h; cases h⟩

theorem option_size_ge {pw : Nat} {a : Ty} (hwf : (Ty.option a).WF pw) : a.size pw ≤ (Ty.option a).size pw := by
  simp only [Ty.WF] at hwf
  by_cases hm : (a.traits pw).maxLevel ≥ 1
  · rw [option_size_avail hm]; exact Nat.le_refl _
  · rw [option_size_flag hm]
    have := roundTo_ge (a.size pw + 1) hwf.2.1
    omega

theorem payload_length {pw : Nat} {a : Ty} (hwf : (Ty.option a).WF pw) {g : Bytes}
    (hg : g.length = (Ty.option a).size pw) : (a.payload pw g).length = a.size pw := by
  have := option_size_ge hwf
  rw [Ty.payload, rd_length]; omega

/-- Overwriting the contained value of an engaged option in place leaves it engaged. -/
theorem inPlace_spec {pw : Nat} (hpw : pw = 32 ∨ pw = 64) {a : Ty} (hwf : (Ty.option a).WF pw) {g v : Bytes}
    (hg : (Ty.option a).Valid pw g) (he : a.hasValue pw g = true) (hv : a.Valid pw v) :
    a.hasValue pw (wr g 0 v) = true ∧ a.payload pw (wr g 0 v) = v ∧ (Ty.option a).Valid pw (wr g 0 v) := by
  have hwf' := hwf
  simp only [Ty.WF] at hwf'
  have h := Ty.lawOK hpw a hwf'.1
  have hvl := h.size_eq v hv
  have hgl := (Ty.lawOK hpw _ hwf).size_eq g hg
  have hge := option_size_ge hwf
  have key : a.storeValue pw g v = wr g 0 v := by
    simp only [Ty.storeValue]
    by_cases hm : (a.traits pw).maxLevel ≥ 1
    · rw [if_pos hm]
    · rw [if_neg hm]
      simp only [Ty.hasValue, if_neg hm] at he
      have hsz := option_size_flag hm
      have := roundTo_ge (a.size pw + 1) hwf'.2.1
      -- the flag byte of a live engaged option is 1
      have hflag : ld 8 g (a.size pw) = 1 := by
        simp only [Ty.Valid] at hg
        rcases hg.2.1 (by omega) with h0 | h0
        · rw [h0] at he; simp at he
        · exact h0
      have hw : (wr g 0 v).length = g.length := by rw [wr_length]; omega
      -- writing 1 again changes nothing
      have hf2 : ld 8 (wr g 0 v) (a.size pw) = 1 := by
        rw [ld, rd_wr_disj (by omega) (by omega), ← ld]; exact hflag
      generalize wr g 0 v = x at *
      have hx : a.size pw < x.length := by omega
      have hd : x.drop (a.size pw) = x[a.size pw] :: x.drop (a.size pw + 1) := List.drop_eq_getElem_cons hx
      have hval : x[a.size pw] = 1 := by
        simp only [ld, rd] at hf2
        rw [hd] at hf2
        simp only [Nat.reduceDiv, List.take_succ_cons, List.take_zero, leVal, Nat.mul_zero, Nat.add_zero] at hf2
        rw [BitVec.ofNat_toNat] at hf2
        simpa using hf2
      have : st 8 x (a.size pw) 1 = x := by
        simp only [st, wr]
        have e1 : leBytes (8 / 8) (BitVec.toNat (1 : BitVec 8)) = [1] := by decide
        rw [e1]
        simp only [List.length_singleton]
        conv => rhs; rw [← List.take_append_drop (a.size pw) x, hd, hval]
        simp
      exact this
  have hs := storeValue_spec hpw hwf hgl hv
  rw [key] at hs
  exact ⟨hs.1, hs.2.1, hs.2.2.2⟩

/-- An engaged live option contains a live value. -/
theorem payload_valid {pw : Nat} {a : Ty} {g : Bytes}
    (hg : (Ty.option a).Valid pw g) (he : a.hasValue pw g = true) : a.Valid pw (a.payload pw g) := by
  simp only [Ty.Valid] at hg
  exact hg.2.2 he

/-- the layers share the working levels -/
theorem nest_cap {pw : Nat} (hpw : pw = 32 ∨ pw = 64) {T : Ty} (hwf : T.WF pw) (hal : 0 < T.align pw) (n : Nat)
    (hn : n ≤ T.cap pw) : (nest n T).WF pw ∧ T.cap pw ≤ (nest n T).cap pw + n := by
  induction n with
  | zero => exact ⟨hwf, Nat.le_refl _⟩
  | succ n ih =>
    obtain ⟨h1, h2⟩ := ih (by omega)
    have h := Ty.lawOK hpw _ h1
    refine ⟨?_, ?_⟩
    · simp only [nest, Ty.WF]
      exact ⟨h1, by rw [nest_align]; exact hal, fun _ => by omega⟩
    · simp only [nest, Ty.cap]
      split
      · omega
      · have := h.cap_le; omega

theorem nest_wf_pred {pw n : Nat} {T : Ty} (h : (nest (n + 1) T).WF pw) : (nest n T).WF pw := by
  simp only [nest, Ty.WF] at h; exact h.1

theorem storeAll_spec {pw : Nat} (hpw : pw = 32 ∨ pw = 64) {T : Ty} {v : Bytes} (hv : T.Valid pw v) (n : Nat)
    (hwf : (nest n T).WF pw) (g : Bytes) (hg : g.length = (nest n T).size pw) :
    (nest n T).Valid pw (storeAll pw n T g v) ∧ engagedDepth pw n T (storeAll pw n T g v) = n ∧
      innermost pw n T (storeAll pw n T g v) = v := by
  induction n generalizing g with
  | zero => exact ⟨hv, rfl, rfl⟩
  | succ n ih =>
    have hwfn : (Ty.option (nest n T)).WF pw := hwf
    obtain ⟨i1, i2, i3⟩ := ih (nest_wf_pred hwf) _ (payload_length hwfn hg)
    obtain ⟨s1, s2, s3, s4⟩ := storeValue_spec hpw hwfn hg i1
    refine ⟨s4, ?_, ?_⟩
    · rw [storeAll, engagedDepth, if_pos s1, s2, i2]; omega
    · rw [storeAll, innermost, s2, i3]

theorem storeNoneAt_spec {pw : Nat} (hpw : pw = 32 ∨ pw = 64) {T : Ty} (n k : Nat) (hwf : (nest n T).WF pw)
    (hk : k < n) (g : Bytes) (hg : g.length = (nest n T).size pw) :
    ∃ bs, storeNoneAt pw n k T g = .ok bs ∧ (nest n T).Valid pw bs ∧ engagedDepth pw n T bs = k := by
  induction n generalizing g k with
  | zero => omega
  | succ n ih =>
    have hwfn : (Ty.option (nest n T)).WF pw := hwf
    cases k with
    | zero =>
      obtain ⟨bs, h1, h2, _, h4⟩ := storeNone_spec hpw hwfn hg
      exact ⟨bs, h1, h4, by rw [engagedDepth, h2]; rfl⟩
    | succ k =>
      obtain ⟨b, i1, i2, i3⟩ := ih k (nest_wf_pred hwf) (by omega) _ (payload_length hwfn hg)
      obtain ⟨s1, s2, s3, s4⟩ := storeValue_spec hpw hwfn hg i2
      refine ⟨_, by rw [storeNoneAt, i1]; rfl, s4, ?_⟩
      rw [engagedDepth, if_pos s1, s2, i3]; omega

theorem resetAt_spec {pw : Nat} (hpw : pw = 32 ∨ pw = 64) {T : Ty} (n k : Nat) (hwf : (nest n T).WF pw)
    (hk : k < n) (g : Bytes) (hg : (nest n T).Valid pw g)
    (hd : k ≤ engagedDepth pw n T g) :
    ∃ bs, resetAt pw n k T g = .ok bs ∧ (nest n T).Valid pw bs ∧ engagedDepth pw n T bs = k := by
  induction n generalizing g k with
  | zero => omega
  | succ n ih =>
    have hwfn : (Ty.option (nest n T)).WF pw := hwf
    have hgl := (Ty.lawOK hpw _ hwfn).size_eq g hg
    cases k with
    | zero =>
      obtain ⟨bs, h1, h2, _, h4⟩ := storeNone_spec hpw hwfn hgl
      exact ⟨bs, h1, h4, by rw [engagedDepth, h2]; rfl⟩
    | succ k =>
      simp only [engagedDepth] at hd
      split at hd
      · rename_i he
        obtain ⟨b, i1, i2, i3⟩ := ih k (nest_wf_pred hwf) (by omega) _ (payload_valid hg he) (by omega)
        obtain ⟨s1, s2, s3⟩ := inPlace_spec hpw hwfn hg he i2
        refine ⟨_, by rw [resetAt, i1]; rfl, s3, ?_⟩
        rw [engagedDepth, if_pos s1, s2, i3]; omega
      · omega

/-- Every live object of a nested option is in one of the `n + 1` states, and the innermost value of a fully engaged
one is live. -/
theorem engagedDepth_le {pw : Nat} {T : Ty} (n : Nat) (g : Bytes) : engagedDepth pw n T g ≤ n := by
  induction n generalizing g with
  | zero => exact Nat.le_refl _
  | succ n ih =>
    rw [engagedDepth]
    split
    · have := ih ((nest n T).payload pw g); omega
    · omega

theorem innermost_valid {pw : Nat} {T : Ty} (n : Nat) (g : Bytes) (hg : (nest n T).Valid pw g) (hd : engagedDepth pw n T g = n) :
    T.Valid pw (innermost pw n T g) := by
  induction n generalizing g with
  | zero => exact hg
  | succ n ih =>
    simp only [engagedDepth] at hd
    split at hd
    · rename_i he
      exact ih _ (payload_valid hg he) (by omega)
    · omega

end Opt
