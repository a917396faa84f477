import Verif.Lemmas.Tight

/-!
# C35: `as_option` recognises the empty representations
-/

namespace Opt

/-- a non-trivial type for the examples: a struct with a `double` at offset 8 -/
def asTy : Ty := .member 16 8 8 (.float64 true 8)

example : (Ty.option asTy).WF 64 ∧ asTy.Tight ∧ (asTy.traits 64).maxLevel = 256 ∧ asTy.size 64 = 16 := by
  refine ⟨?_, ?_, rfl, rfl⟩
  · simp [asTy, Ty.WF, Ty.align]; decide
  · simp [asTy, Ty.Tight]

/-- C35, every well-formed type: whatever was in the storage before, `as_option` produces an option whose object is the
bytes of the argument; the bytes of a live value give an engaged option that holds it. -/
theorem C35_holds_value {pw : Nat} (hpw : pw = 32 ∨ pw = 64) (T : Ty) (hwf : (Ty.option T).WF pw)
    (hm : (T.traits pw).maxLevel ≥ 1) (g v : Bytes) (hg : g.length = (Ty.option T).size pw)
    (hv : v.length = T.size pw) :
    ∃ bs, asOption pw T g v = .ok bs ∧ bs.length = (Ty.option T).size pw ∧ T.payload pw bs = v ∧
      (T.Valid pw v → T.hasValue pw bs = true ∧ (Ty.option T).Valid pw bs) := by
  refine ⟨v, asOption_run hpw hwf hm hg hv, by rw [option_size_avail hm]; exact hv, rd_all hv, fun h => ?_⟩
  have hs := storeValue_spec hpw hwf hg h
  have e : T.storeValue pw g v = v := by
    rw [Ty.storeValue, if_pos hm]
    rw [option_size_avail hm] at hg
    simp only [wr]
    rw [List.drop_eq_nil_of_le (by omega)]
    simp
  rw [e] at hs
  exact ⟨hs.1, hs.2.2.2⟩

example : ∃ bs, asOption 64 asTy (List.replicate 16 9) (List.replicate 16 5) = .ok bs ∧ bs.length = 16 ∧
    asTy.payload 64 bs = List.replicate 16 5 :=
  let ⟨bs, h1, h2, h3, _⟩ := C35_holds_value (.inr rfl) asTy (by simp [asTy, Ty.WF, Ty.align]; decide) (by decide)
    (List.replicate 16 9) (List.replicate 16 5) rfl rfl
  ⟨bs, h1, h2, h3⟩

/-- C35, every well-formed type: the bytes of any empty option are recognised as empty. -/
theorem C35_recognises_empty {pw : Nat} (hpw : pw = 32 ∨ pw = 64) (T : Ty) (hwf : (Ty.option T).WF pw)
    (hm : (T.traits pw).maxLevel ≥ 1) (g g' v : Bytes) (hg : g.length = (Ty.option T).size pw)
    (hg' : g'.length = (Ty.option T).size pw) (hv : T.storeNone pw g' = .ok v) :
    ∃ bs, asOption pw T g v = .ok bs ∧ T.hasValue pw bs = false := by
  obtain ⟨bs, h1, h2, h3, _⟩ := storeNone_spec hpw hwf hg'
  rw [hv] at h1
  cases h1
  rw [option_size_avail hm] at h3
  exact ⟨v, asOption_run hpw hwf hm hg h3, h2⟩

/-- C35 (partial: `Tight` leaves out `std::string_view`, for which "only if" is false, see the `violated` theorem;
user-defined traits; sentinels with a coarser `==`, see `C35_sentinel`; enums over `bool`).  The result is empty exactly
when the argument has the bytes of some empty option of that type. -/
theorem C35_empty_iff_partial {pw : Nat} (hpw : pw = 32 ∨ pw = 64) (T : Ty) (hwf : (Ty.option T).WF pw)
    (ht : T.Tight) (hm : (T.traits pw).maxLevel ≥ 1) (g v : Bytes) (hg : g.length = (Ty.option T).size pw)
    (hv : v.length = T.size pw) :
    ∃ bs, asOption pw T g v = .ok bs ∧
      (T.hasValue pw bs = false ↔ ∃ g', g'.length = (Ty.option T).size pw ∧ T.storeNone pw g' = .ok v) := by
  refine ⟨v, asOption_run hpw hwf hm hg hv, fun h => ⟨v, by rw [option_size_avail hm]; exact hv, ?_⟩, ?_⟩
  · rw [Ty.hasValue, if_pos hm] at h
    have h0 : (T.traits pw).getLevel v = 0 := by simpa using h
    rw [Ty.storeNone, if_pos hm]
    simp only [Ty.WF] at hwf
    refine Ty.tight hpw T hwf.1 ht v 0 hv ?_ h0
    exact hwf.2.2 hm
  · rintro ⟨g', hg', h⟩
    obtain ⟨bs, h1, h2, _⟩ := storeNone_spec hpw hwf hg'
    rw [h] at h1
    cases h1
    exact h2

/-- `as_option` of a struct whose `double` is the reserved NaN is empty, of another NaN it is engaged -/
example : ∃ v, asTy.storeNone 64 (List.replicate 16 5) = .ok v ∧
    asOption 64 asTy (List.replicate 16 9) v = .ok v ∧ asTy.hasValue 64 v = false ∧
    asTy.hasValue 64 (List.replicate 16 5) = true := ⟨_, rfl, rfl, rfl, rfl⟩

/-- C35 for `std::string_view`: the result is empty exactly when the view with its length cleared has the bytes of an
empty option, i.e. the length plays no role. -/
theorem C35_string_view {pw : Nat} (hpw : pw = 32 ∨ pw = 64) (lf : Bool) (g v : Bytes)
    (hg : g.length = 2 * (pw / 8)) (hv : v.length = 2 * (pw / 8)) :
    ∃ bs, asOption pw (.stringView lf) g v = .ok bs ∧
      ((Ty.stringView lf).hasValue pw bs = false ↔
        ∃ g', g'.length = 2 * (pw / 8) ∧
          (Ty.stringView lf).storeNone pw g' = .ok (st pw v (if lf then 0 else pw / 8) 0)) := by
  have hwf : (Ty.option (.stringView lf)).WF pw := by
    simp only [Ty.WF, Ty.align, Ty.cap]
    exact ⟨trivial, by omega, fun h => h⟩
  have hm : ((Ty.stringView lf).traits pw).maxLevel ≥ 1 := by simp [Ty.traits, Ty.sizeTraits, stringViewTraits]
  have hsz : (Ty.option (.stringView lf)).size pw = 2 * (pw / 8) := by rw [option_size_avail hm]; rfl
  have hsz' : (Ty.stringView lf).size pw = 2 * (pw / 8) := rfl
  have hlaw := Ty.lawOK hpw (.stringView lf) (by simp only [Ty.WF])
  have hset : ∀ g', (Ty.stringView lf).storeNone pw g' =
      .ok (st pw (st pw g' (if lf then pw / 8 else 0) (ptrSet pw (topMinus pw 32185) 0))
        (if lf then 0 else pw / 8) 0) := by
    intro g'
    rw [Ty.storeNone, if_pos hm]
    rfl
  have hhas : ∀ b, ((Ty.stringView lf).hasValue pw b = false ↔
      (ld pw b (if lf then pw / 8 else 0) - topMinus pw 32185).setWidth 64 = 0) := by
    intro b
    rw [Ty.hasValue, if_pos hm]
    exact ⟨fun h => Decidable.not_not.1 (of_decide_eq_false h), fun h => decide_eq_false (fun k => k h)⟩
  have hp : ∀ x : BitVec pw, (x - topMinus pw 32185).setWidth 64 = 0 → ptrSet pw (topMinus pw 32185) 0 = x := by
    intro x hx
    have e0 : (x - topMinus pw 32185).setWidth 64 = (0 : BitVec pw).setWidth 64 := by rw [hx]; simp
    have e1 := setWidth_inj (by omega) e0
    have e2 : x = topMinus pw 32185 := by
      have := congrArg (fun y => y + topMinus pw 32185) e1
      simp only [BitVec.sub_add_cancel] at this
      rw [this]; exact BitVec.zero_add _
    rw [e2, ptrSet]
    rw [show (topMinus pw 32185).setWidth 64 + 0 = (topMinus pw 32185).setWidth 64 from BitVec.add_zero _]
    rw [BitVec.setWidth_setWidth_of_le _ (by omega), BitVec.setWidth_eq]
  refine ⟨v, asOption_run hpw hwf hm (by rw [hsz]; exact hg) (by rw [hsz']; exact hv), ?_⟩
  rw [hhas]
  constructor
  · intro h
    refine ⟨v, hv, ?_⟩
    rw [hset, hp _ h, st_ld_self (by omega) (by split <;> omega)]
  · rintro ⟨g', hg', h⟩
    obtain ⟨bs, h1, h2, h3, _⟩ := storeNone_spec hpw hwf (g := g') (by rw [hsz]; exact hg')
    rw [h] at h1
    cases h1
    rw [hhas] at h2
    rw [ld_st_disj _ (by split <;> omega) (by cases lf <;> simp) ] at h2
    exact h2

example : ∃ g', g'.length = 2 * (64 / 8) ∧ (Ty.stringView true).storeNone 64 g' =
    .ok (st 64 (leBytes 8 77 ++ leBytes 8 (2 ^ 64 - 1 - 32185)) 0 0) :=
  ⟨List.replicate 16 1, rfl, rfl⟩

/-- C35 is violated, read strictly, by `std::string_view`: a view of non-zero length at the reserved address is taken for
empty although no empty option has those bytes. -/
theorem C35_violated_string_view : ∃ (v bs : Bytes), v.length = 16 ∧
    asOption 64 (.stringView true) (List.replicate 16 0) v = .ok bs ∧
    (Ty.stringView true).hasValue 64 bs = false ∧
    ∀ g', g'.length = 16 → (Ty.stringView true).storeNone 64 g' ≠ .ok v := by
  refine ⟨leBytes 8 77 ++ leBytes 8 (2 ^ 64 - 1 - 32185), _, rfl, rfl, by decide, ?_⟩
  intro g' hg' h
  have e : (Ty.stringView true).storeNone 64 g' =
      .ok (st 64 (st 64 g' 8 (ptrSet 64 (topMinus 64 32185) 0)) 0 0) := rfl
  rw [e] at h
  have h' := Res.ok.inj h
  have := congrArg (fun b => ld 64 b 0) h'
  rw [ld_st_same (by decide) _ (by rw [st_length] <;> omega)] at this
  exact absurd this (by decide)

/-- C35 for a sentinel compared with the user's `==`: the result is empty exactly when the argument equals the (first)
sentinel. -/
theorem C35_sentinel {pw : Nat} (hpw : pw = 32 ∨ pw = 64) (n al : Nat) (hal : 0 < al) (eq : Bytes → Bytes → Bool)
    (s : Bytes) (hs : s.length = n) (hss : eq s s = true) (g v : Bytes) (hg : g.length = n) (hv : v.length = n) :
    ∃ bs, asOption pw (.sentinelOpt n al eq s) g v = .ok bs ∧
      ((Ty.sentinelOpt n al eq s).hasValue pw bs = false ↔ eq v s = true) := by
  have hm : ((Ty.sentinelOpt n al eq s).traits pw).maxLevel ≥ 1 := Nat.le_refl 1
  have hwf : (Ty.option (.sentinelOpt n al eq s)).WF pw := by
    simp only [Ty.WF, Ty.align, Ty.cap]
    exact ⟨⟨hs, hss⟩, hal, fun h => h⟩
  refine ⟨v, asOption_run hpw hwf hm (by rw [option_size_avail hm]; exact hg) hv, ?_⟩
  rw [Ty.hasValue, if_pos hm]
  simp only [Ty.traits, Ty.sizeTraits, sentinelOptionTraits]
  by_cases h : eq v s = true
  · simp [h]
  · simp only [Bool.not_eq_true] at h; simp [h]

example : asOption 64 (.sentinelOpt 4 4 (fun x y => rd x 0 2 == rd y 0 2) [1, 2, 3, 4]) [0, 0, 0, 0] [1, 2, 9, 9] =
    .ok [1, 2, 9, 9] ∧
    (Ty.sentinelOpt 4 4 (fun x y => rd x 0 2 == rd y 0 2) [1, 2, 3, 4]).hasValue 64 [1, 2, 9, 9] = false := by decide

end Opt
