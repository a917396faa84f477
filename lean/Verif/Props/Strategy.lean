import Verif.Spec.Strategy

/-!
# C41: selection of the trait strategy
-/

namespace Opt

/-- the selected strategy fits -/
theorem determine_fits (c : Config) (t : TypeInfo) (ht : t.Real c) : Fits c t (determineStrategy c t) := by
  obtain ⟨tm, sz, isP, isM, isF, iec, sN, qN, poly, pad, isE, hS, hSt, hE, un, tl, rf⟩ := t
  obtain ⟨us, re, pf, up⟩ := c
  obtain ⟨h1, h2, h3, h4, h5, h6, h7, h8⟩ := ht
  simp only at h1 h2 h3 h4 h5 h6 h7 h8
  simp only [determineStrategy]
  have hsub : ∀ d, dispatchSpecializations ⟨us, re, pf, up⟩ tm = d → d ≠ .other → Fits ⟨us, re, pf, up⟩
      ⟨tm, sz, isP, isM, isF, iec, sN, qN, poly, pad, isE, hS, hSt, hE, un, tl, rf⟩ d := by
    rintro d rfl hd
    cases tm with
    | unknown => exact absurd rfl hd
    | option n =>
      cases n with
      | zero => simp [dispatchSpecializations, Fits]
      | succ n => simp [dispatchSpecializations, Fits]
    | array n =>
      cases n with
      | zero => simp [dispatchSpecializations, Fits]
      | succ n => simp [dispatchSpecializations, Fits]
    | string e f => cases us <;> cases e <;> cases f <;> simp_all [dispatchSpecializations, Fits]
    | vector e f => cases us <;> cases e <;> cases f <;> simp_all [dispatchSpecializations, Fits]
    | _ => simp [dispatchSpecializations, Fits]
  by_cases hd : dispatchSpecializations ⟨us, re, pf, up⟩ tm = .other
  · have hk : ¬ tm.known ⟨us, re, pf, up⟩ := by
      cases tm with
      | option n => simp only [dispatchSpecializations] at hd; split at hd <;> cases hd
      | array n => simp only [dispatchSpecializations] at hd; split at hd <;> cases hd
      | string e f => cases us <;> cases e <;> cases f <;> simp_all [dispatchSpecializations, Template.known]
      | vector e f => cases us <;> cases e <;> cases f <;> simp_all [dispatchSpecializations, Template.known]
      | _ => simp_all [dispatchSpecializations, Template.known]
    simp only [hd, ne_eq, not_true_eq_false, if_false]
    clear hsub hd
    repeat' split
    all_goals simp_all [Fits, TypeInfo.Plain]
    · cases iec <;> simp_all
    · cases re <;> simp_all
    · cases pf <;> simp_all
  · rw [if_pos hd]
    exact hsub _ rfl hd

/-- the converse -/
theorem fits_determine (c : Config) (t : TypeInfo) (ht : t.Real c) (s : Strategy) (h : Fits c t s) :
    determineStrategy c t = s := by
  obtain ⟨tm, sz, isP, isM, isF, iec, sN, qN, poly, pad, isE, hS, hSt, hE, un, tl, rf⟩ := t
  obtain ⟨us, re, pf, up⟩ := c
  obtain ⟨h1, h2, h3, h4, h5, h6, h7, h8⟩ := ht
  simp only at h1 h2 h3 h4 h5 h6 h7 h8
  have hpl : ∀ d, ¬ Template.known ⟨us, re, pf, up⟩ tm → dispatchSpecializations ⟨us, re, pf, up⟩ tm = d → d = .other := by
    rintro d hk rfl
    cases tm <;> simp_all [Template.known, dispatchSpecializations]
  cases s
  case other => exact absurd h (by simp [Fits])
  case array => obtain ⟨n, rfl⟩ := h; simp [determineStrategy, dispatchSpecializations]
  case availableOption => obtain ⟨n, rfl⟩ := h; simp [determineStrategy, dispatchSpecializations]
  case polymorphic =>
    obtain ⟨⟨hk, h⟩, h'⟩ := h
    have := hpl _ hk rfl
    simp_all [determineStrategy]
  case paddingMember =>
    obtain ⟨⟨hk, h⟩, h'⟩ := h
    have := hpl _ hk rfl
    simp_all [determineStrategy]
  case tupleLike =>
    obtain ⟨⟨hk, h⟩, h'⟩ := h
    have := hpl _ hk rfl
    simp_all [determineStrategy]
  case reflectable =>
    obtain ⟨⟨hk, h⟩, h'⟩ := h
    have := hpl _ hk rfl
    simp_all [determineStrategy]
  case none =>
    rcases h with ⟨e, f, h, hu, h'⟩ | h | h | h | h | h | ⟨⟨hk, h⟩, h'⟩
    · rcases h with h | h <;> rcases h' with h' | h' <;> simp_all [determineStrategy, dispatchSpecializations]
    · simp_all [determineStrategy, dispatchSpecializations]
    · simp_all [determineStrategy, dispatchSpecializations]
    · simp_all [determineStrategy, dispatchSpecializations]
    · rcases h with ⟨h, h' | h'⟩ <;> simp_all [determineStrategy, dispatchSpecializations]
    · rcases h with ⟨h, hh, hhh, h' | h'⟩ <;> simp_all [determineStrategy, dispatchSpecializations]
    · have := hpl _ hk rfl
      rcases h' with ⟨ha, hb, hc | hc, hd⟩ <;> simp_all [determineStrategy]
  case float64qNaN =>
    simp only [Fits] at h
    rcases h with ⟨ha, hb, hc, hd | hd⟩ <;> simp_all [determineStrategy, dispatchSpecializations]
  case float32qNaN =>
    simp only [Fits] at h
    rcases h with ⟨ha, hb, hc, hd | hd⟩ <;> simp_all [determineStrategy, dispatchSpecializations]
  all_goals simp_all [Fits, determineStrategy, dispatchSpecializations]
  omega

/-- **C41.** For every configuration and every combination of facts that C++ allows, the strategy
selected by `detemine_option_strategy` is the one whose documented condition holds, and only that one. -/
theorem C41_selection (c : Config) (t : TypeInfo) (ht : t.Real c) (s : Strategy) :
    determineStrategy c t = s ↔ Fits c t s :=
  ⟨fun h => h ▸ determine_fits c t ht, fits_determine c t ht s⟩

/-- **C41.** No type is selected for a trait whose size assertions it fails. -/
theorem C41_sizes (c : Config) (t : TypeInfo) (ht : t.Real c) : sizeAsserts c t (determineStrategy c t) = true := by
  have h := determine_fits c t ht
  revert h
  cases determineStrategy c t <;> intro h <;> simp only [Fits] at h <;> simp only [sizeAsserts]
  case bool_ => simp [ht.bool_size h]
  case referenceWrapper => simp [ht.wrapper_size h]
  all_goals simp [h]

/-- **C41.** Every type gets a strategy, and never the internal marker `other`. -/
theorem C41_never_other (c : Config) (t : TypeInfo) (ht : t.Real c) : determineStrategy c t ≠ .other := by
  rw [Ne, C41_selection c t ht]; exact id

namespace Demo

/-- gcc on x86-64 with Boost.PFR -/
def gcc64 : Config := ⟨false, true, true, 8⟩

/-- 32-bit x86 -/
def gcc32 : Config := ⟨false, true, false, 4⟩

def tyDouble : TypeInfo :=
  ⟨.unknown, 8, false, false, true, true, true, true, false, false, false, false, false, false, false, false, false⟩

/-- a class with virtual functions and an `OPTION_PADDING` member -/
def tyVirtual : TypeInfo :=
  ⟨.unknown, 16, false, false, false, false, false, false, true, true, false, false, false, false, false, false, false⟩

theorem tyDouble_real (c : Config) : tyDouble.Real c := by constructor <;> simp [tyDouble]

theorem tyVirtual_real (c : Config) : tyVirtual.Real c := by constructor <;> simp [tyVirtual]

example : Fits gcc64 tyDouble .float64sNaN := (C41_selection _ _ (tyDouble_real _) _).mp (by decide)

/-- the x87 registers quieten signaling NaNs, so 32-bit targets use quiet ones -/
example : Fits gcc32 tyDouble .float64qNaN := (C41_selection _ _ (tyDouble_real _) _).mp (by decide)

/-- the vtable pointer wins over the padding member -/
example : Fits gcc64 tyVirtual .polymorphic ∧ ¬ Fits gcc64 tyVirtual .paddingMember :=
  ⟨(C41_selection _ _ (tyVirtual_real _) _).mp (by decide),
   fun h => absurd ((C41_selection _ _ (tyVirtual_real _) _).mpr h) (by decide)⟩

example : sizeAsserts gcc64 tyVirtual (determineStrategy gcc64 tyVirtual) = true :=
  C41_sizes _ _ (tyVirtual_real _)

example : determineStrategy gcc32 tyVirtual ≠ .other := C41_never_other _ _ (tyVirtual_real _)

end Demo

end Opt

