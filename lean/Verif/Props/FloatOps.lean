import Verif.Lemmas.FloatOps

/-!
# C92: calculations and copies of floating-point values
-/

namespace Opt.FloatOps

variable {given : Fmt → Nat → Prop} {f : Fmt} {x : Nat}

/-- **C92**: out of values whose NaNs are default NaNs no calculation makes a value that looks empty, with signaling or quiet NaNs -/
theorem C92_calculated (pw : Nat) (s : Bool) (hg : ∀ f x, given f x → IsNaN f x → payload f x = 0) (h : Made given f x) : ¬ LooksEmpty pw s f x := by
  have key : IsNaN f x → payload f x = 0 := by
    induction h with
    | given h _ => exact hg _ _ h
    | number _ h => exact fun hn => absurd hn h
    | invalid f neg => exact fun _ => default_payload f neg
    | operand _ hn ih => exact fun _ => by rw [quieten_payload]; exact ih hn
    | sign neg _ ih => exact fun hn => by rw [withSign_payload]; exact ih ((withSign_nan _ _ _).1 hn)
    | narrow _ hn ih => exact fun _ => by rw [narrow_payload, ih hn]
    | widen _ hn ih => exact fun _ => by rw [widen_payload, ih hn]
  intro he
  have := empty_range ((looksEmpty_iff pw s f h.lt).1 he)
  exact this.2.1 (key this.1)

/-- `-(double)(0.0f / 0.0f)` has a value -/
example : ¬ LooksEmpty 64 true .double (withSign .double true (widen (defaultNaN .float false))) :=
  C92_calculated (given := fun _ _ => False) 64 true (fun _ _ h => h.elim) (.sign true (.widen (.invalid .float false) (by decide)))

/-- **C92**, signaling NaNs: a value that looks empty can be calculated exactly if a signaling NaN that looks empty up to its sign is among the
given values; other NaNs do not matter. -/
theorem C92_signaling (pw : Nat) : (∃ x, Made given f x ∧ LooksEmpty pw true f x) ↔
    ∃ y z, given f y ∧ y < 256 ^ f.bytes ∧ IsSignaling f y ∧ z < 256 ^ f.bytes ∧ LooksEmpty pw true f z ∧ magnitude f y = magnitude f z := by
  constructor
  · rintro ⟨x, h, he⟩
    have key : IsSignaling f x → ∃ y, given f y ∧ y < 256 ^ f.bytes ∧ IsSignaling f y ∧ magnitude f y = magnitude f x := by
      clear he
      induction h with
      | given h hl => exact fun hs => ⟨_, h, hl, hs, rfl⟩
      | number _ h => exact fun hs => absurd hs.1 h
      | invalid f neg => exact fun hs => by have := hs.2; rw [default_quiet] at this; cases this
      | operand _ hn ih => exact fun hs => by have := hs.2; rw [quieten_quiet] at this; cases this
      | sign neg _ ih =>
        intro hs
        rw [withSign_magnitude]
        refine ih ⟨(withSign_nan _ _ _).1 hs.1, ?_⟩
        have := hs.2
        rwa [withSign_quiet] at this
      | narrow _ hn ih => exact fun hs => by have := hs.2; rw [narrow_quiet] at this; cases this
      | widen _ hn ih => exact fun hs => by have := hs.2; rw [widen_quiet] at this; cases this
    have hr := empty_range ((looksEmpty_iff pw true f h.lt).1 he)
    obtain ⟨y, h1, h2, h3, h4⟩ := key ⟨hr.1, hr.2.2.1⟩
    exact ⟨y, x, h1, h2, h3, h.lt, he, h4⟩
  · rintro ⟨y, z, h1, h2, _, h4, h5, h6⟩
    refine ⟨withSign f true y, .sign true (.given h1 h2), ?_⟩
    have hr := (looksEmpty_iff pw true f h4).1 h5
    rw [looksEmpty_iff pw true f (withSign_lt _ _ _)]
    have : withSign f true y = z := by
      cases f <;> floats <;> omega
    rwa [this]

/-- whatever quiet NaNs there are, with any payload -/
example : ¬ ∃ x, Made (fun f x => ¬ IsSignaling f x) .double x ∧ LooksEmpty 64 true .double x :=
  fun h => by obtain ⟨y, _, h1, _, h3, _⟩ := (C92_signaling 64).1 h; exact h1 h3

/-- **C92**, quiet NaNs: a value that looks empty can be calculated exactly if one of the given NaNs, signaling or quiet, has its payload; for a
`float` it may also be a `double` with these upper bits. -/
theorem C92_quiet (pw : Nat) : (∃ x, Made given f x ∧ LooksEmpty pw false f x) ↔
    ∃ z, z < 256 ^ f.bytes ∧ LooksEmpty pw false f z ∧
      ((∃ y, given f y ∧ y < 256 ^ f.bytes ∧ IsNaN f y ∧ payload f y = payload f z) ∨ f = .float ∧ Leaves given (payload f z)) := by
  constructor
  · rintro ⟨x, h, he⟩
    have key : IsNaN f x → payload f x = 0 ∨ (∃ y, given f y ∧ y < 256 ^ f.bytes ∧ IsNaN f y ∧ payload f y = payload f x) ∨
        (f = .float ∧ Leaves given (payload f x)) ∨ f = .double ∧ payload f x % 2 ^ 29 = 0 ∧ Leaves given (payload f x / 2 ^ 29) := by
      clear he
      induction h with
      | given h hl => exact fun hn => .inr (.inl ⟨_, h, hl, hn, rfl⟩)
      | number _ h => exact fun hn => absurd hn h
      | invalid f neg => exact fun _ => .inl (default_payload f neg)
      | operand _ hn ih => exact fun _ => by rw [quieten_payload]; exact ih hn
      | sign neg _ ih => exact fun hn => by rw [withSign_payload]; exact ih ((withSign_nan _ _ _).1 hn)
      | @narrow x _ hn ih =>
        intro _
        rw [narrow_payload]
        rcases ih hn with h | ⟨y, h1, h2, h3, h4⟩ | ⟨h, _⟩ | ⟨_, _, h⟩
        · exact .inl (by rw [h])
        · exact .inr (.inr (.inl ⟨rfl, .inr ⟨y, h1, h2, h3, by rw [h4]⟩⟩))
        · cases h
        · exact .inr (.inr (.inl ⟨rfl, h⟩))
      | @widen x _ hn ih =>
        intro _
        rw [widen_payload]
        have e1 : payload .float x * 2 ^ 29 % 2 ^ 29 = 0 := Nat.mul_mod_left _ _
        have e2 : payload .float x * 2 ^ 29 / 2 ^ 29 = payload .float x := Nat.mul_div_cancel _ (by decide)
        rw [e1, e2]
        rcases ih hn with h | ⟨y, h1, h2, h3, h4⟩ | ⟨_, h⟩ | ⟨h, _⟩
        · exact .inl (by rw [h])
        · exact .inr (.inr (.inr ⟨rfl, rfl, .inl ⟨y, h1, h2, h3, h4⟩⟩))
        · exact .inr (.inr (.inr ⟨rfl, rfl, h⟩))
        · cases h
    have hr := empty_range ((looksEmpty_iff pw false f h.lt).1 he)
    refine ⟨x, h.lt, he, ?_⟩
    rcases key hr.1 with h | h | h | ⟨h1, h2, _⟩
    · exact absurd h hr.2.1
    · exact .inl h
    · exact .inr h
    · exact absurd h2 (hr.2.2.2 h1)
  · rintro ⟨z, hz, he, h⟩
    have hr := (looksEmpty_iff pw false f hz).1 he
    have direct : ∀ y, given f y → y < 256 ^ f.bytes → IsNaN f y → payload f y = payload f z → ∃ x, Made given f x ∧ LooksEmpty pw false f x := by
      intro y h1 h2 h3 h4
      have e : withSign f true (quieten f y) = z := by
        unfold quieten; split <;> cases f <;> floats <;> omega
      exact ⟨_, .sign true (.operand (.given h1 h2) h3), by rw [e]; exact he⟩
    rcases h with ⟨y, h1, h2, h3, h4⟩ | ⟨rfl, ⟨y, h1, h2, h3, h4⟩ | ⟨y, h1, h2, h3, h4⟩⟩
    · exact direct y h1 h2 h3 h4
    · exact direct y h1 h2 h3 h4
    · have e : withSign .float true (narrow y) = z := by floats; omega
      exact ⟨_, .sign true (.narrow (.given h1 h2) h3), by rw [e]; exact he⟩

/-- NaNs with payloads below 1000 do no harm -/
example : ¬ ∃ x, Made (fun f x => f = .double ∧ payload f x < 1000) .double x ∧ LooksEmpty 64 false .double x := by
  rintro h
  obtain ⟨z, hz, he, ⟨y, h1, _, _, h4⟩ | ⟨h, _⟩⟩ := (C92_quiet 64).1 h
  · have := (looksEmpty_iff 64 false .double hz).1 he
    have := h1.2
    rw [h4] at this
    floats
    omega
  · cases h

/-- **C92** is violated by a NaN that is a value and becomes an empty state when its sign changes or, with quiet NaNs, when it is used or copied:
it is in an option, and assigning `-*a` to the option empties it. -/
theorem C92_recreated_violated (pw : Nat) (f : Fmt) (s : Bool) :
    ∃ x, x < 256 ^ f.bytes ∧ IsNaN f x ∧ ¬ LooksEmpty pw s f x ∧ LooksEmpty pw s f (withSign f true x) ∧
      (s = false → ∃ y, y < 256 ^ f.bytes ∧ IsSignaling f y ∧ ¬ LooksEmpty pw s f y ∧ LooksEmpty pw s f (quieten f y)) := by
  refine ⟨withSign f false (start s f), withSign_lt _ _ _, ?_, ?_, ?_, ?_⟩
  · cases f <;> cases s <;> decide
  · rw [looksEmpty_iff pw s f (withSign_lt _ _ _)]
    cases f <;> cases s <;> decide
  · rw [looksEmpty_iff pw s f (withSign_lt _ _ _)]
    cases f <;> cases s <;> decide
  · rintro rfl
    refine ⟨start false f - 2 ^ (f.m - 1), ?_, ?_, ?_, ?_⟩
    · cases f <;> decide
    · exact ⟨by cases f <;> decide, by cases f <;> decide⟩
    · rw [looksEmpty_iff pw false f (by cases f <;> decide)]
      cases f <;> decide
    · rw [looksEmpty_iff pw false f (by cases f <;> decide)]
      cases f <;> decide

/-! ## Copies -/

/-- **C92**, quiet NaNs: copies through registers that make NaNs quiet keep all empty states, and all values but signaling NaNs.  Missing: these
(`C92_recreated_violated`). -/
theorem C92_copy_partial (pw : Nat) (hx : x < 256 ^ f.bytes) (hs : ¬ IsSignaling f x) :
    copied f x = x ∧ (LooksEmpty pw false f (copied f x) ↔ LooksEmpty pw false f x) := by
  have e : copied f x = x := by
    unfold copied
    split
    · rename_i hn
      have hq : fQuiet f.m x = 1 := by
        have : fQuiet f.m x < 2 := Nat.mod_lt _ (by decide)
        have : fQuiet f.m x ≠ 0 := fun h => hs ⟨hn, h⟩
        omega
      rw [quieten, if_pos hq]
    · rfl
  exact ⟨e, by rw [e]⟩

/-- no empty state is signaling -/
example : copied .double 0xFFFBF26430BB3557 = 0xFFFBF26430BB3557 :=
  (C92_copy_partial 32 (by decide) (fun h => absurd h.2 (by decide))).1

/-- **C92**, signaling NaNs: such copies make values of all empty states, and no empty state of a value. -/
theorem C92_copy_violated (pw : Nat) (hx : x < 256 ^ f.bytes) : copied f x < 256 ^ f.bytes ∧ ¬ LooksEmpty pw true f (copied f x) := by
  have hl : copied f x < 256 ^ f.bytes := by
    unfold copied
    split
    · exact quieten_lt hx
    · exact hx
  refine ⟨hl, fun he => ?_⟩
  have hr := empty_range ((looksEmpty_iff pw true f hl).1 he)
  unfold copied at hr
  split at hr
  · rw [quieten_quiet] at hr
    exact absurd hr.2.2.1 (by decide)
  · rename_i hn
    exact hn hr.1

/-- level 0 of a `float` -/
example : LooksEmpty 64 true .float 0xFFBF69AF ∧ ¬ LooksEmpty 64 true .float (copied .float 0xFFBF69AF) :=
  ⟨(looksEmpty_iff 64 true .float (by decide)).2 (by decide), (C92_copy_violated 64 (by decide)).2⟩

/-- **C92**: with 4-byte pointers, where such registers are in use, the library chooses the NaNs that survive: no copy makes a value of an empty
state.  Everywhere else it chooses signaling NaNs if there are any. -/
theorem C92_choice (pw : Nat) (c : Config) (t : TypeInfo) {f : Fmt} {s : Bool} (h : ofStrategy (determineStrategy c t) = some (f, s)) :
    (s = true ↔ c.uintptr ≠ 4 ∧ t.hasSNaN = true) ∧ t.size = f.bytes ∧
      (c.uintptr = 4 → ∀ x, x < 256 ^ f.bytes → LooksEmpty pw s f x → copied f x = x) := by
  have hs : (s = true ↔ c.uintptr ≠ 4 ∧ t.hasSNaN = true) ∧ t.size = f.bytes := by
    unfold determineStrategy at h
    simp only at h
    split at h
    · rename_i hd
      exfalso
      revert h hd
      cases t.template <;> simp only [dispatchSpecializations] <;> (repeat' split) <;> simp [ofStrategy]
    · repeat' split at h
      all_goals simp only [ofStrategy, reduceCtorEq, Option.some.injEq, Prod.mk.injEq] at h
      all_goals obtain ⟨rfl, rfl⟩ := h
      all_goals simp_all [Fmt.bytes]
  refine ⟨hs.1, hs.2, fun h4 x hx he => ?_⟩
  have hf : s = false := by
    cases s
    · rfl
    · exact absurd h4 (hs.1.1 rfl).1
  subst hf
  refine (C92_copy_partial pw hx fun hsig => ?_).1
  have := (empty_range ((looksEmpty_iff pw false f hx).1 he)).2.2.1
  rw [hsig.2] at this
  cases this

/-- `double` with 32-bit pointers -/
example : ofStrategy (determineStrategy ⟨false, true, false, 4⟩
    ⟨.unknown, 8, false, false, true, true, true, true, false, false, false, false, false, false, false, false, false⟩) = some (.double, false) := by decide

#print axioms C92_calculated
#print axioms C92_signaling
#print axioms C92_quiet
#print axioms C92_recreated_violated
#print axioms C92_copy_partial
#print axioms C92_copy_violated
#print axioms C92_choice

end Opt.FloatOps
