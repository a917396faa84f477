import Verif.Lemmas.EnumSentinel

namespace Opt

theorem diffOverflows_narrow {w : Nat} (h : w < 32) (sg : Bool) (a b : BitVec w) : diffOverflows sg w a b = false := by
  simp only [diffOverflows, Bool.and_eq_false_iff, decide_eq_false_iff_not]
  left; right; omega

theorem diffOverflows_unsigned {w : Nat} (a b : BitVec w) : diffOverflows false w a b = false := by
  simp [diffOverflows]

theorem two_pow_pos' (k : Nat) : (0 : Int) < 2 ^ k := Int.pow_pos (by decide)

theorem toInt_range {w : Nat} (hw : w = 8 ∨ w = 16 ∨ w = 32 ∨ w = 64) (x : BitVec w) :
    -(2 : Int) ^ (w - 1) ≤ x.toInt ∧ x.toInt < 2 ^ (w - 1) := by
  have := toInt_cases x
  have := x.isLt
  rcases hw with rfl | rfl | rfl | rfl <;> simp only [Nat.add_sub_cancel, Nat.reduceSub] <;> omega

theorem toInt_inj' {w : Nat} {a b : BitVec w} (h : a.toInt = b.toInt) : a = b := BitVec.eq_of_toInt_eq h

theorem lawOK_enumSentinel {pw w : Nat} (hw : w = 8 ∨ w = 16 ∨ w = 32 ∨ w = 64) (sg : Bool) (s : BitVec w) :
    LawOK (enumSentinelTraits w sg s) (w / 8) ((Ty.enumSentinel w sg s).Valid pw) 1 := by
  apply lawOK_word (w := w) (off := 0) (by omega) (by omega) (fun x => enumDiff sg w x s) (fun _ => s) (fun bs => rfl)
  · intro bs l h
    have : l = 0 := by apply BitVec.eq_of_toNat_eq; simp; omega
    simp only [enumSentinelTraits]; rw [verifyThen_decide this]
  · intro l h
    apply BitVec.eq_of_toNat_eq
    have : l.toNat = 0 := by omega
    rw [this]
    cases sg
    · have := enumDiff_unsigned hw s s; omega
    · have := enumDiff_signed hw s s (diffOverflows_false (by have := two_pow_pos' (w - 1); omega)
        (by have := two_pow_pos' (w - 1); omega) true)
      omega
  · simp [enumSentinelTraits]
  · simp [enumSentinelTraits]
  · intro bs h; simp only [Ty.Valid] at h; exact h.1
  · intro bs h; simp only [Ty.Valid] at h
    have hx := (ld w bs 0).isLt
    have hs := s.isLt
    show 1 ≤ _
    cases sg
    · have h3 := enumDiff_unsigned hw (ld w bs 0) s
      have hne : (ld w bs 0).toNat ≠ s.toNat := fun e => h.2.1 (BitVec.eq_of_toNat_eq e)
      omega
    · have h3 := enumDiff_signed hw (ld w bs 0) s h.2.2
      have hne : (ld w bs 0).toInt ≠ s.toInt := fun e => h.2.1 (toInt_inj' e)
      have h4 := toInt_range hw (ld w bs 0)
      have h5 := toInt_range hw s
      rcases hw with rfl | rfl | rfl | rfl <;> simp only [Nat.reduceSub] at h4 h5 <;> omega

theorem lawOK_enumStart {pw w : Nat} {sg : Bool} {s : BitVec w} (hwf : (Ty.enumStart w sg s).WF pw) :
    LawOK (enumStartTraits w sg s) (w / 8) ((Ty.enumStart w sg s).Valid pw) (enumStartMax w sg s) := by
  simp only [Ty.WF] at hwf
  obtain ⟨hw, hz, hsg⟩ := hwf
  have hs := s.isLt
  have hlt : enumStartMax w sg s < 2 ^ 64 := BitVec.isLt _
  apply lawOK_word (w := w) (off := 0) (cap := enumStartMax w sg s) (by omega) (by omega) (fun x => enumDiff sg w x s)
    (fun l => enumStartSet w sg s l) (fun bs => rfl) _ _ hlt (Nat.le_refl _)
  · intro bs h; simp only [Ty.Valid] at h; exact h.1
  · intro bs h; simp only [Ty.Valid] at h
    obtain ⟨_, ho, hv⟩ := h
    have hx := (ld w bs 0).isLt
    show enumStartMax w sg s ≤ _
    cases sg
    · simp only [Bool.false_eq_true, if_false] at hv
      have h3 := enumDiff_unsigned hw (ld w bs 0) s
      rw [enumStartMax_unsigned hw s (fun h => hz ⟨rfl, h.1, h.2⟩)]
      omega
    · simp only [if_true] at hv
      have h3 := enumDiff_signed hw (ld w bs 0) s ho
      have hm := enumStartMax_signed hw s (fun h => hsg rfl h)
      have h4 := toInt_range hw (ld w bs 0)
      have h5 := toInt_range hw s
      rcases hw with rfl | rfl | rfl | rfl <;> simp only [Nat.reduceSub] at h4 h5 hm <;> omega
  · intro bs l h; simp only [enumStartTraits]; rw [verifyThen_decide h]
  · intro l h
    apply BitVec.eq_of_toNat_eq
    cases sg
    · rw [enumStartMax_unsigned hw s (fun h => hz ⟨rfl, h.1, h.2⟩)] at h
      have h2 := enumStartSet_unsigned hw s l (by omega)
      have h3 := enumDiff_unsigned hw (enumStartSet w false s l) s
      omega
    · have hm := enumStartMax_signed hw s (fun h => hsg rfl h)
      have h2 := enumStartSet_signed hw s l (by omega)
      have h5 := toInt_range hw s
      have ho : diffOverflows true w (enumStartSet w true s l) s = false := by
        rcases Nat.lt_or_ge w 32 with hn | hn
        · exact diffOverflows_narrow hn _ _ _
        · have := hsg rfl hn
          have := two_pow_pos' (w - 1)
          exact diffOverflows_false (by omega) (by omega) _
      have h3 := enumDiff_signed hw (enumStartSet w true s l) s ho
      omega

theorem lawOK_enumStartEnd {pw w : Nat} {sg : Bool} {s e : BitVec w} (hwf : (Ty.enumStartEnd w sg s e).WF pw) :
    LawOK (enumStartEndTraits w sg s e) (w / 8) ((Ty.enumStartEnd w sg s e).Valid pw)
      (enumStartEndMax w sg s e) := by
  simp only [Ty.WF] at hwf
  obtain ⟨hw, hsg⟩ := hwf
  have hs := s.isLt
  have he := e.isLt
  have hlt : enumStartEndMax w sg s e < 2 ^ 64 := BitVec.isLt _
  apply lawOK_word (w := w) (off := 0) (cap := enumStartEndMax w sg s e) (by omega) (by omega) (fun x => enumDiff sg w x s)
    (fun l => enumStartSet w sg s l) (fun bs => rfl) _ _ hlt (Nat.le_refl _)
  · intro bs h; simp only [Ty.Valid] at h; exact h.1
  · intro bs h; simp only [Ty.Valid] at h
    obtain ⟨_, ho, hv⟩ := h
    have hx := (ld w bs 0).isLt
    show enumStartEndMax w sg s e ≤ _
    cases sg
    · simp only [Bool.false_eq_true, if_false] at hv hsg
      have h3 := enumDiff_unsigned hw (ld w bs 0) s
      rw [enumStartEndMax_unsigned hw s e hsg.1 hsg.2]
      omega
    · simp only [if_true] at hv hsg
      have h3 := enumDiff_signed hw (ld w bs 0) s ho
      have hm := enumStartEndMax_signed hw s e hsg.1 hsg.2
      have h4 := toInt_range hw (ld w bs 0)
      have h5 := toInt_range hw s
      have h6 := toInt_range hw e
      rcases hw with rfl | rfl | rfl | rfl <;> simp only [Nat.reduceSub] at h4 h5 h6 hsg <;> omega
  · intro bs l h; simp only [enumStartEndTraits]; rw [verifyThen_decide h]
  · intro l h
    apply BitVec.eq_of_toNat_eq
    cases sg
    · simp only [Bool.false_eq_true, if_false] at hsg
      rw [enumStartEndMax_unsigned hw s e hsg.1 hsg.2] at h
      have h2 := enumStartSet_unsigned hw s l (by omega)
      have h3 := enumDiff_unsigned hw (enumStartSet w false s l) s
      omega
    · simp only [if_true] at hsg
      have hm := enumStartEndMax_signed hw s e hsg.1 hsg.2
      have h5 := toInt_range hw s
      have h6 := toInt_range hw e
      have h2 := enumStartSet_signed hw s l (by omega)
      have ho : diffOverflows true w (enumStartSet w true s l) s = false := by
        rcases Nat.lt_or_ge w 32 with hn | hn
        · exact diffOverflows_narrow hn _ _ _
        · have := hsg.2 hn
          have := two_pow_pos' (w - 1)
          exact diffOverflows_false (by omega) (by omega) _
      have h3 := enumDiff_signed hw (enumStartSet w true s l) s ho
      omega

/-! ## Strings -/

theorem string_offsets {pw : Nat} (hpw : pw = 32 ∨ pw = 64) (lib : StringLib) :
    stringMarkOff pw lib + pw / 8 ≤ stringSize pw lib ∧ stringSizeOff pw lib + pw / 8 ≤ stringSize pw lib ∧
    (stringMarkOff pw lib + pw / 8 ≤ stringSizeOff pw lib ∨ stringSizeOff pw lib + pw / 8 ≤ stringMarkOff pw lib) := by
  rcases hpw with rfl | rfl <;> (cases lib with
    | stl d => cases d <;> decide
    | libcpp a => cases a <;> decide
    | libstdcpp => decide)

theorem string_not_mark {pw : Nat} (hpw : pw = 32 ∨ pw = 64) (lib : StringLib) (bs : Bytes)
    (h : StringValue pw lib bs) : ld pw bs (stringMarkOff pw lib) ≠ stringMark pw lib := by
  intro e
  cases lib with
  | stl d =>
    simp only [StringValue, e, stringMark] at h
    simp at h
  | libcpp a =>
    cases a
    · have e' : ld pw bs 0 = 1 := e
      simp only [StringValue, e'] at h
      have : BitVec.toNat (1 : BitVec pw) = 1 := by rcases hpw with rfl | rfl <;> rfl
      omega
    · simp only [StringValue, e, stringMark] at h
      have : BitVec.toNat ((BitVec.ofNat pw 1) <<< (pw - 1)) = 2 ^ (pw - 1) := by
        rcases hpw with rfl | rfl <;> rfl
      omega
  | libstdcpp =>
    have e' : ld pw bs 0 = 0 := e
    simp only [StringValue, e'] at h
    simp at h

theorem lawOK_string {pw : Nat} (hpw : pw = 32 ∨ pw = 64) (lib : StringLib) :
    LawOK (stringTraits pw lib) (stringSize pw lib) ((Ty.string lib).Valid pw) 255 where
  max_lt := by simp [stringTraits]
  cap_le := by simp [stringTraits]
  size_eq := fun bs h => by simp only [Ty.Valid] at h; exact h.1
  high := fun bs _ h => by
    simp only [Ty.Valid] at h
    simp only [stringTraits, if_neg (string_not_mark hpw lib bs h.2)]
    decide
  roundtrip := fun bs l hn hl => by
    obtain ⟨h1, h2, h3⟩ := string_offsets hpw lib
    have hl64 : ((l.setWidth pw).setWidth 64 : U64) = l := by
      apply BitVec.eq_of_toNat_eq
      rcases hpw with rfl | rfl <;> simp only [BitVec.toNat_setWidth] <;> omega
    have key : ∀ (bs' : Bytes), bs'.length = stringSize pw lib →
        ld pw bs' (stringMarkOff pw lib) = stringMark pw lib →
        ld pw bs' (stringSizeOff pw lib) = l.setWidth pw → (stringTraits pw lib).getLevel bs' = l := by
      intro bs' _ hm hsz
      simp only [stringTraits, hm, hsz, if_true]; exact hl64
    have hw : pw % 8 = 0 := by omega
    have A : ∃ bs', (stringTraits pw lib).setLevel bs l = .ok bs' ∧ bs'.length = stringSize pw lib ∧
        ld pw bs' (stringMarkOff pw lib) = stringMark pw lib ∧
        ld pw bs' (stringSizeOff pw lib) = l.setWidth pw := by
      cases lib with
      | stl d =>
        refine ⟨_, by simp only [stringTraits]; rw [verifyThen_decide hl], ?_, ?_, ?_⟩
        · rw [st_length, st_length] <;> first | omega | (rw [st_length] <;> omega)
        · rw [ld_st_same hw]; rw [st_length] <;> omega
        · rw [ld_st_disj, ld_st_same hw] <;> first | omega | (rw [st_length] <;> omega)
      | libcpp a =>
        refine ⟨_, by simp only [stringTraits]; rw [verifyThen_decide hl], ?_, ?_, ?_⟩
        · rw [st_length, st_length] <;> first | omega | (rw [st_length] <;> omega)
        · rw [ld_st_disj, ld_st_same hw] <;> first | omega | (rw [st_length] <;> omega)
        · rw [ld_st_same hw]; rw [st_length] <;> omega
      | libstdcpp =>
        refine ⟨_, by simp only [stringTraits]; rw [verifyThen_decide hl], ?_, ?_, ?_⟩
        · rw [st_length, st_length] <;> first | omega | (rw [st_length] <;> omega)
        · rw [ld_st_disj, ld_st_same hw] <;> first | omega | (rw [st_length] <;> omega)
        · rw [ld_st_same hw]; rw [st_length] <;> omega
    obtain ⟨bs', a, b, c, d⟩ := A
    exact ⟨bs', a, b, key bs' b c d⟩

/-! ## Sentinel values -/

theorem sentinelGet_high {A V : Type} {eq : A → V → Bool} {vals : List V} (hne : vals ≠ []) {x : A} (i : U64)
    (h : ∀ v ∈ vals, eq x v = false) : sentinelGet eq vals i x = BitVec.allOnes 64 := by
  induction vals generalizing i with
  | nil => exact absurd rfl hne
  | cons v vs ih =>
    have h1 := h v (by simp)
    cases vs with
    | nil => simp [sentinelGet, h1]
    | cons v' vs' =>
      rw [sentinelGet]
      simp only [h1, Bool.false_eq_true, if_false]
      exact ih (by simp) (i + 1) (fun u hu => h u (by simp [hu]))

theorem sentinel_roundtrip {n : Nat} {eq : Bytes → Bytes → Bool} {vals : List Bytes} (i : U64) (l : U64)
    (hb : i.toNat + vals.length < 2 ^ 64)
    (hlen : ∀ v ∈ vals, v.length = n) (hrefl : ∀ v ∈ vals, eq v v = true)
    (hpw : vals.Pairwise (fun a b => eq b a = false))
    (hl : i.toNat ≤ l.toNat) (hl2 : l.toNat < i.toNat + vals.length) :
    ∃ bs', sentinelSet vals i l = .ok bs' ∧ bs'.length = n ∧ sentinelGet eq vals i bs' = l ∧ bs' ∈ vals := by
  induction vals generalizing i with
  | nil => simp at hl2; omega
  | cons v vs ih =>
    by_cases e : l = i
    · subst e
      refine ⟨v, by cases vs <;> simp [sentinelSet], hlen v (by simp), ?_, by simp⟩
      cases vs <;> simp [sentinelGet, hrefl v (by simp)]
    · have hne : l.toNat ≠ i.toNat := fun h => e (BitVec.eq_of_toNat_eq h)
      simp only [List.length_cons] at hb hl2
      have hi : (i + 1).toNat = i.toNat + 1 := by
        rw [BitVec.toNat_add, show BitVec.toNat (1 : U64) = 1 from rfl]; omega
      cases vs with
      | nil => simp at hl2; omega
      | cons v' vs' =>
        have hp := List.pairwise_cons.1 hpw
        obtain ⟨bs', h1, h2, h3, h4⟩ := ih (i + 1) (by omega) (fun u hu => hlen u (by simp [hu]))
          (fun u hu => hrefl u (by simp [hu])) hp.2 (by omega) (by omega)
        refine ⟨bs', ?_, h2, ?_, by simp [h4]⟩
        · rw [sentinelSet, if_neg e]; exact h1
        · rw [sentinelGet]
          simp only [hp.1 bs' h4, Bool.false_eq_true, if_false]
          exact h3

theorem lawOK_sentinel {pw n al : Nat} {eq : Bytes → Bytes → Bool} {vals : List Bytes}
    (h : SentinelsOK n eq vals) :
    LawOK (sentinelTraits eq vals) n ((Ty.sentinel n al eq vals).Valid pw) vals.length where
  max_lt := h.1
  cap_le := Nat.le_refl _
  size_eq := fun bs hv => by simp only [Ty.Valid] at hv; exact hv.1
  high := fun bs _ hv => by
    simp only [Ty.Valid] at hv
    cases hvals : vals with
    | nil => simp [sentinelTraits]
    | cons v vs =>
      rw [← hvals]
      simp only [sentinelTraits]
      rw [sentinelGet_high (by simp [hvals]) _ hv.2]
      have := h.1
      simp only [BitVec.toNat_allOnes]; omega
  roundtrip := fun bs l _ hl => by
    obtain ⟨bs', h1, h2, h3, _⟩ := sentinel_roundtrip (n := n) (eq := eq) (vals := vals) 0 l
      (by have := h.1; simpa using this) h.2.1 h.2.2.1 h.2.2.2 (by simp) (by simpa using hl)
    exact ⟨bs', h1, h2, h3⟩

theorem lawOK_sentinelOpt {pw n al : Nat} {eq : Bytes → Bytes → Bool} {s : Bytes}
    (h1 : s.length = n) (h2 : eq s s = true) :
    LawOK (sentinelOptionTraits eq s) n ((Ty.sentinelOpt n al eq s).Valid pw) 1 where
  max_lt := by simp [sentinelOptionTraits]
  cap_le := Nat.le_refl _
  size_eq := fun bs hv => by simp only [Ty.Valid] at hv; exact hv.1
  high := fun bs _ hv => by
    simp only [Ty.Valid] at hv
    simp [sentinelOptionTraits, hv.2]
  roundtrip := fun bs l _ hl => by
    have : l = 0 := by apply BitVec.eq_of_toNat_eq; simp; omega
    subst this
    exact ⟨s, by simp [sentinelOptionTraits], h1, by simp [sentinelOptionTraits, h2]⟩

theorem lawOK_referenceOption {pw : Nat} (hpw : pw = 32 ∨ pw = 64) :
    LawOK (referenceOptionTraits pw) (pw / 8) (Ty.optionRef.Valid pw) 256 := by
  apply lawOK_word (w := pw) (off := 0) (by omega) (by omega) (fun x => x.setWidth 64 - 1#64)
    (fun l => (1#64 + l).setWidth pw)
  · intro bs; rfl
  · intro bs l h; simp only [referenceOptionTraits]; rw [BitVec.add_comm]; rfl
  · intro l h
    apply BitVec.eq_of_toNat_eq
    rcases hpw with rfl | rfl <;> simp only [BitVec.toNat_setWidth, BitVec.toNat_sub, BitVec.toNat_add,
      BitVec.toNat_ofNat] <;> omega
  · simp [referenceOptionTraits]
  · simp [referenceOptionTraits]
  · intro bs h; simp only [Ty.Valid] at h; exact h.1
  · intro bs h; simp only [Ty.Valid, ObjectAddr] at h
    show 256 ≤ _
    rcases h.2 with h2 | h2
    · rw [h2]; rcases hpw with rfl | rfl <;> decide
    · have := (ld pw bs 0).isLt
      rcases hpw with rfl | rfl <;> simp only [BitVec.toNat_setWidth, BitVec.toNat_sub, BitVec.toNat_ofNat] <;> omega

end Opt
