import Verif.Spec.Natvis
import Verif.Lemmas.TraitsTy
import Verif.Props.IntSentinel

/-! # Lemmas about the debugger view -/

namespace Opt.Natvis

theorem rd_append {bs after : Bytes} {o n : Nat} (h : o + n ≤ bs.length) : rd (bs ++ after) o n = rd bs o n := by
  unfold rd
  rw [List.drop_append_of_le_length (by omega), List.take_append_of_le_length (by simp; omega)]

theorem ld_append {bs after : Bytes} {w o : Nat} (h : o + w / 8 ≤ bs.length) : ld w (bs ++ after) o = ld w bs o := by
  unfold ld; rw [rd_append h]

/-- `d` options around a type -/
def optN : Nat → Ty → Ty
  | 0, T => T
  | d + 1, T => .option (optN d T)

/-- options around a type store their emptiness in its levels, as long as there are any -/
theorem optN_traits {pw : Nat} {T : Ty} : ∀ {d : Nat}, d ≤ (T.traits pw).maxLevel →
    ((optN d T).traits pw).maxLevel = (T.traits pw).maxLevel - d ∧
    (∀ bs, ((optN d T).traits pw).getLevel bs = (T.traits pw).getLevel bs - BitVec.ofNat 64 d) ∧
    (optN d T).size pw = T.size pw
  | 0, _ => ⟨rfl, fun bs => by show _ = _ - 0#64; rw [BitVec.sub_zero]; rfl, rfl⟩
  | d + 1, h => by
    obtain ⟨h1, h2, h3⟩ := optN_traits (d := d) (T := T) (pw := pw) (by omega)
    have hm : ((optN d T).traits pw).maxLevel ≥ 1 := by omega
    refine ⟨?_, fun bs => ?_, ?_⟩
    · show ((Ty.option (optN d T)).traits pw).maxLevel = _
      rw [option_traits_eq, optionTraits, if_pos hm]
      show _ - 1 = _; omega
    · show ((Ty.option (optN d T)).traits pw).getLevel bs = _
      rw [option_traits_eq, optionTraits, if_pos hm]
      show ((optN d T).traits pw).getLevel bs - 1 = _
      rw [h2]
      apply BitVec.eq_of_toNat_eq
      simp only [BitVec.toNat_sub, BitVec.toNat_ofNat, show BitVec.toNat (1 : U64) = 1 from rfl]
      omega
    · show (Ty.option (optN d T)).size pw = _
      rw [option_size_avail hm, h3]

theorem optN_hasValue {pw : Nat} {T : Ty} {d : Nat} (h : d < (T.traits pw).maxLevel) (bs : Bytes) :
    (optN d T).hasValue pw bs = decide ((T.traits pw).getLevel bs ≠ BitVec.ofNat 64 d) := by
  obtain ⟨h1, h2, _⟩ := optN_traits (d := d) (T := T) (pw := pw) (by omega)
  have hm : ((optN d T).traits pw).maxLevel ≥ 1 := by omega
  simp only [Ty.hasValue, if_pos hm, h2]
  congr 1
  apply propext
  constructor
  · intro h e; exact h (by rw [e, BitVec.sub_self]; rfl)
  · intro h e
    apply h
    have := congrArg (· + BitVec.ofNat 64 d) e
    simpa [BitVec.sub_add_cancel] using this

/-- `d` options around a type -/
def nest : Nat → Cpp → Cpp
  | 0, c => c
  | d + 1, c => .option (nest d c)

theorem entryAt_nest (c : Cpp) : ∀ d k, entryAt k (nest d c) = entryAt (k + d) c
  | 0, k => rfl
  | d + 1, k => by
    show entryAt (k + 1) (nest d c) = _
    rw [entryAt_nest c d]; congr 1; omega

def isOption : Cpp → Bool
  | .option _ => true
  | _ => false

theorem exists_nest : ∀ t : Cpp, ∃ d c, t = nest d c ∧ isOption c = false
  | .option t => by
    obtain ⟨d, c, h, hc⟩ := exists_nest t
    exact ⟨d + 1, c, by rw [h]; rfl, hc⟩
  | .bool => ⟨0, _, rfl, rfl⟩
  | .float => ⟨0, _, rfl, rfl⟩
  | .double _ => ⟨0, _, rfl, rfl⟩
  | .refWrapper => ⟨0, _, rfl, rfl⟩
  | .string _ => ⟨0, _, rfl, rfl⟩
  | .stringAlloc _ _ => ⟨0, _, rfl, rfl⟩
  | .ptr => ⟨0, _, rfl, rfl⟩
  | .memberPtr _ _ => ⟨0, _, rfl, rfl⟩
  | .ref => ⟨0, _, rfl, rfl⟩
  | .sentinel _ _ _ => ⟨0, _, rfl, rfl⟩
  | .other _ => ⟨0, _, rfl, rfl⟩
  | .enforce _ => ⟨0, _, rfl, rfl⟩

theorem rep_option {tg : Target} (hb : tg.builtin = true) {t : Cpp} (ht : t ≠ .ref) :
    (Cpp.option t).rep tg = .option (t.rep tg) := by
  cases t <;> first | exact absurd rfl ht | simp only [Cpp.rep, Target.pick, hb, if_true]

theorem nest_ne_ref {c : Cpp} (hc : c ≠ .ref) : ∀ d, nest d c ≠ .ref
  | 0 => hc
  | _ + 1 => by simp [nest]

theorem rep_nest {tg : Target} {c : Cpp} (hc : c ≠ .ref) : ∀ {d : Nat}, (d ≠ 0 → tg.builtin = true) → (nest d c).rep tg = optN d (c.rep tg)
  | 0, _ => rfl
  | d + 1, hb => by
    show (Cpp.option (nest d c)).rep tg = _
    rw [rep_option (hb (by omega)) (nest_ne_ref hc d), rep_nest hc (d := d) fun _ => hb (by omega)]; rfl

theorem has_of_ne {tg : Target} {t : Cpp} (ht : t ≠ .ref) (bs : Bytes) : t.has tg bs = (t.rep tg).hasValue tg.pw bs := by
  cases t <;> first | exact absurd rfl ht | rfl

theorem live_of_ne {tg : Target} {t : Cpp} (ht : t ≠ .ref) (bs : Bytes) :
    Live tg t bs = (Ty.option (t.rep tg)).Valid tg.pw bs := by
  cases t <;> first | exact absurd rfl ht | rfl

theorem hasFlag_of_ne {tg : Target} {t : Cpp} (ht : t ≠ .ref) :
    t.hasFlag tg = decide (((t.rep tg).traits tg.pw).maxLevel = 0) := by
  cases t <;> first | exact absurd rfl ht | rfl

theorem fits_nest {tg : Target} {c : Cpp} : ∀ {d}, Fits tg (nest d c) → Fits tg c
  | 0, h => h
  | d + 1, h => fits_nest (d := d) (by simp only [nest, Fits] at h; exact h.1)

theorem notOther_nest {tg : Target} {c : Cpp} {bs : Bytes} : ∀ {d}, NotOtherNaN tg (nest d c) bs → NotOtherNaN tg c bs
  | 0, h => h
  | d + 1, h => notOther_nest (d := d) (by simp only [nest, NotOtherNaN] at h; exact h)

theorem rd_prefix {bs : Bytes} {n k : Nat} (h : n ≤ k) : rd (rd bs 0 k) 0 n = rd bs 0 n := rd_rd (by omega)

/-- the size of the option whose levels are inside -/
theorem live_length {tg : Target} {t : Cpp} (ht : t ≠ .ref) {bs : Bytes} (h : Live tg t bs) :
    bs.length = (Ty.option (t.rep tg)).size tg.pw := by
  rw [live_of_ne ht] at h
  simp only [Ty.Valid] at h
  exact h.1

theorem setWidth_toNat_le {w : Nat} (hw : w ≤ 64) (x : BitVec w) : (x.setWidth 64).toNat = x.toNat := by
  have := x.isLt
  rw [BitVec.toNat_setWidth]
  apply Nat.mod_eq_of_lt
  exact Nat.lt_of_lt_of_le this (Nat.pow_le_pow_right (by decide) hw)

/-- `x - a` is the level `d` exactly when `x` is `a + d` -/
theorem sub_level {w : Nat} (hw : w ≤ 64) (x a : BitVec w) {d : Nat} (hd : d < 2 ^ w) :
    ((x - a).setWidth 64 = BitVec.ofNat 64 d) ↔ x = a + BitVec.ofNat w d := by
  have h64 : d < 2 ^ 64 := Nat.lt_of_lt_of_le hd (Nat.pow_le_pow_right (by decide) hw)
  constructor
  · intro h
    have h1 := congrArg BitVec.toNat h
    rw [setWidth_toNat_le hw, BitVec.toNat_ofNat, Nat.mod_eq_of_lt h64] at h1
    have h2 : x - a = BitVec.ofNat w d := by
      apply BitVec.eq_of_toNat_eq
      rw [h1, BitVec.toNat_ofNat, Nat.mod_eq_of_lt hd]
    rw [← h2, BitVec.add_comm, BitVec.sub_add_cancel]
  · intro h
    rw [h]
    have : a + BitVec.ofNat w d - a = BitVec.ofNat w d := by
      rw [BitVec.add_comm, BitVec.add_sub_cancel]
    rw [this]
    apply BitVec.eq_of_toNat_eq
    rw [setWidth_toNat_le hw, BitVec.toNat_ofNat, BitVec.toNat_ofNat, Nat.mod_eq_of_lt hd, Nat.mod_eq_of_lt h64]

/-- what the conditions say, in terms of the levels, for a special type with `d` options around it -/
theorem none_iff {b : Bool} {p : Prop} [Decidable p] (h : b = true ↔ p) : b = !decide (¬ p) := by
  by_cases hp : p
  · rw [h.2 hp]; simp [hp]
  · have : b = false := by cases b <;> simp_all
    rw [this]; simp [hp]

theorem has_nest {tg : Target} {c : Cpp} (hc : c ≠ .ref) {d : Nat} (hb : d ≠ 0 → tg.builtin = true) {tr : Traits}
    (ht : (c.rep tg).traits tg.pw = tr) (hm : d < tr.maxLevel) (bs : Bytes) :
    (nest d c).has tg bs = decide (¬ tr.getLevel bs = BitVec.ofNat 64 d) := by
  rw [has_of_ne (nest_ne_ref hc d), rep_nest hc hb, optN_hasValue (by rw [ht]; exact hm), ht]

theorem size_nest {tg : Target} {c : Cpp} (hc : c ≠ .ref) {d : Nat} (hb : d ≠ 0 → tg.builtin = true)
    (hm : d < ((c.rep tg).traits tg.pw).maxLevel) : (nest d c).size tg = c.size tg := by
  unfold Cpp.size
  rw [rep_nest hc hb]
  exact (optN_traits (by omega)).2.2

theorem length_nest {tg : Target} {c : Cpp} (hc : c ≠ .ref) {d : Nat} (hb : d ≠ 0 → tg.builtin = true)
    (hm : d < ((c.rep tg).traits tg.pw).maxLevel) {bs : Bytes} (h : Live tg (nest d c) bs) : bs.length = c.size tg := by
  rw [live_length (nest_ne_ref hc d) h, rep_nest hc hb]
  exact (optN_traits (d := d + 1) (by omega)).2.2

/-- the entries for `bool` -/
theorem none_bool {tg : Target} (hb : tg.builtin = true) {c : Cpp} (hc : c = .bool ∨ c = .enforce .bool) {d n : Nat} (hd : d ≤ 2)
    {bs after : Bytes} (h : Live tg (nest d c) bs) : (Entry.bool d).none tg n (bs ++ after) = !(nest d c).has tg bs := by
  have hr : c ≠ .ref := by rcases hc with rfl | rfl <;> simp
  have ht : (c.rep tg).traits tg.pw = boolTraits := by
    rcases hc with rfl | rfl <;> simp only [Cpp.rep, Target.pick, hb, if_true] <;> rfl
  have hs : c.size tg = 1 := by
    rcases hc with rfl | rfl <;> simp only [Cpp.size, Cpp.rep, Target.pick, hb, if_true] <;> rfl
  have hm : d < boolTraits.maxLevel := by simp only [boolTraits]; omega
  rw [has_nest hr (fun _ => hb) ht hm]
  apply none_iff
  have hl := length_nest hr (fun _ => hb) (by rw [ht]; exact hm) h
  simp only [Entry.none, beq_iff_eq]
  rw [ld_append (by omega)]
  show _ ↔ ((ld 8 bs 0 - 2).setWidth 64 : U64) = _
  rw [sub_level (by decide) _ _ (by omega)]
  rw [show (2 : BitVec 8) + BitVec.ofNat 8 d = BitVec.ofNat 8 (2 + d) from (BitVec.ofNat_add _ _).symm]

theorem none_refWrapper {tg : Target} (hpw : tg.pw = 32 ∨ tg.pw = 64) (hb : tg.builtin = true) {c : Cpp}
    (hc : c = .refWrapper ∨ c = .enforce .refWrapper) {d n : Nat} (hd : d ≤ 2) {bs after : Bytes} (h : Live tg (nest d c) bs) :
    (Entry.refWrapper d).none tg n (bs ++ after) = !(nest d c).has tg bs := by
  have hr : c ≠ .ref := by rcases hc with rfl | rfl <;> simp
  have ht : (c.rep tg).traits tg.pw = refWrapperTraits tg.pw := by
    rcases hc with rfl | rfl <;> simp only [Cpp.rep, Target.pick, hb, if_true] <;> rfl
  have hs : c.size tg = tg.pw / 8 := by
    rcases hc with rfl | rfl <;> simp only [Cpp.size, Cpp.rep, Target.pick, hb, if_true] <;> rfl
  have hm : d < (refWrapperTraits tg.pw).maxLevel := by simp only [refWrapperTraits]; omega
  rw [has_nest hr (fun _ => hb) ht hm]
  apply none_iff
  have hl := length_nest hr (fun _ => hb) (by rw [ht]; exact hm) h
  simp only [Entry.none, beq_iff_eq]
  rw [ld_append (by omega)]
  show _ ↔ ((ld tg.pw bs 0).setWidth 64 : U64) = _
  have := sub_level (w := tg.pw) (by omega) (ld tg.pw bs 0) 0 (d := d)
    (by rcases hpw with e | e <;> rw [e] <;> omega)
  rw [show ld tg.pw bs 0 - 0 = ld tg.pw bs 0 from BitVec.sub_zero _,
    show (0 : BitVec tg.pw) + BitVec.ofNat tg.pw d = BitVec.ofNat tg.pw d from BitVec.zero_add _] at this
  exact this.symm

theorem none_float {tg : Target} (hb : tg.builtin = true) {c : Cpp} (hc : c = .float ∨ c = .enforce .float) {d n : Nat} (hd : d ≤ 2)
    {bs after : Bytes} (h : Live tg (nest d c) bs) (hn : NotOtherNaN tg (nest d c) bs) :
    (Entry.float d).none tg n (bs ++ after) = !(nest d c).has tg bs := by
  have hr : c ≠ .ref := by rcases hc with rfl | rfl <;> simp
  have hn : ¬ ReservedNaN32 (!(tg.pw ≠ 32 && tg.signaling)) (ld 32 bs 0) := by
    have := notOther_nest hn
    rcases hc with rfl | rfl <;> exact this
  generalize hs : (tg.pw ≠ 32 && tg.signaling : Bool) = s at hn
  have ht : (c.rep tg).traits tg.pw = if s then float32SNaNTraits else float32QNaNTraits := by
    rcases hc with rfl | rfl <;> simp only [Cpp.rep, Target.pick, hb, if_true, hs] <;> rfl
  have hz : c.size tg = 4 := by
    rcases hc with rfl | rfl <;> simp only [Cpp.size, Cpp.rep, Target.pick, hb, if_true] <;> rfl
  have hm : d < (if s then float32SNaNTraits else float32QNaNTraits).maxLevel := by
    cases s <;> simp [float32SNaNTraits, float32QNaNTraits] <;> omega
  rw [has_nest hr (fun _ => hb) ht hm]
  apply none_iff
  have hl := length_nest hr (fun _ => hb) (by rw [ht]; exact hm) h
  simp only [Entry.none, Bool.or_eq_true, beq_iff_eq]
  rw [ld_append (by omega)]
  cases s
  · show _ ↔ ((ld 32 bs 0 - qNaN32).setWidth 64 : U64) = _
    rw [sub_level (by decide) _ _ (by omega)]
    refine ⟨fun h => h.resolve_left fun e => hn ?_, .inr⟩
    rw [e]
    simp only [ReservedNaN32, Bool.not_false, if_true, sNaN32, BitVec.toNat_add, BitVec.toNat_ofNat]
    omega
  · show _ ↔ ((ld 32 bs 0 - sNaN32).setWidth 64 : U64) = _
    rw [sub_level (by decide) _ _ (by omega)]
    refine ⟨fun h => h.resolve_right fun e => hn ?_, .inl⟩
    rw [e]
    simp only [ReservedNaN32, Bool.not_true, qNaN32, BitVec.toNat_add, BitVec.toNat_ofNat]
    simp only [Bool.false_eq_true, if_false]
    omega

theorem none_double {tg : Target} (hb : tg.builtin = true) {al : Nat} {c : Cpp} (hc : c = .double al ∨ c = .enforce (.double al)) {d n : Nat}
    (hd : d ≤ 2) (h1 : d = 1 → (tg.pw ≠ 32 && tg.signaling) = true)
    {bs after : Bytes} (h : Live tg (nest d c) bs) (hn : NotOtherNaN tg (nest d c) bs) :
    (Entry.double d).none tg n (bs ++ after) = !(nest d c).has tg bs := by
  have hr : c ≠ .ref := by rcases hc with rfl | rfl <;> simp
  have hn : ¬ ReservedNaN64 (!(tg.pw ≠ 32 && tg.signaling)) (ld 64 bs 0) := by
    have := notOther_nest hn
    rcases hc with rfl | rfl <;> exact this
  generalize hs : (tg.pw ≠ 32 && tg.signaling : Bool) = s at hn h1
  have ht : (c.rep tg).traits tg.pw = if s then float64SNaNTraits else float64QNaNTraits := by
    rcases hc with rfl | rfl <;> simp only [Cpp.rep, Target.pick, hb, if_true, hs] <;> rfl
  have hz : c.size tg = 8 := by
    rcases hc with rfl | rfl <;> simp only [Cpp.size, Cpp.rep, Target.pick, hb, if_true] <;> rfl
  have hm : d < (if s then float64SNaNTraits else float64QNaNTraits).maxLevel := by
    cases s <;> simp [float64SNaNTraits, float64QNaNTraits] <;> omega
  rw [has_nest hr (fun _ => hb) ht hm]
  apply none_iff
  have hl := length_nest hr (fun _ => hb) (by rw [ht]; exact hm) h
  simp only [Entry.none]
  rw [ld_append (by omega)]
  cases s
  · show _ ↔ (ld 64 bs 0 - qNaN64 : U64) = _
    have := sub_level (w := 64) (by decide) (ld 64 bs 0) qNaN64 (d := d) (by omega)
    rw [BitVec.setWidth_eq] at this
    rw [this, if_neg (by intro e; exact absurd (h1 e) (by decide))]
    simp only [Bool.or_eq_true, beq_iff_eq]
    refine ⟨fun h => h.resolve_left fun e => hn ?_, .inr⟩
    rw [e]
    simp only [ReservedNaN64, Bool.not_false, if_true, sNaN64, BitVec.toNat_add, BitVec.toNat_ofNat]
    omega
  · show _ ↔ (ld 64 bs 0 - sNaN64 : U64) = _
    have := sub_level (w := 64) (by decide) (ld 64 bs 0) sNaN64 (d := d) (by omega)
    rw [BitVec.setWidth_eq] at this
    rw [this]
    by_cases h1' : d = 1
    · subst h1'
      simp only [if_true, Bool.or_eq_true, beq_iff_eq]
      refine ⟨fun h => h.resolve_right fun e => ?_, .inl⟩
      have e := congrArg BitVec.toNat e
      rw [setWidth_toNat_le (by decide)] at e
      have := (ld 32 (bs ++ after) 0).isLt
      simp only [qNaN64] at e
      rw [show BitVec.toNat (0xFFFBF26430BB3557#64 + 1) = 0xFFFBF26430BB3558 from by decide] at e
      omega
    · simp only [if_neg h1', Bool.or_eq_true, beq_iff_eq]
      refine ⟨fun h => h.resolve_right fun e => hn ?_, .inl⟩
      rw [e]
      simp only [ReservedNaN64, Bool.not_true, qNaN64, BitVec.toNat_add, BitVec.toNat_ofNat]
      simp only [Bool.false_eq_true, if_false]
      omega

theorem none_string {tg : Target} (hb : tg.builtin = true) (hpw : tg.pw = 64) {dbg : Bool} {c : Cpp}
    (hc : c = .string dbg ∨ c = .enforce (.string dbg)) {d : Nat} (hd : d ≤ 2) {bs after : Bytes} (h : Live tg (nest d c) bs) :
    (Entry.string d).none tg ((nest d c).size tg) (bs ++ after) = !(nest d c).has tg bs := by
  have hr : c ≠ .ref := by rcases hc with rfl | rfl <;> simp
  have ht : (c.rep tg).traits tg.pw = stringTraits 64 (.stl dbg) := by
    rw [hpw]
    rcases hc with rfl | rfl <;> simp only [Cpp.rep, Target.pick, hb, if_true] <;> rfl
  have hz : c.size tg = stringSize 64 (.stl dbg) := by
    unfold Cpp.size; rw [hpw]
    rcases hc with rfl | rfl <;> simp only [Cpp.rep, Target.pick, hb, if_true] <;> rfl
  have hm : d < (stringTraits 64 (.stl dbg)).maxLevel := by simp only [stringTraits]; omega
  have hl := length_nest hr (fun _ => hb) (by rw [ht]; exact hm) h
  rw [has_nest hr (fun _ => hb) ht hm, size_nest hr (fun _ => hb) (by rw [ht]; exact hm), hz]
  apply none_iff
  rw [hz] at hl
  -- the two words the conditions look at
  have hcap : (if stringSize 64 (.stl dbg) = 40 then ld 64 (bs ++ after) 32 else ld 64 (bs ++ after) 24) =
      ld 64 bs (stringMarkOff 64 (.stl dbg)) := by
    cases dbg <;> simp only [stringSize, stringMarkOff, if_true] at hl ⊢
    · exact ld_append (by omega)
    · exact ld_append (by omega)
  have hsize : (if stringSize 64 (.stl dbg) = 40 then ld 64 (bs ++ after) 24 else ld 64 (bs ++ after) 16) =
      ld 64 bs (stringSizeOff 64 (.stl dbg)) := by
    cases dbg <;> simp only [stringSize, stringSizeOff, if_true] at hl ⊢
    · exact ld_append (by omega)
    · exact ld_append (by omega)
  simp only [Entry.none, hcap, hsize]
  show _ ↔ (if ld 64 bs (stringMarkOff 64 (.stl dbg)) = 0 then (ld 64 bs (stringSizeOff 64 (.stl dbg))).setWidth 64 else BitVec.allOnes 64) = _
  rw [BitVec.setWidth_eq]
  have hne : BitVec.allOnes 64 ≠ BitVec.ofNat 64 d := by
    intro e
    have := congrArg BitVec.toNat e
    rw [BitVec.toNat_allOnes, BitVec.toNat_ofNat] at this
    omega
  by_cases h0 : ld 64 bs (stringMarkOff 64 (.stl dbg)) = 0
  · rw [if_pos h0]
    by_cases hd0 : d = 0
    · subst hd0
      simp only [if_true, beq_iff_eq, h0, true_iff]
      -- a string that is there has a capacity
      apply Classical.byContradiction
      intro hne0
      have hv : ((c.rep tg).hasValue tg.pw bs) = true := by
        have := has_nest (d := 0) hr (fun _ => hb) ht hm bs
        rw [show nest 0 c = c from rfl, has_of_ne hr] at this
        rw [this, decide_eq_true_eq]
        show ¬ (if ld 64 bs (stringMarkOff 64 (.stl dbg)) = 0 then (ld 64 bs (stringSizeOff 64 (.stl dbg))).setWidth 64 else BitVec.allOnes 64) = _
        rw [if_pos h0, BitVec.setWidth_eq]; exact hne0
      rw [show nest 0 c = c from rfl, live_of_ne hr] at h
      have hval := h.2.2 hv
      have hp : (c.rep tg).payload tg.pw bs = bs := by
        unfold Ty.payload
        rw [show (c.rep tg).size tg.pw = bs.length from hz.trans hl.symm]
        exact rd_all rfl
      rw [hp] at hval
      have : StringValue 64 (.stl dbg) bs := by
        rw [hpw] at hval
        rcases hc with rfl | rfl <;> simp only [Cpp.rep, Target.pick, hb, if_true, Ty.Valid] at hval <;> exact hval.2
      simp only [StringValue, h0] at this
      exact absurd this (by decide)
    · simp only [if_neg hd0, h0, Bool.and_eq_true, beq_iff_eq, true_and]
  · rw [if_neg h0]
    constructor
    · intro e
      exfalso
      split at e
      · exact h0 (by simpa using e)
      · simp only [Bool.and_eq_true, beq_iff_eq] at e; exact h0 e.1
    · intro e; exact absurd e hne

/-- the level of a value is the index of the sentinel it is -/
theorem sentinelGet_iff {vals : List Bytes} {x v : Bytes} {k : Nat} (hb : vals.length < 2 ^ 64)
    (hp : vals.Pairwise (fun a b => (b == a) = false)) (hk : vals[k]? = some v) :
    sentinelGet (· == ·) vals 0 x = BitVec.ofNat 64 k ↔ x = v := by
  obtain ⟨hlt, hv⟩ := List.getElem?_eq_some_iff.1 hk
  rw [IntSentinel.get_eq _ _ _ _ (by intro e; rw [e] at hlt; simp at hlt)]
  constructor
  · intro e
    split at e
    · rename_i hf
      have := congrArg BitVec.toNat e
      rw [show ∀ y : U64, 0 + y = y from BitVec.zero_add, BitVec.toNat_ofNat, BitVec.toNat_ofNat, Nat.mod_eq_of_lt (by omega), Nat.mod_eq_of_lt (by omega)] at this
      have hx := List.findIdx_getElem (w := hf)
      simp only [this, beq_iff_eq] at hx
      rw [hx, hv]
    · have := congrArg BitVec.toNat e
      rw [BitVec.toNat_allOnes, BitVec.toNat_ofNat, Nat.mod_eq_of_lt (by omega)] at this
      omega
  · intro e
    have hi : vals.findIdx (x == ·) = k := by
      rw [List.findIdx_eq hlt]
      refine ⟨by simp [e, hv], fun j hj => ?_⟩
      have := List.pairwise_iff_getElem.1 hp j k (by omega) hlt hj
      rw [hv, ← e] at this
      exact this
    rw [show (vals.findIdx fun y => x == y) = k from hi, if_pos hlt]; exact BitVec.zero_add _

theorem none_sentinel {tg : Target} {sz al : Nat} {vals : List Bytes} {v : Bytes} {d : Nat} (hb : d ≠ 0 → tg.builtin = true)
    (hw : SentinelsOK sz (· == ·) vals) (hv : vals[d]? = some v) {bs after : Bytes} (h : Live tg (nest d (.sentinel sz al vals)) bs) :
    (Entry.sentinel d v).none tg ((nest d (.sentinel sz al vals)).size tg) (bs ++ after) =
      !(nest d (.sentinel sz al vals)).has tg bs := by
  have hr : (Cpp.sentinel sz al vals) ≠ .ref := by simp
  have hlt : d < vals.length := by
    obtain ⟨h, _⟩ := List.getElem?_eq_some_iff.1 hv; exact h
  have ht : ((Cpp.sentinel sz al vals).rep tg).traits tg.pw = sentinelTraits (· == ·) vals := rfl
  have hm : d < (sentinelTraits (· == ·) vals).maxLevel := hlt
  have hl := length_nest hr hb (by rw [ht]; exact hm) h
  rw [has_nest hr hb ht hm, size_nest hr hb (by rw [ht]; exact hm)]
  apply none_iff
  simp only [Entry.none, beq_iff_eq]
  rw [rd_append (by omega), rd_all hl]
  exact (sentinelGet_iff hw.1 hw.2.2.2 hv).symm

/-- an empty option is in a state a program can bring it into -/
theorem live_empty {tg : Target} {t : Cpp} (hr : t ≠ .ref) {bs : Bytes} (hlen : bs.length = (Ty.option (t.rep tg)).size tg.pw)
    (hf : ((t.rep tg).traits tg.pw).maxLevel ≠ 0 ∨ ld 8 bs ((t.rep tg).size tg.pw) = 0) (h : t.has tg bs = false) : Live tg t bs := by
  rw [live_of_ne hr]
  rw [has_of_ne hr] at h
  exact ⟨hlen, fun e => .inl (hf.resolve_left fun h => h e), fun h' => by rw [h] at h'; cases h'⟩

/-! ## All entries -/

/-- a type with options around it that has no flag uses the built-in traits -/
theorem builtin_of_fits {tg : Target} {t : Cpp} (h : Fits tg (.option t)) : tg.builtin = true := by
  simp only [Fits] at h
  have h2 := h.2.1
  cases hb : tg.builtin with
  | true => rfl
  | false =>
    rw [hasFlag_of_ne (by simp)] at h2
    exfalso
    cases t <;> simp [Cpp.rep, Target.pick, hb, Ty.traits, Ty.sizeTraits, noTraits] at h2

theorem builtin_of_nest {tg : Target} {c : Cpp} : ∀ {d : Nat}, Fits tg (nest d c) → d ≠ 0 → tg.builtin = true
  | 0, _, h => absurd rfl h
  | _ + 1, h, _ => builtin_of_fits h

theorem fits_double {tg : Target} {al : Nat} {c : Cpp} (hc : c = .double al ∨ c = .enforce (.double al)) :
    ∀ {d : Nat}, Fits tg (nest d c) → d = 1 → (tg.pw ≠ 32 && tg.signaling) = true := by
  rintro _ h rfl
  rcases hc with rfl | rfl <;> exact h.2.2

theorem wf_optN {pw : Nat} {T : Ty} : ∀ {d}, (optN d T).WF pw → T.WF pw
  | 0, h => h
  | d + 1, h => wf_optN (d := d) (by simp only [optN, Ty.WF] at h; exact h.1)

/-- every special entry recognises the empty option, and nothing else -/
theorem entry_right {tg : Target} (hpw : tg.pw = 32 ∨ tg.pw = 64) {t : Cpp} (hf : Fits tg t) (hw : (t.rep tg).WF tg.pw)
    {bs after : Bytes} (hl : Live tg t bs) (hn : NotOtherNaN tg t bs) (hg : entryAt 0 t ≠ .general) :
    (entryAt 0 t).none tg (t.size tg) (bs ++ after) = !t.has tg bs ∧
    ∀ s, (entryAt 0 t).some s = if isOption t then .braces s else s := by
  obtain ⟨d, c, rfl, hc⟩ := exists_nest t
  rw [entryAt_nest, Nat.zero_add] at hg ⊢
  have hfc := fits_nest hf
  have hb := builtin_of_nest hf
  have hopt : isOption (nest d c) = decide (d ≠ 0) := by
    cases d with
    | zero => rw [show nest 0 c = c from rfl, hc]; rfl
    | succ d => rfl
  have hd : d ≤ 2 := by
    apply Classical.byContradiction
    intro h
    apply hg
    cases c with
    | option _ => simp [isOption] at hc
    | enforce c => cases c <;> simp [entryAt, h]
    | _ => simp [entryAt, h]
  have wrap : ∀ {e : Entry}, (∀ s, e.some s = if d = 0 then s else .braces s) →
      ∀ s, e.some s = if isOption (nest d c) = true then .braces s else s := by
    intro e he s
    rw [he, hopt]
    by_cases h0 : d = 0 <;> simp [h0]
  cases c with
  | option _ => simp [isOption] at hc
  | bool =>
    rw [entryAt, if_pos hd]
    exact ⟨none_bool hfc (.inl rfl) hd hl, wrap fun _ => rfl⟩
  | refWrapper =>
    rw [entryAt, if_pos hd]
    exact ⟨none_refWrapper hpw hfc (.inl rfl) hd hl, wrap fun _ => rfl⟩
  | float =>
    rw [entryAt, if_pos hd]
    exact ⟨none_float hfc (.inl rfl) hd hl hn, wrap fun _ => rfl⟩
  | double al =>
    rw [entryAt, if_pos hd]
    exact ⟨none_double hfc (.inl rfl) hd (fits_double (.inl rfl) hf) hl hn, wrap fun _ => rfl⟩
  | string dbg =>
    rw [entryAt, if_pos hd]
    exact ⟨none_string hfc.1 hfc.2 (.inl rfl) hd hl, wrap fun _ => rfl⟩
  | stringAlloc _ _ => exact hfc.elim
  | ptr => exact absurd rfl hg
  | memberPtr _ _ => exact absurd rfl hg
  | ref => exact absurd rfl hg
  | other _ => exact absurd rfl hg
  | sentinel sz al vals =>
    rw [entryAt, if_pos hd] at hg ⊢
    cases hv : vals[d]? with
    | none => rw [hv] at hg; exact absurd rfl hg
    | some v =>
      rw [rep_nest (by simp) hb] at hw
      exact ⟨none_sentinel hb (wf_optN hw) hv hl, wrap fun _ => rfl⟩
  | enforce c =>
    cases c with
    | bool =>
      rw [entryAt, if_pos hd]
      exact ⟨none_bool hfc (.inr rfl) hd hl, wrap fun _ => rfl⟩
    | refWrapper =>
      rw [entryAt, if_pos hd]
      exact ⟨none_refWrapper hpw hfc (.inr rfl) hd hl, wrap fun _ => rfl⟩
    | float =>
      rw [entryAt, if_pos hd]
      exact ⟨none_float hfc (.inr rfl) hd hl hn, wrap fun _ => rfl⟩
    | double al =>
      rw [entryAt, if_pos hd]
      exact ⟨none_double hfc (.inr rfl) hd (fits_double (.inr rfl) hf) hl hn, wrap fun _ => rfl⟩
    | string dbg =>
      rw [entryAt, if_pos hd]
      exact ⟨none_string hfc.1 hfc.2 (.inr rfl) hd hl, wrap fun _ => rfl⟩
    | stringAlloc _ _ => exact hfc.elim
    | _ => exact absurd rfl hg

/-! ## Reading the view -/

theorem display_special {tg : Target} {t : Cpp} {m : Bytes} {c : Shown} (h : entryAt 0 t ≠ .general) :
    display tg t m c = if (entryAt 0 t).none tg (t.size tg) m then .none else (entryAt 0 t).some c := by
  unfold display
  split
  · rename_i e; exact absurd e h
  · rfl

theorem display_general {tg : Target} {t : Cpp} {m : Bytes} {c : Shown} (h : entryAt 0 t = .general) :
    display tg t m c =
      (if isReference t then (if ld tg.pw m 0 = 0 then .none else .deref (ld tg.pw m 0).toNat)
       else if isPointer t then (if (ld tg.pw m 0).setWidth 64 = 0xF8E1B1825D5D6C67#64 then .none else c)
       else if t.hasFlag tg then (if ld 8 m (t.size tg) = 0 then .none else c)
       else .asked (t.has tg (rd m 0 (t.optSize tg))) c) := by
  unfold display
  rw [h]

theorem pick_size (tg : Target) (T : Ty) : (tg.pick T).size tg.pw = T.size tg.pw := by
  unfold Target.pick; split <;> rfl

theorem optSize_eq {tg : Target} {t : Cpp} (ht : t ≠ .ref) : t.optSize tg = (Ty.option (t.rep tg)).size tg.pw := by
  unfold Cpp.optSize Cpp.size
  cases t <;> first | exact absurd rfl ht | exact pick_size tg _

theorem view_base {tg : Target} {t : Cpp} (h : isOption t = false) (m : Bytes) :
    view tg t m = display tg t m (.raw (rd m 0 (t.size tg))) := by
  cases t <;> first | (simp [isOption] at h; done) | rfl

theorem honest_base {tg : Target} {t : Cpp} (h : isOption t = false) (hr : t ≠ .ref) (bs : Bytes) (s : Shown) :
    Honest tg t bs s = (s.says = t.has tg bs ∧ (t.has tg bs = true → s.inside = .raw (rd bs 0 (t.size tg)))) := by
  cases t <;> first | (simp [isOption] at h; done) | exact absurd rfl hr | rfl

theorem size_le_length {tg : Target} {t : Cpp} (hr : t ≠ .ref) (hw : (Ty.option (t.rep tg)).WF tg.pw) {bs : Bytes}
    (hl : Live tg t bs) : t.size tg ≤ bs.length ∧ (t.hasFlag tg = true → t.size tg + 1 ≤ bs.length) := by
  have h := live_length hr hl
  simp only [Ty.WF] at hw
  by_cases hm : ((t.rep tg).traits tg.pw).maxLevel ≥ 1
  · rw [option_size_avail hm] at h
    refine ⟨Nat.le_of_eq h.symm, fun hf => ?_⟩
    rw [hasFlag_of_ne hr, decide_eq_true_eq] at hf
    omega
  · rw [option_size_flag hm] at h
    have := roundTo_ge ((t.rep tg).size tg.pw + 1) hw.2.1
    unfold Cpp.size
    exact ⟨by omega, fun _ => by omega⟩

theorem size_raw {tg : Target} {t : Cpp} (hr : t ≠ .ref) (hw : (Ty.option (t.rep tg)).WF tg.pw) {bs : Bytes}
    (hl : Live tg t bs) (after : Bytes) : rd (bs ++ after) 0 (t.size tg) = rd bs 0 (t.size tg) :=
  rd_append (by have := (size_le_length hr hw hl).1; omega)

theorem rd_whole {tg : Target} {t : Cpp} (hr : t ≠ .ref) {bs : Bytes} (hl : Live tg t bs) (after : Bytes) :
    rd (bs ++ after) 0 (t.optSize tg) = bs := by
  have := live_length hr hl
  rw [optSize_eq hr, ← this, rd_append (by omega), rd_all rfl]

/-- the general entry, for a type that is neither an option nor a reference -/
theorem general_base {tg : Target} {t : Cpp} (hf : Fits tg t) (ho : isOption t = false) (hr : t ≠ .ref)
    (hw : (Ty.option (t.rep tg)).WF tg.pw) {bs : Bytes} (after : Bytes) (hl : Live tg t bs) (hg : entryAt 0 t = .general) :
    Honest tg t bs (view tg t (bs ++ after)) := by
  rw [honest_base ho hr, view_base ho, display_general hg, size_raw hr hw hl, if_neg (by cases t <;> simp [isReference] at hr ⊢)]
  by_cases hp : isPointer t = true
  · rw [if_pos hp]
    have hc : t = .ptr ∨ t = .enforce .ptr := by
      cases t with
      | ptr => exact .inl rfl
      | memberPtr _ _ => exact hf.elim
      | enforce c =>
        cases c with
        | ptr => exact .inr rfl
        | memberPtr _ _ => exact hf.elim
        | _ => simp [isPointer] at hp
      | _ => simp [isPointer] at hp
    have hb : tg.builtin = true ∧ tg.pw = 64 := by rcases hc with rfl | rfl <;> exact hf
    have ht : (t.rep tg).traits tg.pw = pointer64Traits := by
      rw [hb.2]
      rcases hc with rfl | rfl <;> simp only [Cpp.rep, Target.pick, hb.1, if_true] <;> rfl
    have hz : t.size tg = 8 := by
      unfold Cpp.size; rw [hb.2]
      rcases hc with rfl | rfl <;> simp only [Cpp.rep, Target.pick, hb.1, if_true] <;> rfl
    have hh := has_nest (d := 0) hr (fun _ => hb.1) ht (by decide) bs
    rw [show nest 0 t = t from rfl] at hh
    have hle := (size_le_length hr hw hl).1
    have hk : ((ld tg.pw (bs ++ after) 0).setWidth 64 = 0xF8E1B1825D5D6C67#64) ↔ pointer64Traits.getLevel bs = BitVec.ofNat 64 0 := by
      rw [ld_append (by rw [hb.2]; omega)]
      have := sub_level (w := 64) (by decide) (ld 64 bs 0) 0xF8E1B1825D5D6C67#64 (d := 0) (by omega)
      rw [BitVec.setWidth_eq, show 0xF8E1B1825D5D6C67#64 + BitVec.ofNat 64 0 = 0xF8E1B1825D5D6C67#64 from by decide] at this
      show _ ↔ (ld 64 bs 0 - 0xF8E1B1825D5D6C67#64) = _
      rw [this, hb.2, BitVec.setWidth_eq]
    rw [hh]
    by_cases e : (ld tg.pw (bs ++ after) 0).setWidth 64 = 0xF8E1B1825D5D6C67#64
    · rw [if_pos e]
      simp [Shown.says, hk.1 e]
    · rw [if_neg e]
      have := fun h => e (hk.2 h)
      exact ⟨by simp [Shown.says]; simpa using this, fun _ => rfl⟩
  · rw [if_neg hp]
    by_cases hfl : t.hasFlag tg = true
    · rw [if_pos hfl]
      have hle := (size_le_length hr hw hl).2 hfl
      rw [ld_append (by omega)]
      have hh : t.has tg bs = decide (ld 8 bs (t.size tg) ≠ 0) := by
        rw [has_of_ne hr, Ty.hasValue]
        rw [hasFlag_of_ne hr, decide_eq_true_eq] at hfl
        rw [if_neg (by omega)]; rfl
      rw [hh]
      by_cases e : ld 8 bs (t.size tg) = 0
      · rw [if_pos e]; simp [Shown.says, e]
      · rw [if_neg e]; exact ⟨by simp [Shown.says]; simpa using e, fun _ => rfl⟩
    · rw [if_neg hfl, rd_whole hr hl]
      exact ⟨rfl, fun _ => rfl⟩

/-- the view of an option of a type that is neither an option nor a reference -/
theorem base_right {tg : Target} (hpw : tg.pw = 32 ∨ tg.pw = 64) {t : Cpp} (hf : Fits tg t) (ho : isOption t = false) (hr : t ≠ .ref)
    (hw : (Ty.option (t.rep tg)).WF tg.pw) {bs : Bytes} (after : Bytes) (hl : Live tg t bs) (hn : NotOtherNaN tg t bs) :
    Honest tg t bs (view tg t (bs ++ after)) := by
  by_cases hg : entryAt 0 t = Entry.general
  · exact general_base hf ho hr hw after hl hg
  · have hwr := hw
    simp only [Ty.WF] at hwr
    obtain ⟨h1, h2⟩ := entry_right (after := after) hpw hf hwr.1 hl hn hg
    rw [honest_base ho hr, view_base ho, display_special hg, h1, h2, size_raw hr hw hl]
    cases hh : t.has tg bs with
    | false => simp [Shown.says]
    | true => simp [Shown.says, Shown.inside, ho]

/-- The view of every option whose type fits the file is honest. -/
theorem honest {tg : Target} (hpw : tg.pw = 32 ∨ tg.pw = 64) : ∀ (t : Cpp), Fits tg t →
    (t ≠ .ref → (Ty.option (t.rep tg)).WF tg.pw) → ∀ {bs : Bytes} (after : Bytes), Live tg t bs → NotOtherNaN tg t bs →
    Honest tg t bs (view tg t (bs ++ after)) := by
  intro t
  induction t with
  | option u ih =>
    intro hf hw bs after hl hn
    have hb := builtin_of_fits hf
    have hwo := hw (by simp)
    have hlen := live_length (by simp) hl
    have hmax : (((Cpp.option u).rep tg).traits tg.pw).maxLevel ≥ 1 := by
      have := hf.2.1
      rw [hasFlag_of_ne (by simp), decide_eq_false_iff_not] at this
      omega
    rw [option_size_avail hmax] at hlen
    have hrd : rd bs 0 (u.optSize tg) = bs := rd_all hlen
    -- the contained option
    have hin : (Cpp.option u).has tg bs = true → Honest tg u bs (view tg u (bs ++ after)) := by
      intro hh
      rw [has_of_ne (by simp)] at hh
      rw [live_of_ne (by simp)] at hl
      have hv := hl.2.2 hh
      have hp : ((Cpp.option u).rep tg).payload tg.pw bs = bs := rd_all hlen
      rw [hp] at hv
      apply ih hf.1
      · intro hr
        rw [rep_option hb hr] at hwo
        have : (Ty.option (Ty.option (u.rep tg))).WF tg.pw := hwo
        simp only [Ty.WF] at this ⊢
        exact this.1
      · by_cases hr : u = .ref
        · subst hr
          show Ty.optionRef.Valid tg.pw bs
          simpa only [Cpp.rep, Target.pick, hb, if_true] using hv
        · rw [live_of_ne hr]
          rwa [rep_option hb hr] at hv
      · exact hn
    show _ ∧ _
    rw [hrd]
    by_cases hg : entryAt 0 (.option u) = .general
    · rw [show view tg (.option u) (bs ++ after) = display tg (.option u) (bs ++ after) (view tg u (bs ++ after)) from rfl,
        display_general hg, if_neg (by simp [isReference]), if_neg (by simp [isPointer]), if_neg (by rw [hf.2.1]; simp),
        rd_whole (by simp) hl]
      exact ⟨rfl, hin⟩
    · have hwr : ((Cpp.option u).rep tg).WF tg.pw := by
        have := hwo
        simp only [Ty.WF] at this
        exact this.1
      obtain ⟨h1, h2⟩ := entry_right (after := after) hpw hf hwr hl hn hg
      rw [show view tg (.option u) (bs ++ after) = display tg (.option u) (bs ++ after) (view tg u (bs ++ after)) from rfl,
        display_special hg, h1, h2]
      cases hh : (Cpp.option u).has tg bs with
      | false => simp [Shown.says]
      | true => exact ⟨rfl, fun _ => hin hh⟩
  | ref =>
    intro _ _ bs after hl _
    have hlen : bs.length = tg.pw / 8 := hl.1
    show _ ∧ _
    have hv : view tg .ref (bs ++ after) = if ld tg.pw bs 0 = 0 then .none else .deref (ld tg.pw bs 0).toNat := by
      rw [view_base rfl, display_general rfl, ld_append (by omega)]; rfl
    rw [hv]
    have hh : Cpp.ref.has tg bs = decide (ld tg.pw bs 0 ≠ 0) := rfl
    rw [hh]
    by_cases e : ld tg.pw bs 0 = 0
    · rw [if_pos e]; simp [Shown.says, e]
    · rw [if_neg e]; exact ⟨by simp [Shown.says]; simpa using e, fun _ => rfl⟩
  | _ => exact fun hf hw _ after hl hn => base_right hpw hf rfl (by simp) (hw (by simp)) after hl hn

end Opt.Natvis
