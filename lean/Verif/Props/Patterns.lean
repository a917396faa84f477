import Verif.Lemmas.Nested
import Verif.Spec.Layout
import Verif.Spec.Pow2

/-!
# C06-C08, C10-C14: the bit patterns of the individual traits
-/

namespace Opt

/-- a level below `k` counted from `c` is a value in `[c, c + k)` -/
theorem sub_lt_range {w : Nat} {x c : BitVec w} {k : Nat} (hk : c.toNat + k ≤ 2 ^ w) (h : (x - c).toNat < k) :
    c.toNat ≤ x.toNat ∧ x.toNat < c.toNat + k := by
  have hx := x.isLt
  have hc := c.isLt
  rw [BitVec.toNat_sub] at h
  rcases Nat.lt_or_ge x.toNat c.toNat with hlt | hge
  · rw [Nat.mod_eq_of_lt (by omega)] at h; omega
  · rw [show 2 ^ w - c.toNat + x.toNat = 2 ^ w + (x.toNat - c.toNat) by omega, Nat.add_mod_left,
      Nat.mod_eq_of_lt (by omega)] at h
    omega

theorem sub_lt_range32 {x c : BitVec 32} {k : Nat} (hk : c.toNat + k ≤ 2 ^ 32)
    (h : ((x - c).setWidth 64).toNat < k) : c.toNat ≤ x.toNat ∧ x.toNat < c.toNat + k := by
  apply sub_lt_range hk
  rw [BitVec.toNat_setWidth, Nat.mod_eq_of_lt] at h
  · exact h
  · have := (x - c).isLt; omega

/-! ## C06 Floating-point empty states are NaNs only -/

/-- C06, `double`: every bit pattern with an empty level is a negative NaN with the advertised quiet bit, and is neither
of the default quiet NaNs. -/
theorem C06_double_empty_is_nan (pw : Nat) (s : Bool) (al : Nat) (bs : Bytes)
    (h : (((Ty.float64 s al).traits pw).getLevel bs).toNat < ((Ty.float64 s al).traits pw).maxLevel) :
    let x := (ld 64 bs 0).toNat
    fIsNaN 52 11 x ∧ fSign 52 11 x = 1 ∧ fQuiet 52 x = (if s then 0 else 1) ∧
      x ≠ 0x7FF8000000000000 ∧ x ≠ 0xFFF8000000000000 := by
  intro x
  have hx : x < 2 ^ 64 := (ld 64 bs 0).isLt
  cases s
  · have := sub_lt_range (c := 0b1111111111111011111100100110010000110000101110110011010101010111#64) (k := 256)
      (by decide) h
    simp only [BitVec.toNat_ofNat, Nat.reducePow, Nat.reduceMod] at this
    change _ ≤ x ∧ x < _ at this
    simp only [fIsNaN, fExp, fMant, fSign, fQuiet, Nat.reducePow, Nat.reduceAdd, Nat.reduceSub, Bool.false_eq_true,
      if_false]
    omega
  · have := sub_lt_range (c := 0b1111111111110110110001111001111101010101101100001000100110001111#64) (k := 256)
      (by decide) h
    simp only [BitVec.toNat_ofNat, Nat.reducePow, Nat.reduceMod] at this
    change _ ≤ x ∧ x < _ at this
    simp only [fIsNaN, fExp, fMant, fSign, fQuiet, Nat.reducePow, Nat.reduceAdd, Nat.reduceSub, if_true]
    omega

/-- level 3 of a `double` with signaling NaNs -/
example : fIsNaN 52 11 (ld 64 [0x92, 0x89, 0xB0, 0x55, 0x9F, 0xC7, 0xF6, 0xFF] 0).toNat :=
  (C06_double_empty_is_nan 64 true 8 [0x92, 0x89, 0xB0, 0x55, 0x9F, 0xC7, 0xF6, 0xFF] (by decide)).1

/-- C06, `float`. -/
theorem C06_float_empty_is_nan (pw : Nat) (s : Bool) (bs : Bytes)
    (h : (((Ty.float32 s).traits pw).getLevel bs).toNat < ((Ty.float32 s).traits pw).maxLevel) :
    let x := (ld 32 bs 0).toNat
    fIsNaN 23 8 x ∧ fSign 23 8 x = 1 ∧ fQuiet 23 x = (if s then 0 else 1) ∧ x ≠ 0x7FC00000 ∧ x ≠ 0xFFC00000 := by
  intro x
  have hx : x < 2 ^ 32 := (ld 32 bs 0).isLt
  cases s
  · have := sub_lt_range32 (c := 0b11111111110000111110111110110101#32) (k := 256) (by decide) h
    simp only [BitVec.toNat_ofNat, Nat.reducePow, Nat.reduceMod] at this
    change _ ≤ x ∧ x < _ at this
    simp only [fIsNaN, fExp, fMant, fSign, fQuiet, Nat.reducePow, Nat.reduceAdd, Nat.reduceSub, Bool.false_eq_true,
      if_false]
    omega
  · have := sub_lt_range32 (c := 0b11111111101111110110100110101111#32) (k := 256) (by decide) h
    simp only [BitVec.toNat_ofNat, Nat.reducePow, Nat.reduceMod] at this
    change _ ≤ x ∧ x < _ at this
    simp only [fIsNaN, fExp, fMant, fSign, fQuiet, Nat.reducePow, Nat.reduceAdd, Nat.reduceSub, if_true]
    omega

/-- level 0 of a `float` with signaling NaNs -/
example : fIsNaN 23 8 (ld 32 [0xAF, 0x69, 0xBF, 0xFF] 0).toNat :=
  (C06_float_empty_is_nan 64 true [0xAF, 0x69, 0xBF, 0xFF] (by decide)).1

/-- C06: an `option<double>` whose bytes are a number, an infinity or a default quiet NaN has a value. -/
theorem C06_double_values_present (pw : Nat) (s : Bool) (al : Nat) (bs : Bytes)
    (h : ¬ fIsNaN 52 11 (ld 64 bs 0).toNat ∨ (ld 64 bs 0).toNat = 0x7FF8000000000000 ∨
      (ld 64 bs 0).toNat = 0xFFF8000000000000) : (Ty.float64 s al).hasValue pw bs = true := by
  have hm : ((Ty.float64 s al).traits pw).maxLevel = 256 := by cases s <;> rfl
  by_cases h0 : ((Ty.float64 s al).traits pw).getLevel bs = 0
  · have := C06_double_empty_is_nan pw s al bs (by rw [h0, hm]; decide)
    exfalso
    rcases h with h | h | h
    · exact h this.1
    · exact this.2.2.2.1 h
    · exact this.2.2.2.2 h
  · simp only [Ty.hasValue, hm]; simpa using h0

/-- -infinity -/
example : (Ty.float64 true 8).hasValue 64 [0, 0, 0, 0, 0, 0, 0xF0, 0xFF] = true :=
  C06_double_values_present 64 true 8 _ (.inl (by
    rw [show (ld 64 [0, 0, 0, 0, 0, 0, 0xF0, 0xFF] 0).toNat = 0xFFF0000000000000 by decide]
    simp [fIsNaN, fExp, fMant]))

/-- C06: the same for `option<float>`. -/
theorem C06_float_values_present (pw : Nat) (s : Bool) (bs : Bytes)
    (h : ¬ fIsNaN 23 8 (ld 32 bs 0).toNat ∨ (ld 32 bs 0).toNat = 0x7FC00000 ∨
      (ld 32 bs 0).toNat = 0xFFC00000) : (Ty.float32 s).hasValue pw bs = true := by
  have hm : ((Ty.float32 s).traits pw).maxLevel = 256 := by cases s <;> rfl
  by_cases h0 : ((Ty.float32 s).traits pw).getLevel bs = 0
  · have := C06_float_empty_is_nan pw s bs (by rw [h0, hm]; decide)
    exfalso
    rcases h with h | h | h
    · exact h this.1
    · exact this.2.2.2.1 h
    · exact this.2.2.2.2 h
  · simp only [Ty.hasValue, hm]; simpa using h0

/-- the default quiet NaN -/
example : (Ty.float32 false).hasValue 64 [0, 0, 0xC0, 0x7F] = true :=
  C06_float_values_present 64 false _ (.inr (.inl (by decide)))

/-- infinity and -0.0 are not NaNs; the empty `option<double>` is one -/
example : ¬ fIsNaN 52 11 0x7FF0000000000000 ∧ ¬ fIsNaN 52 11 0x8000000000000000 ∧
    (Ty.float64 true 8).storeNone 64 [0,0,0,0,0,0,0,0] =
      .ok [0x8F, 0x89, 0xB0, 0x55, 0x9F, 0xC7, 0xF6, 0xFF] := by
  refine ⟨?_, ?_, ?_⟩
  · simp [fIsNaN, fExp, fMant]
  · simp [fIsNaN, fExp, fMant]
  · rfl

/-! ## C07 Pointer empty states are non-canonical addresses -/

/-- C07: every pattern with an empty level is non-canonical for 48-bit and for 57-bit virtual addresses. -/
theorem C07_pointer_empty_noncanonical (bs : Bytes)
    (h : ((Ty.pointer.traits 64).getLevel bs).toNat < (Ty.pointer.traits 64).maxLevel) :
    ¬ CanonicalFor 48 (ld 64 bs 0) ∧ ¬ CanonicalFor 57 (ld 64 bs 0) := by
  have := sub_lt_range (x := ld 64 bs 0) (c := 0xF8E1B1825D5D6C67#64) (k := 512) (by decide) h
  simp only [BitVec.toNat_ofNat, Nat.reducePow, Nat.reduceMod] at this
  generalize ld 64 bs 0 = x at *
  have hbit : ∀ i, x.getLsbD i = decide (x.toNat / 2 ^ i % 2 = 1) := by
    intro i
    rw [← BitVec.testBit_toNat, Nat.testBit_eq_decide_div_mod_eq]
  constructor
  · intro hc
    have h1 := hc 58 (by decide) (by decide)
    rw [hbit, hbit] at h1
    simp only [Nat.reducePow, Nat.reduceSub, decide_eq_decide] at h1
    omega
  · intro hc
    have h1 := hc 59 (by decide) (by decide)
    rw [hbit, hbit] at h1
    simp only [Nat.reducePow, Nat.reduceSub, decide_eq_decide] at h1
    omega

/-- level 511 -/
example : ¬ CanonicalFor 48 (ld 64 [0x66, 0x6E, 0x5D, 0x5D, 0x82, 0xB1, 0xE1, 0xF8] 0) :=
  (C07_pointer_empty_noncanonical [0x66, 0x6E, 0x5D, 0x5D, 0x82, 0xB1, 0xE1, 0xF8] (by decide)).1

/-- C07: an `option<T*>` holding null or any canonical address has a value. -/
theorem C07_canonical_present (bs : Bytes) (h : CanonicalFor 48 (ld 64 bs 0) ∨ CanonicalFor 57 (ld 64 bs 0)) :
    Ty.pointer.hasValue 64 bs = true := by
  by_cases h0 : (Ty.pointer.traits 64).getLevel bs = 0
  · have := C07_pointer_empty_noncanonical bs (by rw [h0]; decide)
    exact absurd h (by simp [this])
  · have hm : (Ty.pointer.traits 64).maxLevel = 512 := rfl
    simp only [Ty.hasValue, hm]; simpa using h0

example : CanonicalFor 48 0 ∧ CanonicalFor 48 0x7FFFFFFFFFFF ∧ CanonicalFor 57 0xFFFFFFFFFFFFFFFF := by
  have hall : ∀ i, i < 64 → (BitVec.allOnes 64).getLsbD i = true := by intro i h; rw [BitVec.getLsbD_allOnes]; simp [h]
  refine ⟨?_, ?_, ?_⟩
  · intro i _ _; simp
  · intro i h1 h2
    have : ∀ n, n < 17 → (0x7FFFFFFFFFFF#64).getLsbD (47 + n) = false := by decide
    have e := this (i - 47) (by omega)
    rw [show 47 + (i - 47) = i by omega] at e
    exact e.trans (by decide)
  · intro i h1 h2
    exact (hall i h2).trans (hall 56 (by decide)).symm

/-- C07, 32-bit targets: every pattern with an empty level is one of the addresses `0xFFFFFFC0 ... 0xFFFFFFDF`, in the
last 64 bytes of the address space; the levels do not wrap around to the null pointer, which is reported as present. -/
theorem C07_pointer32_empty_top (bs : Bytes) :
    (((Ty.pointer.traits 32).getLevel bs).toNat < (Ty.pointer.traits 32).maxLevel →
      0xFFFFFFC0 ≤ (ld 32 bs 0).toNat ∧ (ld 32 bs 0).toNat < 0xFFFFFFE0) ∧
    (ld 32 bs 0 = 0 → Ty.pointer.hasValue 32 bs = true) := by
  have hm : (Ty.pointer.traits 32).maxLevel = 32 := rfl
  have hg : (Ty.pointer.traits 32).getLevel bs = (ld 32 bs 0 - 0xFFFFFFC0#32).setWidth 64 := rfl
  refine ⟨fun h => ?_, fun h => ?_⟩
  · rw [hg, hm] at h
    have := sub_lt_range32 (c := 0xFFFFFFC0#32) (k := 32) (by decide) h
    simp only [BitVec.toNat_ofNat, Nat.reducePow, Nat.reduceMod] at this
    omega
  · simp only [Ty.hasValue, hm, hg, h, ge_iff_le, Nat.reduceLeDiff, if_true]
    decide

example : ∃ bs, ((Ty.pointer.traits 32).getLevel bs).toNat < (Ty.pointer.traits 32).maxLevel :=
  ⟨[0xC0, 0xFF, 0xFF, 0xFF], by decide⟩

/-! ## C08 Reflected enums never lose an enumerator -/

/-- C08: the value written for an empty level is not a declared enumerator, nor any OR of declared enumerators, and it
fits in the underlying type: it is below the probe limit, which is at most `2 ^ w`. -/
theorem C08_empty_not_enumerator {pw w : Nat} {decl : List Nat} (hwf : (Ty.enumReflect w decl).WF pw) (hpw : pw = 32 ∨ pw = 64)
    (bs : Bytes) (hbs : bs.length = w / 8) (l : U64) (hl : l.toNat < ((Ty.enumReflect w decl).traits pw).maxLevel) :
    ∃ bs', ((Ty.enumReflect w decl).traits pw).setLevel bs l = .ok bs' ∧
      ((Ty.enumReflect w decl).traits pw).getLevel bs' = l ∧
      ¬ OrOf decl (ld w bs' 0).toNat ∧ (ld w bs' 0).toNat ∉ decl := by
  have h := Ty.lawOK hpw _ hwf
  obtain ⟨bs', h1, h2, h3⟩ := h.roundtrip bs l hbs hl
  have hno : ¬ OrOf decl (ld w bs' 0).toNat := by
    intro hor
    have := h.high bs' h2 (by simp only [Ty.Valid]; exact ⟨h2, hor⟩)
    rw [h3] at this
    omega
  exact ⟨bs', h1, h3, hno, fun hm => hno (.enumerator hm)⟩

/-- flags 1, 2, 4, 8 in a `std::uint8_t` enum -/
example : ∃ bs', ((Ty.enumReflect 8 [1, 2, 4, 8]).traits 64).setLevel [0] 3 = .ok bs' ∧
      ((Ty.enumReflect 8 [1, 2, 4, 8]).traits 64).getLevel bs' = 3 ∧
      ¬ OrOf [1, 2, 4, 8] (ld 8 bs' 0).toNat ∧ (ld 8 bs' 0).toNat ∉ [1, 2, 4, 8] :=
  C08_empty_not_enumerator (by simp [Ty.WF]) (.inr rfl) [0] rfl 3 (by decide +kernel)

/-- C08: an option holding an enumerator, or any OR of enumerators, has a value. -/
theorem C08_enumerators_present {pw w : Nat} {decl : List Nat} (hwf : (Ty.enumReflect w decl).WF pw)
    (hpw : pw = 32 ∨ pw = 64) (v : Bytes) (hv : v.length = w / 8) (hor : OrOf decl (ld w v 0).toNat)
    (g : Bytes) (hg : g.length = (Ty.option (.enumReflect w decl)).size pw) :
    (Ty.enumReflect w decl).hasValue pw ((Ty.enumReflect w decl).storeValue pw g v) = true := by
  have hw : w = 8 ∨ w = 16 ∨ w = 32 ∨ w = 64 := by simp only [Ty.WF] at hwf; exact hwf.1
  refine (storeValue_spec hpw (a := .enumReflect w decl) ?_ hg ?_).1
  · simp only [Ty.WF, Ty.align] at hwf ⊢
    refine ⟨hwf, by omega, fun h => ?_⟩
    rw [Ty.cap_eq_maxLevel _ (by simp only [Ty.WF]; exact hwf) (by simp [Ty.Exact])]; exact h
  · simp only [Ty.Valid]; exact ⟨hv, hor⟩

/-- C08: flags 1, 2, 4, 8 in a `std::uint8_t` enum leave 256 - 16 levels; 15 is an OR of enumerators. -/
example : OrOf [1, 2, 4, 8] 15 ∧ (Ty.enumReflect 8 [1, 2, 4, 8]).WF 64 := by
  constructor
  · exact .or (a := 7) (b := 8) (.or (a := 3) (b := 4) (.or (a := 1) (b := 2) (.enumerator (by simp)) (.enumerator (by simp)))
      (.enumerator (by simp))) (.enumerator (by simp))
  · simp [Ty.WF]

/-! ## C10 Rounding to a power of two -/

/-- C10: for every argument the library can pass (the scan returns at least 1 and at most the probe limit 1024), and
even up to 65536, the result is the least power of two that is at least the argument. -/
theorem C10_round_up (n : U64) (h1 : 1 ≤ n.toNat) (h2 : n.toNat ≤ 65536) :
    IsPow2Ceil n.toNat (Enum.roundUp n).toNat := Enum.roundUp_spec h1 h2

example : IsPow2Ceil 513 (Enum.roundUp 513#64).toNat := C10_round_up 513#64 (by decide) (by decide)

/-- The restriction to small arguments is needed: the two commented-out shifts (option.hpp 904-905) are missing beyond. -/
theorem C10_limit : ¬ IsPow2Ceil (0x20001#64).toNat (Enum.roundUp 0x20001#64).toNat := by
  rintro ⟨k, hk, _, _⟩
  have e : (Enum.roundUp 0x20001#64).toNat = 0x3FFFD := by decide
  rw [e] at hk
  cases k with
  | zero => omega
  | succ k => rw [Nat.pow_succ] at hk; omega

example : (Enum.roundUp 17#64).toNat = 32 ∧ (Enum.roundUp 16#64).toNat = 16 ∧ (Enum.roundUp 1#64).toNat = 1 := by decide

/-! ## C11 Enum SENTINEL ranges -/

/-- Numeric value of the enum's bytes. -/
def enumVal (w : Nat) (signed : Bool) (x : BitVec w) : Int := if signed then x.toInt else x.toNat

/-- C11, `SENTINEL`: the level is 0 exactly for the reserved value (when the difference does not overflow). -/
theorem C11_sentinel (w : Nat) (hw : w = 8 ∨ w = 16 ∨ w = 32 ∨ w = 64) (sg : Bool) (s : BitVec w) (bs : Bytes)
    (ho : diffOverflows sg w (ld w bs 0) s = false) :
    ((enumSentinelTraits w sg s).getLevel bs).toNat < (enumSentinelTraits w sg s).maxLevel ↔ ld w bs 0 = s := by
  show (enumDiff sg w (ld w bs 0) s).toNat < 1 ↔ _
  generalize ld w bs 0 = x at *
  have hx := x.isLt
  have hs := s.isLt
  cases sg
  · have := enumDiff_unsigned hw x s
    constructor
    · intro h; apply BitVec.eq_of_toNat_eq; omega
    · rintro rfl; omega
  · have := enumDiff_signed hw x s ho
    have h1 := toInt_range hw x
    have h2 := toInt_range hw s
    have hp : (2 : Int) ^ (w - 1) ≤ 2 ^ 63 := by rcases hw with rfl | rfl | rfl | rfl <;> decide
    constructor
    · intro h; apply BitVec.eq_of_toInt_eq; omega
    · rintro rfl; omega

/-- `enum E : int { SENTINEL = -7 }` -/
example : ((enumSentinelTraits 32 true (-7)).getLevel [0xF9, 0xFF, 0xFF, 0xFF]).toNat < 1 :=
  (C11_sentinel 32 (by decide) true (-7) [0xF9, 0xFF, 0xFF, 0xFF] (by decide)).2 (by decide)

/-- C11, `SENTINEL_START`: the empty levels are exactly the values from the start up, and the level is the distance. -/
theorem C11_start {pw w : Nat} {sg : Bool} {s : BitVec w} (hwf : (Ty.enumStart w sg s).WF pw) (bs : Bytes)
    (ho : diffOverflows sg w (ld w bs 0) s = false) :
    (((enumStartTraits w sg s).getLevel bs).toNat < (enumStartTraits w sg s).maxLevel ↔
      enumVal w sg s ≤ enumVal w sg (ld w bs 0)) ∧
    (enumVal w sg s ≤ enumVal w sg (ld w bs 0) →
      (((enumStartTraits w sg s).getLevel bs).toNat : Int) = enumVal w sg (ld w bs 0) - enumVal w sg s) := by
  simp only [Ty.WF] at hwf
  obtain ⟨hw, hz, hsg⟩ := hwf
  show ((enumDiff sg w (ld w bs 0) s).toNat < enumStartMax w sg s ↔ _) ∧ (_ → ((enumDiff sg w (ld w bs 0) s).toNat : Int) = _)
  generalize ld w bs 0 = x at *
  have hx := x.isLt
  have hs := s.isLt
  cases sg
  · have h1 := enumDiff_unsigned hw x s
    rw [enumStartMax_unsigned hw s (by simpa using hz)]
    simp only [enumVal, Bool.false_eq_true, if_false]
    omega
  · have h1 := enumDiff_signed hw x s ho
    have h2 := enumStartMax_signed hw s (hsg rfl)
    have h3 := toInt_range hw x
    have h4 := toInt_range hw s
    have hp : (2 : Int) ^ (w - 1) ≤ 2 ^ 63 := by rcases hw with rfl | rfl | rfl | rfl <;> decide
    simp only [enumVal, if_true]
    omega

/-- `enum E : unsigned char { SENTINEL_START = 200 }` holding 207: level 7 -/
example : (((enumStartTraits 8 false 200).getLevel [207]).toNat : Int) = 207 - 200 :=
  (C11_start (pw := 64) (w := 8) (sg := false) (s := 200) (by simp [Ty.WF]) [207] (by decide)).2 (by decide)

/-- C11, `SENTINEL_START` / `SENTINEL_END`: the empty levels are exactly the values in the closed range. -/
theorem C11_start_end {pw w : Nat} {sg : Bool} {s e : BitVec w} (hwf : (Ty.enumStartEnd w sg s e).WF pw) (bs : Bytes)
    (ho : diffOverflows sg w (ld w bs 0) s = false) :
    (((enumStartEndTraits w sg s e).getLevel bs).toNat < (enumStartEndTraits w sg s e).maxLevel ↔
      enumVal w sg s ≤ enumVal w sg (ld w bs 0) ∧ enumVal w sg (ld w bs 0) ≤ enumVal w sg e) ∧
    (enumVal w sg s ≤ enumVal w sg (ld w bs 0) →
      (((enumStartEndTraits w sg s e).getLevel bs).toNat : Int) = enumVal w sg (ld w bs 0) - enumVal w sg s) := by
  simp only [Ty.WF] at hwf
  obtain ⟨hw, hsg⟩ := hwf
  show ((enumDiff sg w (ld w bs 0) s).toNat < enumStartEndMax w sg s e ↔ _) ∧ (_ → ((enumDiff sg w (ld w bs 0) s).toNat : Int) = _)
  generalize ld w bs 0 = x at *
  have hx := x.isLt
  have hs := s.isLt
  have he := e.isLt
  cases sg
  · simp only [Bool.false_eq_true, if_false] at hsg
    have h1 := enumDiff_unsigned hw x s
    rw [enumStartEndMax_unsigned hw s e hsg.1 hsg.2]
    simp only [enumVal, Bool.false_eq_true, if_false]
    omega
  · simp only [if_true] at hsg
    have h1 := enumDiff_signed hw x s ho
    have h2 := enumStartEndMax_signed hw s e hsg.1 hsg.2
    have h3 := toInt_range hw x
    have h4 := toInt_range hw s
    have h5 := toInt_range hw e
    have hp : (2 : Int) ^ (w - 1) ≤ 2 ^ 63 := by rcases hw with rfl | rfl | rfl | rfl <;> decide
    simp only [enumVal, if_true]
    omega

/-- `enum E : signed char { SENTINEL_START = -5, SENTINEL_END = 20 }` holding 21: a value -/
example : ¬ ((enumStartEndTraits 8 true (-5) 20).getLevel [21]).toNat < (enumStartEndTraits 8 true (-5) 20).maxLevel :=
  fun h => absurd ((C11_start_end (pw := 64) (w := 8) (sg := true) (s := -5) (e := 20) (by simp [Ty.WF]) [21]
    (by decide)).1.1 h) (by decide)

/-- C11: levels of the three kinds round-trip. -/
theorem C11_levels_roundtrip {pw : Nat} (hpw : pw = 32 ∨ pw = 64) (T : Ty) (hwf : T.WF pw)
    (hT : (∃ w sg s, T = .enumSentinel w sg s) ∨ (∃ w sg s, T = .enumStart w sg s) ∨
      (∃ w sg s e, T = .enumStartEnd w sg s e))
    (bs : Bytes) (hbs : bs.length = T.size pw) (l : U64) (hl : l.toNat < (T.traits pw).maxLevel) :
    ∃ bs', (T.traits pw).setLevel bs l = .ok bs' ∧ bs'.length = T.size pw ∧ (T.traits pw).getLevel bs' = l := by
  refine (Ty.lawOK hpw T hwf).roundtrip bs l hbs ?_
  rw [Ty.cap_eq_maxLevel T hwf]
  · exact hl
  · rcases hT with ⟨_, _, _, rfl⟩ | ⟨_, _, _, rfl⟩ | ⟨_, _, _, _, rfl⟩ <;> simp only [Ty.Exact]

example : ∃ bs', ((Ty.enumStartEnd 8 true (-5) 20).traits 64).setLevel [99] 25 = .ok bs' ∧ bs'.length = 1 ∧
    ((Ty.enumStartEnd 8 true (-5) 20).traits 64).getLevel bs' = 25 :=
  C11_levels_roundtrip (.inr rfl) (.enumStartEnd 8 true (-5) 20) (by simp [Ty.WF]) (.inr (.inr ⟨_, _, _, _, rfl⟩)) [99] rfl
    25 (by decide)

/-- Why the overflow hypothesis is there: with `enum E : int { a = INT_MIN, SENTINEL = 1 }` asking an option that holds
`a` whether it has a value computes `INT_MIN - 1` in `int`, which is undefined (option.hpp 1549). -/
theorem C11_overflow_reachable :
    ∃ (s x : BitVec 32), x ≠ s ∧ diffOverflows true 32 x s = true := ⟨1, 0x80000000, by decide, by decide⟩

/-- 8- and 16-bit enums and all unsigned ones never overflow. -/
theorem C11_no_overflow (w : Nat) (sg : Bool) (x s : BitVec w) (h : sg = false ∨ w < 32) :
    diffOverflows sg w x s = false := by
  rcases h with rfl | h
  · exact diffOverflows_unsigned x s
  · exact diffOverflows_narrow h sg x s

example : (Ty.enumStartEnd 8 true (-5) 20).WF 64 ∧ (enumStartEndTraits 8 true (-5) 20).maxLevel = 26 ∧
    diffOverflows true 8 (ld 8 [0x80] 0) (-5) = false := by
  refine ⟨?_, by decide, by decide⟩
  simp [Ty.WF]

/-! ## C12 opt::sentinel -/

theorem sentinelSet_nth {A : Type} {v : A} : ∀ (vs : List A) (k : U64) (j : Nat), vs[j]? = some v → k.toNat + vs.length < 2 ^ 64 →
      sentinelSet vs k (k + BitVec.ofNat 64 j) = .ok v := by
    intro vs
    induction vs with
    | nil => intro k j hj; simp at hj
    | cons u us ih =>
      intro k j hj hb
      simp only [List.length_cons] at hb
      cases j with
      | zero =>
        simp only [List.getElem?_cons_zero, Option.some.injEq] at hj
        subst hj
        cases us <;> simp [sentinelSet]
      | succ j =>
        simp only [List.getElem?_cons_succ] at hj
        have hj' := (List.getElem?_eq_some_iff.1 hj).1
        have hne : k + BitVec.ofNat 64 (j + 1) ≠ k := by
          intro e
          have := congrArg BitVec.toNat e
          rw [BitVec.toNat_add, BitVec.toNat_ofNat] at this
          omega
        have e1 : k + BitVec.ofNat 64 (j + 1) = (k + 1) + BitVec.ofNat 64 j := by
          apply BitVec.eq_of_toNat_eq
          simp only [BitVec.toNat_add, BitVec.toNat_ofNat, show BitVec.toNat (1 : U64) = 1 from rfl]
          omega
        cases us with
        | nil => simp at hj
        | cons u' us' =>
          rw [sentinelSet, if_neg hne, e1]
          apply ih _ _ hj
          rw [BitVec.toNat_add, show BitVec.toNat (1 : U64) = 1 from rfl]
          omega

/-- C12: with pairwise different values, level `i` is stored as `Vi` and read back as `i`. -/
theorem C12_level_is_value {n : Nat} {eq : Bytes → Bytes → Bool} {vals : List Bytes} (h : SentinelsOK n eq vals)
    (i : Nat) (v : Bytes) (hi : vals[i]? = some v) (bs : Bytes) :
    (sentinelTraits eq vals).setLevel bs (BitVec.ofNat 64 i) = .ok v ∧
    (sentinelTraits eq vals).getLevel v = BitVec.ofNat 64 i := by
  have hlt : i < vals.length := (List.getElem?_eq_some_iff.1 hi).1
  have h1 := sentinelSet_nth vals 0 i hi (by have := h.1; simpa using this)
  rw [show (0 : U64) + BitVec.ofNat 64 i = BitVec.ofNat 64 i from BitVec.zero_add _] at h1
  refine ⟨h1, ?_⟩
  have h64 := h.1
  obtain ⟨bs', g1, _, g3, _⟩ := sentinel_roundtrip (n := n) (eq := eq) (vals := vals) 0 (BitVec.ofNat 64 i)
      (by simpa using h64) h.2.1 h.2.2.1 h.2.2.2 (by simp) (by rw [BitVec.toNat_ofNat, Nat.mod_eq_of_lt (by omega)]; simpa using hlt)
  rw [h1] at g1
  cases g1
  exact g3

/-- `opt::sentinel<int, -1, -2>` -/
theorem intSentinels_ok :
    SentinelsOK 4 (fun a b => a == b) [[0xFF, 0xFF, 0xFF, 0xFF], [0xFE, 0xFF, 0xFF, 0xFF]] := by
  refine ⟨by decide, by decide, by decide, by decide⟩

example : (sentinelTraits (fun a b => a == b) [[0xFF, 0xFF, 0xFF, 0xFF], [0xFE, 0xFF, 0xFF, 0xFF]]).setLevel [1, 2, 3, 4] 1 =
    .ok [0xFE, 0xFF, 0xFF, 0xFF] :=
  (C12_level_is_value intSentinels_ok 1 _ rfl [1, 2, 3, 4]).1

/-- C12: every other value is reported as present. -/
theorem C12_other_present {n al : Nat} {eq : Bytes → Bytes → Bool} {vals : List Bytes} (hne : vals ≠ []) (x : Bytes)
    (hx : ∀ v ∈ vals, eq x v = false) : (Ty.sentinel n al eq vals).hasValue 64 x = true := by
  have hm : ((Ty.sentinel n al eq vals).traits 64).maxLevel = vals.length := rfl
  have hg : ((Ty.sentinel n al eq vals).traits 64).getLevel x = BitVec.allOnes 64 := sentinelGet_high hne 0 hx
  have : 0 < vals.length := List.length_pos_iff.2 hne
  simp only [Ty.hasValue, hm, hg, ge_iff_le]
  rw [if_pos (by omega)]
  decide

example : (Ty.sentinel 4 4 (fun a b => a == b) [[0xFF, 0xFF, 0xFF, 0xFF], [0xFE, 0xFF, 0xFF, 0xFF]]).hasValue 64
    [0xFD, 0xFF, 0xFF, 0xFF] = true :=
  C12_other_present (by decide) _ (by decide)

theorem sentinelGet_first {A V : Type} {eq : A → V → Bool} {x : A} : ∀ (vals : List V) (k : U64) (i : Nat) (v : V),
    vals[i]? = some v → eq x v = true → k.toNat + vals.length < 2 ^ 64 → (sentinelGet eq vals k x).toNat ≤ k.toNat + i := by
  intro vals
  induction vals with
  | nil => intro k i v hi; simp at hi
  | cons u us ih =>
    intro k i v hi he hb
    simp only [List.length_cons] at hb
    by_cases h0 : eq x u = true
    · cases us <;> simp [sentinelGet, h0]
    · cases i with
      | zero => simp at hi; subst hi; exact absurd he h0
      | succ i =>
        simp only [List.getElem?_cons_succ] at hi
        have hi' := (List.getElem?_eq_some_iff.1 hi).1
        cases us with
        | nil => simp at hi
        | cons u' us' =>
          rw [sentinelGet, if_neg h0]
          have := ih (k + 1) i v hi he (by rw [BitVec.toNat_add, show BitVec.toNat (1 : U64) = 1 from rfl]; omega)
          have e : (k + 1).toNat = k.toNat + 1 := by
            rw [BitVec.toNat_add, show BitVec.toNat (1 : U64) = 1 from rfl]; omega
          omega

/-- C12: with a repeated value two levels collapse: the later level is accepted but reads back as an earlier one. -/
theorem C12_repeated_collapses {eq : Bytes → Bytes → Bool} {vals : List Bytes} (hlen : vals.length < 2 ^ 64)
    (i j : Nat) (vi vj : Bytes) (hij : i < j) (hi : vals[i]? = some vi) (hj : vals[j]? = some vj)
    (he : eq vj vi = true) (bs : Bytes) :
    ∃ bs', (sentinelTraits eq vals).setLevel bs (BitVec.ofNat 64 j) = .ok bs' ∧
      ((sentinelTraits eq vals).getLevel bs').toNat < j := by
  have h1 := sentinelSet_nth vals 0 j hj (by simpa using hlen)
  rw [show (0 : U64) + BitVec.ofNat 64 j = BitVec.ofNat 64 j from BitVec.zero_add _] at h1
  have := sentinelGet_first (eq := eq) (x := vj) vals 0 i vi hi he (by simpa using hlen)
  refine ⟨vj, h1, ?_⟩
  simp only [sentinelTraits]
  have e : BitVec.toNat (0 : U64) = 0 := rfl
  omega

example : ∃ bs', (sentinelTraits (fun a b => a == b) [[1], [2], [1]]).setLevel [9] (BitVec.ofNat 64 2) = .ok bs' ∧
    ((sentinelTraits (fun a b => a == b) [[1], [2], [1]]).getLevel bs').toNat < 2 :=
  C12_repeated_collapses (by decide) 0 2 [1] [1] (by decide) rfl rfl (by decide) [9]

/-! ## C13 PADDING -/

/-- C13 for 32- and 64-bit `PADDING`: every level below `max_level`, which is `2 ^ w - 1`, round-trips; only PADDING is
written, and a zero PADDING is a present value. -/
theorem C13_padding_wide {pw n al off w : Nat} (hpw : pw = 32 ∨ pw = 64) (hw : w = 32 ∨ w = 64) (hoff : off + w / 8 ≤ n)
    (bs : Bytes) (hbs : bs.length = n) :
    let T := Ty.padding n al off w
    (T.traits pw).maxLevel = 2 ^ w - 1 ∧
    (∀ l : U64, l.toNat < (T.traits pw).maxLevel → ∃ bs', (T.traits pw).setLevel bs l = .ok bs' ∧
      (T.traits pw).getLevel bs' = l ∧ SameOutside off (w / 8) bs bs') ∧
    (ld w bs off = 0 → T.hasValue pw bs = true) := by
  intro T
  have hm : (T.traits pw).maxLevel = 2 ^ w - 1 := by
    show paddingMax w = _
    rcases hw with rfl | rfl <;> decide
  have hwf : T.WF pw := by simp only [T, Ty.WF]; exact ⟨by omega, hoff⟩
  have hcap : T.cap pw = 2 ^ w - 1 := by simp only [T, Ty.cap]
  refine ⟨hm, ?_, ?_⟩
  · intro l hl
    obtain ⟨bs', h1, h2, h3⟩ := (Ty.lawOK hpw T hwf).roundtrip bs l hbs (by rw [hcap, ← hm]; exact hl)
    refine ⟨bs', h1, h3, ?_⟩
    have h1' : (paddingTraits w off).setLevel bs l = .ok bs' := h1
    simp only [paddingTraits] at h1'
    rw [verifyThen_decide (show l.toNat < paddingMax w from hl)] at h1'
    cases h1'
    refine ⟨st_length _ (by omega), ?_⟩
    intro i hi
    rw [st, wr_getElem? (by rw [leBytes_length]; omega), leBytes_length]
    rcases hi with hi | hi
    · rw [if_pos hi]
    · rw [if_neg (by omega), if_neg (by omega)]
  · intro h0
    have hp : (2 : Nat) ^ 32 ≤ 2 ^ w := Nat.pow_le_pow_right (by decide) (by omega)
    simp only [Ty.hasValue]
    rw [if_pos (by omega)]
    have : (T.traits pw).getLevel bs = (0#w).setWidth 64 - 1 := by
      show (ld w bs off).setWidth 64 - 1 = _
      rw [h0]; rfl
    rw [this]
    rcases hw with rfl | rfl <;> decide

/-- a `std::uint32_t PADDING` at offset 4 of an 8-byte struct; its last level -/
example : ∃ bs', ((Ty.padding 8 4 4 32).traits 64).setLevel [1, 2, 3, 4, 5, 6, 7, 8] 0xFFFFFFFE = .ok bs' ∧
    ((Ty.padding 8 4 4 32).traits 64).getLevel bs' = 0xFFFFFFFE ∧ SameOutside 4 4 [1, 2, 3, 4, 5, 6, 7, 8] bs' :=
  (C13_padding_wide (al := 4) (.inr rfl) (.inl rfl) (by decide) [1, 2, 3, 4, 5, 6, 7, 8] rfl).2.1 _ (by decide)

/-- C13 (partial) for 8- and 16-bit `PADDING`: only the first `2 ^ w - 1` levels round-trip although `2 ^ 64 - 1` are
advertised; a zero PADDING is a present value. -/
theorem C13_padding_narrow_partial {pw n al off w : Nat} (hpw : pw = 32 ∨ pw = 64) (hw : w = 8 ∨ w = 16)
    (hoff : off + w / 8 ≤ n) (bs : Bytes) (hbs : bs.length = n) :
    let T := Ty.padding n al off w
    (T.traits pw).maxLevel = 2 ^ 64 - 1 ∧
    (∀ l : U64, l.toNat < 2 ^ w - 1 → ∃ bs', (T.traits pw).setLevel bs l = .ok bs' ∧
      (T.traits pw).getLevel bs' = l) ∧
    (ld w bs off = 0 → T.hasValue pw bs = true) := by
  intro T
  have hm : (T.traits pw).maxLevel = 2 ^ 64 - 1 := by
    show paddingMax w = _
    rcases hw with rfl | rfl <;> decide
  have hwf : T.WF pw := by simp only [T, Ty.WF]; exact ⟨by omega, hoff⟩
  have hcap : T.cap pw = 2 ^ w - 1 := by simp only [T, Ty.cap]
  refine ⟨hm, ?_, ?_⟩
  · intro l hl
    obtain ⟨bs', h1, h2, h3⟩ := (Ty.lawOK hpw T hwf).roundtrip bs l hbs (by rw [hcap]; exact hl)
    exact ⟨bs', h1, h3⟩
  · intro h0
    simp only [Ty.hasValue]
    rw [if_pos (by rw [hm]; decide)]
    have : (T.traits pw).getLevel bs = (0#w).setWidth 64 - 1 := by
      show (ld w bs off).setWidth 64 - 1 = _
      rw [h0]; rfl
    rw [this]
    rcases hw with rfl | rfl <;> decide

example : ∃ bs', ((Ty.padding 8 4 4 8).traits 64).setLevel [1, 2, 3, 4, 5, 6, 7, 8] 254 = .ok bs' ∧
    ((Ty.padding 8 4 4 8).traits 64).getLevel bs' = 254 :=
  (C13_padding_narrow_partial (al := 4) (.inr rfl) (.inl rfl) (by decide) [1, 2, 3, 4, 5, 6, 7, 8] rfl).2.1 _ (by decide)

/-- C13 is violated for every narrow `PADDING`: level `2 ^ w - 1` is below `max_level`, is accepted, and is stored as
PADDING 0, i.e. as a present value. -/
theorem C13_violated_narrow {n al off w : Nat} (hw : w = 8 ∨ w = 16) (hoff : off + w / 8 ≤ n)
    (bs : Bytes) (hbs : bs.length = n) :
    let T := Ty.padding n al off w
    2 ^ w - 1 < (T.traits 64).maxLevel ∧
    ∃ bs', (T.traits 64).setLevel bs (BitVec.ofNat 64 (2 ^ w - 1)) = .ok bs' ∧ ld w bs' off = 0 ∧
      T.hasValue 64 bs' = true := by
  intro T
  have hm : (T.traits 64).maxLevel = 2 ^ 64 - 1 := by
    show paddingMax w = _
    rcases hw with rfl | rfl <;> decide
  refine ⟨by rw [hm]; rcases hw with rfl | rfl <;> decide, st w bs off 0, ?_, ?_, ?_⟩
  · show verifyThen _ _ = _
    have : (BitVec.ofNat 64 (2 ^ w - 1) + 1).setWidth w = 0 := by rcases hw with rfl | rfl <;> decide
    rw [this, verifyThen_decide]
    rw [show paddingMax w = 2 ^ 64 - 1 from hm]
    rcases hw with rfl | rfl <;> decide
  · exact ld_st_same (by omega) _ (by omega)
  · simp only [Ty.hasValue]
    rw [if_pos (by rw [hm]; decide)]
    have : (T.traits 64).getLevel (st w bs off 0) = (0#w).setWidth 64 - 1 := by
      show (ld w (st w bs off 0) off).setWidth 64 - 1 = _
      rw [ld_st_same (by omega) _ (by omega)]; rfl
    rw [this]
    rcases hw with rfl | rfl <;> decide

example : ∃ bs', ((Ty.padding 8 4 4 16).traits 64).setLevel [1, 2, 3, 4, 5, 6, 7, 8] (BitVec.ofNat 64 (2 ^ 16 - 1)) = .ok bs' ∧
    ld 16 bs' 4 = 0 ∧ (Ty.padding 8 4 4 16).hasValue 64 bs' = true :=
  (C13_violated_narrow (al := 4) (.inr rfl) (by decide) [1, 2, 3, 4, 5, 6, 7, 8] rfl).2

/-! ## C14 std::string -/

/-- The ways a live `std::string` is laid out, independently of the traits code.
`size`, `cap` and `ptr` are what the library keeps; the rest of the bytes is arbitrary. -/
inductive LiveString (pw : Nat) : StringLib → Bytes → Prop where
  /-- libstdc++: pointer to the characters (the local buffer or the heap), never null -/
  | gnu (bs : Bytes) (ptr : BitVec pw) : ptr ≠ 0 → ld pw bs 0 = ptr → LiveString pw .libstdcpp bs
  /-- MSVC: capacity is at least 15 (the small buffer) -/
  | msvc (bs : Bytes) (d : Bool) (cap : BitVec pw) : 15 ≤ cap.toNat →
      ld pw bs (stringSize pw (.stl d) - pw / 8) = cap → LiveString pw (.stl d) bs
  /-- libc++ short string: the first byte is `size << 1` -/
  | cppShort (bs : Bytes) (size : Nat) : size < 128 → ld 8 bs 0 = BitVec.ofNat 8 (2 * size) →
      LiveString pw (.libcpp false) bs
  /-- libc++ long string: the first word is an even capacity with the low bit set -/
  | cppLong (bs : Bytes) (cap : Nat) : 0 < cap → 2 * cap < 2 ^ pw → ld pw bs 0 = BitVec.ofNat pw (2 * cap + 1) →
      LiveString pw (.libcpp false) bs
  /-- libc++ alternate layout, short: the last byte is the size -/
  | altShort (bs : Bytes) (size : Nat) : size < 128 → ld 8 bs (stringSize pw (.libcpp true) - 1) = BitVec.ofNat 8 size →
      LiveString pw (.libcpp true) bs
  /-- libc++ alternate layout, long: the last word is the capacity with the top bit set -/
  | altLong (bs : Bytes) (cap : Nat) : 0 < cap → cap < 2 ^ (pw - 1) →
      ld pw bs (stringSize pw (.libcpp true) - pw / 8) = BitVec.ofNat pw (2 ^ (pw - 1) + cap) →
      LiveString pw (.libcpp true) bs

theorem leVal_append (a b : Bytes) : leVal (a ++ b) = leVal a + 256 ^ a.length * leVal b := by
  induction a with
  | nil => simp [leVal]
  | cons x xs ih =>
    simp only [List.cons_append, leVal, ih, List.length_cons, Nat.pow_succ]
    rw [Nat.mul_add, ← Nat.add_assoc, Nat.mul_comm (256 ^ xs.length) 256, Nat.mul_assoc]

theorem ld_low_byte {pw : Nat} (hpw : pw = 32 ∨ pw = 64) (bs : Bytes) (h : pw / 8 ≤ bs.length) :
    (ld pw bs 0).toNat % 256 = (ld 8 bs 0).toNat := by
  cases bs with
  | nil => simp at h; omega
  | cons b bs =>
    have h1 : (leVal (rd (b :: bs) 0 (pw / 8))) < 2 ^ pw := by
      have := leVal_lt (rd (b :: bs) 0 (pw / 8))
      rw [rd_length (by omega)] at this
      rw [pow256 (by omega)] at this
      exact this
    have h8 : ld 8 (b :: bs) 0 = b := by
      simp only [ld, rd, Nat.reduceDiv, List.drop_zero, List.take_succ_cons, List.take_zero, leVal, Nat.mul_zero,
        Nat.add_zero, BitVec.ofNat_toNat]
      exact BitVec.setWidth_eq b
    rw [h8, ld, BitVec.toNat_ofNat, Nat.mod_eq_of_lt h1]
    have : rd (b :: bs) 0 (pw / 8) = b :: rd bs 0 (pw / 8 - 1) := by
      simp only [rd, List.drop_zero]
      rw [show pw / 8 = (pw / 8 - 1) + 1 by omega, List.take_succ_cons]; simp
    rw [this, leVal]
    have := b.isLt
    omega

theorem ld_high_byte {pw : Nat} (hpw : pw = 32 ∨ pw = 64) (bs : Bytes) (off : Nat) (h : off + pw / 8 ≤ bs.length) :
    (ld pw bs off).toNat / 2 ^ (pw - 8) = (ld 8 bs (off + pw / 8 - 1)).toNat := by
  have hl : (rd bs off (pw / 8)).length = pw / 8 := rd_length h
  have h1 : (leVal (rd bs off (pw / 8))) < 2 ^ pw := by
    have := leVal_lt (rd bs off (pw / 8))
    rw [hl, pow256 (by omega)] at this
    exact this
  rw [ld, BitVec.toNat_ofNat, Nat.mod_eq_of_lt h1]
  have hsplit : rd bs off (pw / 8) = rd bs off (pw / 8 - 1) ++ rd bs (off + pw / 8 - 1) 1 := by
    apply List.ext_getElem?
    intro i
    have hl2 : (rd bs off (pw / 8 - 1)).length = pw / 8 - 1 := rd_length (by omega)
    rw [List.getElem?_append, hl2, rd_getElem?, rd_getElem?, rd_getElem?]
    by_cases hi : i < pw / 8 - 1
    · simp only [hi, if_true]; rw [if_pos (by omega)]
    · simp only [hi, if_false]
      by_cases hi2 : i < pw / 8
      · rw [if_pos hi2, if_pos (by omega)]; congr 1; omega
      · rw [if_neg hi2, if_neg (by omega)]
  rw [hsplit, leVal_append, rd_length (by omega)]
  have hlo := leVal_lt (rd bs off (pw / 8 - 1))
  rw [rd_length (by omega)] at hlo
  have hp : 256 ^ (pw / 8 - 1) = 2 ^ (pw - 8) := by
    rw [show pw / 8 - 1 = (pw - 8) / 8 by omega, pow256 (by omega)]
  rw [hp] at hlo ⊢
  have h8 : (ld 8 bs (off + pw / 8 - 1)).toNat = leVal (rd bs (off + pw / 8 - 1) 1) := by
    have := leVal_lt (rd bs (off + pw / 8 - 1) 1)
    rw [rd_length (by omega)] at this
    rw [ld, BitVec.toNat_ofNat]
    exact Nat.mod_eq_of_lt (by simpa using this)
  rw [h8, Nat.add_comm, Nat.mul_add_div (Nat.two_pow_pos _), Nat.div_eq_of_lt hlo, Nat.add_zero]

/-- C14: every live string, short or long, of every library layout, is a value the traits recognise. -/
theorem C14_live_string_present {pw : Nat} (hpw : pw = 32 ∨ pw = 64) (lib : StringLib) (bs : Bytes)
    (hlen : bs.length = stringSize pw lib) (h : LiveString pw lib bs) :
    255 ≤ (((Ty.string lib).traits pw).getLevel bs).toNat ∧ (Ty.string lib).hasValue pw bs = true := by
  have hval : StringValue pw lib bs := by
    cases h with
    | gnu _ ptr h0 h1 =>
      simp only [StringValue]
      intro e
      apply h0
      apply BitVec.eq_of_toNat_eq
      rw [← h1, e]; rfl
    | msvc _ d cap h0 h1 =>
      simp only [StringValue]
      have : stringMarkOff pw (.stl d) = stringSize pw (.stl d) - pw / 8 := by
        rcases hpw with rfl | rfl <;> cases d <;> decide
      rw [this, h1]; omega
    | cppShort _ size hs h1 =>
      simp only [StringValue]
      left
      have hle : pw / 8 ≤ bs.length := by rw [hlen]; rcases hpw with rfl | rfl <;> decide
      have := ld_low_byte hpw bs hle
      rw [h1, BitVec.toNat_ofNat] at this
      omega
    | cppLong _ cap h0 hc h1 =>
      simp only [StringValue]
      right
      have hlt : 2 * cap + 1 < 2 ^ pw := by rcases hpw with rfl | rfl <;> omega
      rw [h1, BitVec.toNat_ofNat, Nat.mod_eq_of_lt hlt]
      omega
    | altShort _ size hs h1 =>
      simp only [StringValue]
      left
      have hmo : stringMarkOff pw (.libcpp true) + pw / 8 = stringSize pw (.libcpp true) := by
        rcases hpw with rfl | rfl <;> decide
      have := ld_high_byte hpw bs (stringMarkOff pw (.libcpp true)) (by omega)
      rw [hmo, h1, BitVec.toNat_ofNat] at this
      have h2 : (ld pw bs (stringMarkOff pw (.libcpp true))).toNat / 2 ^ (pw - 8) < 128 := by omega
      have h3 := (Nat.div_lt_iff_lt_mul (Nat.two_pow_pos (pw - 8))).1 h2
      rcases hpw with rfl | rfl <;> simpa using h3
    | altLong _ cap h0 hc h1 =>
      simp only [StringValue]
      right
      have hmo : stringMarkOff pw (.libcpp true) = stringSize pw (.libcpp true) - pw / 8 := by
        rcases hpw with rfl | rfl <;> decide
      rw [hmo, h1, BitVec.toNat_ofNat, Nat.mod_eq_of_lt]
      · omega
      · rcases hpw with rfl | rfl <;> simp at hc ⊢ <;> omega
  have hv : (Ty.string lib).Valid pw bs := by simp only [Ty.Valid]; exact ⟨hlen, hval⟩
  have hm : ((Ty.string lib).traits pw).maxLevel = 255 := rfl
  have hh := (lawOK_string hpw lib).high bs hlen hv
  refine ⟨hh, ?_⟩
  simp only [Ty.hasValue, hm]
  simp only [ge_iff_le, Nat.reduceLeDiff, if_true, ne_eq, decide_not, Bool.not_eq_true', decide_eq_false_iff_not]
  intro h0
  change 255 ≤ (((Ty.string lib).traits pw).getLevel bs).toNat at hh
  rw [h0] at hh
  exact absurd hh (by decide)

/-- "abc" as a libc++ short string -/
theorem shortString_live : LiveString 64 (.libcpp false) ([6, 97, 98, 99] ++ List.replicate 20 0) :=
  .cppShort _ 3 (by decide) (by decide)

example : (Ty.string (.libcpp false)).hasValue 64 ([6, 97, 98, 99] ++ List.replicate 20 0) = true :=
  (C14_live_string_present (.inr rfl) _ _ rfl shortString_live).2

/-- C14: the 255 empty states are pairwise distinguishable, whatever was in the storage. -/
theorem C14_levels_distinct {pw : Nat} (hpw : pw = 32 ∨ pw = 64) (lib : StringLib) (bs : Bytes)
    (hlen : bs.length = stringSize pw lib) (l : U64) (hl : l.toNat < 255) :
    ∃ bs', ((Ty.string lib).traits pw).setLevel bs l = .ok bs' ∧ bs'.length = stringSize pw lib ∧
      ((Ty.string lib).traits pw).getLevel bs' = l ∧ ¬ LiveString pw lib bs' := by
  obtain ⟨bs', h1, h2, h3⟩ := (lawOK_string hpw lib).roundtrip bs l hlen hl
  refine ⟨bs', h1, h2, h3, ?_⟩
  intro hlive
  have := (C14_live_string_present hpw lib bs' h2 hlive).1
  rw [show ((Ty.string lib).traits pw).getLevel bs' = l from h3] at this
  omega

/-- emptying the short string "abc" to the last level -/
example : ∃ bs', ((Ty.string (.libcpp false)).traits 64).setLevel ([6, 97, 98, 99] ++ List.replicate 20 0) 254 = .ok bs' ∧
    bs'.length = 24 ∧ ((Ty.string (.libcpp false)).traits 64).getLevel bs' = 254 ∧ ¬ LiveString 64 (.libcpp false) bs' :=
  C14_levels_distinct (.inr rfl) _ _ rfl 254 (by decide)

end Opt
