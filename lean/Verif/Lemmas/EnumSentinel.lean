import Verif.Lemmas.Traits

namespace Opt

/-- value of a bit pattern in the underlying type -/
theorem toInt_cases {w : Nat} (x : BitVec w) :
    (2 * x.toNat < 2 ^ w ∧ x.toInt = x.toNat) ∨ (2 ^ w ≤ 2 * x.toNat ∧ x.toInt = (x.toNat : Int) - 2 ^ w) := by
  rw [BitVec.toInt_eq_toNat_cond]
  split
  · exact .inl ⟨‹_›, rfl⟩
  · refine .inr ⟨by omega, ?_⟩
    simp

theorem signExtend_cases {w v : Nat} (x : BitVec w) (h : w ≤ v) :
    (2 * x.toNat < 2 ^ w ∧ (x.signExtend v).toNat = x.toNat) ∨
    (2 ^ w ≤ 2 * x.toNat ∧ (x.signExtend v).toNat = x.toNat + (2 ^ v - 2 ^ w)) := by
  have hp : 2 ^ w ≤ 2 ^ v := Nat.pow_le_pow_right (by decide) h
  have hx := x.isLt
  rw [BitVec.toNat_signExtend, BitVec.toNat_setWidth, BitVec.msb_eq_decide, Nat.mod_eq_of_lt (by omega)]
  by_cases hm : 2 ^ (w - 1) ≤ x.toNat
  · right
    simp only [hm, decide_true, if_true]
    refine ⟨?_, trivial⟩
    cases w with
    | zero => simp at hm hx; omega
    | succ w => simp only [Nat.add_sub_cancel] at hm; rw [Nat.pow_succ]; omega
  · left
    simp only [hm, decide_false, Bool.false_eq_true, if_false]
    refine ⟨?_, rfl⟩
    cases w with
    | zero => simp at hm hx; omega
    | succ w => simp only [Nat.add_sub_cancel] at hm; rw [Nat.pow_succ]; omega

/-- the exact difference, by signedness and width, when the subtraction does not overflow -/
theorem enumDiff_signed {w : Nat} (hw : w = 8 ∨ w = 16 ∨ w = 32 ∨ w = 64) (a b : BitVec w)
    (ho : diffOverflows true w a b = false) :
    (b.toInt ≤ a.toInt ∧ ((enumDiff true w a b).toNat : Int) = a.toInt - b.toInt) ∨
    (a.toInt < b.toInt ∧ ((enumDiff true w a b).toNat : Int) = a.toInt - b.toInt + 2 ^ 64) := by
  have ha := toInt_cases a
  have hb := toInt_cases b
  have hal := a.isLt
  have hbl := b.isLt
  rcases hw with rfl | rfl | rfl | rfl
  · have h1 := signExtend_cases (v := 32) a (by decide)
    have h2 := signExtend_cases (v := 32) b (by decide)
    have h3 := signExtend_cases (v := 64) (a.signExtend 32 - b.signExtend 32) (by decide)
    have e : enumDiff true 8 a b = (a.signExtend 32 - b.signExtend 32).signExtend 64 := rfl
    rw [e]; simp only [BitVec.toNat_sub] at h3
    omega
  · have h1 := signExtend_cases (v := 32) a (by decide)
    have h2 := signExtend_cases (v := 32) b (by decide)
    have h3 := signExtend_cases (v := 64) (a.signExtend 32 - b.signExtend 32) (by decide)
    have e : enumDiff true 16 a b = (a.signExtend 32 - b.signExtend 32).signExtend 64 := rfl
    rw [e]; simp only [BitVec.toNat_sub] at h3
    omega
  · have h1 := signExtend_cases (v := 32) a (by decide)
    have h2 := signExtend_cases (v := 32) b (by decide)
    have h3 := signExtend_cases (v := 64) (a.signExtend 32 - b.signExtend 32) (by decide)
    have e : enumDiff true 32 a b = (a.signExtend 32 - b.signExtend 32).signExtend 64 := rfl
    simp only [diffOverflows, Bool.true_and, Bool.and_eq_false_iff, Bool.or_eq_false_iff, decide_eq_false_iff_not] at ho
    rw [e]; simp only [BitVec.toNat_sub] at h3
    omega
  · have h1 := signExtend_cases (v := 64) a (by decide)
    have h2 := signExtend_cases (v := 64) b (by decide)
    have h3 := signExtend_cases (v := 64) (a.signExtend 64 - b.signExtend 64) (by decide)
    have e : enumDiff true 64 a b = (a.signExtend 64 - b.signExtend 64).signExtend 64 := rfl
    simp only [diffOverflows, Bool.true_and, Bool.and_eq_false_iff, Bool.or_eq_false_iff, decide_eq_false_iff_not] at ho
    rw [e]; simp only [BitVec.toNat_sub] at h3
    omega

/-- the exact difference for unsigned underlying types: negative differences wrap to at least `2 ^ w - b` -/
theorem enumDiff_unsigned {w : Nat} (hw : w = 8 ∨ w = 16 ∨ w = 32 ∨ w = 64) (a b : BitVec w) :
    (b.toNat ≤ a.toNat ∧ (enumDiff false w a b).toNat = a.toNat - b.toNat) ∨
    (a.toNat < b.toNat ∧ 2 ^ w + a.toNat - b.toNat ≤ (enumDiff false w a b).toNat) := by
  have hal := a.isLt
  have hbl := b.isLt
  rcases hw with rfl | rfl | rfl | rfl
  · have h3 := signExtend_cases (v := 64) (a.setWidth 32 - b.setWidth 32) (by decide)
    have e : enumDiff false 8 a b = (a.setWidth 32 - b.setWidth 32).signExtend 64 := rfl
    rw [e]; simp only [BitVec.toNat_sub, BitVec.toNat_setWidth] at h3
    omega
  · have h3 := signExtend_cases (v := 64) (a.setWidth 32 - b.setWidth 32) (by decide)
    have e : enumDiff false 16 a b = (a.setWidth 32 - b.setWidth 32).signExtend 64 := rfl
    rw [e]; simp only [BitVec.toNat_sub, BitVec.toNat_setWidth] at h3
    omega
  · have e : enumDiff false 32 a b = (a.setWidth 32 - b.setWidth 32).setWidth 64 := rfl
    rw [e]; simp only [BitVec.toNat_sub, BitVec.toNat_setWidth]
    omega
  · have e : enumDiff false 64 a b = (a.setWidth 64 - b.setWidth 64).setWidth 64 := rfl
    rw [e]; simp only [BitVec.toNat_sub, BitVec.toNat_setWidth]
    omega

/-- the value written for level `l`, as a number of the underlying type -/
theorem enumStartSet_unsigned {w : Nat} (hw : w = 8 ∨ w = 16 ∨ w = 32 ∨ w = 64) (s : BitVec w) (l : U64)
    (h : s.toNat + l.toNat < 2 ^ w) : (enumStartSet w false s l).toNat = s.toNat + l.toNat := by
  have hs := s.isLt
  have e : enumStartSet w false s l = (s.setWidth 64 + l).setWidth w := rfl
  rw [e]
  rcases hw with rfl | rfl | rfl | rfl <;>
  · simp only [BitVec.toNat_setWidth, BitVec.toNat_add]
    omega

theorem enumStartSet_signed {w : Nat} (hw : w = 8 ∨ w = 16 ∨ w = 32 ∨ w = 64) (s : BitVec w) (l : U64)
    (h : s.toInt + l.toNat < 2 ^ (w - 1)) : (enumStartSet w true s l).toInt = s.toInt + l.toNat := by
  have hs := s.isLt
  have hl := l.isLt
  have hsi := toInt_cases s
  have e : enumStartSet w true s l = (s.signExtend 64 + l).setWidth w := rfl
  have ht := toInt_cases (enumStartSet w true s l)
  have h1 := signExtend_cases (v := 64) s (by omega)
  rw [e] at *
  rcases hw with rfl | rfl | rfl | rfl <;>
  · simp only [BitVec.toNat_setWidth, BitVec.toNat_add] at ht
    omega

theorem sub_add_one_toNat {w : Nat} (X s : BitVec w) (h : s.toNat ≤ X.toNat) (h2 : X.toNat - s.toNat + 1 < 2 ^ w) :
    (X - s + 1#w).toNat = X.toNat - s.toNat + 1 := by
  have hX := X.isLt
  have h1 : (1#w).toNat = 1 % 2 ^ w := BitVec.toNat_ofNat 1 w
  rw [BitVec.toNat_add, BitVec.toNat_sub, h1]
  have : 2 ^ w - s.toNat + X.toNat = 2 ^ w + (X.toNat - s.toNat) := by omega
  rw [this, Nat.add_mod_left, ← Nat.add_mod, Nat.mod_eq_of_lt h2]

theorem enumStartMax_unsigned {w : Nat} (hw : w = 8 ∨ w = 16 ∨ w = 32 ∨ w = 64) (s : BitVec w)
    (h : ¬ (w = 64 ∧ s = 0)) : enumStartMax w false s = 2 ^ w - s.toNat := by
  have hs := s.isLt
  have e : enumStartMax w false s = (BitVec.ofNat 64 (2 ^ w - 1) - s.setWidth 64 + 1#64).toNat := rfl
  have hs64 : (s.setWidth 64).toNat = s.toNat := by
    rw [BitVec.toNat_setWidth]; rcases hw with rfl | rfl | rfl | rfl <;> omega
  have hX : (BitVec.ofNat 64 (2 ^ w - 1)).toNat = 2 ^ w - 1 := by
    rw [BitVec.toNat_ofNat]; rcases hw with rfl | rfl | rfl | rfl <;> omega
  have hs0 : w = 64 → s.toNat ≠ 0 := fun hw h0 => h ⟨hw, by apply BitVec.eq_of_toNat_eq; simpa using h0⟩
  rw [e, sub_add_one_toNat _ _ (by omega), hX, hs64]
  · omega
  · rw [hX, hs64]
    rcases hw with rfl | rfl | rfl | rfl <;> omega

theorem enumStartMax_signed {w : Nat} (hw : w = 8 ∨ w = 16 ∨ w = 32 ∨ w = 64) (s : BitVec w)
    (h : 32 ≤ w → 0 ≤ s.toInt) : (enumStartMax w true s : Int) = 2 ^ (w - 1) - s.toInt := by
  have hs := s.isLt
  have hsi := toInt_cases s
  have h1 := signExtend_cases (v := 64) s (by omega)
  have e : enumStartMax w true s = (BitVec.ofNat 64 (2 ^ (w - 1) - 1) - s.signExtend 64 + 1#64).toNat := rfl
  have hX : (BitVec.ofNat 64 (2 ^ (w - 1) - 1)).toNat = 2 ^ (w - 1) - 1 := by
    rw [BitVec.toNat_ofNat]; rcases hw with rfl | rfl | rfl | rfl <;> omega
  rw [e, BitVec.toNat_add, BitVec.toNat_sub]
  generalize BitVec.ofNat 64 (2 ^ (w - 1) - 1) = X at *
  have one : (1#64).toNat = 1 := rfl
  rw [one]
  rcases hw with rfl | rfl | rfl | rfl <;> omega

theorem enumStartEndMax_unsigned {w : Nat} (hw : w = 8 ∨ w = 16 ∨ w = 32 ∨ w = 64) (s e : BitVec w)
    (h : s.toNat ≤ e.toNat) (h2 : 32 ≤ w → e.toNat - s.toNat + 1 < 2 ^ w) :
    enumStartEndMax w false s e = e.toNat - s.toNat + 1 := by
  have hs := s.isLt
  have he := e.isLt
  rcases hw with rfl | rfl | rfl | rfl
  · have h3 := signExtend_cases (v := 64) (e.setWidth 32 - s.setWidth 32 + 1#32) (by decide)
    have q : enumStartEndMax 8 false s e = ((e.setWidth 32 - s.setWidth 32 + 1#32).signExtend 64).toNat := rfl
    rw [q]
    simp only [BitVec.toNat_add, BitVec.toNat_sub, BitVec.toNat_setWidth, BitVec.ofNat_eq_ofNat, BitVec.toNat_ofNat] at h3
    omega
  · have h3 := signExtend_cases (v := 64) (e.setWidth 32 - s.setWidth 32 + 1#32) (by decide)
    have q : enumStartEndMax 16 false s e = ((e.setWidth 32 - s.setWidth 32 + 1#32).signExtend 64).toNat := rfl
    rw [q]
    simp only [BitVec.toNat_add, BitVec.toNat_sub, BitVec.toNat_setWidth, BitVec.ofNat_eq_ofNat, BitVec.toNat_ofNat] at h3
    omega
  · have q : enumStartEndMax 32 false s e = ((e.setWidth 32 - s.setWidth 32 + 1#32).setWidth 64).toNat := rfl
    rw [q]
    simp only [BitVec.toNat_add, BitVec.toNat_sub, BitVec.toNat_setWidth, BitVec.ofNat_eq_ofNat, BitVec.toNat_ofNat]
    omega
  · have q : enumStartEndMax 64 false s e = ((e.setWidth 64 - s.setWidth 64 + 1#64).setWidth 64).toNat := rfl
    rw [q]
    simp only [BitVec.toNat_add, BitVec.toNat_sub, BitVec.toNat_setWidth, BitVec.ofNat_eq_ofNat, BitVec.toNat_ofNat]
    omega

theorem enumStartEndMax_signed {w : Nat} (hw : w = 8 ∨ w = 16 ∨ w = 32 ∨ w = 64) (s e : BitVec w)
    (h : s.toInt ≤ e.toInt) (h2 : 32 ≤ w → e.toInt - s.toInt + 1 < 2 ^ (w - 1)) :
    (enumStartEndMax w true s e : Int) = e.toInt - s.toInt + 1 := by
  have hs := s.isLt
  have he := e.isLt
  have hsi := toInt_cases s
  have hei := toInt_cases e
  rcases hw with rfl | rfl | rfl | rfl
  · have h1 := signExtend_cases (v := 32) s (by decide)
    have h2 := signExtend_cases (v := 32) e (by decide)
    have h3 := signExtend_cases (v := 64) (e.signExtend 32 - s.signExtend 32 + 1#32) (by decide)
    have q : enumStartEndMax 8 true s e = ((e.signExtend 32 - s.signExtend 32 + 1#32).signExtend 64).toNat := rfl
    rw [q]
    simp only [BitVec.toNat_add, BitVec.toNat_sub, BitVec.ofNat_eq_ofNat, BitVec.toNat_ofNat] at h3
    omega
  · have h1 := signExtend_cases (v := 32) s (by decide)
    have h2 := signExtend_cases (v := 32) e (by decide)
    have h3 := signExtend_cases (v := 64) (e.signExtend 32 - s.signExtend 32 + 1#32) (by decide)
    have q : enumStartEndMax 16 true s e = ((e.signExtend 32 - s.signExtend 32 + 1#32).signExtend 64).toNat := rfl
    rw [q]
    simp only [BitVec.toNat_add, BitVec.toNat_sub, BitVec.ofNat_eq_ofNat, BitVec.toNat_ofNat] at h3
    omega
  · have h1 := signExtend_cases (v := 32) s (by decide)
    have h2 := signExtend_cases (v := 32) e (by decide)
    have h3 := signExtend_cases (v := 64) (e.signExtend 32 - s.signExtend 32 + 1#32) (by decide)
    have q : enumStartEndMax 32 true s e = ((e.signExtend 32 - s.signExtend 32 + 1#32).signExtend 64).toNat := rfl
    rw [q]
    simp only [BitVec.toNat_add, BitVec.toNat_sub, BitVec.ofNat_eq_ofNat, BitVec.toNat_ofNat] at h3
    omega
  · have h1 := signExtend_cases (v := 64) s (by decide)
    have h2 := signExtend_cases (v := 64) e (by decide)
    have h3 := signExtend_cases (v := 64) (e.signExtend 64 - s.signExtend 64 + 1#64) (by decide)
    have q : enumStartEndMax 64 true s e = ((e.signExtend 64 - s.signExtend 64 + 1#64).signExtend 64).toNat := rfl
    rw [q]
    simp only [BitVec.toNat_add, BitVec.toNat_sub, BitVec.ofNat_eq_ofNat, BitVec.toNat_ofNat] at h3
    omega

/-- no overflow when the difference is a level below `2 ^ (w - 1)` -/
theorem diffOverflows_false {w : Nat} {a b : BitVec w} (h1 : -(2 : Int) ^ (w - 1) ≤ a.toInt - b.toInt)
    (h2 : a.toInt - b.toInt < (2 : Int) ^ (w - 1)) (sg : Bool) : diffOverflows sg w a b = false := by
  simp only [diffOverflows, Bool.and_eq_false_iff, Bool.or_eq_false_iff, decide_eq_false_iff_not]
  right; omega

end Opt
