import Verif.Lemmas.Bytes
import Verif.Spec.Values
import Verif.Lemmas.EnumRound

namespace Opt

/-- The induction invariant for the universe of types: validity fixes the size, the levels are lawful. -/
structure LawOK (t : Traits) (n : Nat) (Valid : Bytes → Prop) (cap : Nat) : Prop extends
    LawfulTraits t n Valid cap where
  size_eq : ∀ bs, Valid bs → bs.length = n
  cap_le : cap ≤ t.maxLevel

theorem verifyThen_decide {α} {p : Prop} [Decidable p] (h : p) (k : Res α) :
    verifyThen (decide p) k = k := by simp [verifyThen, h]

/-- A level stored as a `w`-bit word at an offset. -/
theorem lawOK_word {t : Traits} {n w off cap : Nat} {Valid : Bytes → Prop} (hw : w % 8 = 0) (hoff : off + w / 8 ≤ n)
    (g : BitVec w → U64) (f : U64 → BitVec w)
    (hget : ∀ bs, t.getLevel bs = g (ld w bs off))
    (hset : ∀ bs l, l.toNat < cap → t.setLevel bs l = .ok (st w bs off (f l)))
    (hgf : ∀ l : U64, l.toNat < cap → g (f l) = l)
    (hmax : t.maxLevel < 2 ^ 64) (hcap : cap ≤ t.maxLevel)
    (hsize : ∀ bs, Valid bs → bs.length = n)
    (hhigh : ∀ bs, Valid bs → t.maxLevel ≤ (g (ld w bs off)).toNat) : LawOK t n Valid cap where
  max_lt := hmax
  cap_le := hcap
  size_eq := hsize
  high := fun bs _ hv => by rw [hget]; exact hhigh bs hv
  roundtrip := fun bs l hl hlt => ⟨_, hset bs l hlt, by rw [st_length _ (by omega)]; exact hl,
    by rw [hget, ld_st_same hw _ (by omega), hgf l hlt]⟩

theorem lawOK_noTraits {n : Nat} {Valid : Bytes → Prop} (h : ∀ bs, Valid bs → bs.length = n) :
    LawOK noTraits n Valid 0 where
  max_lt := by simp [noTraits]
  cap_le := Nat.zero_le _
  size_eq := h
  high := fun _ _ _ => Nat.zero_le _
  roundtrip := fun _ _ _ h => absurd h (Nat.not_lt_zero _)

theorem lawOK_bool (pw : Nat) : LawOK boolTraits 1 (Ty.bool.Valid pw) 254 := by
  apply lawOK_word (w := 8) (off := 0) (by decide) (by decide) (fun x => (x - 2).setWidth 64)
    (fun l => (l + 2).setWidth 8)
  · intro bs; rfl
  · intro bs l h; simp only [boolTraits]; rw [verifyThen_decide h]
  · intro l h
    apply BitVec.eq_of_toNat_eq
    simp only [BitVec.toNat_setWidth, BitVec.toNat_sub, BitVec.toNat_add, BitVec.toNat_ofNat, BitVec.ofNat_eq_ofNat]
    omega
  · simp [boolTraits]
  · simp [boolTraits]
  · intro bs h; simp only [Ty.Valid] at h; exact h.1
  · intro bs h; simp only [Ty.Valid] at h
    rcases h.2 with h | h <;> rw [h] <;> decide

theorem lawOK_refWrapper {pw : Nat} (hpw : pw = 32 ∨ pw = 64) :
    LawOK (refWrapperTraits pw) (pw / 8) (Ty.refWrapper.Valid pw) 256 := by
  apply lawOK_word (w := pw) (off := 0) (by omega) (by omega) (fun x => x.setWidth 64) (fun l => l.setWidth pw)
  · intro bs; rfl
  · intro bs l h; simp only [refWrapperTraits]; rw [verifyThen_decide h]
  · intro l h
    apply BitVec.eq_of_toNat_eq
    rcases hpw with rfl | rfl <;> simp only [BitVec.toNat_setWidth] <;> omega
  · simp [refWrapperTraits]
  · simp [refWrapperTraits]
  · intro bs h; simp only [Ty.Valid] at h; exact h.1
  · intro bs h; simp only [Ty.Valid, ObjectAddr] at h
    have h2 := h.2
    rcases hpw with rfl | rfl <;> simp only [BitVec.toNat_setWidth, refWrapperTraits] <;> omega

theorem lawOK_pointer64 : LawOK pointer64Traits 8 (Ty.pointer.Valid 64) 512 := by
  apply lawOK_word (w := 64) (off := 0) (by decide) (by decide) (fun x => x - 0xF8E1B1825D5D6C67#64)
    (fun l => 0xF8E1B1825D5D6C67#64 + l)
  · intro bs; rfl
  · intro bs l h; simp only [pointer64Traits]; rw [verifyThen_decide h]
  · intro l h
    apply BitVec.eq_of_toNat_eq
    simp only [BitVec.toNat_sub, BitVec.toNat_add, BitVec.toNat_ofNat, BitVec.ofNat_eq_ofNat]
    omega
  · simp [pointer64Traits]
  · simp [pointer64Traits]
  · intro bs h; simp only [Ty.Valid] at h; exact h.1
  · intro bs h; simp only [Ty.Valid, PointerValue, if_true, Canonical] at h
    have h2 := h.2
    simp only [BitVec.toNat_sub, BitVec.toNat_ofNat, pointer64Traits]
    omega

theorem lawOK_pointer32 : LawOK pointer32Traits 4 (Ty.pointer.Valid 32) 32 := by
  apply lawOK_word (w := 32) (off := 0) (by decide) (by decide) (fun x => (x - (0xFFFFFFFF#32 - 63)).setWidth 64)
    (fun l => ((0xFFFFFFFF#32 - 63).setWidth 64 + l).setWidth 32)
  · intro bs; rfl
  · intro bs l h; simp only [pointer32Traits]; rw [verifyThen_decide h]
  · intro l h
    apply BitVec.eq_of_toNat_eq
    simp only [BitVec.toNat_setWidth, BitVec.toNat_sub, BitVec.toNat_add, BitVec.toNat_ofNat, BitVec.ofNat_eq_ofNat]
    omega
  · simp [pointer32Traits]
  · simp [pointer32Traits]
  · intro bs h; simp only [Ty.Valid] at h; exact h.1
  · intro bs h
    simp only [Ty.Valid, PointerValue, if_true, Mapped] at h
    have h2 := h.2
    simp only [BitVec.toNat_setWidth, BitVec.toNat_sub, BitVec.toNat_ofNat, BitVec.ofNat_eq_ofNat, pointer32Traits]
    rcases h2 with h2 | h2
    · omega
    · rw [h2]; decide

theorem lawOK_float64 (pw : Nat) (s : Bool) (al : Nat) :
    LawOK (if s then float64SNaNTraits else float64QNaNTraits) 8 ((Ty.float64 s al).Valid pw) 256 := by
  cases s
  all_goals
    first
      | apply lawOK_word (w := 64) (off := 0) (by decide) (by decide)
          (fun x => x - 0b1111111111111011111100100110010000110000101110110011010101010111#64)
          (fun l => 0b1111111111111011111100100110010000110000101110110011010101010111#64 + l) (fun bs => rfl)
      | apply lawOK_word (w := 64) (off := 0) (by decide) (by decide)
          (fun x => x - 0b1111111111110110110001111001111101010101101100001000100110001111#64)
          (fun l => 0b1111111111110110110001111001111101010101101100001000100110001111#64 + l) (fun bs => rfl)
    · intro bs l h
      simp only [float64QNaNTraits, float64SNaNTraits, if_true, if_false, Bool.false_eq_true]
      rw [verifyThen_decide h]
    · intro l h
      apply BitVec.eq_of_toNat_eq
      simp only [BitVec.toNat_sub, BitVec.toNat_add, BitVec.toNat_ofNat, BitVec.ofNat_eq_ofNat]
      omega
    · simp [float64QNaNTraits, float64SNaNTraits]
    · simp [float64QNaNTraits, float64SNaNTraits]
    · intro bs h; simp only [Ty.Valid] at h; exact h.1
    · intro bs h
      simp only [Ty.Valid, ReservedNaN64, if_true, if_false, Bool.false_eq_true] at h
      have h2 := h.2
      simp only [BitVec.toNat_sub, BitVec.toNat_ofNat, float64QNaNTraits, float64SNaNTraits, if_true, if_false,
        Bool.false_eq_true]
      omega

theorem lawOK_float32 (pw : Nat) (s : Bool) :
    LawOK (if s then float32SNaNTraits else float32QNaNTraits) 4 ((Ty.float32 s).Valid pw) 256 := by
  cases s
  all_goals
    first
      | apply lawOK_word (w := 32) (off := 0) (by decide) (by decide)
          (fun x => (x - 0b11111111110000111110111110110101#32).setWidth 64)
          (fun l => (0b11111111110000111110111110110101#64 + l).setWidth 32) (fun bs => rfl)
      | apply lawOK_word (w := 32) (off := 0) (by decide) (by decide)
          (fun x => (x - 0b11111111101111110110100110101111#32).setWidth 64)
          (fun l => (0b11111111101111110110100110101111#64 + l).setWidth 32) (fun bs => rfl)
    · intro bs l h
      simp only [float32QNaNTraits, float32SNaNTraits, if_true, if_false, Bool.false_eq_true]
      rw [verifyThen_decide h]
    · intro l h
      apply BitVec.eq_of_toNat_eq
      simp only [BitVec.toNat_setWidth, BitVec.toNat_sub, BitVec.toNat_add, BitVec.toNat_ofNat, BitVec.ofNat_eq_ofNat]
      omega
    · simp [float32QNaNTraits, float32SNaNTraits]
    · simp [float32QNaNTraits, float32SNaNTraits]
    · intro bs h; simp only [Ty.Valid] at h; exact h.1
    · intro bs h
      simp only [Ty.Valid, ReservedNaN32, if_true, if_false, Bool.false_eq_true] at h
      have h2 := h.2
      simp only [BitVec.toNat_setWidth, BitVec.toNat_sub, BitVec.toNat_ofNat, float32QNaNTraits, float32SNaNTraits,
        if_true, if_false, Bool.false_eq_true]
      omega

theorem topMinus_toNat {pw k : Nat} (hpw : pw = 32 ∨ pw = 64) (hk2 : k < 130000) :
    (topMinus pw k).toNat = 2 ^ pw - 1 - k := by
  have h : k % 2 ^ pw = k := Nat.mod_eq_of_lt (by rcases hpw with rfl | rfl <;> omega)
  rw [topMinus, BitVec.toNat_sub, BitVec.toNat_ofNat, h, BitVec.toNat_allOnes]
  rcases hpw with rfl | rfl <;> omega

/-- Sentinels counted from `-1 - k` in the address space, for the pointer-like library types. -/
theorem ptr_roundtrip {pw k : Nat} (hpw : pw = 32 ∨ pw = 64) (hk : 255 ≤ k) (hk2 : k < 130000) (l : U64)
    (hl : l.toNat < 255) : (ptrSet pw (topMinus pw k) l - topMinus pw k).setWidth 64 = l := by
  apply BitVec.eq_of_toNat_eq
  have h := topMinus_toNat hpw hk2
  generalize topMinus pw k = t at *
  rcases hpw with rfl | rfl <;>
  · simp only [ptrSet, BitVec.toNat_setWidth, BitVec.toNat_sub, BitVec.toNat_add]
    omega

theorem ptr_high {pw k : Nat} (hpw : pw = 32 ∨ pw = 64) (hk : 255 ≤ k) (hk2 : k < 130000) (a : BitVec pw)
    (ha : Mapped pw a) : 255 ≤ ((a - topMinus pw k).setWidth 64).toNat := by
  simp only [Mapped] at ha
  have h := topMinus_toNat hpw hk2
  generalize topMinus pw k = t at *
  rcases hpw with rfl | rfl <;>
  · simp only [BitVec.toNat_setWidth, BitVec.toNat_sub]
    omega

theorem lawOK_ptr {pw k n off : Nat} {t : Traits} {Valid : Bytes → Prop} (hpw : pw = 32 ∨ pw = 64)
    (hk : 255 ≤ k) (hk2 : k < 130000) (hn : off + pw / 8 ≤ n) (hmax : t.maxLevel = 255)
    (hget : ∀ bs, t.getLevel bs = ptrGet pw (topMinus pw k) off bs)
    (hset : ∀ bs l, t.setLevel bs l =
      verifyThen (decide (l.toNat < 255)) (.ok (st pw bs off (ptrSet pw (topMinus pw k) l))))
    (hv : ∀ bs, Valid bs → bs.length = n ∧ Mapped pw (ld pw bs off)) : LawOK t n Valid 255 := by
  apply lawOK_word (w := pw) (off := off) (by omega) hn (fun x => (x - topMinus pw k).setWidth 64)
    (fun l => ptrSet pw (topMinus pw k) l)
  · intro bs; rw [hget]; rfl
  · intro bs l h; rw [hset]; rw [verifyThen_decide h]
  · intro l h; exact ptr_roundtrip hpw hk hk2 l h
  · rw [hmax]; decide
  · rw [hmax]; exact Nat.le_refl _
  · intro bs h; exact (hv bs h).1
  · intro bs h; rw [hmax]; exact ptr_high hpw hk hk2 _ (hv bs h).2

theorem lawOK_stringView {pw : Nat} (hpw : pw = 32 ∨ pw = 64) (lf : Bool) :
    LawOK (stringViewTraits pw lf) (2 * (pw / 8)) ((Ty.stringView lf).Valid pw) 255 where
  max_lt := by simp [stringViewTraits]
  cap_le := by simp [stringViewTraits]
  size_eq := fun bs h => by simp only [Ty.Valid] at h; exact h.1
  high := fun bs _ h => by
    simp only [Ty.Valid] at h
    exact ptr_high hpw (by decide) (by decide) _ h.2
  roundtrip := fun bs l hn hl => by
    refine ⟨_, by simp only [stringViewTraits]; rw [verifyThen_decide hl], ?_, ?_⟩
    · have h1 : (if lf = true then pw / 8 else 0) + pw / 8 ≤ bs.length := by cases lf <;> simp <;> omega
      rw [st_length, st_length _ h1, hn]
      rw [st_length _ h1]
      cases lf <;> simp <;> omega
    · show (ld pw _ _ - _).setWidth 64 = l
      rw [ld_st_disj, ld_st_same (by omega)]
      · exact ptr_roundtrip hpw (by decide) (by decide) l hl
      · cases lf <;> simp <;> omega
      · rw [st_length] <;> cases lf <;> simp <;> omega
      · cases lf <;> simp

theorem lawOK_memberPtr32 (pw al : Nat) :
    LawOK memberPointer32Traits 4 ((Ty.memberPtr 4 al).Valid pw) 255 := by
  apply lawOK_word (w := 32) (off := 0) (by decide) (by decide) (fun x => (x - 0xFFFFFC17#32).setWidth 64)
    (fun l => (0xFFFFFC17#64 + l).setWidth 32) (fun bs => rfl)
  · intro bs l h; simp only [memberPointer32Traits]; rw [verifyThen_decide h, BitVec.add_comm]
  · intro l h
    apply BitVec.eq_of_toNat_eq
    simp only [BitVec.toNat_setWidth, BitVec.toNat_sub, BitVec.toNat_add, BitVec.toNat_ofNat]
    omega
  · simp [memberPointer32Traits]
  · simp [memberPointer32Traits]
  · intro bs h; simp only [Ty.Valid] at h; exact h.1
  · intro bs h; simp only [Ty.Valid, MemberPtrValue, if_true, Mapped] at h
    simp only [BitVec.toNat_setWidth, BitVec.toNat_sub, BitVec.toNat_ofNat, memberPointer32Traits]
    rcases h.2 with h2 | h2
    · omega
    · rw [h2, BitVec.toNat_allOnes]; omega

theorem lawOK_memberPtr64 (pw al : Nat) {n : Nat} (hn : 8 ≤ n) :
    LawOK memberPointer64Traits n ((Ty.memberPtr n al).Valid pw) 255 := by
  apply lawOK_word (w := 64) (off := 0) (by decide) (by omega) (fun x => x - 0xFFFFFFFFD3B2F9B2#64)
    (fun l => 0xFFFFFFFFD3B2F9B2#64 + l) (fun bs => rfl)
  · intro bs l h; simp only [memberPointer64Traits]; rw [verifyThen_decide h, BitVec.add_comm]
  · intro l h
    apply BitVec.eq_of_toNat_eq
    simp only [BitVec.toNat_sub, BitVec.toNat_add, BitVec.toNat_ofNat]
    omega
  · simp [memberPointer64Traits]
  · simp [memberPointer64Traits]
  · intro bs h; simp only [Ty.Valid] at h; exact h.1
  · intro bs h; simp only [Ty.Valid, MemberPtrValue] at h
    rw [if_neg (by omega), if_pos hn] at h
    simp only [BitVec.toNat_sub, BitVec.toNat_ofNat, memberPointer64Traits]
    rcases h.2 with h2 | h2
    · omega
    · rw [h2, BitVec.toNat_allOnes]; omega

theorem lawOK_memberPtr (pw n al : Nat) :
    LawOK ((Ty.memberPtr n al).traits pw) n
      ((Ty.memberPtr n al).Valid pw) ((Ty.memberPtr n al).traits pw).maxLevel := by
  simp only [Ty.traits, Ty.sizeTraits]
  by_cases h4 : n = 4
  · subst h4
    exact lawOK_memberPtr32 pw al
  · rw [if_neg h4]
    by_cases h8 : n ≥ 8
    · rw [if_pos h8]
      exact lawOK_memberPtr64 pw al h8
    · rw [if_neg h8]
      exact lawOK_noTraits (fun bs h => by simp only [Ty.Valid] at h; exact h.1)

theorem paddingMax_narrow {w : Nat} (h : w < 32) : paddingMax w = 2 ^ 64 - 1 := by
  simp only [paddingMax, if_pos h]; decide

theorem lawOK_padding {pw n al off w : Nat} (hw : w = 8 ∨ w = 16 ∨ w = 32 ∨ w = 64) (hoff : off + w / 8 ≤ n) :
    LawOK (paddingTraits w off) n ((Ty.padding n al off w).Valid pw) (2 ^ w - 1) := by
  have hmax : 2 ^ w - 1 ≤ paddingMax w ∧ paddingMax w < 2 ^ 64 := by
    rcases hw with rfl | rfl | rfl | rfl <;> decide
  apply lawOK_word (w := w) (off := off) (by omega) hoff (fun x => x.setWidth 64 - 1)
    (fun l => (l + 1).setWidth w) (fun bs => rfl)
  · intro bs l h; simp only [paddingTraits]; rw [verifyThen_decide (by omega)]
  · intro l h
    apply BitVec.eq_of_toNat_eq
    rcases hw with rfl | rfl | rfl | rfl <;>
    · simp only [BitVec.toNat_setWidth, BitVec.toNat_sub, BitVec.toNat_add, BitVec.toNat_ofNat, BitVec.ofNat_eq_ofNat]
      omega
  · exact hmax.2
  · exact hmax.1
  · intro bs h; simp only [Ty.Valid] at h; exact h.1
  · intro bs h; simp only [Ty.Valid] at h
    rw [h.2]
    have : ((BitVec.setWidth 64 (0 : BitVec w)) - 1).toNat = 2 ^ 64 - 1 := by
      simp [BitVec.toNat_sub]
    rw [this]
    have := hmax.2
    simp only [paddingTraits]; omega

/-! ## Enums -/

theorem enumProbe_pow {w : Nat} : ∃ j, enumProbe w = 2 ^ j ∧ 1 ≤ j ∧ j ≤ 16 := by
  unfold enumProbe
  split
  · exact ⟨8, by decide, by decide, by decide⟩
  · exact ⟨10, by decide, by decide, by decide⟩

/-- Values built from enumerators by OR stay below the power of two, or reach the probe limit. -/
theorem orOf_bound {decl : List Nat} {k probe : Nat}
    (h : ∀ v ∈ decl, v < probe → v < 2 ^ k) {x : Nat} (hx : OrOf decl x) : x < 2 ^ k ∨ probe ≤ x := by
  induction hx with
  | zero => exact .inl (Nat.two_pow_pos k)
  | enumerator hv =>
    rename_i v
    rcases Nat.lt_or_ge v probe with h1 | h1
    · exact .inl (h v hv h1)
    · exact .inr h1
  | or _ _ iha ihb =>
    rcases iha with iha | iha
    · rcases ihb with ihb | ihb
      · exact .inl (Nat.or_lt_two_pow iha ihb)
      · exact .inr (Nat.le_trans ihb Nat.right_le_or)
    · exact .inr (Nat.le_trans iha Nat.left_le_or)

theorem enumMaxLevel_toNat {w : Nat} {m : U64} (h0 : m ≠ 0) (hm : m.toNat ≤ enumProbe w) :
    enumMaxLevel w m = enumProbe w - m.toNat := by
  have hp : enumProbe w ≤ 1024 := by unfold enumProbe; split <;> decide
  simp only [enumMaxLevel, if_neg h0, BitVec.toNat_sub, BitVec.toNat_ofNat]
  omega

theorem lawOK_enumReflect {pw w : Nat} {decl : List Nat} (hw : w = 8 ∨ w = 16 ∨ w = 32 ∨ w = 64) :
    LawOK ((Ty.enumReflect w decl).traits pw) (w / 8) ((Ty.enumReflect w decl).Valid pw)
      ((Ty.enumReflect w decl).traits pw).maxLevel := by
  have hs : ∀ bs, (Ty.enumReflect w decl).Valid pw bs → bs.length = w / 8 := by
    intro bs h; simp only [Ty.Valid] at h; exact h.1
  simp only [Ty.traits, Ty.sizeTraits]
  generalize hm : Enum.maxEnumValue (fun v => decl.contains v) (enumProbe w) = m
  by_cases h0 : m = 0
  · have h1 : (enumReflectTraits w m).maxLevel = 0 := by simp [enumReflectTraits, enumMaxLevel, h0]
    rw [h1]
    exact
      { max_lt := by rw [h1]; decide
        cap_le := Nat.zero_le _
        size_eq := hs
        high := fun bs _ _ => by rw [h1]; exact Nat.zero_le _
        roundtrip := fun bs l _ h => absurd h (Nat.not_lt_zero _) }
  · obtain ⟨k, hi, hk, hkp, _, hhi, _, hall, _⟩ := Enum.maxEnumValue_spec (d := fun v => decl.contains v)
      (max := enumProbe w) enumProbe_pow (by rw [hm]; exact h0)
    rw [hm] at hk
    have hp : enumProbe w ≤ 1024 ∧ enumProbe w ≤ 2 ^ w := by
      unfold enumProbe; rcases hw with rfl | rfl | rfl | rfl <;> decide
    have hmax : (enumReflectTraits w m).maxLevel = enumProbe w - 2 ^ k := by
      rw [← hk]; exact enumMaxLevel_toNat h0 (by rw [hk]; exact hkp)
    have hpos := Nat.two_pow_pos k
    rw [hmax]
    apply lawOK_word (w := w) (off := 0) (by omega) (by omega) (fun x => x.setWidth 64 - m)
      (fun l => (l + m).setWidth w) (fun bs => rfl)
    · intro bs l h
      simp only [enumReflectTraits]
      rw [verifyThen_decide]
      rw [show enumMaxLevel w m = _ from hmax]; exact h
    · intro l h
      apply BitVec.eq_of_toNat_eq
      rcases hw with rfl | rfl | rfl | rfl <;>
      · simp only [BitVec.toNat_setWidth, BitVec.toNat_sub, BitVec.toNat_add, hk]
        omega
    · rw [hmax]; omega
    · rw [hmax]; exact Nat.le_refl _
    · exact hs
    · intro bs h
      simp only [Ty.Valid] at h
      have hb := orOf_bound (k := k) (probe := enumProbe w) (fun v hv hlt => by
        have := hall v hlt (by simpa using hv)
        omega) h.2
      have hx := (ld w bs 0).isLt
      rw [hmax]
      simp only [BitVec.toNat_setWidth, BitVec.toNat_sub, hk]
      have hw64 : (ld w bs 0).toNat < 2 ^ 64 :=
        Nat.lt_of_lt_of_le hx (Nat.pow_le_pow_right (by decide) (by omega))
      rw [Nat.mod_eq_of_lt hw64]
      rcases hb with hb | hb
      · have : 2 ^ 64 - 2 ^ k + (ld w bs 0).toNat < 2 ^ 64 := by omega
        rw [Nat.mod_eq_of_lt this]; omega
      · omega

theorem scan_only_zero (n : Nat) : Enum.scan (fun v => v == 0) (n + 1) = 1 := by
  induction n with
  | zero => rfl
  | succ n ih => rw [Enum.scan]; simpa using ih

theorem maxEnumValue_bool : Enum.maxEnumValue (fun v => v == 0) 256 = 1 := by
  simp only [Enum.maxEnumValue]
  rw [show 256 - 1 = 254 + 1 from rfl, scan_only_zero]
  rfl

theorem lawOK_enumBool (pw : Nat) : LawOK (Ty.enumBool.traits pw) 1 (Ty.enumBool.Valid pw) 1 := by
  have hmax : ((Ty.enumBool).traits pw).maxLevel = 255 := by
    simp only [Ty.traits, Ty.sizeTraits, maxEnumValue_bool]; decide
  apply lawOK_word (w := 8) (off := 0) (by decide) (by decide) (fun x => (if x = 0 then 0 else 1) - 1)
    (fun l => if l + 1 = 0 then 0 else 1)
  · intro bs
    simp only [Ty.traits, Ty.sizeTraits, maxEnumValue_bool]; rfl
  · intro bs l h
    simp only [Ty.traits, Ty.sizeTraits, maxEnumValue_bool, enumBoolTraits]
    rw [verifyThen_decide]
    show l.toNat < 255
    omega
  · intro l h
    have : l = 0 := by apply BitVec.eq_of_toNat_eq; simp; omega
    subst this; decide
  · rw [hmax]; decide
  · rw [hmax]; decide
  · intro bs h; simp only [Ty.Valid] at h; exact h.1
  · intro bs h; simp only [Ty.Valid] at h
    rw [hmax, h.2]; decide

end Opt
