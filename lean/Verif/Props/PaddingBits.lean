import Verif.Lemmas.TraitsTy
import Verif.Spec.Layout
import Verif.Model.PaddingBits

/-!
# C13 `PADDING` as a bit-field or a `bool`
-/

namespace Opt

/-- what is stored in a bit-field is read back -/
theorem bfGet_bfSet {u b k : Nat} (h : b + k ≤ u) (x : BitVec u) (v : BitVec k) : bfGet b k (bfSet b x v) = v := by
  apply BitVec.eq_of_getLsbD_eq
  intro i hi
  have h1 : b + i < u := by omega
  have h2 : ¬ b + i < b := by omega
  simp [bfGet, bfSet, bfMask, hi, h1]
  simp [h2]

/-- assignment to a bit-field changes no other bit -/
theorem bfSet_outside {u b k : Nat} (x : BitVec u) (v : BitVec k) (i : Nat) (hi : i < b ∨ b + k ≤ i) :
    (bfSet b x v).getLsbD i = x.getLsbD i := by
  by_cases hu : i < u
  · rcases hi with hi | hi
    · simp [bfSet, bfMask, hu, hi]
    · have h1 : ¬ i < b := by omega
      have h2 : ¬ i - b < k := by omega
      have h3 : v.getLsbD (i - b) = false := BitVec.getLsbD_of_ge _ _ (by omega)
      simp [bfSet, bfMask, hu, h2, h3]
  · rw [BitVec.getLsbD_of_ge _ _ (by omega), BitVec.getLsbD_of_ge _ _ (by omega)]

/-- C13 (partial) for a bit-field `PADDING : k`: exactly as for a whole member, the first `2 ^ k - 1` levels round-trip, no
other bit of the unit and no other byte changes, and a zero `PADDING` is a present value. -/
theorem C13_bit_field_partial {w u off b k : Nat} (hu : u = 8 ∨ u = 16 ∨ u = 32 ∨ u = 64) (hw : w = 8 ∨ w = 16 ∨ w = 32 ∨ w = 64)
    (hk : 1 ≤ k) (hkw : k ≤ w) (hbk : b + k ≤ u) (bs : Bytes) (hoff : off + u / 8 ≤ bs.length) :
    (∀ l : U64, l.toNat < 2 ^ k - 1 → ∃ bs', (paddingBitsTraits w u off b k).setLevel bs l = .ok bs' ∧
      (paddingBitsTraits w u off b k).getLevel bs' = l ∧ SameOutside off (u / 8) bs bs' ∧
      ∀ i, i < b ∨ b + k ≤ i → (ld u bs' off).getLsbD i = (ld u bs off).getLsbD i) ∧
    (bfGet b k (ld u bs off) = 0 → (paddingBitsTraits w u off b k).getLevel bs ≠ 0 ∧
      (paddingBitsTraits w u off b k).maxLevel ≤ ((paddingBitsTraits w u off b k).getLevel bs).toNat) := by
  have hu8 : u % 8 = 0 := by omega
  have hk64 : k ≤ 64 := by omega
  have hp : 2 ^ k ≤ 2 ^ 64 := Nat.pow_le_pow_right (by decide) hk64
  have hpw : 2 ^ k ≤ 2 ^ w := Nat.pow_le_pow_right (by decide) hkw
  have hmax : 2 ^ w - 1 ≤ paddingMax w ∧ paddingMax w ≤ 2 ^ 64 - 1 := by rcases hw with rfl | rfl | rfl | rfl <;> decide
  have h1 : BitVec.toNat (1 : U64) = 1 := rfl
  refine ⟨?_, ?_⟩
  · intro l hl
    refine ⟨st u bs off (bfSet b (ld u bs off) (((l + 1).setWidth w).setWidth k)), ?_, ?_, ⟨st_length _ hoff, ?_⟩, ?_⟩
    · show verifyThen (decide (l.toNat < paddingMax w)) _ = _
      rw [verifyThen_decide (by omega)]
    · show (bfGet b k (ld u (st u bs off _) off)).setWidth 64 - 1 = l
      rw [ld_st_same hu8 _ hoff, bfGet_bfSet hbk, BitVec.setWidth_setWidth_of_le _ hkw]
      have hl1 : (l + 1).toNat = l.toNat + 1 := by rw [BitVec.toNat_add, h1]; omega
      have e : ((l + 1).setWidth k).setWidth 64 = l + 1 := by
        apply BitVec.eq_of_toNat_eq
        rw [BitVec.toNat_setWidth, BitVec.toNat_setWidth, hl1, Nat.mod_eq_of_lt (by omega), Nat.mod_eq_of_lt (by omega)]
      rw [e, BitVec.add_sub_cancel]
    · intro i hi
      rw [st, wr_getElem? (by rw [leBytes_length]; omega), leBytes_length]
      rcases hi with hi | hi
      · rw [if_pos hi]
      · rw [if_neg (by omega), if_neg (by omega)]
    · intro i hi
      rw [ld_st_same hu8 _ hoff, bfSet_outside _ _ _ hi]
  · intro h0
    have e : (paddingBitsTraits w u off b k).getLevel bs = BitVec.allOnes 64 := by
      show (bfGet b k (ld u bs off)).setWidth 64 - 1 = _
      rw [h0]
      have : (0 : BitVec k).setWidth 64 = 0#64 := by simp
      rw [this]
      decide
    rw [e]
    exact ⟨by decide, by show paddingMax w ≤ 2 ^ 64 - 1; omega⟩

/-- `unsigned PADDING : 5` at bit 3 of a word at offset 4: level 30, the last one -/
example : (paddingBitsTraits 32 32 4 3 5).setLevel [1, 2, 3, 4, 0xFF, 6, 7, 8] 30 = .ok [1, 2, 3, 4, 0xFF, 6, 7, 8] ∧
    (paddingBitsTraits 32 32 4 3 5).getLevel [1, 2, 3, 4, 0xFF, 6, 7, 8] = 30 := by decide

/-- C13 violated for every bit-field that is narrower than its declared type: `max_level` counts the levels of the declared
type, so level `2 ^ k - 1` is accepted and is stored as `PADDING` 0, a present value. -/
theorem C13_violated_bit_field {w u off b k : Nat} (hu : u = 8 ∨ u = 16 ∨ u = 32 ∨ u = 64)
    (hw : w = 8 ∨ w = 16 ∨ w = 32 ∨ w = 64) (hkw : k < w) (hbk : b + k ≤ u) (bs : Bytes)
    (hoff : off + u / 8 ≤ bs.length) :
    2 ^ k - 1 < (paddingBitsTraits w u off b k).maxLevel ∧
    ∃ bs', (paddingBitsTraits w u off b k).setLevel bs (BitVec.ofNat 64 (2 ^ k - 1)) = .ok bs' ∧
      bfGet b k (ld u bs' off) = 0 ∧ (paddingBitsTraits w u off b k).getLevel bs' = BitVec.allOnes 64 := by
  have hu8 : u % 8 = 0 := by omega
  have h0k : 0 < 2 ^ k := Nat.two_pow_pos k
  have hp : 2 ^ k < 2 ^ w := Nat.pow_lt_pow_right (by decide) hkw
  have hp64 : 2 ^ w ≤ 2 ^ 64 := Nat.pow_le_pow_right (by decide) (by omega)
  have hmax : 2 ^ w - 1 ≤ paddingMax w := by rcases hw with rfl | rfl | rfl | rfl <;> decide
  have hlt : 2 ^ k - 1 < paddingMax w := by omega
  have hz : (((BitVec.ofNat 64 (2 ^ k - 1) + 1).setWidth w).setWidth k) = 0 := by
    apply BitVec.eq_of_toNat_eq
    rw [BitVec.toNat_setWidth, BitVec.toNat_setWidth, BitVec.toNat_add, BitVec.toNat_ofNat,
      show BitVec.toNat (1 : U64) = 1 from rfl, Nat.mod_eq_of_lt (a := 2 ^ k - 1) (by omega), Nat.sub_add_cancel h0k,
      Nat.mod_eq_of_lt (a := 2 ^ k) (b := 2 ^ 64) (by omega), Nat.mod_eq_of_lt (a := 2 ^ k) (b := 2 ^ w) (by omega), Nat.mod_self]
    simp
  have hv : bfGet b k (ld u (st u bs off (bfSet b (ld u bs off) (0 : BitVec k))) off) = 0 := by
    rw [ld_st_same hu8 _ hoff, bfGet_bfSet hbk]
  refine ⟨hlt, st u bs off (bfSet b (ld u bs off) (0 : BitVec k)), ?_, hv, ?_⟩
  · show verifyThen (decide ((BitVec.ofNat 64 (2 ^ k - 1)).toNat < paddingMax w)) (.ok (st u bs off (bfSet b (ld u bs off)
      (((BitVec.ofNat 64 (2 ^ k - 1) + 1).setWidth w).setWidth k)))) = _
    rw [hz, verifyThen_decide (by rw [BitVec.toNat_ofNat, Nat.mod_eq_of_lt (by omega)]; exact hlt)]
  · show (bfGet b k (ld u _ off)).setWidth 64 - 1 = _
    rw [hv]
    have : (0 : BitVec k).setWidth 64 = 0#64 := by simp
    rw [this]
    decide

/-- `unsigned PADDING : 1`: one level works, level 1 makes a present value -/
example : 1 < (paddingBitsTraits 32 32 0 31 1).maxLevel ∧
    (paddingBitsTraits 32 32 0 31 1).setLevel [1, 2, 3, 0x84] 1 = .ok [1, 2, 3, 4] ∧
    (paddingBitsTraits 32 32 0 31 1).getLevel [1, 2, 3, 4] = BitVec.allOnes 64 := by decide

/-- C13 for `bool PADDING`: it is accepted as an unsigned member and advertises `2 ^ 64 - 1` levels.  Level 0 works; every
other level is stored as level 0. -/
theorem C13_violated_bool {off : Nat} (bs : Bytes) (hoff : off < bs.length) (l : U64)
    (hl : l.toNat < (paddingBoolTraits off).maxLevel) :
    (paddingBoolTraits off).maxLevel = 2 ^ 64 - 1 ∧
    ∃ bs', (paddingBoolTraits off).setLevel bs l = .ok bs' ∧ (paddingBoolTraits off).getLevel bs' = 0 := by
  refine ⟨rfl, st 8 bs off 1, ?_, ?_⟩
  · show verifyThen (decide (l.toNat < (paddingBoolTraits off).maxLevel)) (.ok (st 8 bs off (if l + 1 = 0 then 0 else 1))) = _
    rw [verifyThen_decide hl, if_neg]
    intro h
    have hm : (paddingBoolTraits off).maxLevel = 2 ^ 64 - 1 := rfl
    have := congrArg BitVec.toNat h
    rw [BitVec.toNat_add, show BitVec.toNat (1 : U64) = 1 from rfl, show BitVec.toNat (0 : U64) = 0 from rfl] at this
    omega
  · show (ld 8 (st 8 bs off 1) off).setWidth 64 - 1 = 0
    rw [ld_st_same (by decide) _ (by omega)]
    decide

/-- level 7 of a `bool PADDING` is level 0 -/
example : ∃ bs', (paddingBoolTraits 1).setLevel [9, 0, 9] 7 = .ok bs' ∧ (paddingBoolTraits 1).getLevel bs' = 0 :=
  (C13_violated_bool [9, 0, 9] (by decide) 7 (by decide)).2

end Opt
