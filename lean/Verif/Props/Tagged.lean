import Verif.Spec.Tagged
import Verif.Props.Patterns

/-!
# C93: pointers with tags
-/

namespace Opt.Tagged

theorem bit (x : BitVec 64) (i : Nat) : x.getLsbD i = decide (x.toNat / 2 ^ i % 2 = 1) := by
  rw [← BitVec.testBit_toNat, Nat.testBit_eq_decide_div_mod_eq]

/-- user pointers are not in the range of 8-byte pointers' levels, nor at the end of the address space -/
theorem not_high {M : Masking} (hM : Checked M) {p : BitVec 64} (hp : UserPointer M p) :
    ¬ (0xF8E1B1825D5D6C67 ≤ p.toNat ∧ p.toNat < 0xF8E1B1825D5D6E67) ∧ p.toNat < 0xFFFFFFFFFFFE0000 := by
  obtain ⟨i, hi, h1, h2⟩ := hM
  have hb := hp.1 i h1 (by omega) h2
  rw [bit] at hb
  have hl := p.isLt
  rcases hi with rfl | rfl | rfl <;> simp only [Nat.reducePow, decide_eq_false_iff_not] at hb <;> omega

theorem not_low {M : Masking} {p : BitVec 64} (hp : UserPointer M p) : 4096 ≤ p.toNat := by
  obtain ⟨i, hi, hb⟩ := hp.2
  have : 2 ^ i ≤ p.toNat := by
    rw [← BitVec.testBit_toNat] at hb
    exact Nat.ge_two_pow_of_testBit hb
  exact Nat.le_trans (Nat.pow_le_pow_right (by decide) hi : 2 ^ 12 ≤ 2 ^ i) this

theorem top_toNat {k : Nat} (hk : k < 2 ^ 64) : (topMinus 64 k).toNat = 2 ^ 64 - 1 - k := by
  have h1 : (BitVec.allOnes 64).toNat = 2 ^ 64 - 1 := BitVec.toNat_allOnes
  have h2 : (BitVec.ofNat 64 k).toNat = k := by rw [BitVec.toNat_ofNat]; exact Nat.mod_eq_of_lt hk
  rw [topMinus, BitVec.toNat_sub, h1, h2]
  omega

theorem high_level {off : Nat} {bs : Bytes} {k : Nat} (h1 : 255 ≤ k) (h2 : k < 2 ^ 17) (hx : (ld 64 bs off).toNat < 0xFFFFFFFFFFFE0000) :
    255 ≤ (ptrGet 64 (topMinus 64 k) off bs).toNat := by
  refine Nat.not_lt.1 fun h => ?_
  have ht := top_toNat (k := k) (by omega)
  rw [ptrGet, BitVec.setWidth_eq] at h
  have := sub_lt_range (by rw [ht]; omega) h
  rw [ht] at this
  omega

/-- **C93**: where one of the bits 47, 55 and 63 is zero in every pointer, no option of a pointer, reference, `unique_ptr`, vector, view or object with virtual
functions takes a pointer with a tag for an empty state, at any depth of options.  Missing: processors that ignore all these bits or give them
to the user. -/
theorem C93_tagged_partial {M : Masking} (hM : Checked M) {T : Ty} {off : Nat} (hT : place T = some off) (bs : Bytes) (hp : UserPointer M (ld 64 bs off)) :
    (T.traits 64).maxLevel ≤ ((T.traits 64).getLevel bs).toNat := by
  have hh := not_high hM hp
  have hl := not_low hp
  cases T <;> simp only [place, Option.some.injEq, reduceCtorEq] at hT <;> subst hT
  case pointer =>
    refine Nat.not_lt.1 fun h => hh.1 ?_
    exact sub_lt_range (x := ld 64 bs 0) (c := 0xF8E1B1825D5D6C67#64) (k := 512) (by decide) h
  case refWrapper =>
    show 256 ≤ ((ld 64 bs 0).setWidth 64).toNat
    rw [BitVec.setWidth_eq]
    omega
  case optionRef =>
    show 256 ≤ ((ld 64 bs 0).setWidth 64 - 1).toNat
    rw [BitVec.setWidth_eq]
    refine Nat.not_lt.1 fun h => ?_
    have := sub_lt_range (x := ld 64 bs 0) (c := 1#64) (k := 256) (by decide) h
    simp only [BitVec.toNat_ofNat, Nat.reducePow, Nat.reduceMod] at this
    omega
  case uniquePtr => exact high_level (k := 46508) (by decide) (by decide) hh.2
  case vector => exact high_level (k := 76326) (by decide) (by decide) hh.2
  case polymorphic => exact high_level (k := 89151) (by decide) (by decide) hh.2
  case stringView lf => exact high_level (k := 32185) (by decide) (by decide) hh.2

/-- **C93**: these are such: no tags, and tags on x86, ARM and RISC-V but for 7 bits of tags on addresses of 57 bits -/
theorem C93_platforms : ∀ M ∈ [plain 39, plain 48, plain 57, lam48, lam57, uai48, tbi48, tbi52, pm16sv39, pm16sv48, pm7sv48], Checked M := by
  intro M hM
  simp only [List.mem_cons, List.not_mem_nil, or_false] at hM
  rcases hM with rfl | rfl | rfl | rfl | rfl | rfl | rfl | rfl | rfl | rfl | rfl
  all_goals first
    | exact ⟨63, .inr (.inr rfl), by decide, by decide⟩
    | exact ⟨55, .inr (.inl rfl), by decide, by decide⟩
    | exact ⟨47, .inl rfl, by decide, by decide⟩

/-- a pointer on ARM with the tag 0xF8 -/
example : UserPointer tbi48 (ld 64 [0x67, 0x6C, 0x5D, 0x5D, 0x82, 0xB1, 0x00, 0xF8] 0) ∧
    512 ≤ ((Ty.pointer.traits 64).getLevel [0x67, 0x6C, 0x5D, 0x5D, 0x82, 0xB1, 0x00, 0xF8]).toNat := by
  have h : UserPointer tbi48 (ld 64 [0x67, 0x6C, 0x5D, 0x5D, 0x82, 0xB1, 0x00, 0xF8] 0) := by
    refine ⟨?_, 13, by decide, by decide⟩
    have : ∀ i, i < 64 → 48 ≤ i → ¬ (56 ≤ i ∧ i < 64) → (ld 64 [0x67, 0x6C, 0x5D, 0x5D, 0x82, 0xB1, 0x00, 0xF8] 0).getLsbD i = false := by decide
    exact fun i h1 h2 h3 => this i h2 h1 h3
  exact ⟨h, C93_tagged_partial (T := .pointer) (C93_platforms tbi48 (by simp)) rfl _ h⟩

/-- **C93** is violated where 7 bits of tags meet addresses of 57 bits (RISC-V with Sv57 and pointer masking): with the tag 0x7C the address
0xE1B1825D5D6C67 is the pattern of an empty option. -/
theorem C93_violated : UserPointer pm7sv57 (0x7C#64 <<< 57 ||| 0x00E1B1825D5D6C67#64) ∧
    Ty.pointer.hasValue 64 (leBytes 8 (0x7C#64 <<< 57 ||| 0x00E1B1825D5D6C67#64).toNat) = false := by
  refine ⟨⟨?_, 13, by decide, by decide⟩, by decide⟩
  have : ∀ i, i < 64 → 56 ≤ i → ¬ (57 ≤ i ∧ i < 64) → (0x7C#64 <<< 57 ||| 0x00E1B1825D5D6C67#64).getLsbD i = false := by decide
  exact fun i h1 h2 h3 => this i h2 h1 h3

#print axioms C93_tagged_partial
#print axioms C93_platforms
#print axioms C93_violated

end Opt.Tagged
