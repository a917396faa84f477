import Verif.Model.EnumReflect
import Verif.Spec.Pow2

namespace Opt.Enum

open Opt

/-- the shifts of `roundUp` on natural numbers -/
def smear (x : Nat) : Nat :=
  let c := x ||| (x >>> 1)
  let c := c ||| (c >>> 2)
  let c := c ||| (c >>> 4)
  c ||| (c >>> 8)

theorem smear_testBit (x i : Nat) : (smear x).testBit i = true ↔ ∃ d < 16, x.testBit (i + d) = true := by
  constructor
  · intro h
    simp only [smear, Nat.testBit_or, Nat.testBit_shiftRight, Bool.or_eq_true] at h
    rcases h with ((((h | h) | (h | h)) | ((h | h) | (h | h))) | (((h | h) | (h | h)) | ((h | h) | (h | h))))
    all_goals
      first
        | exact ⟨0, by decide, h⟩
        | exact ⟨_, (by decide : 1 < 16), by rw [← h]; congr 1; omega⟩
        | exact ⟨_, (by decide : 2 < 16), by rw [← h]; congr 1; omega⟩
        | exact ⟨_, (by decide : 3 < 16), by rw [← h]; congr 1; omega⟩
        | exact ⟨_, (by decide : 4 < 16), by rw [← h]; congr 1; omega⟩
        | exact ⟨_, (by decide : 5 < 16), by rw [← h]; congr 1; omega⟩
        | exact ⟨_, (by decide : 6 < 16), by rw [← h]; congr 1; omega⟩
        | exact ⟨_, (by decide : 7 < 16), by rw [← h]; congr 1; omega⟩
        | exact ⟨_, (by decide : 8 < 16), by rw [← h]; congr 1; omega⟩
        | exact ⟨_, (by decide : 9 < 16), by rw [← h]; congr 1; omega⟩
        | exact ⟨_, (by decide : 10 < 16), by rw [← h]; congr 1; omega⟩
        | exact ⟨_, (by decide : 11 < 16), by rw [← h]; congr 1; omega⟩
        | exact ⟨_, (by decide : 12 < 16), by rw [← h]; congr 1; omega⟩
        | exact ⟨_, (by decide : 13 < 16), by rw [← h]; congr 1; omega⟩
        | exact ⟨_, (by decide : 14 < 16), by rw [← h]; congr 1; omega⟩
        | exact ⟨_, (by decide : 15 < 16), by rw [← h]; congr 1; omega⟩
  · rintro ⟨d, hd, h⟩
    simp only [smear, Nat.testBit_or, Nat.testBit_shiftRight, Bool.or_eq_true]
    have e : ∀ a, (a = i + d) → x.testBit a = true := fun a ha => by rw [ha]; exact h
    have hd' : d = 0 ∨ d = 1 ∨ d = 2 ∨ d = 3 ∨ d = 4 ∨ d = 5 ∨ d = 6 ∨ d = 7 ∨ d = 8 ∨ d = 9 ∨ d = 10 ∨ d = 11 ∨
      d = 12 ∨ d = 13 ∨ d = 14 ∨ d = 15 := by omega
    rcases hd' with rfl | rfl | rfl | rfl | rfl | rfl | rfl | rfl | rfl | rfl | rfl | rfl | rfl | rfl | rfl | rfl
    · exact .inl (.inl (.inl (.inl (e _ (by omega)))))
    · exact .inl (.inl (.inl (.inr (e _ (by omega)))))
    · exact .inl (.inl (.inr (.inl (e _ (by omega)))))
    · exact .inl (.inl (.inr (.inr (e _ (by omega)))))
    · exact .inl (.inr (.inl (.inl (e _ (by omega)))))
    · exact .inl (.inr (.inl (.inr (e _ (by omega)))))
    · exact .inl (.inr (.inr (.inl (e _ (by omega)))))
    · exact .inl (.inr (.inr (.inr (e _ (by omega)))))
    · exact .inr (.inl (.inl (.inl (e _ (by omega)))))
    · exact .inr (.inl (.inl (.inr (e _ (by omega)))))
    · exact .inr (.inl (.inr (.inl (e _ (by omega)))))
    · exact .inr (.inl (.inr (.inr (e _ (by omega)))))
    · exact .inr (.inr (.inl (.inl (e _ (by omega)))))
    · exact .inr (.inr (.inl (.inr (e _ (by omega)))))
    · exact .inr (.inr (.inr (.inl (e _ (by omega)))))
    · exact .inr (.inr (.inr (.inr (e _ (by omega)))))

theorem smear_eq {x k : Nat} (hk : k ≤ 16) (hlt : x < 2 ^ k) (hge : k ≠ 0 → 2 ^ (k - 1) ≤ x) :
    smear x = 2 ^ k - 1 := by
  apply Nat.eq_of_testBit_eq
  intro i
  rw [Nat.testBit_two_pow_sub_one]
  by_cases hi : i < k
  · simp only [hi, decide_true]
    rw [smear_testBit]
    have hk0 : k ≠ 0 := by omega
    refine ⟨k - 1 - i, by omega, ?_⟩
    have : i + (k - 1 - i) = k - 1 := by omega
    rw [this]
    have h2 : x < 2 ^ (k - 1) + 2 ^ (k - 1) := by
      have : 2 ^ k = 2 ^ (k - 1) + 2 ^ (k - 1) := by
        have : k = k - 1 + 1 := by omega
        rw [this, Nat.pow_succ]; simp; omega
      omega
    have h1 := hge hk0
    rw [Nat.testBit_eq_decide_div_mod_eq]
    have : x / 2 ^ (k - 1) = 1 := by
      rw [Nat.div_eq_iff (Nat.two_pow_pos _)]
      omega
    rw [this]; decide
  · simp only [hi, decide_false]
    rw [Bool.eq_false_iff]
    intro h
    rw [ne_eq, smear_testBit] at *
    obtain ⟨d, _, hd⟩ := h
    have := Nat.testBit_lt_two_pow (x := x) (i := i + d)
      (Nat.lt_of_lt_of_le hlt (Nat.pow_le_pow_right (by decide) (by omega)))
    rw [this] at hd; cases hd

theorem roundUp_toNat {n : U64} (h1 : 1 ≤ n.toNat) (h2 : n.toNat ≤ 65536) :
    (roundUp n).toNat = smear (n.toNat - 1) + 1 := by
  have hs : (n - 1).toNat = n.toNat - 1 := by
    rw [BitVec.toNat_sub, show BitVec.toNat (1 : U64) = 1 from rfl]
    omega
  have hlt : n.toNat - 1 < 2 ^ 16 := by omega
  have hb : ∀ a b : Nat, a < 2 ^ 16 → a ||| (a >>> b) < 2 ^ 16 := fun a b ha =>
    Nat.or_lt_two_pow ha (Nat.lt_of_le_of_lt (Nat.shiftRight_le a b) ha)
  have hsm : smear (n.toNat - 1) < 2 ^ 16 := hb _ _ (hb _ _ (hb _ _ (hb _ _ hlt)))
  simp only [roundUp, BitVec.toNat_add, BitVec.toNat_or, BitVec.toNat_ushiftRight, hs]
  rw [show BitVec.toNat (1 : U64) = 1 from rfl]
  show (smear (n.toNat - 1) + 1) % 2 ^ 64 = _
  omega

theorem roundUp_spec {n : U64} (h1 : 1 ≤ n.toNat) (h2 : n.toNat ≤ 65536) :
    IsPow2Ceil n.toNat (roundUp n).toNat := by
  rw [roundUp_toNat h1 h2]
  generalize n.toNat = m at *
  by_cases h0 : m = 1
  · subst h0
    exact ⟨0, by decide, by decide, fun j _ => Nat.zero_le j⟩
  · have hx : m - 1 ≠ 0 := by omega
    have hle := Nat.log2_self_le hx
    have hlt := @Nat.lt_log2_self (m - 1)
    have hk : (m - 1).log2 + 1 ≤ 16 := by
      have : (m - 1).log2 < 16 := (Nat.log2_lt hx).2 (by omega)
      omega
    refine ⟨(m - 1).log2 + 1, ?_, by omega, ?_⟩
    · rw [smear_eq hk hlt (fun _ => by simpa using hle)]
      have := Nat.two_pow_pos ((m - 1).log2 + 1)
      omega
    · intro j hj
      have : 2 ^ (m - 1).log2 < 2 ^ j := by omega
      have := (Nat.pow_lt_pow_iff_right (by decide : 1 < 2)).1 this
      omega

/-! ## The abstract scan -/

theorem scan_zero {d : Nat → Bool} {n : Nat} (h : scan d n = 0) : ∀ v < n, d v = false := by
  induction n with
  | zero => intro v hv; omega
  | succ n ih =>
    simp only [scan] at h
    split at h
    · omega
    · rename_i hn
      intro v hv
      by_cases e : v = n
      · subst e; simpa using hn
      · exact ih h v (by omega)

theorem scan_succ {d : Nat → Bool} {n m : Nat} (h : scan d n = m + 1) :
    m < n ∧ d m = true ∧ ∀ v, m < v → v < n → d v = false := by
  induction n with
  | zero => simp [scan] at h
  | succ n ih =>
    simp only [scan] at h
    split at h
    · rename_i hn
      have : m = n := by omega
      subst this
      exact ⟨by omega, hn, fun v _ _ => by omega⟩
    · rename_i hn
      have ⟨h1, h2, h3⟩ := ih h
      refine ⟨by omega, h2, fun v hv hv2 => ?_⟩
      by_cases e : v = n
      · subst e; simpa using hn
      · exact h3 v hv (by omega)

/-- What a non-zero result of the reflection says: it is a power of two of at most `max`, above every declared
candidate, and the least such. -/
theorem maxEnumValue_spec {d : Nat → Bool} {max : Nat} (hmax : ∃ j, max = 2 ^ j ∧ 1 ≤ j ∧ j ≤ 16)
    (h : maxEnumValue d max ≠ 0) :
    ∃ k hi, (maxEnumValue d max).toNat = 2 ^ k ∧ 2 ^ k ≤ max ∧ d hi = true ∧ hi < 2 ^ k ∧ hi + 1 < max ∧
      (∀ v, v < max → d v = true → v ≤ hi) ∧ (∀ j, hi < 2 ^ j → k ≤ j) := by
  obtain ⟨J, rfl, hJ1, hJ2⟩ := hmax
  have hJ : 2 ^ J ≤ 2 ^ 16 := Nat.pow_le_pow_right (by decide) hJ2
  have hJ0 : 2 ≤ 2 ^ J := by
    have : 2 ^ 1 ≤ 2 ^ J := Nat.pow_le_pow_right (by decide) hJ1
    simpa using this
  generalize hr : maxEnumValue d (2 ^ J) = r at *
  simp only [maxEnumValue] at hr
  split at hr
  · exact absurd hr.symm h
  · rename_i htop
    split at hr
    · exact absurd hr.symm h
    · rename_i n hscan
      have ⟨h1, h2, h3⟩ := scan_succ hscan
      have hn : (BitVec.ofNat 64 (n + 1)).toNat = n + 1 := by
        rw [BitVec.toNat_ofNat]; omega
      have hs := roundUp_spec (n := BitVec.ofNat 64 (n + 1)) (by omega) (by omega)
      rw [hn] at hs
      obtain ⟨k, hk1, hk2, hk3⟩ := hs
      have hkJ : k ≤ J := hk3 J (by omega)
      refine ⟨k, n, by rw [← hr]; exact hk1, Nat.pow_le_pow_right (by decide) hkJ, h2, by omega, by omega, ?_, ?_⟩
      · intro v hv hd
        rcases Nat.lt_or_ge n v with hlt | hge
        · exfalso
          by_cases e : v = 2 ^ J - 1
          · subst e; exact htop hd
          · have := h3 v hlt (by omega)
            rw [this] at hd; cases hd
        · exact hge
      · intro j hj; exact hk3 j (by omega)

end Opt.Enum
