import Verif.Lemmas.Bytes
import Verif.Spec.FloatOps
import Verif.Props.Patterns

/-!
# NaN patterns
-/

namespace Opt.FloatOps

/-- the first empty pattern -/
def start (signaling : Bool) : Fmt → Nat
  | .float => if signaling then 0xFFBF69AF else 0xFFC3EFB5
  | .double => if signaling then 0xFFF6C79F55B0898F else 0xFFFBF26430BB3557

theorem ld_leBytes {w x : Nat} (hw : w % 8 = 0) (hx : x < 2 ^ w) : (ld w (leBytes (w / 8) x) 0).toNat = x := by
  rw [ld, rd_all (leBytes_length _ _), leVal_leBytes, BitVec.toNat_ofNat, pow256 hw, Nat.mod_mod, Nat.mod_eq_of_lt hx]

theorem sub_range {w : Nat} {x c : BitVec w} {k : Nat} (h1 : c.toNat ≤ x.toNat) (h2 : x.toNat < c.toNat + k) : (x - c).toNat < k := by
  have hx := x.isLt
  rw [BitVec.toNat_sub, show 2 ^ w - c.toNat + x.toNat = 2 ^ w + (x.toNat - c.toNat) by omega, Nat.add_mod_left, Nat.mod_eq_of_lt (by omega)]
  omega

theorem looksEmpty_iff (pw : Nat) (s : Bool) (f : Fmt) {x : Nat} (hx : x < 256 ^ f.bytes) :
    LooksEmpty pw s f x ↔ start s f ≤ x ∧ x < start s f + 256 := by
  cases f
  · have hx : x < 2 ^ 32 := hx
    have e : (ld 32 (leBytes 4 x) 0).toNat = x := ld_leBytes (w := 32) (by decide) hx
    have hz : ∀ y : BitVec 32, (y.setWidth 64).toNat = y.toNat := fun y => by
      rw [BitVec.toNat_setWidth]; exact Nat.mod_eq_of_lt (Nat.lt_trans y.isLt (by decide))
    cases s
    · constructor
      · intro h
        have := sub_lt_range32 (x := ld 32 (leBytes 4 x) 0) (c := 0b11111111110000111110111110110101#32) (k := 256) (by decide) h
        rw [e] at this
        exact this
      · intro h
        show ((ld 32 (leBytes 4 x) 0 - 0b11111111110000111110111110110101#32).setWidth 64).toNat < 256
        rw [hz]
        exact sub_range (by rw [e]; exact h.1) (by rw [e]; exact h.2)
    · constructor
      · intro h
        have := sub_lt_range32 (x := ld 32 (leBytes 4 x) 0) (c := 0b11111111101111110110100110101111#32) (k := 256) (by decide) h
        rw [e] at this
        exact this
      · intro h
        show ((ld 32 (leBytes 4 x) 0 - 0b11111111101111110110100110101111#32).setWidth 64).toNat < 256
        rw [hz]
        exact sub_range (by rw [e]; exact h.1) (by rw [e]; exact h.2)
  · have hx : x < 2 ^ 64 := hx
    have e : (ld 64 (leBytes 8 x) 0).toNat = x := ld_leBytes (w := 64) (by decide) hx
    cases s
    · constructor
      · intro h
        have := sub_lt_range (x := ld 64 (leBytes 8 x) 0) (c := 0b1111111111111011111100100110010000110000101110110011010101010111#64) (k := 256) (by decide) h
        rw [e] at this
        exact this
      · intro h
        show (ld 64 (leBytes 8 x) 0 - 0b1111111111111011111100100110010000110000101110110011010101010111#64).toNat < 256
        exact sub_range (by rw [e]; exact h.1) (by rw [e]; exact h.2)
    · constructor
      · intro h
        have := sub_lt_range (x := ld 64 (leBytes 8 x) 0) (c := 0b1111111111110110110001111001111101010101101100001000100110001111#64) (k := 256) (by decide) h
        rw [e] at this
        exact this
      · intro h
        show (ld 64 (leBytes 8 x) 0 - 0b1111111111110110110001111001111101010101101100001000100110001111#64).toNat < 256
        exact sub_range (by rw [e]; exact h.1) (by rw [e]; exact h.2)

/-- all about one pattern in numbers -/
macro "floats" : tactic => `(tactic| (
  simp only [IsSignaling, IsNaN, fIsNaN, fExp, fMant, fQuiet, fSign, payload, magnitude, quieten, withSign, defaultNaN, narrow, widen, start, Fmt.m, Fmt.e, Fmt.bytes,
    Nat.reducePow, Nat.reduceAdd, Nat.reduceSub, Nat.reduceMul, Nat.reduceDiv, Nat.reduceMod, if_true, if_false, Bool.false_eq_true] at *))

theorem quieten_lt {f : Fmt} {x : Nat} (hx : x < 256 ^ f.bytes) : quieten f x < 256 ^ f.bytes := by
  unfold quieten; split <;> cases f <;> floats <;> omega

theorem withSign_lt (f : Fmt) (neg : Bool) (x : Nat) : withSign f neg x < 256 ^ f.bytes := by
  cases f <;> cases neg <;> floats <;> omega

theorem narrow_lt {x : Nat} (hx : x < 256 ^ Fmt.bytes .double) : narrow x < 256 ^ Fmt.bytes .float := by
  floats; omega

theorem widen_lt {x : Nat} (hx : x < 256 ^ Fmt.bytes .float) : widen x < 256 ^ Fmt.bytes .double := by
  floats; omega

theorem Made.lt {g : Fmt → Nat → Prop} {f : Fmt} {x : Nat} (h : Made g f x) : x < 256 ^ f.bytes := by
  induction h with
  | given _ h => exact h
  | number h _ => exact h
  | invalid f neg => exact withSign_lt _ _ _
  | operand _ _ ih => exact quieten_lt ih
  | sign neg _ _ => exact withSign_lt _ _ _
  | narrow _ _ ih => exact narrow_lt ih
  | widen _ _ ih => exact widen_lt ih

theorem quieten_payload (f : Fmt) (x : Nat) : payload f (quieten f x) = payload f x := by
  unfold quieten; split <;> cases f <;> floats <;> omega

theorem quieten_quiet {f : Fmt} (x : Nat) : fQuiet f.m (quieten f x) = 1 := by
  unfold quieten; split <;> cases f <;> floats <;> omega

theorem withSign_payload (f : Fmt) (neg : Bool) (x : Nat) : payload f (withSign f neg x) = payload f x := by
  cases f <;> cases neg <;> floats <;> omega

theorem withSign_quiet (f : Fmt) (neg : Bool) (x : Nat) : fQuiet f.m (withSign f neg x) = fQuiet f.m x := by
  cases f <;> cases neg <;> floats <;> omega

theorem withSign_nan (f : Fmt) (neg : Bool) (x : Nat) : IsNaN f (withSign f neg x) ↔ IsNaN f x := by
  cases f <;> cases neg <;> floats <;> omega

theorem withSign_magnitude (f : Fmt) (neg : Bool) (x : Nat) : magnitude f (withSign f neg x) = magnitude f x := by
  cases f <;> cases neg <;> floats <;> omega

theorem default_quiet (f : Fmt) (neg : Bool) : fQuiet f.m (defaultNaN f neg) = 1 := by
  cases f <;> cases neg <;> decide

theorem default_payload (f : Fmt) (neg : Bool) : payload f (defaultNaN f neg) = 0 := by
  cases f <;> cases neg <;> decide

theorem narrow_quiet (x : Nat) : fQuiet (Fmt.m .float) (narrow x) = 1 := by floats; omega
theorem widen_quiet (x : Nat) : fQuiet (Fmt.m .double) (widen x) = 1 := by floats; omega
theorem narrow_payload (x : Nat) : payload .float (narrow x) = payload .double x / 2 ^ 29 := by floats; omega
theorem widen_payload (x : Nat) : payload .double (widen x) = payload .float x * 2 ^ 29 := by floats; omega

/-- the empty patterns are NaNs with a payload; those of `double` have one that no `float` has -/
theorem empty_range {s : Bool} {f : Fmt} {x : Nat} (h : start s f ≤ x ∧ x < start s f + 256) :
    IsNaN f x ∧ payload f x ≠ 0 ∧ fQuiet f.m x = (if s then 0 else 1) ∧ (f = .double → payload f x % 2 ^ 29 ≠ 0) := by
  cases f <;> cases s <;> floats <;> omega

end Opt.FloatOps
