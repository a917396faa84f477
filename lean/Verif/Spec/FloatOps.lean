import Verif.Spec.Layout
import Verif.Model.Strategy

/-!
# What hardware does with NaNs

IEEE 754 leaves the bits of NaNs open; this is what x86 (x87 and SSE), ARM, POWER and RISC-V do.  An operation without a result gives the
default NaN: quiet, no payload; the sign differs.  An operation with a NaN operand gives the default NaN or the operand, made quiet.
Conversions keep the upper bits of the payload.  Negation, `abs` and `copysign` only change the sign.
-/

namespace Opt.FloatOps

inductive Fmt where
  | float
  | double
  deriving DecidableEq

/-- mantissa bits -/
def Fmt.m : Fmt → Nat
  | .float => 23
  | .double => 52

/-- exponent bits -/
def Fmt.e : Fmt → Nat
  | .float => 8
  | .double => 11

def Fmt.bytes : Fmt → Nat
  | .float => 4
  | .double => 8

def IsNaN (f : Fmt) (x : Nat) : Prop := fIsNaN f.m f.e x

instance (f : Fmt) (x : Nat) : Decidable (IsNaN f x) := by unfold IsNaN fIsNaN; infer_instance

/-- a NaN whose quiet bit is not set -/
def IsSignaling (f : Fmt) (x : Nat) : Prop := IsNaN f x ∧ fQuiet f.m x = 0

/-- the mantissa without the quiet bit -/
def payload (f : Fmt) (x : Nat) : Nat := x % 2 ^ (f.m - 1)

/-- the pattern without the sign -/
def magnitude (f : Fmt) (x : Nat) : Nat := x % 2 ^ (f.m + f.e)

/-- the quiet bit set -/
def quieten (f : Fmt) (x : Nat) : Nat := if fQuiet f.m x = 1 then x else x + 2 ^ (f.m - 1)

/-- the sign bit set or cleared -/
def withSign (f : Fmt) (neg : Bool) (x : Nat) : Nat := (if neg then 2 ^ (f.m + f.e) else 0) + magnitude f x

/-- the result of an operation that has none -/
def defaultNaN (f : Fmt) (neg : Bool) : Nat := withSign f neg ((2 ^ f.e - 1) * 2 ^ f.m + 2 ^ (f.m - 1))

/-- a NaN of type `double` converted to `float` -/
def narrow (x : Nat) : Nat := fSign 52 11 x * 2 ^ 31 + 255 * 2 ^ 23 + 2 ^ 22 + payload .double x / 2 ^ 29

/-- a NaN of type `float` converted to `double` -/
def widen (x : Nat) : Nat := fSign 23 8 x * 2 ^ 63 + 2047 * 2 ^ 52 + 2 ^ 51 + payload .float x * 2 ^ 29

/-- the patterns that any calculation can make, of given patterns: any number, any operations, in any order -/
inductive Made (given : Fmt → Nat → Prop) : Fmt → Nat → Prop where
  | given {f : Fmt} {x : Nat} : given f x → x < 256 ^ f.bytes → Made given f x
  | number {f : Fmt} {x : Nat} : x < 256 ^ f.bytes → ¬ IsNaN f x → Made given f x
  | invalid (f : Fmt) (neg : Bool) : Made given f (defaultNaN f neg)
  | operand {f : Fmt} {x : Nat} : Made given f x → IsNaN f x → Made given f (quieten f x)
  | sign {f : Fmt} {x : Nat} (neg : Bool) : Made given f x → Made given f (withSign f neg x)
  | narrow {x : Nat} : Made given .double x → IsNaN .double x → Made given .float (narrow x)
  | widen {x : Nat} : Made given .float x → IsNaN .float x → Made given .double (widen x)

/-- the type, with signaling or quiet NaNs for empty options -/
def Fmt.ty (signaling : Bool) : Fmt → Ty
  | .float => .float32 signaling
  | .double => .float64 signaling 8

/-- the pattern is one of those that `option`, or an option of an option, takes for an empty state -/
def LooksEmpty (pw : Nat) (signaling : Bool) (f : Fmt) (x : Nat) : Prop :=
  (((f.ty signaling).traits pw).getLevel (leBytes f.bytes x)).toNat < ((f.ty signaling).traits pw).maxLevel

/-- what is left of a pattern that goes through a register in which NaNs become quiet, as those of the x87 -/
def copied (f : Fmt) (x : Nat) : Nat := if IsNaN f x then quieten f x else x

/-- a NaN among the given patterns that leaves the payload `p` in a `float` -/
def Leaves (given : Fmt → Nat → Prop) (p : Nat) : Prop :=
  (∃ y, given .float y ∧ y < 256 ^ Fmt.bytes .float ∧ IsNaN .float y ∧ payload .float y = p) ∨
  ∃ y, given .double y ∧ y < 256 ^ Fmt.bytes .double ∧ IsNaN .double y ∧ payload .double y / 2 ^ 29 = p

/-- the format and the kind of NaNs of a strategy -/
def ofStrategy : Strategy → Option (Fmt × Bool)
  | .float64sNaN => some (.double, true)
  | .float64qNaN => some (.double, false)
  | .float32sNaN => some (.float, true)
  | .float32qNaN => some (.float, false)
  | _ => none

end Opt.FloatOps
