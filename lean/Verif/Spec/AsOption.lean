import Verif.Spec.Values

/-!
# Which types have unambiguous empty patterns
-/

namespace Opt

mutual
/-- The marker is read exactly as it is written: apart from the marker, nothing of the object is touched or compared.
Not so for `std::string_view` (writing also clears the length), user-provided traits, sentinels compared by a
user-defined `==` coarser than equality of bytes, and enums over `bool`. -/
def Ty.Tight : Ty → Prop
  | .stringView _ | .custom _ _ _ _ | .enumBool => False
  | .sentinel _ _ eq _ => ∀ x y, eq x y = true → x = y
  | .sentinelOpt _ _ eq _ => ∀ x y, eq x y = true → x = y
  | .pair _ _ _ a _ b => a.Tight ∧ b.Tight
  | .tuple _ _ fs => fs.Tight
  | .array a _ => a.Tight
  | .complex a => (∃ s al, a = .float64 s al) ∨ (∃ s, a = .float32 s)
  | .member _ _ _ a => a.Tight
  | .enforce a => a.Tight
  | .option a => a.Tight
  | _ => True
/-- so for every member -/
def Fields.Tight : Fields → Prop
  | .nil => True
  | .cons _ t rest => t.Tight ∧ rest.Tight
end

end Opt
