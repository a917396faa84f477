import Verif.Model.Natvis
import Verif.Spec.Values

/-!
# What an honest debugger view is

What is shown must tell whether the option has a value, and if it has, show that value: its bytes, the object a
reference refers to, or an honest view of the contained option.
-/

namespace Opt.Natvis

/-- whether the text says that there is a value -/
def Shown.says : Shown → Bool
  | .none => false
  | .asked b _ => b
  | _ => true

/-- the text of the contained value -/
def Shown.inside : Shown → Shown
  | .braces s => s
  | .asked _ s => s
  | s => s

/-- The text `s` is honest for an `opt::option<T>` with the bytes `bs`. -/
def Honest (tg : Target) : Cpp → Bytes → Shown → Prop
  | .option u, bs, s => s.says = (Cpp.option u).has tg bs ∧
      ((Cpp.option u).has tg bs = true → Honest tg u (rd bs 0 (u.optSize tg)) s.inside)
  | .ref, bs, s => s.says = Cpp.ref.has tg bs ∧
      (Cpp.ref.has tg bs = true → s.inside = .deref (ld tg.pw bs 0).toNat)
  | t, bs, s => s.says = t.has tg bs ∧ (t.has tg bs = true → s.inside = .raw (rd bs 0 (t.size tg)))

/-- The bytes are those of an `opt::option<T>` in a program: empty, or with a live value of `T`. -/
def Live (tg : Target) (t : Cpp) (bs : Bytes) : Prop :=
  match t with
  | .ref => Ty.optionRef.Valid tg.pw bs
  | t => (Ty.option (t.rep tg)).Valid tg.pw bs

/-- The types for which the conditions in the file fit the library.  What is left out: types the file knows by name when
the built-in traits are off, strings and pointers of 32-bit programs, strings with another allocator, member pointers,
options of options with a flag, and `option<option<double>>` with quiet NaNs. -/
def Fits (tg : Target) : Cpp → Prop
  | .bool | .float | .double _ | .refWrapper => tg.builtin = true
  | .string _ | .ptr => tg.builtin = true ∧ tg.pw = 64
  | .stringAlloc _ _ | .memberPtr _ _ => False
  | .ref | .sentinel _ _ _ | .other _ => True
  | .enforce t => Fits tg t
  | .option t => Fits tg t ∧ (Cpp.option t).hasFlag tg = false ∧
      (match t with
       | .double _ | .enforce (.double _) => (tg.pw ≠ 32 && tg.signaling) = true
       | _ => True)

/-- The bytes are not one of the NaNs the library reserves on the targets with the other kind of NaN. -/
def NotOtherNaN (tg : Target) : Cpp → Bytes → Prop
  | .float, bs => ¬ ReservedNaN32 (!(tg.pw ≠ 32 && tg.signaling)) (ld 32 bs 0)
  | .double _, bs => ¬ ReservedNaN64 (!(tg.pw ≠ 32 && tg.signaling)) (ld 64 bs 0)
  | .enforce t, bs => NotOtherNaN tg t bs
  | .option t, bs => NotOtherNaN tg t bs
  | _, _ => True

end Opt.Natvis
