import Verif.Model.Traits

/-!
# Which bytes are live values

The specification side of the level encoding: for each type, which object representations belong to a value a program
can hold.  These are facts about the hardware, the ABI and the standard library, not about option.hpp, and are the
assumptions under which the level encodings are proved safe.
-/

namespace Opt

/-- A 64-bit address that x86-64 accepts with 57-bit (5-level) or 48-bit virtual addresses: the upper bits repeat
bit 56. Every 48-bit canonical address satisfies this too. -/
def Canonical (a : BitVec 64) : Prop := a.toNat < 2 ^ 56 ∨ 2 ^ 64 - 2 ^ 56 ≤ a.toNat

instance (a : BitVec 64) : Decidable (Canonical a) := inferInstanceAs (Decidable (_ ∨ _))

/-- An address (or null) outside the last 128 KiB of the address space. -/
def Mapped (pw : Nat) (a : BitVec pw) : Prop := a.toNat + 131072 ≤ 2 ^ pw

instance (pw : Nat) (a : BitVec pw) : Decidable (Mapped pw a) := inferInstanceAs (Decidable (_ ≤ _))

/-- An address of an object: not in the first page. -/
def ObjectAddr (pw : Nat) (a : BitVec pw) : Prop := 4096 ≤ a.toNat

instance (pw : Nat) (a : BitVec pw) : Decidable (ObjectAddr pw a) := inferInstanceAs (Decidable (_ ≤ _))

/-- A raw pointer a program may hold: canonical on 64 bits; on 32 bits mapped, or the all-ones pattern
(`INVALID_HANDLE_VALUE`, `MAP_FAILED`). -/
def PointerValue (pw : Nat) (bs : Bytes) : Prop :=
  if pw = 64 then Canonical (ld 64 bs 0)
  else if pw = 32 then Mapped 32 (ld 32 bs 0) ∨ ld 32 bs 0 = BitVec.allOnes 32
  else True

instance (pw : Nat) (bs : Bytes) : Decidable (PointerValue pw bs) := by unfold PointerValue; infer_instance

/-- the payload range of the reserved NaNs of `double` -/
def ReservedNaN64 (signaling : Bool) (a : BitVec 64) : Prop :=
  if signaling then 0xFFF6C79F55B0898F ≤ a.toNat ∧ a.toNat ≤ 0xFFF6C79F55B08A8E
  else 0xFFFBF26430BB3557 ≤ a.toNat ∧ a.toNat ≤ 0xFFFBF26430BB3656

instance (s : Bool) (a : BitVec 64) : Decidable (ReservedNaN64 s a) := by unfold ReservedNaN64; infer_instance

/-- the payload range of the reserved NaNs of `float` -/
def ReservedNaN32 (signaling : Bool) (a : BitVec 32) : Prop :=
  if signaling then 0xFFBF69AF ≤ a.toNat ∧ a.toNat ≤ 0xFFBF6AAE
  else 0xFFC3EFB5 ≤ a.toNat ∧ a.toNat ≤ 0xFFC3F0B4

instance (s : Bool) (a : BitVec 32) : Decidable (ReservedNaN32 s a) := by unfold ReservedNaN32; infer_instance

/-- A pointer to member: an offset or function address below the last gigabyte, or null data member pointer (-1). -/
def MemberPtrValue (size : Nat) (bs : Bytes) : Prop :=
  if size = 4 then Mapped 32 (ld 32 bs 0) ∨ ld 32 bs 0 = BitVec.allOnes 32
  else if 8 ≤ size then (ld 64 bs 0).toNat + 2 ^ 30 ≤ 2 ^ 64 ∨ ld 64 bs 0 = BitVec.allOnes 64
  else True

instance (n : Nat) (bs : Bytes) : Decidable (MemberPtrValue n bs) := by unfold MemberPtrValue; infer_instance

/-- A `std::string` in a state the library keeps it in.
* MSVC STL: the capacity is never 0 (the small buffer counts).
* libc++ default layout: word 0 has its low bit clear (short) or is `capacity | 1` with capacity > 0 (long).
* libc++ alternate layout: the last word has its top bit clear (short) or a non-zero rest (long).
* libstdc++: the data pointer is never null. -/
def StringValue (pw : Nat) (lib : StringLib) (bs : Bytes) : Prop :=
  match lib with
  | .stl _ => 0 < (ld pw bs (stringMarkOff pw lib)).toNat
  | .libcpp false =>
    (ld pw bs 0).toNat % 2 = 0 ∨ ((ld pw bs 0).toNat % 2 = 1 ∧ 0 < (ld pw bs 0).toNat / 2)
  | .libcpp true =>
    let word := (ld pw bs (stringMarkOff pw lib)).toNat
    word < 2 ^ (pw - 1) ∨ 0 < word - 2 ^ (pw - 1)
  | .libstdcpp => (ld pw bs 0).toNat ≠ 0

instance (pw : Nat) (lib : StringLib) (bs : Bytes) : Decidable (StringValue pw lib bs) := by
  unfold StringValue; split <;> infer_instance

/-- A value built from the enumerators by any number of bitwise ORs (the empty combination is 0). -/
inductive OrOf (decl : List Nat) : Nat → Prop where
  | zero : OrOf decl 0
  | enumerator {v} : v ∈ decl → OrOf decl v
  | or {a b} : OrOf decl a → OrOf decl b → OrOf decl (a ||| b)

mutual
/-- The bytes `bs` are the representation of a live value of type `T`. -/
def Ty.Valid (pw : Nat) : Ty → Bytes → Prop
  | .plain n _, bs => bs.length = n
  | .bool, bs => bs.length = 1 ∧ (ld 8 bs 0 = 0 ∨ ld 8 bs 0 = 1)
  | .refWrapper, bs => bs.length = pw / 8 ∧ ObjectAddr pw (ld pw bs 0)
  | .pointer, bs => bs.length = pw / 8 ∧ PointerValue pw bs
  | .float64 s _, bs => bs.length = 8 ∧ ¬ ReservedNaN64 s (ld 64 bs 0)
  | .float32 s, bs => bs.length = 4 ∧ ¬ ReservedNaN32 s (ld 32 bs 0)
  | .polymorphic n _, bs => bs.length = n ∧ Mapped pw (ld pw bs 0)
  | .stringView lf, bs => bs.length = 2 * (pw / 8) ∧ Mapped pw (ld pw bs (if lf then pw / 8 else 0))
  | .uniquePtr, bs => bs.length = pw / 8 ∧ Mapped pw (ld pw bs 0)
  | .string lib, bs => bs.length = stringSize pw lib ∧ StringValue pw lib bs
  | .vector, bs => bs.length = 3 * (pw / 8) ∧ Mapped pw (ld pw bs 0)
  | .memberPtr n _, bs => bs.length = n ∧ MemberPtrValue n bs
  | .padding n _ off w, bs => bs.length = n ∧ ld w bs off = 0
  | .enumReflect w decl, bs => bs.length = w / 8 ∧ OrOf decl (ld w bs 0).toNat
  | .enumBool, bs => bs.length = 1 ∧ ld 8 bs 0 = 0
  | .enumSentinel w sg s, bs => bs.length = w / 8 ∧ ld w bs 0 ≠ s ∧ diffOverflows sg w (ld w bs 0) s = false
  | .enumStart w sg s, bs =>
    bs.length = w / 8 ∧ diffOverflows sg w (ld w bs 0) s = false ∧
      (if sg then (ld w bs 0).toInt < s.toInt else (ld w bs 0).toNat < s.toNat)
  | .enumStartEnd w sg s e, bs =>
    bs.length = w / 8 ∧ diffOverflows sg w (ld w bs 0) s = false ∧
      (if sg then (ld w bs 0).toInt < s.toInt ∨ e.toInt < (ld w bs 0).toInt
       else (ld w bs 0).toNat < s.toNat ∨ e.toNat < (ld w bs 0).toNat)
  | .sentinel n _ eq vals, bs => bs.length = n ∧ ∀ v ∈ vals, eq bs v = false
  | .sentinelOpt n _ eq s, bs => bs.length = n ∧ eq bs s = false
  | .custom n _ _ valid, bs => bs.length = n ∧ valid bs
  | .pair n _ o1 a o2 b, bs =>
    bs.length = n ∧ a.Valid pw (rd bs o1 (a.size pw)) ∧ b.Valid pw (rd bs o2 (b.size pw))
  | .tuple n _ fs, bs => bs.length = n ∧ fs.Valid pw bs
  | .array a n, bs => bs.length = n * a.size pw ∧ ∀ i < n, a.Valid pw (rd bs (i * a.size pw) (a.size pw))
  | .complex a, bs =>
    bs.length = 2 * a.size pw ∧ a.Valid pw (rd bs 0 (a.size pw)) ∧ a.Valid pw (rd bs (a.size pw) (a.size pw))
  | .member n _ off a, bs => bs.length = n ∧ a.Valid pw (rd bs off (a.size pw))
  | .enforce a, bs => a.Valid pw bs
  | .option a, bs => -- the flag, if there is one, is a `bool`; an engaged option contains a live value
    bs.length = (Ty.option a).size pw ∧
    ((a.traits pw).maxLevel = 0 → ld 8 bs (a.size pw) = 0 ∨ ld 8 bs (a.size pw) = 1) ∧
    (a.hasValue pw bs = true → a.Valid pw (a.payload pw bs))
  | .optionRef, bs => bs.length = pw / 8 ∧ (ld pw bs 0 = 0 ∨ ObjectAddr pw (ld pw bs 0))
/-- all members are live values -/
def Fields.Valid (pw : Nat) : Fields → Bytes → Prop
  | .nil, _ => True
  | .cons off t rest, bs => t.Valid pw (rd bs off (t.size pw)) ∧ rest.Valid pw bs
end

/-! ## Well-formed types: what the C++ program must respect -/

/-- The sentinel list is usable: all of the object's size, pairwise distinguished by `==`, each equal to itself,
fewer than 2^64. -/
def SentinelsOK (n : Nat) (eq : Bytes → Bytes → Bool) (vals : List Bytes) : Prop :=
  vals.length < 2 ^ 64 ∧ (∀ v ∈ vals, v.length = n) ∧ (∀ v ∈ vals, eq v v = true) ∧
    vals.Pairwise (fun a b => eq b a = false)

/-- The law a user specialisation of `option_traits` must satisfy. -/
structure LawfulTraits (t : Traits) (n : Nat) (Valid : Bytes → Prop) (cap : Nat) : Prop where
  /-- `max_level` is a `std::uintmax_t` -/
  max_lt : t.maxLevel < 2 ^ 64
  /-- a live value never has a level below `max_level` -/
  high : ∀ bs : Bytes, bs.length = n → Valid bs → t.maxLevel ≤ (t.getLevel bs).toNat
  /-- a level below `cap` that is set is the level that is read back, whatever the bytes were -/
  roundtrip : ∀ (bs : Bytes) (l : U64), bs.length = n → l.toNat < cap →
    ∃ bs', t.setLevel bs l = .ok bs' ∧ bs'.length = n ∧ t.getLevel bs' = l

mutual
/-- The number of levels that really work.  Equal to `max_level` except for a `PADDING` member narrower than `int`
and for reflected enums over `bool` (see `Ty.cap_eq_maxLevel`). -/
def Ty.cap (pw : Nat) : Ty → Nat
  | .padding _ _ _ w => 2 ^ w - 1
  | .enumBool => 1
  | .pair _ _ _ a _ b =>
    if (a.traits pw).maxLevel > (b.traits pw).maxLevel then a.cap pw else b.cap pw
  | .tuple _ _ fs => ((fs.caps pw)[indexOfMax ((fs.traits pw).map (·.maxLevel))]?).getD 0
  | .array a n => if n = 0 then 0 else a.cap pw
  | .complex a => a.cap pw
  | .member _ _ _ a => a.cap pw
  | .enforce a => a.cap pw
  | .option a => if (a.traits pw).maxLevel ≥ 1 then a.cap pw - 1 else 254
  | T => (T.traits pw).maxLevel
/-- the working levels of each member -/
def Fields.caps (pw : Nat) : Fields → List Nat
  | .nil => []
  | .cons _ t rest => t.cap pw :: rest.caps pw
end

mutual
/-- The type is laid out consistently and respects the documented preconditions. -/
def Ty.WF (pw : Nat) : Ty → Prop
  | .plain _ _ | .bool | .refWrapper | .pointer | .float64 _ _ | .float32 _ | .uniquePtr | .vector
  | .string _ | .stringView _ | .enumBool | .optionRef => True
  | .polymorphic n _ => pw / 8 ≤ n -- option.hpp 1108
  | .memberPtr _ _ => True
  | .padding n _ off w => (w = 8 ∨ w = 16 ∨ w = 32 ∨ w = 64) ∧ off + w / 8 ≤ n
  | .enumReflect w decl => (w = 8 ∨ w = 16 ∨ w = 32 ∨ w = 64) ∧ ∀ v ∈ decl, v < 2 ^ w
  | .enumSentinel w _ _ => w = 8 ∨ w = 16 ∨ w = 32 ∨ w = 64
  | .enumStart w sg s => (w = 8 ∨ w = 16 ∨ w = 32 ∨ w = 64) ∧ ¬ (sg = false ∧ w = 64 ∧ s = 0) ∧
      -- no signed range wider than the positive half (otherwise `max - start + 1` and the levels overflow `int`)
      (sg = true → 32 ≤ w → 0 ≤ s.toInt)
  | .enumStartEnd w sg s e => (w = 8 ∨ w = 16 ∨ w = 32 ∨ w = 64) ∧
      (if sg then s.toInt ≤ e.toInt ∧ (32 ≤ w → e.toInt - s.toInt + 1 < 2 ^ (w - 1))
       else s.toNat ≤ e.toNat ∧ (32 ≤ w → e.toNat - s.toNat + 1 < 2 ^ w))
  | .sentinel n _ eq vals => SentinelsOK n eq vals
  | .sentinelOpt n _ eq s => s.length = n ∧ eq s s = true
  | .custom n _ t valid => LawfulTraits t n valid t.maxLevel
  | .pair n _ o1 a o2 b => a.WF pw ∧ b.WF pw ∧ o1 + a.size pw ≤ n ∧ o2 + b.size pw ≤ n
  | .tuple n _ fs => fs.WF pw n
  | .array a _ => a.WF pw
  | .complex a => a.WF pw
  | .member n _ off a => a.WF pw ∧ off + a.size pw ≤ n
  | .enforce a => a.WF pw ∧ (a.traits pw).maxLevel > 0 -- option.hpp 4042
  | .option a => a.WF pw ∧ 0 < a.align pw ∧ ((a.traits pw).maxLevel ≥ 1 → a.cap pw ≥ 1)
/-- every member lies inside the object of `n` bytes -/
def Fields.WF (pw : Nat) (n : Nat) : Fields → Prop
  | .nil => True
  | .cons off t rest => t.WF pw ∧ off + t.size pw ≤ n ∧ rest.WF pw n
end

mutual
/-- No `PADDING` member narrower than `int` and no reflected `bool` enum inside. -/
def Ty.Exact : Ty → Prop
  | .padding _ _ _ w => 32 ≤ w
  | .enumBool => False
  | .pair _ _ _ a _ b => a.Exact ∧ b.Exact
  | .tuple _ _ fs => fs.Exact
  | .array a _ => a.Exact
  | .complex a => a.Exact
  | .member _ _ _ a => a.Exact
  | .enforce a => a.Exact
  | .option a => a.Exact
  | _ => True
def Fields.Exact : Fields → Prop
  | .nil => True
  | .cons _ t rest => t.Exact ∧ rest.Exact
end

end Opt
