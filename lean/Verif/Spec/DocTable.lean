import Verif.Model.Traits

/-!
# The table of size optimisations in docs/builtin_traits.md (4-28)

The table gives for each type a number of levels and where each level is stored.  This file is a transcription of the
documentation, not of the code.
-/

namespace Opt

/-- one word of the object representation: `first`, plus the level if the word `counts` -/
structure DocWord where
  off : Nat
  width : Nat
  first : Int
  counts : Bool

/-- the word has the documented contents for level `l` -/
def DocWord.Holds (x : DocWord) (l : Nat) (bs : Bytes) : Prop :=
  ld x.width bs x.off = BitVec.ofInt x.width (x.first + if x.counts then (l : Int) else 0)

/-- a row of the table -/
structure DocRow where
  levels : Nat
  words : List DocWord

/-- the object has the documented contents for level `l` -/
def DocRow.Holds (r : DocRow) (l : Nat) (bs : Bytes) : Prop := ∀ x ∈ r.words, x.Holds l bs

/-- a row for one counting word -/
def DocRow.one (levels off width : Nat) (first : Int) : DocRow := ⟨levels, [⟨off, width, first, true⟩]⟩

/-- the rows about types with a fixed representation, by the size of pointers where it matters -/
inductive DocType where
  | bool
  | referenceWrapper
  /-- a pointer of 8 or 4 bytes -/
  | pointer
  | float64 (signaling : Bool) (align : Nat)
  | float32 (signaling : Bool)
  | polymorphic (size align : Nat)
  | stringView (lenFirst : Bool)
  | uniquePtr
  /-- the row is about the string of the MSVC STL: the other libraries have no capacity of 0 -/
  | string (debug : Bool)
  | vector
  /-- of 4 bytes, or of 8 or more -/
  | memberPtr (size align : Nat)
deriving DecidableEq

/-- the type a row is about -/
def DocType.ty : DocType → Ty
  | .bool => .bool
  | .referenceWrapper => .refWrapper
  | .pointer => .pointer
  | .float64 s a => .float64 s a
  | .float32 s => .float32 s
  | .polymorphic n a => .polymorphic n a
  | .stringView lf => .stringView lf
  | .uniquePtr => .uniquePtr
  | .string d => .string (.stl d)
  | .vector => .vector
  | .memberPtr n a => .memberPtr n a

/-- sizes the table speaks about -/
def DocType.Covered (pw : Nat) : DocType → Prop
  | .polymorphic n _ => pw / 8 ≤ n -- "if it's size is at least pointer's size"
  | .memberPtr n _ => n = 4 ∨ 8 ≤ n
  | _ => True

/-- where the size and the capacity of a string are: MSVC STL, with or without the proxy pointer of debug builds -/
def stlWord (pw : Nat) (debug : Bool) : Nat := if debug then 16 + pw / 8 else 16

/-- docs/builtin_traits.md 4-28 -/
def DocType.row (pw : Nat) : DocType → DocRow
  | .bool => .one 254 0 8 2
  | .referenceWrapper => .one 256 0 pw 0
  | .pointer => if pw = 64 then .one 512 0 64 0xF8E1B1825D5D6C67 else .one 32 0 32 0XFFFFFFC0
  | .float64 true _ => .one 256 0 64 0xFFF6C79F55B0898F
  | .float64 false _ => .one 256 0 64 0xFFFBF26430BB3557
  | .float32 true => .one 256 0 32 0xFFBF69AF
  | .float32 false => .one 256 0 32 0xFFC3EFB5
  | .polymorphic _ _ => .one 255 0 pw (-89152)
  | .stringView lf => .one 255 (if lf then pw / 8 else 0) pw (-32185)
  | .uniquePtr => .one 255 0 pw (-46509)
  | .string d => ⟨255, [⟨stlWord pw d, pw, 0, true⟩, ⟨stlWord pw d + pw / 8, pw, 0, false⟩]⟩
  | .vector => ⟨255, [⟨0, pw, 1, false⟩, ⟨pw / 8, pw, 0, true⟩]⟩
  | .memberPtr n _ => if n = 4 then .one 255 0 32 0xFFFFFC17 else .one 255 0 64 0xFFFFFFFFD3B2F9B2

/-- the documented last value of each range, as far as the table gives one for a counting word -/
def DocType.last (pw : Nat) : DocType → Int
  | .bool => 255
  | .referenceWrapper => 255
  | .pointer => if pw = 64 then 0xF8E1B1825D5D6E66 else 0XFFFFFFDF
  | .float64 true _ => 0xFFF6C79F55B08A8E
  | .float64 false _ => 0xFFFBF26430BB3656
  | .float32 true => 0xFFBF6AAE
  | .float32 false => 0xFFC3F0B4
  | .polymorphic _ _ => -88898
  | .stringView _ => -31931
  | .uniquePtr => -46255
  | .string _ => 254
  | .vector => 245
  | .memberPtr n _ => if n = 4 then 0xFFFFFD15 else 0xFFFFFFFFD3B2FAB0

/-- A row describes a traits class: the number of levels is right, a level below it is stored as documented without touching
other bytes and is recognised in exactly those bytes, and no other level can be stored. -/
structure DocRow.Describes (r : DocRow) (t : Traits) (n : Nat) : Prop where
  levels : t.maxLevel = r.levels
  set : ∀ (bs : Bytes) (l : U64), bs.length = n → l.toNat < r.levels →
    ∃ bs', t.setLevel bs l = .ok bs' ∧ r.Holds l.toNat bs' ∧ bs'.length = n ∧
      ∀ k : Nat, (∀ x ∈ r.words, k < x.off ∨ x.off + x.width / 8 ≤ k) → bs'[k]? = bs[k]?
  get : ∀ (bs : Bytes) (l : U64), bs.length = n → l.toNat < r.levels → (t.getLevel bs = l ↔ r.Holds l.toNat bs)
  refused : ∀ (bs : Bytes) (l : U64), r.levels ≤ l.toNat → t.setLevel bs l = .verify

end Opt
