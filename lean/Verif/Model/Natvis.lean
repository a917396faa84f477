import Verif.Model.Traits

/-!
# The debugger view of options (debugger/option.natvis)

The file tells the Visual Studio debugger how to show an `opt::option`: for a type it picks an entry by the name of the
type, and in the entry the first `DisplayString` whose condition holds.  The conditions read the memory of the option
directly, without calling the library.  Here is that interpretation, entry by entry.

Simplifications: strings are shown as an abstract value `Shown`, the text of a contained value as its bytes.  Of the
entries that match a name the most specific one is taken (the attribute `Priority` of the general entry, line 176, is taken
not to put it before the entries that name a type).  The comparison `base::value.value == $T2` of the `sentinel`
entries compares integers, so representations.
-/

namespace Opt.Natvis

/-- What the choice of an option's storage depends on: pointer width, `OPTION_USE_BUILTIN_TRAITS` (option.hpp 166,
1759-1767) and `has_signaling_NaN` (option.hpp 1090, 1098). -/
structure Target where
  pw : Nat
  builtin : Bool
  signaling : Bool

/-- The type `T` of an `opt::option<T>` as far as the names in the file tell types apart.  `string`: the default
allocator; `stringAlloc`: any allocator that is not empty.  `other`: a type no entry but the general one matches. -/
inductive Cpp where
  | bool
  | float
  | double (align : Nat)
  | refWrapper
  | string (debug : Bool)
  | stringAlloc (size align : Nat)
  | ptr
  | memberPtr (size align : Nat)
  | ref
  | sentinel (size align : Nat) (vals : List Bytes)
  | other (T : Ty)
  | enforce (t : Cpp)
  | option (t : Cpp)

/-- A type of this size and alignment, with the built-in traits or without (option.hpp 1759-1767). -/
def Target.pick (tg : Target) (T : Ty) : Ty := if tg.builtin then T else .plain (T.size tg.pw) (T.align tg.pw)

/-- The type in the universe of types of the level encodings (option.hpp 1044-1138: `float`, `double` by pointer size
and `has_signaling_NaN`; 1033-1043: strings by allocator; 2285-2329: an option of a reference). -/
def Cpp.rep (tg : Target) : Cpp → Ty
  | .bool => tg.pick .bool
  | .float => tg.pick (.float32 (tg.pw ≠ 32 && tg.signaling))
  | .double a => tg.pick (.float64 (tg.pw ≠ 32 && tg.signaling) a)
  | .refWrapper => tg.pick .refWrapper
  | .string dbg => tg.pick (.string (.stl dbg))
  | .stringAlloc n a => .plain n a
  | .ptr => tg.pick .pointer
  | .memberPtr n a => tg.pick (.memberPtr n a)
  | .ref => .plain (tg.pw / 8) (tg.pw / 8)          -- stored as a pointer; never used with a flag
  | .sentinel n a vals => .sentinel n a (· == ·) vals
  | .other T => T
  | .enforce t => .enforce (t.rep tg)
  | .option .ref => tg.pick .optionRef
  | .option t => tg.pick (.option (t.rep tg))

/-- `sizeof(base::value)` -/
def Cpp.size (tg : Target) (t : Cpp) : Nat := (t.rep tg).size tg.pw

/-- `sizeof(opt::option<T>)` -/
def Cpp.optSize (tg : Target) (t : Cpp) : Nat := (Cpp.option t).size tg

/-- `opt::option<T>::has_value()`: for references (option.hpp 2306) and others -/
def Cpp.has (tg : Target) (t : Cpp) (bs : Bytes) : Bool :=
  match t with
  | .ref => ld tg.pw bs 0 ≠ 0
  | t => (t.rep tg).hasValue tg.pw bs

/-- there is a member `has_value_flag` (option.hpp 1908-2107): no levels, and not a reference -/
def Cpp.hasFlag (tg : Target) (t : Cpp) : Bool :=
  match t with
  | .ref => false
  | t => ((t.rep tg).traits tg.pw).maxLevel = 0

/-- What the debugger shows for an option: `[none]`; the text of a value with these bytes; the text of the object a
reference refers to; `{ … }` around the text of the contained option; a text followed by `[has_value=…]`. -/
inductive Shown where
  | none
  | raw (bs : Bytes)
  | deref (addr : Nat)
  | braces (s : Shown)
  | asked (has : Bool) (s : Shown)
deriving DecidableEq, Repr

/-- The entries of the file, with the number of options around the type the entry names. -/
inductive Entry where
  | bool (d : Nat)          -- option.natvis 3-29
  | refWrapper (d : Nat)    -- 31-57
  | float (d : Nat)         -- 62-94
  | double (d : Nat)        -- 99-131
  | string (d : Nat)        -- 133-174
  | sentinel (d : Nat) (v : Bytes) -- 209-229, with the value the condition compares to
  | general                 -- 176-193
deriving DecidableEq, Repr

/-- The entry for `opt::option<T>` by the name of `T`, `d` options around the rest of the name.  Each of the special types
has entries for up to three options, and the same ones with `opt::enforce<…>` around it (`AlternativeType`).
The entries for `sentinel<*,*>`, `<*,*,*>`, `<*,*,*,*>` need that many arguments; the last wildcard takes all the rest. -/
def entryAt (d : Nat) : Cpp → Entry
  | .option t => entryAt (d + 1) t
  | .bool | .enforce .bool => if d ≤ 2 then .bool d else .general
  | .refWrapper | .enforce .refWrapper => if d ≤ 2 then .refWrapper d else .general
  | .float | .enforce .float => if d ≤ 2 then .float d else .general
  | .double _ | .enforce (.double _) => if d ≤ 2 then .double d else .general
  | .string _ | .enforce (.string _) => if d ≤ 2 then .string d else .general
  | .stringAlloc _ _ | .enforce (.stringAlloc _ _) => if d ≤ 2 then .string d else .general
  | .sentinel _ _ vals => if d ≤ 2 then (match vals[d]? with | some v => .sentinel d v | none => .general) else .general
  | _ => .general

/-- `is_reference()`: the name of `T` ends with `&` (option.natvis 179) -/
def isReference : Cpp → Bool
  | .ref => true
  | _ => false

/-- `is_pointer()`: the name of `T` ends with `*` (option.natvis 180), which those of member pointers do too -/
def isPointer : Cpp → Bool
  | .ptr | .enforce .ptr => true
  | .memberPtr _ _ | .enforce (.memberPtr _ _) => true
  | _ => false

/-- `sNaN32_start()`, `qNaN32_start()` (option.natvis 59-60), `sNaN64_start()`, `qNaN64_start()` (96-97) -/
def sNaN32 : BitVec 32 := 0xFFBF69AF#32
def qNaN32 : BitVec 32 := 0xFFC3EFB5#32
def sNaN64 : BitVec 64 := 0xFFF6C79F55B0898F#64
def qNaN64 : BitVec 64 := 0xFFFBF26430BB3557#64

/-- The conditions of the entries that show `[none]`.  `m`: the memory from the address of the option on (the conditions
do not stop at its end); `n`: `sizeof(base::value)`. -/
def Entry.none (tg : Target) (n : Nat) (m : Bytes) : Entry → Bool
  | .bool d => ld 8 m 0 == BitVec.ofNat 8 (2 + d)                           -- 6, 15, 24
  | .refWrapper d => ld tg.pw m 0 == BitVec.ofNat tg.pw d                   -- 34, 43, 52
  | .float d => ld 32 m 0 == sNaN32 + BitVec.ofNat 32 d || ld 32 m 0 == qNaN32 + BitVec.ofNat 32 d -- 65-67, 76-78, 87-89
  | .double d =>
    if d = 1 then -- 113-115: the second comparison reads 32 bits
      ld 64 m 0 == sNaN64 + 1 || (ld 32 m 0).setWidth 64 == qNaN64 + 1
    else ld 64 m 0 == sNaN64 + BitVec.ofNat 64 d || ld 64 m 0 == qNaN64 + BitVec.ofNat 64 d -- 102-104, 124-126
  | .string d =>
    let cap := if n = 40 then ld 64 m 32 else ld 64 m 24
    let size := if n = 40 then ld 64 m 24 else ld 64 m 16
    if d = 0 then cap == 0 else cap == 0 && size == BitVec.ofNat 64 d       -- 136-139, 148-154, 163-169
  | .sentinel _ v => rd m 0 n == v                                          -- 210, 217, 224
  | .general => false

/-- The text around the contained value: `{base::value}`, or `{{ {base::value} }}` in the entries for options of options. -/
def Entry.some (c : Shown) : Entry → Shown
  | .bool d | .refWrapper d | .float d | .double d | .string d | .sentinel d _ => if d = 0 then c else .braces c
  | .general => c

/-- What is shown for an `opt::option<T>`, where `c` is the text of `base::value`.  The general entry (option.natvis
176-193) goes by the name of `T`; the lines that use `has_value_flag` are optional, so skipped when there is no such
member; the last one calls `has_value()`. -/
def display (tg : Target) (t : Cpp) (m : Bytes) (c : Shown) : Shown :=
  match entryAt 0 t with
  | .general =>
    if isReference t then (if ld tg.pw m 0 = 0 then .none else .deref (ld tg.pw m 0).toNat)
    else if isPointer t then (if (ld tg.pw m 0).setWidth 64 = 0xF8E1B1825D5D6C67#64 then .none else c)
    else if t.hasFlag tg then (if ld 8 m (t.size tg) = 0 then .none else c)
    else .asked (t.has tg (rd m 0 (t.optSize tg))) c
  | e => if e.none tg (t.size tg) m then .none else e.some c

/-- What is shown for the `opt::option<T>` whose memory starts with `m`: the contained value starts at the same address. -/
def view (tg : Target) : Cpp → Bytes → Shown
  | .option u, m => display tg (.option u) m (view tg u m)
  | t, m => display tg t m (.raw (rd m 0 (t.size tg)))

end Opt.Natvis
