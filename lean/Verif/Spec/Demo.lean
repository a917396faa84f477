import Verif.Spec.ProgOK

/-!
# A concrete program, to show that the hypotheses of the machine theorems can be met

Values are bytes.  Four classes of options by address modulo 4:
* 0: a one-byte handle class with non-trivial members, no levels (flag storage);
* 1: a 16-byte polymorphic class (vtable pointer, then a byte), non-trivial members, levels in the vtable pointer;
* 2: `unsigned char` (scalar, flag storage);
* 3: `bool` (scalar, levels).
-/

namespace Opt.Demo

def handle : Elem Byte :=
  { T := .plain 1 1, decode := fun bs => bs.getD 0 0, trivDtor := false, trivCopyCtor := false, trivCopyAssign := false,
    trivMoveCtor := false, trivMoveAssign := false, scalar := false }

def poly : Elem Byte :=
  { T := .polymorphic 16 8, decode := fun bs => bs.getD 8 0, trivDtor := false, trivCopyCtor := false,
    trivCopyAssign := false, trivMoveCtor := false, trivMoveAssign := false, scalar := false }

def uchar : Elem Byte :=
  { T := .plain 1 1, decode := fun bs => bs.getD 0 0, trivDtor := true, trivCopyCtor := true, trivCopyAssign := true,
    trivMoveCtor := true, trivMoveAssign := true, scalar := true }

def boolean : Elem Byte :=
  { T := .bool, decode := fun bs => bs.getD 0 0, trivDtor := true, trivCopyCtor := true, trivCopyAssign := true,
    trivMoveCtor := true, trivMoveAssign := true, scalar := true }

/-- the class of an address -/
def elemOf : Nat → Elem Byte
  | 0 => handle
  | 1 => poly
  | 2 => uchar
  | _ => boolean

/-- a live object of class 1 -/
def polyBytes (v : Byte) : Bytes := leBytes 8 0x401000 ++ [v] ++ List.replicate 7 0

/-- a live object -/
def bytesOf (c : Nat) (v : Byte) : Bytes := if c = 1 then polyBytes v else [v]

/-- size of the option storage of a class -/
def storage : Nat → Nat
  | 0 => 2
  | 1 => 16
  | 2 => 2
  | _ => 1

/-- `thr`: which calls throw; `clobber`: what a throwing constructor leaves in its storage -/
def prog (cxx20 : Bool) (thr : Nat → Bool) (clobber : Nat → Bytes → Bytes) : Prog Byte where
  pw := 64
  cxx20 := cxx20
  cls := fun i => i % 4
  elemOf := elemOf
  throwsAt := thr
  garbage := fun i _ => List.replicate (storage (i % 4)) 0xAA
  build := fun i _ v _ => bytesOf (i % 4) v
  partial_ := fun i _ _ old => clobber (i % 4) old
  dead := fun _ _ old => old
  moved := fun _ _ _ _ => 0
  selfMoved := fun _ _ v => v
  broken := fun _ _ _ v => v
  conv := fun c _ v => if c = 0 ∨ c = 1 ∨ c = 2 then v else v &&& 1

/-- a throwing constructor leaves the storage alone -/
def tidy : Nat → Bytes → Bytes := fun _ old => old

/-- a throwing constructor of the polymorphic class has already written the vtable pointer -/
def vptrFirst : Nat → Bytes → Bytes := fun c old => if c = 1 then leBytes 8 0x401000 ++ old.drop 8 else old

/-- Some options of `prog`: 0 (handle) holds 7; 1 (polymorphic) holds 5; 2 (`unsigned char`) holds 9; 3 (`bool`) and 4
(handle) and 5 (polymorphic) are empty; 9 (polymorphic) holds 6. -/
def world : World :=
  ⟨fun i =>
    match i with
    | 0 => some ⟨[7, 1], true⟩
    | 1 => some ⟨polyBytes 5, true⟩
    | 2 => some ⟨[9, 1], true⟩
    | 3 => some ⟨[2], false⟩
    | 4 => some ⟨[0xAA, 0], false⟩
    | 5 => some ⟨leBytes 8 0xFFFFFFFFFFFEA3C0 ++ List.replicate 8 0, false⟩
    | 9 => some ⟨polyBytes 6, true⟩
    | _ => none, ⟨0, []⟩⟩

/-- A one-byte handle whose move assignment is trivial although its destructor is not. -/
def lentHandle : Elem Byte := { handle with trivMoveAssign := true }

/-- C++17; every option is of `lentHandle` -/
def lent : Prog Byte :=
  { prog false (fun _ => false) tidy with
    cls := fun _ => 0
    elemOf := fun _ => lentHandle
    garbage := fun _ _ => [0xAA, 0xAA]
    build := fun _ _ v _ => [v] }

/-- C++17; every option is of the one-byte handle with a flag -/
def lent17 (thr : Nat → Bool) : Prog Byte := { lent with elemOf := fun _ => handle, throwsAt := thr }

end Opt.Demo
