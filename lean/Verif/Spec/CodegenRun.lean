import Verif.Model.CodegenSample
import Verif.Model.Codegen

/-!
# What the code generation test should establish: compilers, and how the text of code is read
-/

namespace Opt.Run

open Opt.X86 Opt.Codegen

/-- the standard library used with Clang -/
inductive StdLib where
  | libcpp | oldLibstdcpp | libstdcpp
deriving DecidableEq

/-- the compilers that test/codegen/CMakeLists.txt tells apart (14-40) -/
inductive Compiler where
  | msvc | clangCl
  | clang (lib : StdLib)
  | gcc (oldLib : Bool)
  | icx | unknown
deriving DecidableEq

/-- `current_conditions`, a list of CMake (CMakeLists.txt 14-40, 53) -/
def Compiler.conds : Compiler → Text
  | msvc => txt"msvc"
  | clangCl => txt"clang-cl"
  | clang .libcpp => txt"clang;libcpp"
  | clang .oldLibstdcpp => txt"clang;old-libstdcpp"
  | clang .libstdcpp => txt"clang;libstdcpp"
  | gcc false => txt"gcc"
  | gcc true => txt"gcc;old-libstdcpp"
  | icx => txt"icx"
  | unknown => txt"unknown"

/-- compilers for the calling convention of Windows -/
def Compiler.win : Compiler → Bool
  | msvc | clangCl => true
  | _ => false

/-- a listing is used: its condition holds, or it has none and no condition of another listing of the function holds -/
def Used (all : List Section) (ids : List Text) (version : Text) (s : Section) : Prop :=
  match s.conds with
  | some c => matchCondition ids version c = some true
  | none => ∀ o ∈ all, o.name = s.name → ∀ c, o.conds = some c → matchCondition ids version c = some false

/-! ## Reading the text of an instruction (Intel syntax of llvm-objdump) -/

/-- the registers that occur -/
def regOf (t : Text) : Option (Width × Reg) :=
  if t = txt"al" then some (.b, .rax) else if t = txt"dl" then some (.b, .rdx)
  else if t = txt"ax" then some (.w, .rax)
  else if t = txt"eax" then some (.d, .rax) else if t = txt"edx" then some (.d, .rdx)
  else if t = txt"rax" then some (.q, .rax) else if t = txt"rcx" then some (.q, .rcx) else if t = txt"rdx" then some (.q, .rdx)
  else if t = txt"rsi" then some (.q, .rsi) else if t = txt"rdi" then some (.q, .rdi) else if t = txt"rsp" then some (.q, .rsp)
  else none

def hexDigit (c : Char) : Option Nat :=
  if isDigit c then some (c.toNat - '0'.toNat)
  else if 'a'.toNat ≤ c.toNat && c.toNat ≤ 'f'.toNat then some (c.toNat - 'a'.toNat + 10)
  else none

/-- `0x1f` -/
def hexNat : Text → Option Nat
  | '0' :: 'x' :: d :: ds => ((d :: ds).mapM hexDigit).map fun xs => xs.foldl (fun n x => n * 16 + x) 0
  | _ => none

/-- `0x1f` or `-0x1f` -/
def hexInt : Text → Option Int
  | '-' :: r => (hexNat r).map fun n => -(n : Int)
  | r => (hexNat r).map fun n => (n : Int)

/-- `byte ptr [rax]`, `[rax + 0x1]`, `[rax - 0x1]` after the width -/
def memOf (t : Text) : Option Opnd :=
  match t with
  | '[' :: r =>
    match (before ']' r, after [']'] (r ++ ['.'])) with
    | (body, ['.']) =>
      match splitOn ' ' body with
      | [b] => (regOf b).bind fun (w, g) => if w = .q then some (.mem g 0) else none
      | [b, sign, d] => (regOf b).bind fun (w, g) => (hexNat d).bind fun n =>
          if w = .q then
            (if sign = ['+'] then some (.mem g n) else if sign = ['-'] then some (.mem g (-(n : Int))) else none)
          else none
      | _ => none
    | _ => none
  | _ => none

/-- an operand, and its width if it has one -/
def opndOf (t : Text) : Option (Option Width × Opnd) :=
  if (txt"byte ptr ").isPrefixOf t then (memOf (t.drop 9)).map fun m => (some .b, m)
  else if (txt"word ptr ").isPrefixOf t then (memOf (t.drop 9)).map fun m => (some .w, m)
  else if (txt"dword ptr ").isPrefixOf t then (memOf (t.drop 10)).map fun m => (some .d, m)
  else if (txt"qword ptr ").isPrefixOf t then (memOf (t.drop 10)).map fun m => (some .q, m)
  else match regOf t with
    | some (w, g) => some (some w, .reg g)
    | none => (hexInt t).map fun i => (none, .imm i)

def aluOf (t : Text) : Option Alu :=
  if t = txt"add" then some .add else if t = txt"sub" then some .sub else if t = txt"and" then some .and_
  else if t = txt"or" then some .or_ else if t = txt"xor" then some .xor else if t = txt"cmp" then some .cmp
  else if t = txt"test" then some .test else none

def condOf (t : Text) : Option Cond :=
  if t = txt"setne" then some .ne else if t = txt"setb" then some .b else if t = txt"seta" then some .a else none

/-- `<L0>` -/
def labelOf (t : Text) : Option Nat :=
  match t with
  | '<' :: 'L' :: r =>
    if r.getLast? = some '>' then parseInt r.dropLast else none
  | _ => none

/-- two operands of the same width -/
def pairOf (a b : Text) : Option (Width × Opnd × Opnd) :=
  (opndOf a).bind fun (wa, x) => (opndOf b).bind fun (wb, y) =>
    match wa, wb with
    | some w, none => some (w, x, y)
    | some w, some w' => if w = w' then some (w, x, y) else none
    | none, _ => none

/-- one line of code -/
def instrOf (t : Text) : Option Instr :=
  if t = txt"ret" then some .ret
  else if t.getLast? = some ':' then (labelOf t.dropLast).map .label
  else
    let op := before ' ' t
    let args := (splitOn ',' (after [' '] t)).map strip
    match args with
    | [a] =>
      if op = txt"je" then (labelOf a).map .je
      else (condOf op).bind fun c => (regOf a).bind fun (w, g) => if w = .b then some (.set c g) else none
    | [a, b] =>
      if op = txt"mov" || op = txt"movabs" then (pairOf a b).map fun (w, x, y) => .mov w x y
      else if op = txt"movzx" then
        (opndOf a).bind fun (wa, x) => (opndOf b).bind fun (wb, y) =>
          if wa = some .d && wb = some .b then some (.movzx x y) else none
      else (aluOf op).bind fun o => (pairOf a b).map fun (w, x, y) => .alu o w x y
    | _ => none

/-- the lines of a function -/
def codeOf (ls : List Text) : Option (List Instr) := ls.mapM instrOf

end Opt.Run
