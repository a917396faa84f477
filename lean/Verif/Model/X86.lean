import Verif.Model.Bytes

/-!
# The x86-64 instructions in test/codegen/sample.cpp

The part of the instruction set that the disassembly expected by the tests consists of, in the syntax of `llvm-objdump` (test/codegen/run.py
22-23): moves, arithmetic that sets the zero and the carry flag, `setcc`, and forward jumps.

Simplification: memory is one array of bytes that can be read and written everywhere; the other flags and registers do not occur.
-/

namespace Opt.X86

inductive Reg where
  | rax | rcx | rdx | rsi | rdi | rsp
deriving DecidableEq, Repr

/-- `byte`, `word`, `dword`, `qword` -/
inductive Width where
  | b | w | d | q
deriving DecidableEq, Repr

def Width.bytes : Width → Nat
  | b => 1
  | w => 2
  | d => 4
  | q => 8

/-- a register or its low part, `[base + disp]`, or a constant -/
inductive Opnd where
  | reg (r : Reg)
  | mem (base : Reg) (disp : Int)
  | imm (v : Int)
deriving DecidableEq, Repr

inductive Alu where
  | add | sub | and_ | or_ | xor | cmp | test
deriving DecidableEq, Repr

/-- conditions of `setcc`: not equal, below, above -/
inductive Cond where
  | ne | b | a
deriving DecidableEq, Repr

inductive Instr where
  | mov (sz : Width) (dst src : Opnd)
  /-- a byte into a 32-bit register -/
  | movzx (dst src : Opnd)
  | alu (op : Alu) (sz : Width) (dst src : Opnd)
  | set (c : Cond) (r : Reg)
  | je (l : Nat)
  | label (l : Nat)
  | ret
deriving DecidableEq, Repr

abbrev Mem : Type := BitVec 64 → Byte

/-- registers, memory, zero flag, carry flag -/
structure State where
  reg : Reg → BitVec 64
  mem : Mem
  zf : Bool
  cf : Bool

/-- the bytes at an address -/
def read (m : Mem) (a : BitVec 64) (n : Nat) : Bytes := (List.range n).map fun k => m (a + BitVec.ofNat 64 k)

/-- store bytes at an address -/
def write (m : Mem) (a : BitVec 64) (bs : Bytes) : Mem := fun x => bs[(x - a).toNat]?.getD (m x)

namespace State

/-- `[base + disp]` -/
def addr (s : State) (base : Reg) (disp : Int) : BitVec 64 := s.reg base + BitVec.ofInt 64 disp

/-- the low `sz` of a value -/
def low (sz : Width) (v : BitVec 64) : BitVec 64 := (v.setWidth (8 * sz.bytes)).setWidth 64

/-- the value of an operand -/
def get (s : State) (sz : Width) : Opnd → BitVec 64
  | .reg r => low sz (s.reg r)
  | .mem r d => BitVec.ofNat 64 (leVal (read s.mem (s.addr r d) sz.bytes))
  | .imm v => low sz (BitVec.ofInt 64 v)

/-- a register after its low part was written: 32 bits clear the rest, 8 and 16 bits keep it -/
def merge (sz : Width) (old v : BitVec 64) : BitVec 64 :=
  match sz with
  | .q => v
  | .d => low .d v
  | .w => (old &&& ~~~ 0xffff#64) ||| low .w v
  | .b => (old &&& ~~~ 0xff#64) ||| low .b v

/-- write an operand -/
def put (s : State) (sz : Width) (v : BitVec 64) : Opnd → State
  | .reg r => { s with reg := fun x => if x = r then merge sz (s.reg r) v else s.reg x }
  | .mem r d => { s with mem := write s.mem (s.addr r d) (leBytes sz.bytes v.toNat) }
  | .imm _ => s

/-- result and carry -/
def compute (sz : Width) (op : Alu) (x y : BitVec 64) : BitVec 64 × Bool :=
  match op with
  | .add => (low sz (x + y), decide (2 ^ (8 * sz.bytes) ≤ x.toNat + y.toNat))
  | .sub | .cmp => (low sz (x - y), decide (x.toNat < y.toNat))
  | .and_ | .test => (x &&& y, false)
  | .or_ => (x ||| y, false)
  | .xor => (x ^^^ y, false)

/-- does a condition hold -/
def holds (s : State) : Cond → Bool
  | .ne => !s.zf
  | .b => s.cf
  | .a => !s.cf && !s.zf

/-- one instruction that is no jump -/
def step (s : State) : Instr → State
  | .mov sz d x => s.put sz (s.get sz x) d
  | .movzx d x => s.put .d (s.get .b x) d
  | .alu op sz d x =>
    let r := compute sz op (s.get sz d) (s.get sz x)
    let t := { s with zf := decide (r.1 = 0), cf := r.2 }
    match op with
    | .cmp | .test => t
    | _ => t.put sz r.1 d
  | .set c r => s.put .b (if s.holds c then 1 else 0) (.reg r)
  | .je _ | .label _ | .ret => s

end State

/-- run until `ret`; `skip`: a jump is on its way to a label further down -/
def exec : List Instr → (skip : Option Nat) → State → Option State
  | [], _, _ => none
  | .label l :: is, some k, s => exec is (if l = k then none else some k) s
  | _ :: is, some k, s => exec is (some k) s
  | .ret :: _, none, s => some s
  | .je l :: is, none, s => exec is (if s.zf then some l else none) s
  | i :: is, none, s => exec is none (s.step i)

/-- run a function -/
def run (code : List Instr) (s : State) : Option State := exec code none s

end Opt.X86
