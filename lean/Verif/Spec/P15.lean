import Verif.P15.Step
/-
What the instructions of the P1516 and P2223 are documented to do: the texts of the disassembler
tables (/repo/src/sims/p1516.src/glob.cc 33-187) and the names of the operations and conditions.
Nothing here uses the functions of the model, only its state.
-/
namespace Ucsim.P15.Spec

/-- The value of a register as an operand: R15 is the address of the next instruction. -/
def src (s : St) (r : Rn) : Wd := if r = 15 then s.R 15 + 1 else s.R r

/-- One instruction of `clk` clocks that gives the registers `w` new values, and does nothing else
to registers and memory: all others keep theirs, R15 goes to the next instruction, and PC follows
R15.  Flags are described separately. -/
structure Next (clk : Nat) (s s' : St) (w : Rn → Option Wd) : Prop where
  regs : ∀ r, s'.R r = (w r).getD (src s r)
  pc : s'.PC = s'.R 15
  mem : s'.mem = s.mem
  dummy : s'.dummy = s.dummy
  ticks : s'.ticks = s.ticks + clk

/-- only `d` is written -/
def to (d : Rn) (v : Wd) : Rn → Option Wd := fun r => if r = d then some v else none
/-- no register is written -/
def keep : Rn → Option Wd := fun _ => none

/-- the destination `d` gets the value, if there is one -/
def res (d : Rn) : Option Wd → Rn → Option Wd
  | some v => to d v
  | none => keep

/-- The word of an existing address. -/
def word (s : St) (a : Wd) : Option Wd := if a.toNat < 0x20000 then some (s.mem a) else none

/-- One instruction of `clk` clocks that stores `v` in the word `a` and writes the registers `w`. -/
structure Store (clk : Nat) (s s' : St) (w : Rn → Option Wd) (a v : Wd) : Prop where
  regs : ∀ r, s'.R r = (w r).getD (src s r)
  pc : s'.PC = s'.R 15
  there : s'.mem a = v
  others : ∀ x, x ≠ a → s'.mem x = s.mem x
  dummy : s'.dummy = s.dummy
  flags : s'.F = s.F
  ticks : s'.ticks = s.ticks + clk

/-- the registers after a call: R14 has the address of the instruction after the call -/
def calls (s : St) (target : Wd) : Rn → Option Wd :=
  fun r => if r = 15 then some target else if r = 14 then some (s.R 15 + 1) else none

/-- The four arithmetic flags. -/
structure Flags where
  n : Bool
  z : Bool
  c : Bool
  v : Bool
  deriving DecidableEq

/-- F: bit 0 sign, 1 carry, 2 zero, 3 overflow -/
def flags (F : Wd) : Flags := { n := F.getLsbD 0, c := F.getLsbD 1, z := F.getLsbD 2, v := F.getLsbD 3 }

/-- the bits of F above the four flags -/
def rest (F : Wd) : Wd := F >>> 4

def inRange (i : Int) : Prop := -2 ^ 31 ≤ i ∧ i < 2 ^ 31
instance (i : Int) : Decidable (inRange i) := inferInstanceAs (Decidable (_ ∧ _))

/-- a + b + carry: the sum as unsigned numbers does not fit: C; as signed numbers: V. -/
def addFlags (a b : Wd) (c : Bool) : Flags :=
  { n := decide ((a + b + (if c then 1 else 0)).toInt < 0), z := decide (a + b + (if c then 1 else 0) = 0),
    c := decide (2 ^ 32 ≤ a.toNat + b.toNat + c.toNat), v := decide (¬inRange (a.toInt + b.toInt + c.toNat)) }

/-- a - b - borrow, the borrow being the complement of C: C is set when there is no borrow. -/
def subFlags (a b : Wd) (c : Bool) : Flags :=
  { n := decide ((a - b - (if c then 0 else 1)).toInt < 0), z := decide (a - b - (if c then 0 else 1) = 0),
    c := decide (b.toNat + (!c).toNat ≤ a.toNat), v := decide (¬inRange (a.toInt - b.toInt - (!c).toNat)) }

/-! ### P1516 -/

/-- The operations of the ALU, with the numbers the assembler gives them. -/
inductive Op
  | add | addc | sub | sbb | inc | dec | and | or | xor | shl | shr | rol | ror | mul | div | cmp | sha | setc | clrc | muh
  deriving DecidableEq, Repr

def Op.num : Op → Nat
  | .add => 0 | .addc => 1 | .sub => 2 | .sbb => 3 | .inc => 4 | .dec => 5 | .and => 6 | .or => 7 | .xor => 8 | .shl => 9
  | .shr => 10 | .rol => 11 | .ror => 12 | .mul => 13 | .div => 14 | .cmp => 15 | .sha => 16 | .setc => 17 | .clrc => 18 | .muh => 19

/-- The value the destination gets, none: no destination. -/
def Op.value (a b : Wd) (c : Bool) : Op → Option Wd
  | .add => some (a + b)
  | .addc => some (a + b + (if c then 1 else 0))
  | .sub => some (a - b)
  | .sbb => some (a - b - (if c then 0 else 1))
  | .inc => some (a + 1)
  | .dec => some (a - 1)
  | .and => some (a &&& b)
  | .or => some (a ||| b)
  | .xor => some (a ^^^ b)
  | .shl => some (BitVec.ofNat 32 (2 * a.toNat))
  | .shr => some (BitVec.ofNat 32 (a.toNat / 2))
  | .rol => some (BitVec.ofNat 32 (2 * a.toNat + c.toNat))
  | .ror => some (BitVec.ofNat 32 ((a.toNat + c.toNat * 2 ^ 32) / 2))
  | .mul => some (BitVec.ofNat 32 (a.toNat * b.toNat))
  | .muh => some (BitVec.ofNat 32 (a.toNat * b.toNat / 2 ^ 32))
  | .div => some (BitVec.ofNat 32 (a.toNat / b.toNat))
  | .sha => some (BitVec.ofInt 32 (a.toInt / 2))
  | .cmp | .setc | .clrc => none

/-- The flags after the operation, of the flags before. -/
def Op.flags (a b : Wd) (f : Flags) : Op → Flags
  | .add => addFlags a b false
  | .addc => addFlags a b f.c
  | .sub | .cmp => subFlags a b true
  | .sbb => subFlags a b f.c
  | .inc => addFlags a 1 false
  | .dec => subFlags a 1 true
  | .and => { f with z := decide (a &&& b = 0) }
  | .or => { f with z := decide (a ||| b = 0) }
  | .xor => { f with z := decide (a ^^^ b = 0) }
  | .shl => { f with c := decide (2 ^ 31 ≤ a.toNat), z := decide (BitVec.ofNat 32 (2 * a.toNat) = 0) }
  | .shr => { f with c := decide (a.toNat % 2 = 1), z := decide (a.toNat / 2 = 0) }
  | .sha => { f with c := decide (a.toNat % 2 = 1), z := decide (a.toInt / 2 = 0) }
  | .rol => { f with c := decide (2 ^ 31 ≤ a.toNat), z := decide (BitVec.ofNat 32 (2 * a.toNat + f.c.toNat) = 0) }
  | .ror => { f with c := decide (a.toNat % 2 = 1), z := decide ((a.toNat + f.c.toNat * 2 ^ 32) / 2 = 0) }
  | .mul => { f with z := decide (BitVec.ofNat 32 (a.toNat * b.toNat) = 0), n := decide ((BitVec.ofNat 32 (a.toNat * b.toNat)).toInt < 0) }
  | .muh => { f with z := decide (a.toNat * b.toNat / 2 ^ 32 = 0), n := decide (2 ^ 63 ≤ a.toNat * b.toNat) }
  | .div => f
  | .setc => { f with c := true }
  | .clrc => { f with c := false }

/-- The condition of an instruction word of the P1516: bit 28 says that there is one, bits 31-30
say which flag (S, C, Z, O), bit 29 the value it must have. -/
def holds15 (f : Flags) (code : Wd) : Prop :=
  code.getLsbD 28 = true →
    (match code.getLsbD 31, code.getLsbD 30 with
      | false, false => f.n
      | false, true => f.c
      | true, false => f.z
      | true, true => f.v) = code.getLsbD 29

/-- The parts of an instruction word of the P1516 that is not a call: the group, and the registers. -/
structure Enc15 (code : Wd) (grp : Nat) (d a : Rn) : Prop where
  grp : code.toNat / 2 ^ 24 % 16 = grp
  d : code.toNat / 2 ^ 20 % 16 = d.toNat
  a : code.toNat / 2 ^ 16 % 16 = a.toNat

/-- The parts of an ALU instruction. -/
structure Alu15 (code : Wd) (o : Op) (d a b : Rn) : Prop extends Enc15 code 7 d a where
  b : code.toNat / 2 ^ 12 % 16 = b.toNat
  op : code.toNat / 2 ^ 7 % 32 = o.num

/-- The instruction word the machine is about to execute. -/
def at15 (s : St) (code : Wd) : Prop := word s (s.R 15) = some code

/-! ### P2223 -/

/-- The conditions of the P2223. -/
inductive Cc
  | al | eq | ne | cs | cc | mi | pl | vs | vc | hi | ls | ge | lt | gt | le
  deriving DecidableEq, Repr

def Cc.num : Cc → Nat
  | .al => 0 | .eq => 1 | .ne => 2 | .cs => 3 | .cc => 4 | .mi => 5 | .pl => 6 | .vs => 7 | .vc => 8 | .hi => 9 | .ls => 10
  | .ge => 11 | .lt => 12 | .gt => 13 | .le => 14

/-- What a condition says of the flags. -/
def Cc.holds (f : Flags) : Cc → Prop
  | .al => True
  | .eq => f.z = true
  | .ne => f.z = false
  | .cs => f.c = true
  | .cc => f.c = false
  | .mi => f.n = true
  | .pl => f.n = false
  | .vs => f.v = true
  | .vc => f.v = false
  | .hi => f.c = true ∧ f.z = false
  | .ls => f.c = false ∨ f.z = true
  | .ge => f.n = f.v
  | .lt => f.n ≠ f.v
  | .gt => f.z = false ∧ f.n = f.v
  | .le => f.z = true ∨ f.n ≠ f.v

/-- What a condition says of the numbers that were compared: CS (HS), CC (LO), HI, LS are the
unsigned, GE, LT, GT, LE the signed comparisons. -/
def Cc.compares (a b : Wd) : Cc → Option Prop
  | .al => some True
  | .eq => some (a = b)
  | .ne => some (a ≠ b)
  | .cs => some (b.toNat ≤ a.toNat)
  | .cc => some (a.toNat < b.toNat)
  | .hi => some (b.toNat < a.toNat)
  | .ls => some (a.toNat ≤ b.toNat)
  | .ge => some (b.toInt ≤ a.toInt)
  | .lt => some (a.toInt < b.toInt)
  | .gt => some (b.toInt < a.toInt)
  | .le => some (a.toInt ≤ b.toInt)
  | .mi | .pl | .vs | .vc => none

/-- The operations with a destination and a second operand, register or immediate. -/
inductive Op2
  | add | adc | sub | sbb | cmp | mul | plus | btst | test | or | xor | and
  deriving DecidableEq, Repr

def Op2.num : Op2 → Nat
  | .add => 4 | .adc => 5 | .sub => 6 | .sbb => 7 | .cmp => 8 | .mul => 9 | .plus => 10 | .btst => 11 | .test => 12 | .or => 13
  | .xor => 14 | .and => 15

/-- sign and zero of a value -/
def nz (v : Wd) (f : Flags) : Flags := { f with z := decide (v = 0), n := decide (v.toInt < 0) }

def Op2.value (a b : Wd) (c : Bool) : Op2 → Option Wd
  | .add | .plus => some (a + b)
  | .adc => some (a + b + (if c then 1 else 0))
  | .sub => some (a - b)
  | .sbb => some (a - b - (if c then 0 else 1))
  | .mul => some (a * b)
  | .or => some (a ||| b)
  | .xor => some (a ^^^ b)
  | .and => some (a &&& b)
  | .cmp | .btst | .test => none

def Op2.flags (a b : Wd) (f : Flags) : Op2 → Flags
  | .add => addFlags a b false
  | .adc => addFlags a b f.c
  | .sub | .cmp => subFlags a b true
  | .sbb => subFlags a b f.c
  | .plus => f
  | .mul => nz (a * b) f
  | .or => nz (a ||| b) f
  | .xor => nz (a ^^^ b) f
  | .and | .btst | .test => nz (a &&& b) f

/-- The second operand of the immediate form: arithmetic operations take it as a signed number,
and, or, xor and the tests do not; AND takes ones above it. -/
def Op2.imm (o : Op2) (i : BitVec 16) : Wd := match o with
  | .or | .xor | .btst | .test => i.zeroExtend 32
  | .and => 0xffff#16 ++ i
  | _ => i.signExtend 32

/-- The operations of one operand. -/
inductive Op1
  | zeb | zew | seb | sew | not | neg | ror | rol | shl | shr | sha | sz | sec | clc
  deriving DecidableEq, Repr

def Op1.num : Op1 → Nat
  | .zeb => 0 | .zew => 1 | .seb => 2 | .sew => 3 | .not => 4 | .neg => 5 | .ror => 6 | .rol => 7 | .shl => 8 | .shr => 9
  | .sha => 10 | .sz => 11 | .sec => 12 | .clc => 13

def Op1.value (a : Wd) (c : Bool) : Op1 → Option Wd
  | .zeb => some (BitVec.ofNat 32 (a.toNat % 256))
  | .zew => some (BitVec.ofNat 32 (a.toNat % 65536))
  | .seb => some ((a.setWidth 8).signExtend 32)
  | .sew => some ((a.setWidth 16).signExtend 32)
  | .not => some (~~~a)
  | .neg => some (-a)
  | .ror => some (BitVec.ofNat 32 ((a.toNat + c.toNat * 2 ^ 32) / 2))
  | .rol => some (BitVec.ofNat 32 (2 * a.toNat + c.toNat))
  | .shl => some (BitVec.ofNat 32 (2 * a.toNat))
  | .shr => some (BitVec.ofNat 32 (a.toNat / 2))
  | .sha => some (BitVec.ofInt 32 (a.toInt / 2))
  | .sz | .sec | .clc => none

def Op1.flags (a : Wd) (f : Flags) (o : Op1) : Flags :=
  let v := (o.value a f.c).getD a
  match o with
  | .zeb | .zew | .seb | .sew => f
  | .not | .sz => nz v f
  | .neg => subFlags 0 a true
  | .ror | .shr | .sha => nz v { f with c := decide (a.toNat % 2 = 1) }
  | .rol | .shl => nz v { f with c := decide (2 ^ 31 ≤ a.toNat) }
  | .sec => { f with c := true }
  | .clc => { f with c := false }

/-- The parts of an instruction word of the P2223. -/
structure Enc22 (code : Wd) (cc : Nat) (grp : Nat) (d : Rn) (op : Nat) : Prop where
  cc : code.toNat / 2 ^ 28 = cc
  grp : code.toNat / 2 ^ 24 % 16 = grp
  d : code.toNat / 2 ^ 20 % 16 = d.toNat
  op : code.toNat / 2 ^ 16 % 16 = op

/-- The memory instructions: the offset is a register, or a signed immediate.  For the register
forms the instruction says whether the index register is changed, up or down, before or after the
access; for the immediate forms the flags U and P say how a store does it, and a load does the
opposite. -/
structure Mode where
  change : Bool
  up : Bool
  pre : Bool

/-- the index register after the instruction, and the address of the access -/
def Mode.moved (m : Mode) (x : Wd) : Wd := if m.up then x + 1 else x - 1
def Mode.addr (m : Mode) (x off : Wd) : Wd := if m.change && m.pre then m.moved x + off else x + off

/-- the flags P and U: bits 4 and 5 of F -/
def up (F : Wd) : Bool := F.getLsbD 5
def pre (F : Wd) : Bool := F.getLsbD 4

/-- the register numbered by the four bits from bit `lo` on -/
def reg (code : Wd) (lo : Nat) : Rn := BitVec.ofNat 4 (code.toNat / 2 ^ lo)

/-- Bit 26: the offset is the immediate; bit 25: load; bit 24: the index register is changed; bit 15:
up; bit 14: before the access. -/
def modeOf (code : Wd) (F : Wd) : Mode :=
  let ld := code.getLsbD 25
  if code.getLsbD 26 then { change := code.getLsbD 24, up := up F ^^ ld, pre := pre F ^^ ld }
  else { change := code.getLsbD 24, up := code.getLsbD 15, pre := code.getLsbD 14 }

def offOf (s : St) (code : Wd) : Wd :=
  if code.getLsbD 26 then (code.setWidth 16).signExtend 32 else src s (reg code 8)

/-- byte `i` of a word -/
def byte (v : Wd) (i : Nat) : BitVec 8 := v.extractLsb' (8 * i) 8

/-- which byte getb and putb mean: the number in the word, or in a register -/
def byteNo (s : St) (code : Wd) : Nat :=
  if code.getLsbD 15 then code.toNat % 4 else (src s (reg code 0)).toNat % 4

/-! ### numbers of several words -/

/-- The number whose words are in the registers `rs`, the lowest first. -/
def number (R : Rn → Wd) : List Rn → Nat
  | [] => 0
  | r :: rs => (R r).toNat + 2 ^ 32 * number R rs

/-- a register that is written is not a source later, and not written again; R15 is not used -/
def Clean : List (Rn × Rn × Rn) → Prop
  | [] => True
  | (d, a, b) :: l => d ≠ 15 ∧ a ≠ 15 ∧ b ≠ 15 ∧ (∀ e ∈ l, e.1 ≠ d ∧ e.2.1 ≠ d ∧ e.2.2 ≠ d) ∧ Clean l

end Ucsim.P15.Spec
