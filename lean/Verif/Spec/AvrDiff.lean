import Verif.Avr.Step
import Verif.Spec.Avr
/-
What the AVR simulator is compared with, and where it departs from the manual.
-/
namespace Ucsim.Avr

/-- The machine of the manual a state of the simulator stands for. -/
def abs (s : St) : Isa.Mach := { prog := s.rom, mem := fun a => rd s a.toNat, pc := BitVec.ofNat 16 s.pc, asleep := s.sleep }

open Isa (Ins Mach reg pair flag carry)

/-- SBC, SBCI, CPC: the simulator's result is 0 or 1, whether the difference is 0 or not. -/
def SbcOk (x y : Byte) (c : Nat) : Prop := x.toInt - y.toInt - c = 0 ∨ x - y - BitVec.ofNat 8 c = 1#8

instance (x y : Byte) (c : Nat) : Decidable (SbcOk x y c) := by unfold SbcOk; infer_instance

/-- A displacement of `n` bits as a number. -/
def relInt (n k : Nat) : Int := if k < 2 ^ (n - 1) then k else k - 2 ^ n

/-- A jump over the end of the program memory to exactly the word 0x10000 stays there. -/
def AtEnd (m : Mach) (n k : Nat) : Prop := m.pc.toNat + relInt n k = 0x10000

instance (m : Mach) (n k : Nat) : Decidable (AtEnd m n k) := by unfold AtEnd; infer_instance

/-- Only the addresses below 0x80 of the data memory have cells of their own. -/
def NoRam (a : BitVec 16) : Prop := 0x80 ≤ a.toNat

instance (a : BitVec 16) : Decidable (NoRam a) := by unfold NoRam; infer_instance

/-- One of the two bytes of a return address would be stored outside. -/
def NoStack (m : Mach) : Prop := NoRam (pair m Isa.SP) ∨ NoRam (pair m Isa.SP - 1)

instance (m : Mach) : Decidable (NoStack m) := by unfold NoStack; infer_instance

/-- A skip by CPSE, SBRC, SBRS: the next instruction is unknown to the disassembler, or the skip
ends at the end of the program memory. -/
def SkipBad (m : Mach) : Prop :=
  disEntry (m.prog m.pc).toNat = none ∨ m.pc.toNat + Isa.skipped m = 0x10000

instance (m : Mach) : Decidable (SkipBad m) :=
  decidable_of_iff ((disEntry (m.prog m.pc).toNat).isNone = true ∨ m.pc.toNat + Isa.skipped m = 0x10000) (by rw [Option.isNone_iff_eq_none]; rfl)

/-- A skip by SBIC, SBIS takes the length of the instruction at the address equal to the code. -/
def SkipFar (m : Mach) : Prop := Isa.twoWords (m.prog m.pc).toNat ≠ Isa.twoWords (m.prog (m.prog m.pc)).toNat

instance (m : Mach) : Decidable (SkipFar m) := by unfold SkipFar; infer_instance

/-- The pointer register and the operand are the same (undefined by the manual), or the pointer
points to itself (the order of the two updates is not documented). -/
def Alias (d p : Nat) (a : BitVec 16) : Prop := d = p ∨ d = p + 1 ∨ a = BitVec.ofNat 16 p ∨ a = BitVec.ofNat 16 (p + 1)

instance (d p : Nat) (a : BitVec 16) : Decidable (Alias d p a) := by unfold Alias; infer_instance

/-- The instructions that the simulator executes otherwise than the manual, in the machine `m` past
the first word. -/
def Differs (i : Ins) (m : Mach) : Prop :=
  let x := reg m i.x
  let y := reg m i.y
  let k := BitVec.ofNat 8 i.y
  match i.op with
  -- not implemented; BREAK is taken for SLEEP
  | .brk | .movw | .muls | .mulsu | .fmul | .fmuls | .fmulsu | .lpm | .lpmp => True
  -- half carry without the carry in
  | .adc => flag m 0 = true ∧ x.toNat % 16 + y.toNat % 16 = 15
  -- the two halves of the constant are or-ed
  | .cpi | .subi => 16 ≤ i.y
  | .sbci => 16 ≤ i.y ∨ ¬ SbcOk x k (carry m)
  | .sbc | .cpc => ¬ SbcOk x y (carry m)
  -- the other half of the register file
  | .ori => reg m (i.x - 16) ||| k ≠ x ||| k
  | .andi => reg m (i.x - 16) &&& k ≠ x &&& k
  -- half carry from the number of the register
  | .neg => ((-x).getLsbD 3 && !i.x.testBit 3) ≠ decide (x.toNat % 16 ≠ 0)
  | .ror => 2 ≤ x.toNat
  -- Z
  | .mul => flag m 1 ≠ decide (x.toNat * y.toNat = 0)
  -- V and S
  | .adiw => (pair m i.x + BitVec.ofNat 16 i.y).msb = true
  | .sbiw => 32 ≤ i.y
  -- the address of the byte is taken for that of the word
  | .lpm0 => Isa.progByte m (pair m Isa.Z) ≠
      if (pair m Isa.Z).getLsbD 0 then (m.prog (pair m Isa.Z)).extractLsb' 8 8 else (m.prog (pair m Isa.Z)).extractLsb' 0 8
  | .push => NoRam (pair m Isa.SP)
  | .rcall => NoStack m ∨ AtEnd m 12 i.x
  | .icall => NoStack m ∨ pair m Isa.SP = 30#16 ∨ pair m Isa.SP = 31#16 ∨ pair m Isa.SP = 32#16
  | .call => NoStack m ∨ (i.x = 1 ∧ m.prog m.pc = 0#16)
  | .jmp => i.x = 1 ∧ m.prog m.pc = 0#16
  | .rjmp => AtEnd m 12 i.x
  | .brbs => flag m i.x = true ∧ AtEnd m 7 i.y
  | .brbc => flag m i.x = false ∧ AtEnd m 7 i.y
  | .cpse => x = y ∧ SkipBad m
  | .sbrc => x.getLsbD i.y = false ∧ SkipBad m
  | .sbrs => x.getLsbD i.y = true ∧ SkipBad m
  | .sbic => (reg m (0x20 + i.x)).getLsbD i.y = false ∧ SkipFar m
  | .sbis => (reg m (0x20 + i.x)).getLsbD i.y = true ∧ SkipFar m
  | .lddY => 0x10000 ≤ (pair m Isa.Y).toNat + i.y
  | .lddZ => 0x10000 ≤ (pair m Isa.Z).toNat + i.y
  | .stdY => 0x80 ≤ (pair m Isa.Y).toNat + i.y
  | .stdZ => 0x80 ≤ (pair m Isa.Z).toNat + i.y
  | .sts => NoRam (m.prog m.pc)
  | .stX => NoRam (pair m Isa.X)
  | .ldXp => i.x = Isa.X ∨ i.x = Isa.X + 1
  | .ldYp => i.x = Isa.Y ∨ i.x = Isa.Y + 1
  | .ldZp => i.x = Isa.Z ∨ i.x = Isa.Z + 1
  | .ldmX => Alias i.x Isa.X (pair m Isa.X - 1)
  | .ldmY => Alias i.x Isa.Y (pair m Isa.Y - 1)
  | .ldmZ => Alias i.x Isa.Z (pair m Isa.Z - 1)
  | .stXp => NoRam (pair m Isa.X) ∨ Alias i.x Isa.X (pair m Isa.X)
  | .stYp => NoRam (pair m Isa.Y) ∨ Alias i.x Isa.Y (pair m Isa.Y)
  | .stZp => NoRam (pair m Isa.Z) ∨ Alias i.x Isa.Z (pair m Isa.Z)
  | .stmX => NoRam (pair m Isa.X - 1) ∨ Alias i.x Isa.X (pair m Isa.X - 1)
  | .stmY => NoRam (pair m Isa.Y - 1) ∨ Alias i.x Isa.Y (pair m Isa.Y - 1)
  | .stmZ => NoRam (pair m Isa.Z - 1) ∨ Alias i.x Isa.Z (pair m Isa.Z - 1)
  | _ => False

instance (i : Ins) (m : Mach) : Decidable (Differs i m) := by unfold Differs; cases i.op <;> infer_instance

/-- Words that are no instructions, but executed by the simulator: other forms of RET, RETI, WDR,
IJMP, ICALL, SBRC, SBRS, and ELPM, SPM, EIJMP, EICALL (which do nothing). -/
def accepted (c : Nat) : Bool :=
  if c < 0x9000 then false
  else if 0xfc00 ≤ c then c / 8 % 2 == 1
  else if 0x9600 ≤ c then false
  else if c < 0x9200 then c % 16 == 6 || c % 16 == 7
  else if c < 0x9400 then false
  else if c % 16 == 9 then c != 0x9409 && c != 0x9509
  else c == 0x95d8 || c == 0x95e8 || c == 0x95f8 || c == 0x95b8
    || c == 0x9528 || c == 0x9548 || c == 0x9568 || c == 0x9538 || c == 0x9558 || c == 0x9578

end Ucsim.Avr
