import Verif.Spec.I80

/-
Where the simulator is known not to do what the manual says (each is shown in
Props/I80.lean), in terms of the manual's machine before the instruction.
-/
namespace Ucsim.I80.Isa

/-- Accumulator operation `o` on `v`. -/
def aluDiffers (is85 : Bool) (m : Mach) (o : BitVec 3) (v : Byte) : Prop :=
  match o.toNat with
  | 1 => m.cy = true ∧ v.toNat % 16 = 15
  | 2 | 7 => v.toNat % 16 = 0
  | 3 => if m.cy then m.a = v else v.toNat % 16 = 0
  | 4 => is85 = false ∧ m.a.getLsbD 3 = false ∧ v.getLsbD 3 = false
  | _ => False

/-- Where DAA is right: AC tells whether the low digit is above 9; with carry, A is at least
0x9A; and Z, S, P already describe A if there is nothing to correct. -/
def DaaOk (m : Mach) : Prop :=
  m.ac = decide (9 < m.a.toNat % 16) ∧ (m.cy = true → 0x9a ≤ m.a.toNat) ∧
  (m.ac = false → m.cy = false → m.a.toNat < 0xa0 → m.zsp m.a = m)

def Differs (is85 : Bool) (m : Mach) : Ins → Prop
  | .inp | .out | .other => True
  | .alu o s => aluDiffers is85 m o (m.reg s)
  | .alui o => aluDiffers is85 m o m.imm8
  | .daa => ¬ DaaOk m
  | .rst n => n.getLsbD 1 = true
  | .lhld | .shld => m.imm16 = 0xffff#16
  | .xthl => m.sp = 0xffff#16
  | _ => False

end Ucsim.I80.Isa

namespace Ucsim.I80.Isa

/-- Some instructions; `xs`: the undefined bits each PUSH PSW finds. -/
def run (is85 : Bool) (u : Byte) : List Byte → Mach → Mach
  | [], m => m
  | x :: xs, m => run is85 u xs (step is85 u x m)

/-- The 8080 as its manual tells it: bit 1 of the flag byte is 1, bits 3 and 5 are 0. -/
def step80 (m : Mach) : Mach := step false 0x2a#8 0x02#8 m

def run80 : Nat → Mach → Mach
  | 0, m => m
  | n + 1, m => run80 n (step80 m)

/-- On the 8080 POP PSW must not find anything else in these bits. -/
def PopOther (m : Mach) (i : Ins) : Prop := i = .popPsw ∧ loByte m.top &&& 0x2a#8 ≠ 0x02#8

/-- The machine without its AC bit. -/
def Mach.noAc (m : Mach) : Mach := { m with ac := false }

/-- Accumulator operations that go wrong in more than AC. -/
def aluWrong (m : Mach) (o : BitVec 3) (v : Byte) : Prop :=
  match o.toNat with
  | 1 => m.cy = true ∧ v = 0xff#8
  | 3 => m.cy = true ∧ m.a = v
  | _ => False

/-- Where more than AC is known to differ. -/
def Wrong (m : Mach) : Ins → Prop
  | .inp | .out | .other | .daa => True
  | .alu o s => aluWrong m o (m.reg s)
  | .alui o => aluWrong m o m.imm8
  | .rst n => n.getLsbD 1 = true
  | .lhld | .shld => m.imm16 = 0xffff#16
  | .xthl => m.sp = 0xffff#16
  | _ => False

end Ucsim.I80.Isa
