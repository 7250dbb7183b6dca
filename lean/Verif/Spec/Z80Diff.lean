import Verif.Spec.Z80

/-
Where the simulator is known not to do what the manual says (each is shown in
Props/Z80.lean), in terms of the manual's machine before the instruction.
-/
namespace Ucsim.Z80.Isa

/-- ADC and SBC: H is wrong when the carry overflows the low four bits of the operand. -/
def aluDiffers (m : Mach) (o : BitVec 3) (v : Byte) : Prop := (o = 1 ∨ o = 3) ∧ m.f.cy = true ∧ v.toNat % 16 = 15

/-- The target of a relative jump lies outside of 0..0xffff. -/
def relDiffers (m : Mach) : Prop :=
  ¬ (0 ≤ ((m.pc + 2).toNat : Int) + (m.mem (m.pc + 1)).toInt ∧ ((m.pc + 2).toNat : Int) + (m.mem (m.pc + 1)).toInt < 0x10000)

/-- The two bytes pushed wrap around, or they overwrite the two bytes of the operand. -/
def callDiffers (m : Mach) : Prop :=
  m.sp = 1#16 ∨ m.sp - 1 = m.pc + 1 ∨ m.sp - 1 = m.pc + 2 ∨ m.sp - 2 = m.pc + 1 ∨ m.sp - 2 = m.pc + 2

def Differs (m : Mach) (len : Nat) : Ins → Prop
  | .other => True
  | .alu o s => aluDiffers m o (m.get s)
  | .alun o => aluDiffers m o (m.imm8 len)
  | .adcHL p | .sbcHL p => m.f.cy = true ∧ (m.pair p).toNat % 4096 = 4095
  | .rot k p => p ≠ .reg 7 ∧ evenOnes m.a ≠ evenOnes (rotate k m.f.cy (m.get p)).1
  | .daa => daaTable m.f.n m.f.cy m.f.h (m.a.toNat / 16) (m.a.toNat % 16) = none
  | .inR _ => ¬ (m.f.s = neg8 (m.inp m.c) ∧ m.f.z = ((m.inp m.c).toNat == 0) ∧ m.f.h = false)
  | .rrd => m.f ≠ Mach.ioFlags m.f (BitVec.ofNat 8 (m.a.toNat / 16 * 16 + (m.mem m.HL).toNat % 16))
  | .rld => m.f ≠ Mach.ioFlags m.f (BitVec.ofNat 8 (m.a.toNat / 16 * 16 + (m.mem m.HL).toNat / 16))
  | .ldPM _ | .stMP _ => m.imm16 len = 0xffff#16
  | .push _ | .rst _ => m.sp = 1#16
  | .pop _ | .exsp _ | .ret => m.sp = 0xffff#16
  | .retc c => m.cond c = true ∧ m.sp = 0xffff#16
  | .retn => m.iff2 = true ∨ m.sp = 0xffff#16
  | .reti => m.iff1 = true ∨ m.iff2 = true ∨ m.sp = 0xffff#16
  | .call => callDiffers m
  | .callc c => m.cond c = true ∧ callDiffers m
  | .jr => relDiffers m
  | .jrc c => m.cond c = true ∧ relDiffers m
  | .djnz => (m.b - 1).toNat ≠ 0 ∧ relDiffers m
  | .bcp false false => m.f.cy ≠ decide (m.a.toNat < (m.mem m.HL).toNat) ∨
      (m.BC = 1#16 ∧ over8 (m.a.toInt - (m.mem m.HL).toInt) = true)
  | .bcp false true => m.a.toNat % 16 < (m.mem m.HL).toNat % 16
  | .bcp true _ | .bin _ _ | .bout _ _ => True
  | _ => False

/-- Some instructions; `us`: what each of them finds of the things left open. -/
def run : List Und → Mach → Mach
  | [], m => m
  | u :: us, m => run us (step u m)

end Ucsim.Z80.Isa
