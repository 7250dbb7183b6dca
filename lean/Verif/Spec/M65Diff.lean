import Verif.Spec.M65

/-
Where the simulator is known not to do what the manual says (each is shown in
Props/M65.lean), in terms of the manual's machine before the instruction; and where the manual
does not say what happens (decimal mode on bytes that are not decimal).
-/
namespace Ucsim.M65.Isa

/-- A pointer that crosses from page zero to page one. -/
def Mode.Differs (m : Mach) : Mode → Prop
  | .indx => m.op1 + m.x = 0xff#8
  | .indy => m.op1 = 0xff#8
  | _ => False

def Mach.decimal (m : Mach) (v : Byte) : Prop := m.d = true → isBcd m.a ∧ isBcd v

def Differs (m : Mach) : Ins → Prop
  | .other => True
  | .adc k | .sbc k => k.Differs m ∨ ¬ m.decimal (m.operand k)
  | .ora k | .and k | .eor k | .cmp _ k | .ld _ k | .st _ k => k.Differs m
  | .jmpInd => m.op1 = 0xff#8
  | .rts => m.pull 1 = 0xff#8 ∧ m.pull 2 = 0xff#8
  | _ => False

/-- Where the simulator is known not to count the clocks of the manual. -/
def ClkDiffers (m : Mach) : Ins → Prop
  | .nop | .jsr | .brk => True
  | .st .a .absy => m.pageCross .absy = false
  | .st .a .indy => m.pageCross .indy = false
  | .st .a .absx => m.pageCross .absx = true
  | .inc k | .dec k | .asl k | .lsr k | .rol k | .ror k => m.pageCross k = true
  | _ => False

/-- Some instructions; `us`: what becomes of the undefined flags. -/
def run : List Undef → Mach → Mach
  | [], m => m
  | u :: us, m => run us (step u m)

end Ucsim.M65.Isa
