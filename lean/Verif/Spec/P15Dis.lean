import Verif.Spec.P15
import Verif.P15.Dis
/-
What a line of the disassembler says.
-/
namespace Ucsim.P15.Spec

/-- The instructions of the P1516 as the disassembler names them. -/
inductive Ins
  | call | jump (c : Option (Bool × Bool)) | nop | ld | st | ret | mov | ldl0 | ldl | ldh | alu (o : Op)

/-- The instruction a text names.  A conditional jump is on Z or on C (true: on Z), being 1 or 0. -/
def means : String → Option Ins
  | "call  %A" => some (.call)
  | "jz    %O" => some (.jump (some (true, true)))
  | "jnz   %O" => some (.jump (some (true, false)))
  | "jc    %O" => some (.jump (some (false, true)))
  | "jnc   %O" => some (.jump (some (false, false)))
  | "jmp   %O" => some (.jump none)
  | "jump  %O" => some (.jump none)
  | "nop" => some (.nop)
  | "ld    %d:=mem[%R]" => some (.ld)
  | "st    mem[%R]:=%d" => some (.st)
  | "ret" => some (.ret)
  | "mov   %d:=%a" => some (.mov)
  | "ldl0  %d:=%0" => some (.ldl0)
  | "ldl   %d:=%l" => some (.ldl)
  | "ldh   %d:=%h" => some (.ldh)
  | "add   %d:=%a+%b" => some (.alu .add)
  | "addc  %d:=%a+%b" => some (.alu .addc)
  | "sub   %d:=%a-%b" => some (.alu .sub)
  | "sbb   %d:=%a-%b" => some (.alu .sbb)
  | "inc   %d:=%a+1" => some (.alu .inc)
  | "dec   %d:=%a-1" => some (.alu .dec)
  | "and   %d:=%a&%b" => some (.alu .and)
  | "or    %d:=%a|%b" => some (.alu .or)
  | "xor   %d:=%a^%b" => some (.alu .xor)
  | "shl   %d:=u(%a)<<1" => some (.alu .shl)
  | "shr   %d:=u(%a)>>1" => some (.alu .shr)
  | "sha   %d:=s(%a)>>1" => some (.alu .sha)
  | "rol   %d:=(C,%a)<<1" => some (.alu .rol)
  | "ror   %d:=(%a,C)>>1" => some (.alu .ror)
  | "mul   %d:=%a*%b" => some (.alu .mul)
  | "div   %d:=%a/%b" => some (.alu .div)
  | "cmp   F:=%a-%b" => some (.alu .cmp)
  | "setc" => some (.alu .setc)
  | "clrc" => some (.alu .clrc)
  | _ => none

/-- what the printed condition says -/
def shown (f : Flags) : String → Prop
  | "S0 " => f.n = false
  | "S1 " => f.n = true
  | "C0 " => f.c = false
  | "C1 " => f.c = true
  | "Z0 " => f.z = false
  | "Z1 " => f.z = true
  | "O0 " => f.v = false
  | "O1 " => f.v = true
  | _ => True

/-- what the name of a conditional jump says -/
def Ins.cond (f : Flags) : Ins → Prop
  | .jump (some (true, v)) => f.z = v
  | .jump (some (false, v)) => f.c = v
  | _ => True

/-- The registers and numbers the text shows: %d, %a (and %R), %b, the 16 bits of %0 %O %l %h, the
27 bits of %A. -/
structure Args where
  d : Rn
  a : Rn
  b : Rn
  imm : BitVec 16
  target : Wd

def args15 (code : Wd) : Args :=
  { d := reg code 20, a := reg code 16, b := reg code 12, imm := code.setWidth 16, target := BitVec.ofNat 32 (code.toNat % 2 ^ 27) }

/-- Executing the instruction takes `s` to `s'`.  Loads and stores outside of the memory are not
described. -/
def Ins.does (x : Args) (s s' : St) : Ins → Prop
  | .call => Next 1 s s' (calls s x.target) ∧ s'.F = s.F
  | .jump _ => Next 1 s s' (to 15 (x.imm.zeroExtend 32)) ∧ s'.F = s.F
  | .nop => Next 1 s s' keep ∧ s'.F = s.F
  | .ld => ∀ v, word s (src s x.a) = some v → Next 1 s s' (to x.d v) ∧ s'.F = s.F
  | .st => (src s x.a).toNat < 0x20000 → Store 1 s s' keep (src s x.a) (src s x.d)
  | .ret => Next 1 s s' (to 15 (s.R 14)) ∧ s'.F = s.F
  | .mov => Next 1 s s' (to x.d (src s x.a)) ∧ s'.F = s.F
  | .ldl0 => Next 1 s s' (to x.d (x.imm.zeroExtend 32)) ∧ s'.F = s.F
  | .ldl => Next 1 s s' (to x.d ((src s x.d).extractLsb' 16 16 ++ x.imm)) ∧ s'.F = s.F
  | .ldh => Next 1 s s' (to x.d (x.imm ++ (src s x.d).setWidth 16)) ∧ s'.F = s.F
  | .alu o => Next 1 s s' (res x.d (o.value (src s x.a) (src s x.b) (flags s.F).c)) ∧
      flags s'.F = o.flags (src s x.a) (src s x.b) (flags s.F) ∧ rest s'.F = rest s.F

/-- Nothing but the time and the next instruction. -/
def skips (clk : Nat) (s s' : St) : Prop := Next clk s s' keep ∧ s'.F = s.F

end Ucsim.P15.Spec
