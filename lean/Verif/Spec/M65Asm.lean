import Verif.Spec.M65

/-
The assembly language of the 6502 (MCS6500 Programming Manual), numbers in hexadecimal with $.
-/
namespace Ucsim.M65.Isa

def mnemonic : Ins → String
  | .ora _ => "ORA" | .and _ => "AND" | .eor _ => "EOR" | .adc _ => "ADC" | .sbc _ => "SBC"
  | .cmp .a _ => "CMP" | .cmp .x _ => "CPX" | .cmp .y _ => "CPY"
  | .ld .a _ => "LDA" | .ld .x _ => "LDX" | .ld .y _ => "LDY"
  | .st .a _ => "STA" | .st .x _ => "STX" | .st .y _ => "STY"
  | .bit _ => "BIT" | .inc _ => "INC" | .dec _ => "DEC" | .asl _ => "ASL" | .lsr _ => "LSR" | .rol _ => "ROL" | .ror _ => "ROR"
  | .inr .y => "INY" | .inr _ => "INX" | .der .y => "DEY" | .der _ => "DEX"
  | .tr .a .x => "TAX" | .tr .a _ => "TAY" | .tr .x _ => "TXA" | .tr .y _ => "TYA"
  | .tsx => "TSX" | .txs => "TXS" | .pha => "PHA" | .php => "PHP" | .pla => "PLA" | .plp => "PLP"
  | .jmp | .jmpInd => "JMP" | .jsr => "JSR" | .rts => "RTS" | .brk => "BRK" | .rti => "RTI"
  | .br .n false => "BPL" | .br .n true => "BMI" | .br .v false => "BVC" | .br .v true => "BVS"
  | .br .c false => "BCC" | .br .c true => "BCS" | .br .z false => "BNE" | .br .z true => "BEQ"
  | .clc => "CLC" | .sec => "SEC" | .cli => "CLI" | .sei => "SEI" | .clv => "CLV" | .cld => "CLD" | .sed => "SED" | .nop => "NOP"
  | .other => ""

/-- `k` hexadecimal digits, lower case. -/
def hex (k n : Nat) : List Char :=
  '$' :: (List.range k).reverse.map (fun i => "0123456789abcdef".toList.getD (n / 16 ^ i % 16) '?')

def Mach.modeText (m : Mach) : Mode → List Char
  | .imm => '#' :: hex 2 m.op1.toNat
  | .zp => hex 2 m.op1.toNat
  | .zpx => hex 2 m.op1.toNat ++ [',', 'X']
  | .zpy => hex 2 m.op1.toNat ++ [',', 'Y']
  | .abs => hex 4 m.opw.toNat
  | .absx => hex 4 m.opw.toNat ++ [',', 'X']
  | .absy => hex 4 m.opw.toNat ++ [',', 'Y']
  | .indx => '(' :: hex 2 m.op1.toNat ++ [',', 'X', ')']
  | .indy => '(' :: hex 2 m.op1.toNat ++ [')', ',', 'Y']
  | .acc => ['A']

/-- The addressing mode written after the mnemonic. -/
def modeOf : Ins → Option Mode
  | .ora k | .and k | .eor k | .adc k | .sbc k | .cmp _ k | .ld _ k | .st _ k | .bit k
  | .inc k | .dec k | .asl k | .lsr k | .rol k | .ror k => some k
  | _ => none

def Mach.operandText (m : Mach) (i : Ins) : List Char :=
  match i with
  | .jmp | .jsr => hex 4 m.opw.toNat
  | .jmpInd => '(' :: hex 4 m.opw.toNat ++ [')']
  | .br _ _ => hex 4 (m.pc + 2 + m.op1.signExtend 16).toNat
  | i => match modeOf i with
    | some k => m.modeText k
    | none => []

/-- The instruction at PC; operands start in column 7. -/
def asm (m : Mach) : List Char :=
  let i := decode (m.mem m.pc)
  match m.operandText i with
  | [] => (mnemonic i).toList
  | o => (mnemonic i).toList ++ "    ".toList ++ o

end Ucsim.M65.Isa
