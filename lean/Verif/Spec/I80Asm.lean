import Verif.Spec.I80

/-
Assembly language text of an instruction: mnemonic and operands as the manual writes them,
in the simulator's layout: mnemonic filled up to six characters, a blank, operands separated
by a comma, immediate data marked by #, numbers as 0x and lower case hexadecimal digits.
-/
namespace Ucsim.I80.Isa

def regName (r : BitVec 3) : String :=
  match r.toNat with | 0 => "B" | 1 => "C" | 2 => "D" | 3 => "E" | 4 => "H" | 5 => "L" | 6 => "M" | _ => "A"
def rpName (r : BitVec 2) : String := match r.toNat with | 0 => "B" | 1 => "D" | 2 => "H" | _ => "SP"
def condName (c : BitVec 3) : String :=
  match c.toNat with | 0 => "NZ" | 1 => "Z" | 2 => "NC" | 3 => "C" | 4 => "PO" | 5 => "PE" | 6 => "P" | _ => "M"
def aluName (o : BitVec 3) : String :=
  match o.toNat with | 0 => "ADD" | 1 => "ADC" | 2 => "SUB" | 3 => "SBB" | 4 => "ANA" | 5 => "XRA" | 6 => "ORA" | _ => "CMP"
def aluiName (o : BitVec 3) : String :=
  match o.toNat with | 0 => "ADI" | 1 => "ACI" | 2 => "SUI" | 3 => "SBI" | 4 => "ANI" | 5 => "XRI" | 6 => "ORI" | _ => "CPI"

def mnemonic : Ins → String
  | .nop => "NOP" | .hlt => "HLT" | .ei => "EI" | .di => "DI" | .mov _ _ => "MOV" | .mvi _ => "MVI" | .lxi _ => "LXI"
  | .lda => "LDA" | .sta => "STA" | .lhld => "LHLD" | .shld => "SHLD" | .ldax _ => "LDAX" | .stax _ => "STAX"
  | .xchg => "XCHG" | .xthl => "XTHL" | .sphl => "SPHL" | .pchl => "PCHL" | .inp => "IN" | .out => "OUT"
  | .push _ => "PUSH" | .pushPsw => "PUSH" | .pop _ => "POP" | .popPsw => "POP"
  | .alu o _ => aluName o | .alui o => aluiName o | .dad _ => "DAD" | .inr _ => "INR" | .dcr _ => "DCR" | .inx _ => "INX" | .dcx _ => "DCX"
  | .rlc => "RLC" | .rrc => "RRC" | .ral => "RAL" | .rar => "RAR" | .daa => "DAA" | .cma => "CMA" | .cmc => "CMC" | .stc => "STC"
  | .jmp => "JMP" | .jcc c => "J" ++ condName c | .call => "CALL" | .ccc c => "C" ++ condName c
  | .ret => "RET" | .rcc c => "R" ++ condName c | .rst _ => "RST" | .other => ""

/-- Operands as pieces of text: plain text, `byte`: the second byte, `word`: second and third. -/
inductive Opd
  | text (s : String)
  | data8 | data16 | port | addr
  deriving DecidableEq, Repr

def operands : Ins → List Opd
  | .mov d s => [.text (regName d), .text (regName s)]
  | .mvi d => [.text (regName d), .data8]
  | .lxi p => [.text (rpName p), .data16]
  | .lda | .sta | .lhld | .shld | .jmp | .jcc _ | .call | .ccc _ => [.addr]
  | .ldax p | .stax p | .push p | .pop p | .dad p | .inx p | .dcx p => [.text (rpName p)]
  | .pushPsw | .popPsw => [.text "PSW"]
  | .inp | .out => [.port]
  | .alu _ s => [.text (regName s)]
  | .alui _ => [.data8]
  | .inr r | .dcr r => [.text (regName r)]
  | .rst n => [.text (toString n.toNat)]
  | _ => []

/-- Hexadecimal, `k` digits, lower case. -/
def hex (k n : Nat) : List Char :=
  "0x".toList ++ (List.range k).reverse.map (fun i => "0123456789abcdef".toList.getD (n / 16 ^ i % 16) '?')

def opdText (imm8 : Byte) (imm16 : Word) : Opd → List Char
  | .text s => s.toList
  | .data8 => '#' :: hex 2 imm8.toNat
  | .data16 => '#' :: hex 4 imm16.toNat
  | .port => hex 2 imm8.toNat
  | .addr => hex 4 imm16.toNat

/-- The text of the instruction at PC. -/
def asm (m : Mach) : List Char :=
  let i := decode (m.mem m.pc)
  let mn := (mnemonic i).toList
  match operands i with
  | [] => mn
  | os => mn ++ List.replicate (6 - mn.length) ' ' ++ ' ' :: [','].intercalate (os.map (opdText m.imm8 m.imm16))

end Ucsim.I80.Isa
