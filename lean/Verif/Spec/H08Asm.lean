import Verif.Spec.H08

/-
The assembly language of the CPU08 and HCS08 (HCS08RMv1), in lower case, numbers in hexadecimal
with $; as in many assemblers * marks a direct address and # a bit number.
-/
namespace Ucsim.H08.Isa

def aluName : Alu → String
  | .sub => "sub" | .cmp => "cmp" | .sbc => "sbc" | .cpx => "cpx" | .and => "and" | .bit => "bit"
  | .lda => "lda" | .eor => "eor" | .adc => "adc" | .ora => "ora" | .add => "add" | .ldx => "ldx"
def rmwName : Rmw → String
  | .neg => "neg" | .com => "com" | .lsr => "lsr" | .ror => "ror" | .asr => "asr" | .lsl => "lsl"
  | .rol => "rol" | .dec => "dec" | .inc => "inc" | .tst => "tst" | .clr => "clr"
def condName : Cond → Bool → String
  | .always, true => "bra" | .always, false => "brn" | .hi, true => "bhi" | .hi, false => "bls"
  | .cc, true => "bcc" | .cc, false => "bcs" | .ne, true => "bne" | .ne, false => "beq"
  | .hcc, true => "bhcc" | .hcc, false => "bhcs" | .pl, true => "bpl" | .pl, false => "bmi"
  | .mc, true => "bmc" | .mc, false => "bms" | .il, true => "bil" | .il, false => "bih"
  | .ge, true => "bge" | .ge, false => "blt" | .gt, true => "bgt" | .gt, false => "ble"
/-- CLRA, CLRX -/
def suffix : Mode → String
  | .A => "a" | .X => "x" | _ => ""
def regName : Reg → String
  | .a => "a" | .x => "x" | .h => "h"

def mnemonic : Ins → String
  | .alu o _ => aluName o | .sta _ => "sta" | .stx _ => "stx"
  | .rmw o k => rmwName o ++ suffix k
  | .brbit b _ => if b then "brset" else "brclr"
  | .setbit b _ => if b then "bset" else "bclr"
  | .br c b => condName c b
  | .cbeq k => "cbeq" ++ (match k with | .a => "a" | .x => "x" | _ => "")
  | .dbnz k => "dbnz" ++ suffix k
  | .mul => "mul" | .div => "div" | .nsa => "nsa" | .daa => "daa" | .mov _ => "mov"
  | .ldhx _ => "ldhx" | .sthx _ => "sthx" | .cphx _ => "cphx"
  | .rti => "rti" | .rts => "rts" | .swi => "swi" | .tap => "tap" | .tpa => "tpa" | .tax => "tax" | .txa => "txa" | .txs => "txs" | .tsx => "tsx"
  | .pul r => "pul" ++ regName r | .psh r => "psh" ++ regName r
  | .clrh => "clrh" | .stop => "stop" | .wait => "wait" | .clc => "clc" | .sec => "sec" | .cli => "cli" | .sei => "sei"
  | .rsp => "rsp" | .nop => "nop" | .jmp _ => "jmp" | .jsr _ => "jsr" | .bsr => "bsr" | .ais => "ais" | .aix => "aix"
  | .other => ""

/-- `k` hexadecimal digits. -/
def hex (k n : Nat) : List Char :=
  '$' :: (List.range k).reverse.map (fun i => "0123456789abcdef".toList.getD (n / 16 ^ i % 16) '?')

def Mach.byteText (m : Mach) (q : Word) : List Char := hex 2 (m.mem q).toNat
def Mach.wordText (m : Mach) (q : Word) : List Char := hex 4 (m.word q).toNat
/-- The address a branch with its offset at `q` goes to. -/
def Mach.relText (m : Mach) (q : Word) : List Char := hex 4 (q + 1 + (m.mem q).signExtend 16).toNat
/-- A signed number, decimal. -/
def Mach.signedText (m : Mach) (q : Word) : List Char := '#' :: (toString (m.mem q).toInt).toList

def Mach.modeText (m : Mach) (q : Word) : Mode → List Char
  | .imm => '#' :: m.byteText q
  | .dir => '*' :: m.byteText q
  | .ext => m.wordText q
  | .ix2 => m.wordText q ++ ",x".toList
  | .ix1 => m.byteText q ++ ",x".toList
  | .ix => ",x".toList
  | .sp2 => m.wordText q ++ ",sp".toList
  | .sp1 => m.byteText q ++ ",sp".toList
  | .A | .X => []

def digit (n : Nat) : Char := "01234567".toList.getD n '?'

/-- `q`: where the operand bytes are. -/
def Mach.operandText (m : Mach) (q : Word) : Ins → List Char
  | .alu _ k | .sta k | .stx k | .rmw _ k | .sthx k | .jmp k | .jsr k => m.modeText q k
  | .ldhx k | .cphx k => if k = .imm then '#' :: m.wordText q else m.modeText q k
  | .brbit _ n => ['#', digit n, ','] ++ m.modeText q .dir ++ [','] ++ m.relText (q + 1)
  | .setbit _ n => ['#', digit n, ','] ++ m.modeText q .dir
  | .br _ _ | .bsr => m.relText q
  | .cbeq .dir => m.modeText q .dir ++ [','] ++ m.relText (q + 1)
  | .cbeq .a | .cbeq .x => m.modeText q .imm ++ [','] ++ m.relText (q + 1)
  | .cbeq .ix1 => m.byteText q ++ ",x+,".toList ++ m.relText (q + 1)
  | .cbeq .ix => ",x+,".toList ++ m.relText q
  | .cbeq .sp1 => m.byteText q ++ ",sp,".toList ++ m.relText (q + 1)
  | .dbnz .A | .dbnz .X => m.relText q
  | .dbnz k => m.modeText q k ++ [','] ++ m.relText (q + BitVec.ofNat 16 k.bytes)
  | .mov .dd => m.modeText q .dir ++ [','] ++ m.modeText (q + 1) .dir
  | .mov .dix => m.modeText q .dir ++ ",x+".toList
  | .mov .imd => m.modeText q .imm ++ [','] ++ m.modeText (q + 1) .dir
  | .mov .ixd => ",x+,".toList ++ m.modeText q .dir
  | .ais | .aix => m.signedText q
  | _ => []

/-- Operands start in column 8. -/
def Mach.asm (m : Mach) (s08 : Bool) : List Char :=
  let i := (m.fetch s08).1
  let n := (mnemonic i).toList
  match m.operandText (m.fetch s08).2 i with
  | [] => n
  | o => n ++ List.replicate (7 - n.length) ' ' ++ o

/-- Operand bytes. -/
def Ins.operands : Ins → Nat
  | .alu _ k | .sta k | .stx k | .rmw _ k | .sthx k | .jmp k | .jsr k => k.bytes
  | .ldhx k | .cphx k => if k = .imm then 2 else k.bytes
  | .brbit .. => 2
  | .setbit .. | .br .. | .bsr | .ais | .aix => 1
  | .cbeq .ix => 1
  | .cbeq _ => 2
  | .dbnz k => k.bytes + 1
  | .mov .dd | .mov .imd => 2
  | .mov _ => 1
  | _ => 0

/-- Bytes of the instruction at PC. -/
def Mach.len (m : Mach) (s08 : Bool) : Nat := (if m.mem m.pc = 0x9e#8 then 2 else 1) + (m.fetch s08).1.operands

/-- Instructions that save a return address and go elsewhere. -/
def Ins.call : Ins → Bool
  | .jsr _ | .bsr | .swi => true
  | _ => false

end Ucsim.H08.Isa
