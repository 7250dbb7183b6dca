import Verif.Spec.I48
/-
Intel's assembler notation of the MCS-48 instructions, as in the manual (in lower case, numbers
as 0x...).
-/
namespace Ucsim.I48.Isa

abbrev Text := List Char

def digit (n : Nat) : Text := [Nat.digitChar n]

def Src.text : Src → Text
  | .imm => "#".toList
  | .ir b => if b then "@r1".toList else "@r0".toList
  | .r n => "r".toList ++ digit n.val

def irText (r : Bool) : Text := if r then "@r1".toList else "@r0".toList
def rText (n : Fin 8) : Text := "r".toList ++ digit n.val
def xText (n : Fin 4) : Text := "p".toList ++ digit (4 + n.val)
def Port.text : Port → Text
  | .bus => "bus".toList
  | .p1 => "p1".toList
  | .p2 => "p2".toList

def Op.text : Op → Text
  | .add => "add".toList | .adc => "addc".toList | .orl => "orl".toList | .anl => "anl".toList | .xrl => "xrl".toList | .mov => "mov".toList

def Cond.text : Cond → Text
  | .nz => "jnz".toList | .z => "jz".toList | .nc => "jnc".toList | .c => "jc".toList | .t0 => "jt0".toList | .nt0 => "jnt0".toList | .t1 => "jt1".toList | .nt1 => "jnt1".toList
  | .f0 => "jf0".toList | .f1 => "jf1".toList | .ni => "jni".toList | .tf => "jtf".toList | .bit n => "jb".toList ++ digit n.val

/-- Name and operands; in the operands `#` stands for the immediate byte, `$` for a target in the
page, `&` for a target of eleven bits. -/
def Ins.text : Ins → Text × Text
  | .nop => ("nop".toList, "".toList)
  | .alu o k => (o.text, "a,".toList ++ k.text)
  | .jmp _ => ("jmp".toList, "&".toList)
  | .call _ => ("call".toList, "&".toList)
  | .ret => ("ret".toList, "".toList)
  | .retr => ("retr".toList, "".toList)
  | .jcc k => (k.text, "$".toList)
  | .djnz n => ("djnz".toList, rText n ++ ",$".toList)
  | .jmpp => ("jmpp".toList, "@a".toList)
  | .eni b => (if b then "en".toList else "dis".toList, "i".toList)
  | .entcnti b => (if b then "en".toList else "dis".toList, "tcnti".toList)
  | .deca => ("dec".toList, "a".toList)
  | .inca => ("inc".toList, "a".toList)
  | .clra => ("clr".toList, "a".toList)
  | .cpla => ("cpl".toList, "a".toList)
  | .swap => ("swap".toList, "a".toList)
  | .da => ("da".toList, "a".toList)
  | .rr => ("rr".toList, "a".toList)
  | .rl => ("rl".toList, "a".toList)
  | .rrc => ("rrc".toList, "a".toList)
  | .rlc => ("rlc".toList, "a".toList)
  | .inP .bus => ("ins".toList, "a,bus".toList)
  | .inP p => ("in".toList, "a,".toList ++ p.text)
  | .outl p => ("outl".toList, p.text ++ ",a".toList)
  | .orlP p => ("orl".toList, p.text ++ ",#".toList)
  | .anlP p => ("anl".toList, p.text ++ ",#".toList)
  | .movdA n => ("movd".toList, "a,".toList ++ xText n)
  | .movdP n => ("movd".toList, xText n ++ ",a".toList)
  | .orld n => ("orld".toList, xText n ++ ",a".toList)
  | .anld n => ("anld".toList, xText n ++ ",a".toList)
  | .incIr r => ("inc".toList, irText r)
  | .incR n => ("inc".toList, rText n)
  | .decR n => ("dec".toList, rText n)
  | .xchIr r => ("xch".toList, "a,".toList ++ irText r)
  | .xchR n => ("xch".toList, "a,".toList ++ rText n)
  | .xchd r => ("xchd".toList, "a,".toList ++ irText r)
  | .movIrA r => ("mov".toList, irText r ++ ",a".toList)
  | .movRA n => ("mov".toList, rText n ++ ",a".toList)
  | .movIrI r => ("mov".toList, irText r ++ ",#".toList)
  | .movRI n => ("mov".toList, rText n ++ ",#".toList)
  | .movxA r => ("movx".toList, "a,".toList ++ irText r)
  | .movxR r => ("movx".toList, irText r ++ ",a".toList)
  | .movp => ("movp".toList, "a,@a".toList)
  | .movp3 => ("movp3".toList, "a,@a".toList)
  | .movAT => ("mov".toList, "a,t".toList)
  | .movTA => ("mov".toList, "t,a".toList)
  | .strtCnt => ("strt".toList, "cnt".toList)
  | .strtT => ("strt".toList, "t".toList)
  | .stop => ("stop".toList, "tcnt".toList)
  | .clrC => ("clr".toList, "c".toList)
  | .cplC => ("cpl".toList, "c".toList)
  | .clrF0 => ("clr".toList, "f0".toList)
  | .cplF0 => ("cpl".toList, "f0".toList)
  | .clrF1 => ("clr".toList, "f1".toList)
  | .cplF1 => ("cpl".toList, "f1".toList)
  | .selrb b => ("sel".toList, if b then "rb1".toList else "rb0".toList)
  | .selmb b => ("sel".toList, if b then "mb1".toList else "mb0".toList)
  | .movAPsw => ("mov".toList, "a,psw".toList)
  | .movPswA => ("mov".toList, "psw,a".toList)
  | .ent0 => ("ent0".toList, "clk".toList)

/-- `k` digits. -/
def hex (k n : Nat) : List Char := (List.range k).reverse.map fun i => "0123456789abcdef".toList.getD (n / 16 ^ i % 16) '?'

/-- The operands with the numbers in: `imm`, `page`, `long`. -/
def fill (imm page long : Nat) : List Char → List Char
  | [] => []
  | '#' :: l => "#0x".toList ++ hex 2 imm ++ fill imm page long l
  | '$' :: l => "0x".toList ++ hex 4 page ++ fill imm page long l
  | '&' :: l => "P.0x".toList ++ hex 4 long ++ fill imm page long l
  | c :: l => c :: fill imm page long l

/-- The line: the operands begin in column 8 (or after the name). -/
def asm (i : Ins) (imm page long : Nat) : List Char :=
  let (n, o) := i.text
  if o.isEmpty then n else n ++ List.replicate (6 - n.length) ' ' ++ [' '] ++ fill imm page long o

/-- The eleven bits in the code of JMP and CALL. -/
def Ins.page11 : Ins → Nat
  | .jmp p | .call p => p.toNat
  | _ => 0

/-- The instruction `i` at `m.pc`: the target of a jump inside the page is shown whole, of a long
jump the eleven bits in the instruction (`P.`, the memory bank is not known). -/
def Mach.asm (m : Mach) (i : Ins) : List Char :=
  let b := m.prog (next m.pc)
  Isa.asm i b.toNat (inPage (next m.pc) b).toNat (i.page11 * 256 + b.toNat)

end Ucsim.I48.Isa
