/-
Model of the MOS 6502 simulator: /repo/src/sims/mos6502.src.

Not modelled: the counters of reads and writes (vc), the record of stack operations and
errors (unknown code, stack overflow), breakpoints (C19-C23), the variants of the processor
(6510, 65C02, 65CE02, HuC6280), the DEVEL build.  Memory is the plain 64K chip of make_memories
(mos6502.cc 231-249); cells without operators behave as in C01-C05.
-/
namespace Ucsim.M65

abbrev Byte := BitVec 8
abbrev Word := BitVec 16

/-- mos6502cl.h 115-119.  `p` is CC.  `pc` is a t_addr: RTS can leave it at 0x10000.
`dummy`, `rnd`: contents of the address space's dummy cell and the random values the following
writes to it will leave there (mem.cc 1523-1531).  `irq`, `nmi`, `brk`: bit 0 of the
configuration cells m65_irq, m65_nmi, m65_brk (irqcl.h 34-43); m65_nmi_en and m65_brk_en stay 1
as irq.cc 59-60 sets them.  `levels`: levels on it_levels above the bottom one (-1). -/
structure St where
  a : Byte
  x : Byte
  y : Byte
  sp : Byte
  p : Byte
  i8d : Byte
  pc : Nat
  mem : Word → Byte
  dummy : Byte
  rnd : Nat → Byte
  ticks : Nat
  setB : Bool
  irq : Bool
  nmi : Bool
  brk : Bool
  levels : List Nat

/-! mos6502cl.h 58-79 -/
def flagN : Byte := 0x80#8
def flagV : Byte := 0x40#8
def flagB : Byte := 0x10#8
def flagD : Byte := 0x08#8
def flagI : Byte := 0x04#8
def flagZ : Byte := 0x02#8
def flagC : Byte := 0x01#8

/-- Functions that return a reference to the operand's cell: mos6502cl.h 156-189. -/
inductive Mode | imm | zpg | zpgX | zpgY | abs | absX | absY | indX | indY deriving DecidableEq, Repr
inductive Reg | a | x | y deriving DecidableEq, Repr

/-- Read-modify-write operations -/
inductive Rmw | inc | dec | asl | lsr | rol | ror deriving DecidableEq, Repr

/-- Bodies of the instructions, mos6502cl.h 194-382. -/
inductive Inst
  | nop | brk | rti | cli | sei | php | clc | plp | sec | pha | pla | dey | tya | tay | clv | iny | cld | inx | sed
  | txa | txs | tax | tsx | dex
  | ora (m : Mode) | and (m : Mode) | eor (m : Mode) | adc (m : Mode) | lda (m : Mode) | sbc (m : Mode)
  /-- STA; `t`: clocks the wrapper counts itself -/
  | sta (t : Nat) (m : Mode)
  | cmp (r : Reg) (m : Mode) | st (r : Reg) (m : Mode) | ld (r : Reg) (m : Mode)
  /-- on memory through rmw.. -/
  | rmw (o : Rmw) (m : Mode)
  /-- on the accumulator -/
  | rmwA (o : Rmw)
  | bit (m : Mode)
  | jmpA | jmpI | jsr | rts
  /-- branch((rF & flag) is nonzero = v) -/
  | branch (flag : Byte) (v : Bool)
  deriving DecidableEq, Repr

end Ucsim.M65
