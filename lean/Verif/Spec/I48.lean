/-
The MCS-48 (8048, 8049, 8050 ...) as Intel's manual describes it (MCS-48 Family of Single Chip
Microcomputers User's Manual), written without looking at the simulator.
-/
namespace Ucsim.I48.Isa

abbrev Byte := BitVec 8
abbrev Addr := BitVec 12

inductive TMode | stop | counter | timer deriving DecidableEq, Repr

/-- The programmer's model.  `ramSize`: bytes of resident data memory.  `c`, `ac`, `f0`, `bs`, `sp`
are the program status word.  `dbf`: what SEL MB selected.  `isr`: an interrupt is in service.
`p1`, `p2`: port latches, `p1in`, `p2in`: what the outside does to the pins (a quasi-bidirectional
pin is low when either side pulls it).  `x`, `xin`: latches and inputs of the expander's four bit
ports 4-7.  `tmr`, `mode`, `tf`: timer/counter, what it counts, timer flag.  `eni`, `entcnti`:
interrupts enabled. -/
structure Mach where
  ramSize : Nat
  prog : Addr → Byte
  ram : Byte → Byte
  ext : Byte → Byte
  a : Byte
  c : Bool
  ac : Bool
  f0 : Bool
  bs : Bool
  sp : BitVec 3
  f1 : Bool
  dbf : Bool
  isr : Bool
  pc : Addr
  p1 : Byte
  p2 : Byte
  p1in : Byte
  p2in : Byte
  x : Fin 4 → BitVec 4
  xin : Fin 4 → BitVec 4
  bus : Byte
  busIn : Byte
  t0 : Bool
  t1 : Bool
  int : Bool
  tmr : Byte
  mode : TMode
  tf : Bool
  eni : Bool
  entcnti : Bool

/-- "Bit 11 is not altered by normal incrementing of the program counter." -/
def next (a : Addr) : Addr := a.extractLsb' 11 1 ++ (a.extractLsb' 0 11 + 1)

/-- The page an address is in, with another place in it. -/
def inPage (a : Addr) (o : Byte) : Addr := a.extractLsb' 8 4 ++ o

/-! ### Data memory -/

/-- Indirect addresses use as many bits as the memory has. -/
def Mach.cell (m : Mach) (p : Byte) : Byte := BitVec.ofNat 8 (p.toNat % m.ramSize)
def Mach.get (m : Mach) (p : Byte) : Byte := m.ram (m.cell p)
def Mach.put (m : Mach) (p v : Byte) : Mach := { m with ram := fun b => if b = m.cell p then v else m.ram b }

/-- Working registers: bank 0 at 0-7, bank 1 at 24-31. -/
def Mach.regAt (m : Mach) (n : Fin 8) : Byte := BitVec.ofNat 8 ((if m.bs then 24 else 0) + n.val)
def Mach.reg (m : Mach) (n : Fin 8) : Byte := m.ram (m.regAt n)
def Mach.setReg (m : Mach) (n : Fin 8) (v : Byte) : Mach := { m with ram := fun b => if b = m.regAt n then v else m.ram b }

/-- @R0 or @R1 -/
def Mach.at' (m : Mach) (r : Bool) : Byte := m.reg (if r then 1 else 0)

/-- MOV A,PSW: bit 3 reads as 1. -/
def Mach.psw (m : Mach) : Byte :=
  BitVec.ofBool m.c ++ BitVec.ofBool m.ac ++ BitVec.ofBool m.f0 ++ BitVec.ofBool m.bs ++ 1#1 ++ m.sp

def Mach.setPsw (m : Mach) (v : Byte) : Mach :=
  { m with c := v.getLsbD 7, ac := v.getLsbD 6, f0 := v.getLsbD 5, bs := v.getLsbD 4, sp := v.extractLsb' 0 3 }

/-! ### Stack: 8 pairs of bytes from 8; PC 0-7, then PC 8-11 and PSW 4-7 -/

def stackLow (sp : BitVec 3) : Byte := BitVec.ofNat 8 (8 + 2 * sp.toNat)
def stackHigh (sp : BitVec 3) : Byte := BitVec.ofNat 8 (9 + 2 * sp.toNat)

/-- Save `pc` and PSW 4-7. -/
def Mach.push (m : Mach) : Mach :=
  let lo := m.pc.extractLsb' 0 8
  let hi : Byte := BitVec.ofBool m.c ++ BitVec.ofBool m.ac ++ BitVec.ofBool m.f0 ++ BitVec.ofBool m.bs ++ m.pc.extractLsb' 8 4
  { m with
    ram := fun b => if b = stackHigh m.sp then hi else if b = stackLow m.sp then lo else m.ram b,
    sp := m.sp + 1 }

/-- RET: the status bits are not restored. -/
def Mach.pop (m : Mach) : Mach :=
  let sp := m.sp - 1
  { m with sp := sp, pc := (m.ram (stackHigh sp)).extractLsb' 0 4 ++ m.ram (stackLow sp) }

/-- RETR: they are. -/
def Mach.popr (m : Mach) : Mach :=
  let sp := m.sp - 1
  let h := m.ram (stackHigh sp)
  { m with
    sp := sp, pc := h.extractLsb' 0 4 ++ m.ram (stackLow sp), isr := false,
    c := h.getLsbD 7, ac := h.getLsbD 6, f0 := h.getLsbD 5, bs := h.getLsbD 4 }

/-! ### Instructions -/

inductive Op | add | adc | orl | anl | xrl | mov deriving DecidableEq, Repr
inductive Src | imm | ir (r : Bool) | r (n : Fin 8) deriving DecidableEq, Repr
inductive Cond | nz | z | nc | c | t0 | nt0 | t1 | nt1 | f0 | f1 | ni | tf | bit (n : Fin 8) deriving DecidableEq, Repr
/-- `bus`, `p1`, `p2` -/
inductive Port | bus | p1 | p2 deriving DecidableEq, Repr

inductive Ins
  | nop | alu (o : Op) (k : Src) | jmp (p : BitVec 3) | call (p : BitVec 3) | ret | retr
  /-- conditional jump inside a page -/
  | jcc (k : Cond) | djnz (n : Fin 8) | jmpp
  | eni (b : Bool) | entcnti (b : Bool)
  | deca | inca | clra | cpla | swap | da | rr | rl | rrc | rlc
  | inP (p : Port) | outl (p : Port) | orlP (p : Port) | anlP (p : Port)
  | movdA (n : Fin 4) | movdP (n : Fin 4) | orld (n : Fin 4) | anld (n : Fin 4)
  | incIr (r : Bool) | incR (n : Fin 8) | decR (n : Fin 8)
  | xchIr (r : Bool) | xchR (n : Fin 8) | xchd (r : Bool)
  | movIrA (r : Bool) | movRA (n : Fin 8) | movIrI (r : Bool) | movRI (n : Fin 8)
  | movxA (r : Bool) | movxR (r : Bool) | movp | movp3
  | movAT | movTA | strtCnt | strtT | stop
  | clrC | cplC | clrF0 | cplF0 | clrF1 | cplF1 | selrb (b : Bool) | selmb (b : Bool) | movAPsw | movPswA
  /-- ENT0 CLK (the clock output is not part of this description) -/
  | ent0
  deriving DecidableEq, Repr

/-- Rows of sixteen: column 8-15 is R0-R7. -/
def regRow (n : Fin 8) : Nat → Option Ins
  | 0x1 => some (.incR n)
  | 0x2 => some (.xchR n)
  | 0x4 => some (.alu .orl (.r n))
  | 0x5 => some (.alu .anl (.r n))
  | 0x6 => some (.alu .add (.r n))
  | 0x7 => some (.alu .adc (.r n))
  | 0xa => some (.movRA n)
  | 0xb => some (.movRI n)
  | 0xc => some (.decR n)
  | 0xd => some (.alu .xrl (.r n))
  | 0xe => some (.djnz n)
  | 0xf => some (.alu .mov (.r n))
  | _ => none

/-- Column 0-1 is @R0, @R1. -/
def irRow (r : Bool) : Nat → Option Ins
  | 0x1 => some (.incIr r)
  | 0x2 => some (.xchIr r)
  | 0x3 => some (.xchd r)
  | 0x4 => some (.alu .orl (.ir r))
  | 0x5 => some (.alu .anl (.ir r))
  | 0x6 => some (.alu .add (.ir r))
  | 0x7 => some (.alu .adc (.ir r))
  | 0x8 => some (.movxA r)
  | 0x9 => some (.movxR r)
  | 0xa => some (.movIrA r)
  | 0xb => some (.movIrI r)
  | 0xd => some (.alu .xrl (.ir r))
  | 0xf => some (.alu .mov (.ir r))
  | _ => none

/-- Column 12-15 of the rows 0, 3, 8, 9: expander ports 4-7. -/
def expRow (n : Fin 4) : Nat → Option Ins
  | 0x0 => some (.movdA n)
  | 0x3 => some (.movdP n)
  | 0x8 => some (.orld n)
  | 0x9 => some (.anld n)
  | _ => none

def row : Byte → Nat := fun c => c.toNat / 16
def col : Byte → Nat := fun c => c.toNat % 16

/-- Opcode map; none: not an instruction. -/
def decode (c : Byte) : Option Ins :=
  let top : BitVec 3 := c.extractLsb' 5 3
  if col c = 4 then some (if row c % 2 = 0 then .jmp top else .call top)
  else if col c = 2 ∧ row c % 2 = 1 then some (.jcc (.bit top.toFin))
  else if (row c = 0 ∨ row c = 3 ∨ row c = 8 ∨ row c = 9) ∧ col c ≥ 12 then expRow (c.extractLsb' 0 2).toFin (row c)
  else if col c ≥ 8 ∧ row c ≠ 0 ∧ row c ≠ 3 ∧ row c ≠ 8 ∧ row c ≠ 9 then regRow (c.extractLsb' 0 3).toFin (row c)
  else if col c < 2 ∧ row c ≠ 0 then irRow (c.getLsbD 0) (row c)
  else match c.toNat with
  | 0x00 => some .nop
  | 0x02 => some (.outl .bus)
  | 0x03 => some (.alu .add .imm)
  | 0x13 => some (.alu .adc .imm)
  | 0x23 => some (.alu .mov .imm)
  | 0x43 => some (.alu .orl .imm)
  | 0x53 => some (.alu .anl .imm)
  | 0xd3 => some (.alu .xrl .imm)
  | 0x83 => some .ret
  | 0x93 => some .retr
  | 0xa3 => some .movp
  | 0xb3 => some .jmpp
  | 0xe3 => some .movp3
  | 0x05 => some (.eni true)
  | 0x15 => some (.eni false)
  | 0x25 => some (.entcnti true)
  | 0x35 => some (.entcnti false)
  | 0x45 => some .strtCnt
  | 0x55 => some .strtT
  | 0x65 => some .stop
  | 0x75 => some .ent0
  | 0x85 => some .clrF0
  | 0x95 => some .cplF0
  | 0xa5 => some .clrF1
  | 0xb5 => some .cplF1
  | 0xc5 => some (.selrb false)
  | 0xd5 => some (.selrb true)
  | 0xe5 => some (.selmb false)
  | 0xf5 => some (.selmb true)
  | 0x16 => some (.jcc .tf)
  | 0x26 => some (.jcc .nt0)
  | 0x36 => some (.jcc .t0)
  | 0x46 => some (.jcc .nt1)
  | 0x56 => some (.jcc .t1)
  | 0x76 => some (.jcc .f1)
  | 0x86 => some (.jcc .ni)
  | 0x96 => some (.jcc .nz)
  | 0xb6 => some (.jcc .f0)
  | 0xc6 => some (.jcc .z)
  | 0xe6 => some (.jcc .nc)
  | 0xf6 => some (.jcc .c)
  | 0x07 => some .deca
  | 0x17 => some .inca
  | 0x27 => some .clra
  | 0x37 => some .cpla
  | 0x47 => some .swap
  | 0x57 => some .da
  | 0x67 => some .rrc
  | 0x77 => some .rr
  | 0x97 => some .clrC
  | 0xa7 => some .cplC
  | 0xc7 => some .movAPsw
  | 0xd7 => some .movPswA
  | 0xe7 => some .rl
  | 0xf7 => some .rlc
  | 0x42 => some .movAT
  | 0x62 => some .movTA
  | 0x08 => some (.inP .bus)
  | 0x09 => some (.inP .p1)
  | 0x0a => some (.inP .p2)
  | 0x39 => some (.outl .p1)
  | 0x3a => some (.outl .p2)
  | 0x88 => some (.orlP .bus)
  | 0x89 => some (.orlP .p1)
  | 0x8a => some (.orlP .p2)
  | 0x98 => some (.anlP .bus)
  | 0x99 => some (.anlP .p1)
  | 0x9a => some (.anlP .p2)
  | _ => none

/-- Bytes of an instruction. -/
def Ins.length : Ins → Nat
  | .alu _ .imm | .jmp _ | .call _ | .jcc _ | .djnz _ | .orlP _ | .anlP _ | .movIrI _ | .movRI _ => 2
  | _ => 1

/-- Machine cycles. -/
def Ins.cycles : Ins → Nat
  | .ret | .retr | .jmpp | .inP _ | .outl _ | .movdA _ | .movdP _ | .orld _ | .anld _ => 2
  | .movxA _ | .movxR _ | .movp | .movp3 => 2
  | i => i.length

/-! ### What they do.  `m.pc` is already after the instruction, `q` is where its second byte is. -/

def Mach.operand (m : Mach) (q : Addr) : Src → Byte
  | .imm => m.prog q
  | .ir r => m.get (m.at' r)
  | .r n => m.reg n

/-- ADD and ADDC: carry out of bit 7 and of bit 3. -/
def Mach.add (m : Mach) (v : Byte) (ci : Bool) : Mach :=
  { m with
    a := m.a + v + (BitVec.ofBool ci).zeroExtend 8,
    c := decide (256 ≤ m.a.toNat + v.toNat + ci.toNat),
    ac := decide (16 ≤ m.a.toNat % 16 + v.toNat % 16 + ci.toNat) }

def Mach.alu (m : Mach) (v : Byte) : Op → Mach
  | .add => m.add v false
  | .adc => m.add v m.c
  | .orl => { m with a := m.a ||| v }
  | .anl => { m with a := m.a &&& v }
  | .xrl => { m with a := m.a ^^^ v }
  | .mov => { m with a := v }

/-- DA A: 6 is added if the low digit exceeds 9 or AC is set; then 6 to the high digit if it exceeds
9 (with what came from the low one) or C is set, and C is set then. -/
def Mach.da (m : Mach) : Mach :=
  let lo := decide (9 < m.a.toNat % 16) || m.ac
  let hi := decide (0x99 < m.a.toNat) || m.c
  { m with a := m.a + (if lo then 6 else 0) + (if hi then 0x60 else 0), c := hi }

def Mach.cond (m : Mach) : Cond → Bool
  | .nz => m.a != 0
  | .z => m.a == 0
  | .nc => !m.c
  | .c => m.c
  | .t0 => m.t0
  | .nt0 => !m.t0
  | .t1 => m.t1
  | .nt1 => !m.t1
  | .f0 => m.f0
  | .f1 => m.f1
  | .ni => !m.int
  | .tf => m.tf
  | .bit n => m.a.getLsbD n.val

def Mach.jump (m : Mach) (q : Addr) (t : Bool) : Mach := if t then { m with pc := inPage q (m.prog q) } else m

/-- The long jumps: bit 11 is the one selected by SEL MB, but 0 in an interrupt service routine. -/
def Mach.long (m : Mach) (q : Addr) (p : BitVec 3) : Addr := (BitVec.ofBool (m.dbf && !m.isr) ++ p) ++ m.prog q

def Mach.latch (m : Mach) : Port → Byte
  | .bus => m.bus
  | .p1 => m.p1
  | .p2 => m.p2
def Mach.setLatch (m : Mach) (v : Byte) : Port → Mach
  | .bus => { m with bus := v }
  | .p1 => { m with p1 := v }
  | .p2 => { m with p2 := v }
def Mach.pins (m : Mach) : Port → Byte
  | .bus => m.busIn
  | .p1 => m.p1 &&& m.p1in
  | .p2 => m.p2 &&& m.p2in

def Mach.setX (m : Mach) (n : Fin 4) (v : BitVec 4) : Mach := { m with x := fun k => if k = n then v else m.x k }

def Mach.exec (m : Mach) (q : Addr) : Ins → Mach
  | .nop | .ent0 => m
  | .alu o k => m.alu (m.operand q k) o
  | .jmp p => { m with pc := m.long q p }
  | .call p => { m.push with pc := m.long q p }
  | .ret => m.pop
  | .retr => m.popr
  | .jcc .tf => { m.jump q m.tf with tf := false }
  | .jcc k => m.jump q (m.cond k)
  | .djnz n => (m.setReg n (m.reg n - 1)).jump q (m.reg n != 1)
  | .jmpp => { m with pc := inPage m.pc (m.prog (inPage m.pc m.a)) }
  | .eni b => { m with eni := b }
  | .entcnti b => { m with entcnti := b }
  | .deca => { m with a := m.a - 1 }
  | .inca => { m with a := m.a + 1 }
  | .clra => { m with a := 0 }
  | .cpla => { m with a := ~~~m.a }
  | .swap => { m with a := m.a.extractLsb' 0 4 ++ m.a.extractLsb' 4 4 }
  | .da => m.da
  | .rr => { m with a := m.a.rotateRight 1 }
  | .rl => { m with a := m.a.rotateLeft 1 }
  | .rrc => { m with a := BitVec.ofBool m.c ++ m.a.extractLsb' 1 7, c := m.a.getLsbD 0 }
  | .rlc => { m with a := m.a.extractLsb' 0 7 ++ BitVec.ofBool m.c, c := m.a.getLsbD 7 }
  | .inP p => { m with a := m.pins p }
  | .outl p => m.setLatch m.a p
  | .orlP p => m.setLatch (m.latch p ||| m.prog q) p
  | .anlP p => m.setLatch (m.latch p &&& m.prog q) p
  | .movdA n => { m with a := (m.xin n).zeroExtend 8 }
  | .movdP n => m.setX n (m.a.extractLsb' 0 4)
  | .orld n => m.setX n (m.x n ||| m.a.extractLsb' 0 4)
  | .anld n => m.setX n (m.x n &&& m.a.extractLsb' 0 4)
  | .incIr r => m.put (m.at' r) (m.get (m.at' r) + 1)
  | .incR n => m.setReg n (m.reg n + 1)
  | .decR n => m.setReg n (m.reg n - 1)
  | .xchIr r => { m.put (m.at' r) m.a with a := m.get (m.at' r) }
  | .xchR n => { m.setReg n m.a with a := m.reg n }
  | .xchd r =>
    let v := m.get (m.at' r)
    { m.put (m.at' r) (v.extractLsb' 4 4 ++ m.a.extractLsb' 0 4) with a := m.a.extractLsb' 4 4 ++ v.extractLsb' 0 4 }
  | .movIrA r => m.put (m.at' r) m.a
  | .movRA n => m.setReg n m.a
  | .movIrI r => m.put (m.at' r) (m.prog q)
  | .movRI n => m.setReg n (m.prog q)
  | .movxA r => { m with a := m.ext (m.at' r) }
  | .movxR r => { m with ext := fun b => if b = m.at' r then m.a else m.ext b }
  | .movp => { m with a := m.prog (inPage m.pc m.a) }
  | .movp3 => { m with a := m.prog (0x3#4 ++ m.a) }
  | .movAT => { m with a := m.tmr }
  | .movTA => { m with tmr := m.a }
  | .strtCnt => { m with mode := .counter }
  | .strtT => { m with mode := .timer }
  | .stop => { m with mode := .stop }
  | .clrC => { m with c := false }
  | .cplC => { m with c := !m.c }
  | .clrF0 => { m with f0 := false }
  | .cplF0 => { m with f0 := !m.f0 }
  | .clrF1 => { m with f1 := false }
  | .cplF1 => { m with f1 := !m.f1 }
  | .selrb b => { m with bs := b }
  | .selmb b => { m with dbf := b }
  | .movAPsw => { m with a := m.psw }
  | .movPswA => m.setPsw m.a

/-- One instruction; none: the code is not an instruction. -/
def Mach.step (m : Mach) : Option Mach :=
  (decode (m.prog m.pc)).map fun i =>
    let q := next m.pc
    { m with pc := if i.length = 2 then next q else q }.exec q i

/-- What an accepted interrupt does. -/
def Mach.accept (m : Mach) (v : Addr) : Mach := { m.push with pc := v, isr := true }

/-! ### What the manual leaves open -/

/-- Transfers to and from the expander go over the low half of port 2. -/
def Ins.expander : Ins → Bool
  | .movdA _ | .movdP _ | .orld _ | .anld _ => true
  | _ => false

/-- BUS carries addresses and data while external memory is used: `inner` bytes of the program are
in the chip. -/
def Mach.usesBus (m : Mach) (inner : Nat) : Ins → Bool
  | .movxA _ | .movxR _ => true
  | i =>
    let q := next m.pc
    decide (inner ≤ m.pc.toNat ∨ inner ≤ q.toNat ∨ (i.length = 2 ∧ inner ≤ (next q).toNat))
      || (i == .movp && decide (inner ≤ (inPage q m.a).toNat)) || (i == .movp3 && decide (inner ≤ 0x300 + m.a.toNat))

/-- Forget the low half of port 2's latch, and BUS's latch. -/
def Mach.blur (m : Mach) (low bus : Bool) : Mach :=
  { m with p2 := if low then m.p2 &&& 0xf0 else m.p2, bus := if bus then 0 else m.bus }

end Ucsim.I48.Isa
