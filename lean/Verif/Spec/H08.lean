/-
The CPU08 and the HCS08 CPU as Motorola's manuals describe them (CPU08RM, HCS08RMv1), written
without looking at the simulator: registers, addressing modes, instructions.
-/
namespace Ucsim.H08.Isa

abbrev Byte := BitVec 8
abbrev Word := BitVec 16

/-- The programmer's model.  `irq`: level of the IRQ pin.  `waiting`: after STOP or WAIT, until an
interrupt comes. -/
structure Mach where
  a : Byte
  x : Byte
  h : Byte
  sp : Word
  pc : Word
  v : Bool
  hc : Bool
  i : Bool
  n : Bool
  z : Bool
  c : Bool
  mem : Word → Byte
  irq : Bool
  waiting : Bool

def Mach.store (m : Mach) (a : Word) (v : Byte) : Mach := { m with mem := fun x => if x = a then v else m.mem x }

/-- The index register H:X. -/
def Mach.hx (m : Mach) : Word := m.h ++ m.x
def Mach.setHX (m : Mach) (w : Word) : Mach := { m with h := w.extractLsb' 8 8, x := w.extractLsb' 0 8 }

/-- Two bytes, the high one first. -/
def Mach.word (m : Mach) (a : Word) : Word := m.mem a ++ m.mem (a + 1)

/-! ### Addressing modes -/

/-- `A`, `X`: the inherent forms that work on a register. -/
inductive Mode | imm | dir | ext | ix2 | ix1 | ix | sp2 | sp1 | A | X deriving DecidableEq, Repr

/-- Operand bytes in the instruction. -/
def Mode.bytes : Mode → Nat
  | .ix | .A | .X => 0
  | .imm | .dir | .ix1 | .sp1 => 1
  | .ext | .ix2 | .sp2 => 2

/-- The effective address; `q`: the address of the operand bytes. -/
def Mach.ea (m : Mach) (q : Word) : Mode → Word
  | .dir => (m.mem q).zeroExtend 16
  | .ext => m.word q
  | .ix2 => m.hx + m.word q
  | .ix1 => m.hx + (m.mem q).zeroExtend 16
  | .ix => m.hx
  | .sp2 => m.sp + m.word q
  | .sp1 => m.sp + (m.mem q).zeroExtend 16
  | .imm | .A | .X => 0

def Mach.operand (m : Mach) (q : Word) : Mode → Byte
  | .imm => m.mem q
  | .A => m.a
  | .X => m.x
  | k => m.mem (m.ea q k)

/-- Store to the operand. -/
def Mach.put (m : Mach) (q : Word) (k : Mode) (v : Byte) : Mach :=
  match k with
  | .A => { m with a := v }
  | .X => { m with x := v }
  | k => m.store (m.ea q k) v

/-- A 16 bit operand. -/
def Mach.operand2 (m : Mach) (q : Word) : Mode → Word
  | .imm => m.word q
  | k => m.word (m.ea q k)

/-! ### Instructions -/

inductive Alu | sub | cmp | sbc | cpx | and | bit | lda | eor | adc | ora | add | ldx deriving DecidableEq, Repr
inductive Rmw | neg | com | lsr | ror | asr | lsl | rol | dec | inc | tst | clr deriving DecidableEq, Repr
inductive Reg | a | x | h deriving DecidableEq, Repr

/-- `always` BRA/BRN, `hi` BHI/BLS, `cc` BCC/BCS, `ne` BNE/BEQ, `hcc` BHCC/BHCS, `pl` BPL/BMI, `mc`
BMC/BMS, `il` BIL/BIH, `ge` BGE/BLT, `gt` BGT/BLE -/
inductive Cond | always | hi | cc | ne | hcc | pl | mc | il | ge | gt deriving DecidableEq, Repr

inductive MovMode | dd | dix | imd | ixd deriving DecidableEq, Repr

/-- CBEQ opr,rel / CBEQA #,rel / CBEQX #,rel / CBEQ opr,X+,rel / CBEQ X+,rel / CBEQ opr,SP,rel -/
inductive CbMode | dir | a | x | ix1 | ix | sp1 deriving DecidableEq, Repr

inductive Ins
  | alu (o : Alu) (k : Mode) | sta (k : Mode) | stx (k : Mode)
  | rmw (o : Rmw) (k : Mode)
  /-- branch if bit `n` of the operand is `b` -/
  | brbit (b : Bool) (n : Nat)
  /-- make bit `n` of the operand `b` -/
  | setbit (b : Bool) (n : Nat)
  /-- branch if the condition is `b` -/
  | br (c : Cond) (b : Bool)
  | cbeq (k : CbMode) | dbnz (k : Mode)
  | mul | div | nsa | daa | mov (k : MovMode)
  | ldhx (k : Mode) | sthx (k : Mode) | cphx (k : Mode)
  | rti | rts | swi | tap | tpa | tax | txa | txs | tsx | pul (r : Reg) | psh (r : Reg)
  | clrh | stop | wait | clc | sec | cli | sei | rsp | nop
  | jmp (k : Mode) | jsr (k : Mode) | bsr | ais | aix
  | other
  deriving DecidableEq, Repr

/-! Opcode maps (CPU08RM table 5-2 / HCS08RMv1 table A-2): row = high nibble. -/

/-- Column of the read-modify-write rows. -/
def rmwIns (k : Mode) : Nat → Option Ins
  | 0x0 => some (.rmw .neg k)
  | 0x3 => some (.rmw .com k)
  | 0x4 => some (.rmw .lsr k)
  | 0x6 => some (.rmw .ror k)
  | 0x7 => some (.rmw .asr k)
  | 0x8 => some (.rmw .lsl k)
  | 0x9 => some (.rmw .rol k)
  | 0xa => some (.rmw .dec k)
  | 0xb => some (.dbnz k)
  | 0xc => some (.rmw .inc k)
  | 0xd => some (.rmw .tst k)
  | 0xf => some (.rmw .clr k)
  | _ => none

/-- Column of the register/memory rows. -/
def regIns (k : Mode) : Nat → Ins
  | 0x0 => .alu .sub k | 0x1 => .alu .cmp k | 0x2 => .alu .sbc k | 0x3 => .alu .cpx k
  | 0x4 => .alu .and k | 0x5 => .alu .bit k | 0x6 => .alu .lda k | 0x7 => .sta k
  | 0x8 => .alu .eor k | 0x9 => .alu .adc k | 0xa => .alu .ora k | 0xb => .alu .add k
  | 0xc => .jmp k | 0xd => .jsr k | 0xe => .alu .ldx k | _ => .stx k

def condOf : Nat → Cond
  | 0 => .always | 1 => .hi | 2 => .cc | 3 => .ne | 4 => .hcc | 5 => .pl | 6 => .mc | _ => .il

/-- One byte opcodes.  `s08`: the HCS08. -/
def decode (s08 : Bool) (op : Byte) : Ins :=
  let col := op.toNat % 16
  let row := op.toNat / 16
  match row with
  | 0x0 => .brbit (col % 2 == 0) (col / 2)
  | 0x1 => .setbit (col % 2 == 0) (col / 2)
  | 0x2 => .br (condOf (col / 2)) (col % 2 == 0)
  | 0x3 => (rmwIns .dir col).getD
      (match col with
      | 0x1 => .cbeq .dir
      | 0x2 => if s08 then .ldhx .ext else .other
      | 0x5 => .sthx .dir
      | _ => if s08 then .cphx .ext else .other)
  | 0x4 => (rmwIns .A col).getD
      (match col with
      | 0x1 => .cbeq .a
      | 0x2 => .mul
      | 0x5 => .ldhx .imm
      | _ => .mov .dd)
  | 0x5 => (rmwIns .X col).getD
      (match col with
      | 0x1 => .cbeq .x
      | 0x2 => .div
      | 0x5 => .ldhx .dir
      | _ => .mov .dix)
  | 0x6 => (rmwIns .ix1 col).getD
      (match col with
      | 0x1 => .cbeq .ix1
      | 0x2 => .nsa
      | 0x5 => .cphx .imm
      | _ => .mov .imd)
  | 0x7 => (rmwIns .ix col).getD
      (match col with
      | 0x1 => .cbeq .ix
      | 0x2 => .daa
      | 0x5 => .cphx .dir
      | _ => .mov .ixd)
  | 0x8 =>
    match col with
    | 0x0 => .rti | 0x1 => .rts | 0x3 => .swi | 0x4 => .tap | 0x5 => .tpa
    | 0x6 => .pul .a | 0x7 => .psh .a | 0x8 => .pul .x | 0x9 => .psh .x | 0xa => .pul .h | 0xb => .psh .h
    | 0xc => .clrh | 0xe => .stop | 0xf => .wait
    | _ => .other
  | 0x9 =>
    match col with
    | 0x0 => .br .ge true | 0x1 => .br .ge false | 0x2 => .br .gt true | 0x3 => .br .gt false
    | 0x4 => .txs | 0x5 => .tsx | 0x6 => if s08 then .sthx .ext else .other
    | 0x7 => .tax | 0x8 => .clc | 0x9 => .sec | 0xa => .cli | 0xb => .sei | 0xc => .rsp | 0xd => .nop
    | 0xf => .txa
    | _ => .other
  | 0xa =>
    match col with
    | 0x7 => .ais | 0xc => .other | 0xd => .bsr | 0xf => .aix
    | c => regIns .imm c
  | 0xb => regIns .dir col
  | 0xc => regIns .ext col
  | 0xd => regIns .ix2 col
  | 0xe => regIns .ix1 col
  | _ => regIns .ix col

/-- Opcodes after the 9E prefix. -/
def decode9e (s08 : Bool) (op : Byte) : Ins :=
  let col := op.toNat % 16
  match op.toNat / 16 with
  | 0x6 => if col = 1 then .cbeq .sp1 else (rmwIns .sp1 col).getD .other
  | 0xa => if s08 ∧ col = 0xe then .ldhx .ix else .other
  | 0xb => if s08 ∧ col = 0xe then .ldhx .ix2 else .other
  | 0xc => if s08 ∧ col = 0xe then .ldhx .ix1 else .other
  | 0xd => if col = 0xc ∨ col = 0xd then .other else regIns .sp2 col
  | 0xe => if col = 0xc ∨ col = 0xd then .other else regIns .sp1 col
  | 0xf =>
    if ¬ s08 then .other else
    match col with
    | 0x3 => .cphx .sp1 | 0xe => .ldhx .sp1 | 0xf => .sthx .sp1
    | _ => .other
  | _ => .other

/-- The instruction at PC and the address of its operand bytes. -/
def Mach.fetch (s08 : Bool) (m : Mach) : Ins × Word :=
  if m.mem m.pc = 0x9e#8 then (decode9e s08 (m.mem (m.pc + 1)), m.pc + 2)
  else (decode s08 (m.mem m.pc), m.pc + 1)

/-! ### Effects -/

/-- N and Z from a result. -/
def Mach.nz (m : Mach) (v : Byte) : Mach := { m with n := v.msb, z := v == 0 }

def ovf (i : Int) : Bool := decide (i < -128 ∨ 127 < i)

def Mach.addc (m : Mach) (b : Byte) (c : Bool) : Mach :=
  let t := m.a.toNat + b.toNat + c.toNat
  let r : Byte := BitVec.ofNat 8 t
  { m with a := r, c := decide (256 ≤ t), hc := decide (16 ≤ m.a.toNat % 16 + b.toNat % 16 + c.toNat), v := ovf (m.a.toInt + b.toInt + c.toNat) }.nz r

/-- Flags of `r - b - c`. -/
def Mach.subc (m : Mach) (r b : Byte) (c : Bool) : Mach :=
  { m with c := decide (r.toNat < b.toNat + c.toNat), v := ovf (r.toInt - b.toInt - c.toNat) }.nz (BitVec.ofInt 8 (r.toNat - b.toNat - c.toNat))

def Mach.logic (m : Mach) (r : Byte) : Mach := { m with v := false }.nz r

def Mach.alu (m : Mach) (o : Alu) (b : Byte) : Mach :=
  match o with
  | .add => m.addc b false
  | .adc => m.addc b m.c
  | .sub => { m.subc m.a b false with a := BitVec.ofInt 8 (m.a.toNat - b.toNat) }
  | .sbc => { m.subc m.a b m.c with a := BitVec.ofInt 8 (m.a.toNat - b.toNat - m.c.toNat) }
  | .cmp => m.subc m.a b false
  | .cpx => m.subc m.x b false
  | .and => { m.logic (m.a &&& b) with a := m.a &&& b }
  | .bit => m.logic (m.a &&& b)
  | .ora => { m.logic (m.a ||| b) with a := m.a ||| b }
  | .eor => { m.logic (m.a ^^^ b) with a := m.a ^^^ b }
  | .lda => { m.logic b with a := b }
  | .ldx => { m.logic b with x := b }

def bitAt (b : Bool) (i : Nat) : Byte := if b then (1#8 <<< i) else 0

/-- The value a read-modify-write instruction computes; `c`: the carry before. -/
def Rmw.val (o : Rmw) (c : Bool) (b : Byte) : Byte :=
  match o with
  | .neg => -b
  | .com => ~~~b
  | .lsr => b >>> 1
  | .ror => b >>> 1 ||| bitAt c 7
  | .asr => b.sshiftRight 1
  | .lsl => b <<< 1
  | .rol => b <<< 1 ||| bitAt c 0
  | .dec => b - 1
  | .inc => b + 1
  | .tst => b
  | .clr => 0

/-- The flags it leaves. -/
def Mach.rmwFlags (m : Mach) (o : Rmw) (b : Byte) : Mach :=
  let r := o.val m.c b
  match o with
  | .neg => { m with v := r == 0x80#8, c := r != 0 }.nz r
  | .com => { m with v := false, c := true }.nz r
  | .lsr | .ror | .asr => { m with c := b.getLsbD 0, v := r.msb != b.getLsbD 0 }.nz r
  | .lsl | .rol => { m with c := b.getLsbD 7, v := r.msb != b.getLsbD 7 }.nz r
  | .dec => { m with v := b == 0x80#8 }.nz r
  | .inc => { m with v := b == 0x7f#8 }.nz r
  | .tst | .clr => { m with v := false }.nz r

def Mach.cond (m : Mach) : Cond → Bool
  | .always => true
  | .hi => !(m.c || m.z)
  | .cc => !m.c
  | .ne => !m.z
  | .hcc => !m.hc
  | .pl => !m.n
  | .mc => !m.i
  | .il => !m.irq
  | .ge => !(m.n != m.v)
  | .gt => !(m.z || (m.n != m.v))

/-- Two's complement offset. -/
def Mach.rel (m : Mach) (q : Word) (t : Bool) : Mach :=
  { m with pc := if t then q + 1 + (m.mem q).signExtend 16 else q + 1 }

def Mach.push (m : Mach) (v : Byte) : Mach := { m.store m.sp v with sp := m.sp - 1 }
/-- The low byte is pushed first. -/
def Mach.pushw (m : Mach) (w : Word) : Mach := (m.push (w.extractLsb' 0 8)).push (w.extractLsb' 8 8)
/-- What the `k`th pull from now will give. -/
def Mach.pull (m : Mach) (k : Word) : Byte := m.mem (m.sp + k)

/-- V11HINZC -/
def Mach.ccr (m : Mach) : Byte :=
  bitAt m.v 7 ||| 0x60 ||| bitAt m.hc 4 ||| bitAt m.i 3 ||| bitAt m.n 2 ||| bitAt m.z 1 ||| bitAt m.c 0
def Mach.setCcr (m : Mach) (p : Byte) : Mach :=
  { m with v := p.getLsbD 7, hc := p.getLsbD 4, i := p.getLsbD 3, n := p.getLsbD 2, z := p.getLsbD 1, c := p.getLsbD 0 }

def Mach.reg (m : Mach) : Reg → Byte
  | .a => m.a | .x => m.x | .h => m.h
def Mach.setReg (m : Mach) (r : Reg) (v : Byte) : Mach :=
  match r with
  | .a => { m with a := v } | .x => { m with x := v } | .h => { m with h := v }

/-- Flags of a 16 bit value that is loaded or stored. -/
def Mach.nz16 (m : Mach) (w : Word) : Mach := { m with v := false, n := w.msb, z := w == 0 }

/-- What the manual leaves open: A, H and Z after a division that overflows, V after DAA. -/
structure Undef where
  a : Byte
  h : Byte
  z : Bool
  v : Bool

/-- The value DAA adds, and the carry after it (CPU08RM, DAA); other combinations do not come
from an addition of decimal numbers. -/
def daaTable (c hc : Bool) (a : Byte) : Option (Byte × Bool) :=
  let u := a.toNat / 16
  let l := a.toNat % 16
  if !c ∧ u ≤ 9 ∧ !hc ∧ l ≤ 9 then some (0x00, false)
  else if !c ∧ u ≤ 8 ∧ !hc ∧ 10 ≤ l then some (0x06, false)
  else if !c ∧ u ≤ 9 ∧ hc ∧ l ≤ 3 then some (0x06, false)
  else if !c ∧ 10 ≤ u ∧ !hc ∧ l ≤ 9 then some (0x60, true)
  else if !c ∧ 9 ≤ u ∧ !hc ∧ 10 ≤ l then some (0x66, true)
  else if !c ∧ 10 ≤ u ∧ hc ∧ l ≤ 3 then some (0x66, true)
  else if c ∧ u ≤ 2 ∧ !hc ∧ l ≤ 9 then some (0x60, true)
  else if c ∧ u ≤ 2 ∧ !hc ∧ 10 ≤ l then some (0x66, true)
  else if c ∧ u ≤ 3 ∧ hc ∧ l ≤ 3 then some (0x66, true)
  else none

def Mach.daa (u : Undef) (m : Mach) : Mach :=
  match daaTable m.c m.hc m.a with
  | some (k, c) => { m with a := m.a + k, c := c, v := u.v }.nz (m.a + k)
  | none => { m with a := u.a, v := u.v }

def Mach.div (u : Undef) (m : Mach) : Mach :=
  let d := m.h.toNat * 256 + m.a.toNat
  let q := d / m.x.toNat
  if m.x = 0 ∨ 255 < q then { m with a := u.a, h := u.h, z := u.z, c := true }
  else { m with a := BitVec.ofNat 8 q, h := BitVec.ofNat 8 (d % m.x.toNat), z := q == 0, c := false }

def Mach.cphx (m : Mach) (w : Word) : Mach :=
  let i := m.hx.toInt - w.toInt
  let r := m.hx - w
  { m with c := decide (m.hx.toNat < w.toNat), v := decide (i < -32768 ∨ 32767 < i), n := r.msb, z := r == 0 }

/-- The instruction with its operand bytes at `q`. -/
def exec (u : Undef) (m : Mach) (q : Word) : Ins → Mach
  | .alu o k => { m.alu o (m.operand q k) with pc := q + BitVec.ofNat 16 k.bytes }
  | .sta k => { (m.put q k m.a).logic m.a with pc := q + BitVec.ofNat 16 k.bytes }
  | .stx k => { (m.put q k m.x).logic m.x with pc := q + BitVec.ofNat 16 k.bytes }
  | .rmw .tst k => { m.rmwFlags .tst (m.operand q k) with pc := q + BitVec.ofNat 16 k.bytes }
  | .rmw o k => { (m.put q k (o.val m.c (m.operand q k))).rmwFlags o (m.operand q k) with pc := q + BitVec.ofNat 16 k.bytes }
  | .brbit b n => let v := (m.operand q .dir).getLsbD n; { m.rel (q + 1) (v == b) with c := v }
  | .setbit b n =>
    let v := m.operand q .dir
    { m.put q .dir (if b then v ||| (1#8 <<< n) else v &&& ~~~(1#8 <<< n)) with pc := q + 1 }
  | .br c b => m.rel q (m.cond c == b)
  | .cbeq .dir => m.rel (q + 1) (m.operand q .dir == m.a)
  | .cbeq .a => m.rel (q + 1) (m.mem q == m.a)
  | .cbeq .x => m.rel (q + 1) (m.mem q == m.x)
  | .cbeq .ix1 => (m.rel (q + 1) (m.operand q .ix1 == m.a)).setHX (m.hx + 1)
  | .cbeq .ix => (m.rel q (m.operand q .ix == m.a)).setHX (m.hx + 1)
  | .cbeq .sp1 => m.rel (q + 1) (m.operand q .sp1 == m.a)
  | .dbnz k => { m.put q k (m.operand q k - 1) with pc := (m.rel (q + BitVec.ofNat 16 k.bytes) (m.operand q k - 1 != 0)).pc }
  | .mul =>
    let r := m.x.toNat * m.a.toNat
    { m with a := BitVec.ofNat 8 r, x := BitVec.ofNat 8 (r / 256), hc := false, c := false, pc := q }
  | .div => { m.div u with pc := q }
  | .nsa => { m with a := m.a.extractLsb' 0 4 ++ m.a.extractLsb' 4 4, pc := q }
  | .daa => { m.daa u with pc := q }
  | .mov .dd => let v := m.mem ((m.mem q).zeroExtend 16); { (m.store ((m.mem (q + 1)).zeroExtend 16) v).logic v with pc := q + 2 }
  | .mov .dix => let v := m.mem ((m.mem q).zeroExtend 16); { ((m.store m.hx v).setHX (m.hx + 1)).logic v with pc := q + 1 }
  | .mov .imd => let v := m.mem q; { (m.store ((m.mem (q + 1)).zeroExtend 16) v).logic v with pc := q + 2 }
  | .mov .ixd => let v := m.mem m.hx; { ((m.store ((m.mem q).zeroExtend 16) v).setHX (m.hx + 1)).logic v with pc := q + 1 }
  | .ldhx k =>
    let w := m.operand2 q k
    { (m.setHX w).nz16 w with pc := q + if k = .imm then 2 else BitVec.ofNat 16 k.bytes }
  | .sthx k => { ((m.store (m.ea q k) m.h).store (m.ea q k + 1) m.x).nz16 m.hx with pc := q + BitVec.ofNat 16 k.bytes }
  | .cphx k => { m.cphx (m.operand2 q k) with pc := q + if k = .imm then 2 else BitVec.ofNat 16 k.bytes }
  | .rti => { m.setCcr (m.pull 1) with a := m.pull 2, x := m.pull 3, pc := m.pull 4 ++ m.pull 5, sp := m.sp + 5 }
  | .rts => { m with pc := m.pull 1 ++ m.pull 2, sp := m.sp + 2 }
  | .swi =>
    let t := (((m.pushw q).push m.x).push m.a).push m.ccr
    { t with i := true, pc := t.word 0xfffc }
  | .tap => { m.setCcr m.a with pc := q }
  | .tpa => { m with a := m.ccr, pc := q }
  | .tax => { m with x := m.a, pc := q }
  | .txa => { m with a := m.x, pc := q }
  | .txs => { m with sp := m.hx - 1, pc := q }
  | .tsx => { m.setHX (m.sp + 1) with pc := q }
  | .pul r => { m.setReg r (m.pull 1) with sp := m.sp + 1, pc := q }
  | .psh r => { m.push (m.reg r) with pc := q }
  | .clrh => { m with h := 0, v := false, n := false, z := true, pc := q }
  | .stop => { m with i := false, waiting := true, pc := q }
  | .wait => { m with i := false, waiting := true, pc := q }
  | .clc => { m with c := false, pc := q }
  | .sec => { m with c := true, pc := q }
  | .cli => { m with i := false, pc := q }
  | .sei => { m with i := true, pc := q }
  | .rsp => { m with sp := m.sp.extractLsb' 8 8 ++ 0xff#8, pc := q }
  | .nop => { m with pc := q }
  | .jmp k => { m with pc := m.ea q k }
  | .jsr k => { m.pushw (q + BitVec.ofNat 16 k.bytes) with pc := m.ea q k }
  | .bsr => { m.pushw (q + 1) with pc := q + 1 + (m.mem q).signExtend 16 }
  | .ais => { m with sp := m.sp + (m.mem q).signExtend 16, pc := q + 1 }
  | .aix => { m.setHX (m.hx + (m.mem q).signExtend 16) with pc := q + 1 }
  | .other => m

/-- One instruction; a waiting processor waits. -/
def step (s08 : Bool) (u : Undef) (m : Mach) : Mach :=
  if m.waiting then m else exec u m (m.fetch s08).2 (m.fetch s08).1

/-! ### Cycles -/

/-- CPU08RM, instruction set summary. -/
def cycles08 : Ins → Nat
  | .alu _ k | .sta k | .stx k =>
    (match k with
    | .imm => 2 | .dir => 3 | .ext => 4 | .ix2 => 4 | .sp2 => 5 | .ix1 => 3 | .sp1 => 4 | .ix => 2 | _ => 0)
  | .rmw .tst k | .rmw .clr k => (match k with | .dir => 3 | .A | .X => 1 | .ix1 => 3 | .ix => 2 | .sp1 => 4 | _ => 0)
  | .rmw _ k => (match k with | .dir => 4 | .A | .X => 1 | .ix1 => 4 | .ix => 3 | .sp1 => 5 | _ => 0)
  | .brbit .. => 5
  | .setbit .. => 4
  | .br .. => 3
  | .cbeq k => (match k with | .dir => 5 | .a | .x => 4 | .ix1 => 5 | .ix => 4 | .sp1 => 6)
  | .dbnz k => (match k with | .dir => 5 | .A | .X => 3 | .ix1 => 5 | .ix => 4 | .sp1 => 6 | _ => 0)
  | .mul => 5
  | .div => 7
  | .nsa => 3
  | .daa => 2
  | .mov .dd => 5
  | .mov _ => 4
  | .ldhx k | .cphx k => (match k with | .imm => 3 | _ => 4)
  | .sthx _ => 4
  | .rti => 7
  | .rts => 4
  | .swi => 9
  | .tap | .txs | .tsx | .pul _ | .psh _ | .cli | .sei | .ais | .aix => 2
  | .jmp k => (match k with | .dir => 2 | .ext => 3 | .ix2 => 4 | .ix1 => 3 | .ix => 2 | _ => 0)
  | .jsr k => (match k with | .dir => 4 | .ext => 5 | .ix2 => 6 | .ix1 => 5 | .ix => 4 | _ => 0)
  | .bsr => 4
  | _ => 1

/-- HCS08RMv1, instruction set summary. -/
def cyclesS08 : Ins → Nat
  | .alu _ k =>
    (match k with
    | .imm => 2 | .dir => 3 | .ext => 4 | .ix2 => 4 | .sp2 => 5 | .ix1 => 3 | .sp1 => 4 | .ix => 3 | _ => 0)
  | .sta k | .stx k =>
    (match k with
    | .dir => 3 | .ext => 4 | .ix2 => 4 | .sp2 => 5 | .ix1 => 3 | .sp1 => 4 | .ix => 2 | _ => 0)
  | .rmw .tst k => (match k with | .dir => 4 | .A | .X => 1 | .ix1 => 4 | .ix => 3 | .sp1 => 5 | _ => 0)
  | .rmw _ k => (match k with | .dir => 5 | .A | .X => 1 | .ix1 => 5 | .ix => 4 | .sp1 => 6 | _ => 0)
  | .brbit .. => 5
  | .setbit .. => 5
  | .br .. => 3
  | .cbeq k => (match k with | .dir => 5 | .a | .x => 4 | .ix1 => 5 | .ix => 5 | .sp1 => 6)
  | .dbnz k => (match k with | .dir => 7 | .A | .X => 4 | .ix1 => 7 | .ix => 6 | .sp1 => 8 | _ => 0)
  | .mul => 5
  | .div => 6
  | .mov .imd => 4
  | .mov _ => 5
  | .ldhx k => (match k with | .imm => 3 | .dir => 4 | .ext => 5 | .ix => 5 | .ix2 => 6 | .ix1 => 5 | .sp1 => 5 | _ => 0)
  | .sthx k => (match k with | .dir => 4 | .ext => 5 | .sp1 => 5 | _ => 0)
  | .cphx k => (match k with | .imm => 3 | .dir => 5 | .ext => 6 | .sp1 => 6 | _ => 0)
  | .rti => 9
  | .rts => 6
  | .swi => 11
  | .txs | .tsx | .psh _ | .ais | .aix | .stop | .wait => 2
  | .pul _ => 3
  | .jmp k => (match k with | .dir => 3 | .ext => 4 | .ix2 => 4 | .ix1 => 3 | .ix => 3 | _ => 0)
  | .jsr k => (match k with | .dir => 5 | .ext => 6 | .ix2 => 6 | .ix1 => 5 | .ix => 5 | _ => 0)
  | .bsr => 5
  | _ => 1

end Ucsim.H08.Isa
