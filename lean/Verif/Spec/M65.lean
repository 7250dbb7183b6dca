/-
The MOS 6502 as the MCS6500 Programming Manual describes it, written without looking at the
simulator: registers, processor status, addressing modes, instructions, interrupts, clocks.
-/
namespace Ucsim.M65.Isa

abbrev Byte := BitVec 8
abbrev Word := BitVec 16

/-- The programmer's model. -/
structure Mach where
  a : Byte
  x : Byte
  y : Byte
  s : Byte
  n : Bool
  v : Bool
  d : Bool
  i : Bool
  z : Bool
  c : Bool
  pc : Word
  mem : Word → Byte

/-! ### Memory -/

def Mach.store (m : Mach) (a : Word) (v : Byte) : Mach := { m with mem := fun x => if x = a then v else m.mem x }

/-- The bytes of the instruction after the opcode. -/
def Mach.op1 (m : Mach) : Byte := m.mem (m.pc + 1)
def Mach.op2 (m : Mach) : Byte := m.mem (m.pc + 2)
/-- Address in the instruction: low byte first. -/
def Mach.opw (m : Mach) : Word := m.op2 ++ m.op1

/-- An address of page zero. -/
def zero (z : Byte) : Word := 0#8 ++ z

/-- The address stored in page zero at `z`; page zero wraps around. -/
def Mach.ptr (m : Mach) (z : Byte) : Word := m.mem (zero (z + 1)) ++ m.mem (zero z)

/-! ### Addressing modes -/

inductive Mode | imm | zp | zpx | zpy | abs | absx | absy | indx | indy | acc deriving DecidableEq, Repr

def Mode.length : Mode → Nat
  | .acc => 1
  | .abs | .absx | .absy => 3
  | _ => 2

/-- The effective address. -/
def Mach.ea (m : Mach) : Mode → Word
  | .zp => zero m.op1
  | .zpx => zero (m.op1 + m.x)
  | .zpy => zero (m.op1 + m.y)
  | .abs => m.opw
  | .absx => m.opw + m.x.zeroExtend 16
  | .absy => m.opw + m.y.zeroExtend 16
  | .indx => m.ptr (m.op1 + m.x)
  | .indy => m.ptr m.op1 + m.y.zeroExtend 16
  | .imm | .acc => 0

def Mach.operand (m : Mach) : Mode → Byte
  | .imm => m.op1
  | .acc => m.a
  | k => m.mem (m.ea k)

def Mach.put (m : Mach) (k : Mode) (v : Byte) : Mach :=
  match k with
  | .acc => { m with a := v }
  | k => m.store (m.ea k) v

/-! ### Instructions -/

inductive Reg | a | x | y deriving DecidableEq, Repr
inductive Flag | n | v | c | z deriving DecidableEq, Repr

inductive Ins
  | ora (k : Mode) | and (k : Mode) | eor (k : Mode) | adc (k : Mode) | sbc (k : Mode)
  | cmp (r : Reg) (k : Mode) | ld (r : Reg) (k : Mode) | st (r : Reg) (k : Mode) | bit (k : Mode)
  | inc (k : Mode) | dec (k : Mode) | asl (k : Mode) | lsr (k : Mode) | rol (k : Mode) | ror (k : Mode)
  /-- INX INY, DEX DEY -/
  | inr (r : Reg) | der (r : Reg)
  /-- TAX TAY TXA TYA -/
  | tr (s d : Reg)
  | tsx | txs | pha | php | pla | plp
  | jmp | jmpInd | jsr | rts | brk | rti
  /-- branch if the flag is `b` -/
  | br (f : Flag) (b : Bool)
  | clc | sec | cli | sei | clv | cld | sed | nop
  | other
  deriving DecidableEq, Repr

/-- Opcode map: aaabbbcc. -/
def decode (op : Byte) : Ins :=
  let a := op.toNat / 32
  let b := op.toNat / 4 % 8
  match op.toNat % 4 with
  | 1 =>
    let k := [Mode.indx, .zp, .imm, .abs, .indy, .zpx, .absy, .absx].getD b .acc
    match a with
    | 0 => .ora k | 1 => .and k | 2 => .eor k | 3 => .adc k
    | 4 => if k = .imm then .other else .st .a k
    | 5 => .ld .a k | 6 => .cmp .a k | _ => .sbc k
  | 2 =>
    let x := a = 4 ∨ a = 5
    let mem (k : Mode) : Ins :=
      match a with
      | 0 => .asl k | 1 => .rol k | 2 => .lsr k | 3 => .ror k | 4 => .st .x k | 5 => .ld .x k | 6 => .dec k | _ => .inc k
    match b with
    | 0 => if a = 5 then .ld .x .imm else .other
    | 1 => mem .zp
    | 2 =>
      match a with
      | 4 => .tr .x .a | 5 => .tr .a .x | 6 => .der .x | 7 => .nop
      | _ => mem .acc
    | 3 => mem .abs
    | 5 => mem (if x then .zpy else .zpx)
    | 6 => if a = 4 then .txs else if a = 5 then .tsx else .other
    | 7 => if a = 4 then .other else mem (if x then .absy else .absx)
    | _ => .other
  | 0 =>
    match b with
    | 0 => [Ins.brk, .jsr, .rti, .rts, .other, .ld .y .imm, .cmp .y .imm, .cmp .x .imm].getD a .other
    | 1 => [Ins.other, .bit .zp, .other, .other, .st .y .zp, .ld .y .zp, .cmp .y .zp, .cmp .x .zp].getD a .other
    | 2 => [Ins.php, .plp, .pha, .pla, .der .y, .tr .a .y, .inr .y, .inr .x].getD a .other
    | 3 => [Ins.other, .bit .abs, .jmp, .jmpInd, .st .y .abs, .ld .y .abs, .cmp .y .abs, .cmp .x .abs].getD a .other
    | 4 => .br ([Flag.n, .v, .c, .z].getD (a / 2) .z) (a % 2 == 1)
    | 5 => if a = 4 then .st .y .zpx else if a = 5 then .ld .y .zpx else .other
    | 6 => [Ins.clc, .sec, .cli, .sei, .tr .y .a, .clv, .cld, .sed].getD a .other
    | _ => if a = 5 then .ld .y .absx else .other
  | _ => .other

/-- Bytes of an instruction. -/
def length : Ins → Nat
  | .ora k | .and k | .eor k | .adc k | .sbc k | .cmp _ k | .ld _ k | .st _ k | .bit k
  | .inc k | .dec k | .asl k | .lsr k | .rol k | .ror k => k.length
  | .jmp | .jmpInd | .jsr => 3
  | .br .. => 2
  | _ => 1

/-! ### Effects -/

def Mach.reg (m : Mach) : Reg → Byte
  | .a => m.a | .x => m.x | .y => m.y
def Mach.setReg (m : Mach) (r : Reg) (v : Byte) : Mach :=
  match r with
  | .a => { m with a := v } | .x => { m with x := v } | .y => { m with y := v }

/-- N and Z from a result. -/
def Mach.nz (m : Mach) (v : Byte) : Mach := { m with n := v.msb, z := v == 0 }

def Mach.push (m : Mach) (v : Byte) : Mach := { m.store (1#8 ++ m.s) v with s := m.s - 1 }
def Mach.pushw (m : Mach) (w : Word) : Mach := (m.push (w.extractLsb' 8 8)).push (w.extractLsb' 0 8)
/-- What `k` pulls from now will give. -/
def Mach.pull (m : Mach) (k : Byte) : Byte := m.mem (1#8 ++ (m.s + k))

def bitAt (b : Bool) (i : Nat) : Byte := if b then (1#8 <<< i) else 0
/-- The status byte NV1BDIZC. -/
def Mach.status (m : Mach) (b : Bool) : Byte :=
  bitAt m.n 7 ||| bitAt m.v 6 ||| 0x20 ||| bitAt b 4 ||| bitAt m.d 3 ||| bitAt m.i 2 ||| bitAt m.z 1 ||| bitAt m.c 0
def Mach.setStatus (m : Mach) (p : Byte) : Mach :=
  { m with n := p.getLsbD 7, v := p.getLsbD 6, d := p.getLsbD 3, i := p.getLsbD 2, z := p.getLsbD 1, c := p.getLsbD 0 }

/-- A byte of two decimal digits, and its value. -/
def isBcd (v : Byte) : Prop := v.toNat / 16 < 10 ∧ v.toNat % 16 < 10
instance (v : Byte) : Decidable (isBcd v) := inferInstanceAs (Decidable (_ ∧ _))
def bcd (v : Byte) : Nat := 10 * (v.toNat / 16) + v.toNat % 16
def toBcd (n : Nat) : Byte := BitVec.ofNat 8 (16 * (n / 10 % 10) + n % 10)

/-- In decimal mode N, V and Z are not defined after ADC and SBC: `u` gives what they become. -/
structure Undef where
  n : Bool
  v : Bool
  z : Bool

def Mach.adc (u : Undef) (m : Mach) (b : Byte) : Mach :=
  if m.d then
    let t := bcd m.a + bcd b + m.c.toNat
    { m with a := toBcd (t % 100), c := decide (100 ≤ t), n := u.n, v := u.v, z := u.z }
  else
    let t := m.a.toNat + b.toNat + m.c.toNat
    let i := m.a.toInt + b.toInt + m.c.toNat
    let r : Byte := BitVec.ofNat 8 t
    { m with a := r, c := decide (256 ≤ t), v := decide (i < -128 ∨ 127 < i) }.nz r

/-- The carry is the complement of the borrow. -/
def Mach.sbc (u : Undef) (m : Mach) (b : Byte) : Mach :=
  let borrow := (!m.c).toNat
  if m.d then
    let t : Int := bcd m.a - bcd b - borrow
    { m with a := toBcd (t % 100).toNat, c := decide (0 ≤ t), n := u.n, v := u.v, z := u.z }
  else
    let t : Int := m.a.toNat - b.toNat - borrow
    let i := m.a.toInt - b.toInt - borrow
    let r : Byte := BitVec.ofInt 8 t
    { m with a := r, c := decide (0 ≤ t), v := decide (i < -128 ∨ 127 < i) }.nz r

def Mach.flag (m : Mach) : Flag → Bool
  | .n => m.n | .v => m.v | .c => m.c | .z => m.z

/-- The instruction, PC not yet advanced (the operands are found by it). -/
def exec (u : Undef) (m : Mach) : Ins → Mach
  | .ora k => let r := m.a ||| m.operand k; { m with a := r }.nz r
  | .and k => let r := m.a &&& m.operand k; { m with a := r }.nz r
  | .eor k => let r := m.a ^^^ m.operand k; { m with a := r }.nz r
  | .adc k => m.adc u (m.operand k)
  | .sbc k => m.sbc u (m.operand k)
  | .cmp r k => { m with c := decide ((m.operand k).toNat ≤ (m.reg r).toNat) }.nz (m.reg r - m.operand k)
  | .ld r k => (m.setReg r (m.operand k)).nz (m.operand k)
  | .st r k => m.put k (m.reg r)
  | .bit k => { m with n := (m.operand k).getLsbD 7, v := (m.operand k).getLsbD 6, z := m.a &&& m.operand k == 0 }
  | .inc k => (m.put k (m.operand k + 1)).nz (m.operand k + 1)
  | .dec k => (m.put k (m.operand k - 1)).nz (m.operand k - 1)
  | .asl k => let b := m.operand k; { m.put k (b <<< 1) with c := b.getLsbD 7 }.nz (b <<< 1)
  | .lsr k => let b := m.operand k; { m.put k (b >>> 1) with c := b.getLsbD 0 }.nz (b >>> 1)
  | .rol k => let b := m.operand k; let r := b <<< 1 ||| bitAt m.c 0; { m.put k r with c := b.getLsbD 7 }.nz r
  | .ror k => let b := m.operand k; let r := b >>> 1 ||| bitAt m.c 7; { m.put k r with c := b.getLsbD 0 }.nz r
  | .inr r => (m.setReg r (m.reg r + 1)).nz (m.reg r + 1)
  | .der r => (m.setReg r (m.reg r - 1)).nz (m.reg r - 1)
  | .tr s d => (m.setReg d (m.reg s)).nz (m.reg s)
  | .tsx => { m with x := m.s }.nz m.s
  | .txs => { m with s := m.x }
  | .pha => m.push m.a
  | .php => m.push (m.status true)
  | .pla => { m with a := m.pull 1, s := m.s + 1 }.nz (m.pull 1)
  | .plp => { m.setStatus (m.pull 1) with s := m.s + 1 }
  | .clc => { m with c := false }
  | .sec => { m with c := true }
  | .cli => { m with i := false }
  | .sei => { m with i := true }
  | .clv => { m with v := false }
  | .cld => { m with d := false }
  | .sed => { m with d := true }
  | _ => m

/-- A vector. -/
def Mach.vec (m : Mach) (a : Word) : Word := m.mem (a + 1) ++ m.mem a

/-- The sequence of an interrupt: PC and status (with B as given) are pushed, I is set. -/
def Mach.interrupt (m : Mach) (b : Bool) (v : Word) : Mach :=
  let t := (m.pushw m.pc).push (m.status b)
  { t with i := true, pc := t.vec v }

/-- One instruction.  JMP indirect takes the high byte from the same page (the 6502 does not
carry there). -/
def step (u : Undef) (m : Mach) : Mach :=
  match decode (m.mem m.pc) with
  | .jmp => { m with pc := m.opw }
  | .jmpInd => { m with pc := m.mem (m.op2 ++ (m.op1 + 1)) ++ m.mem m.opw }
  | .jsr => { m.pushw (m.pc + 2) with pc := m.opw }
  | .rts => { m with pc := (m.pull 2 ++ m.pull 1) + 1, s := m.s + 2 }
  | .rti => { m.setStatus (m.pull 1) with pc := m.pull 3 ++ m.pull 2, s := m.s + 3 }
  | .brk => { m with pc := m.pc + 2 }.interrupt true 0xfffe
  | .br f b => { m with pc := if m.flag f = b then m.pc + 2 + m.op1.signExtend 16 else m.pc + 2 }
  | i => { exec u m i with pc := m.pc + BitVec.ofNat 16 (length i) }

/-! ### Clocks -/

/-- Does indexing leave the page of the base address? -/
def crosses (base : Word) (i : Byte) : Bool := 256 ≤ base.toNat % 256 + i.toNat

def Mach.pageCross (m : Mach) : Mode → Bool
  | .absx => crosses m.opw m.x
  | .absy => crosses m.opw m.y
  | .indy => crosses (m.ptr m.op1) m.y
  | _ => false

/-- Reading an operand. -/
def Mach.rdClk (m : Mach) (k : Mode) : Nat :=
  (match k with
    | .imm | .acc => 2 | .zp => 3 | .zpx | .zpy => 4 | .abs => 4 | .absx | .absy => 4 | .indx => 6 | .indy => 5) +
  (m.pageCross k).toNat
/-- Storing: indexing always takes the extra cycle. -/
def stClk : Mode → Nat
  | .imm | .acc => 2 | .zp => 3 | .zpx | .zpy => 4 | .abs => 4 | .absx | .absy => 5 | .indx => 6 | .indy => 6
/-- Read-modify-write. -/
def rmwClk : Mode → Nat
  | .imm | .acc => 2 | .zp => 5 | .zpx | .zpy => 6 | .abs => 6 | .absx | .absy => 7 | .indx | .indy => 8

def clocks (m : Mach) : Ins → Nat
  | .ora k | .and k | .eor k | .adc k | .sbc k | .cmp _ k | .ld _ k | .bit k => m.rdClk k
  | .st _ k => stClk k
  | .inc k | .dec k | .asl k | .lsr k | .rol k | .ror k => rmwClk k
  | .pha | .php => 3
  | .pla | .plp => 4
  | .jmp => 3
  | .jmpInd => 5
  | .jsr | .rts | .rti => 6
  | .brk => 7
  | .br f b =>
    if m.flag f = b then
      let t := m.pc + 2 + m.op1.signExtend 16
      if t.toNat / 256 = (m.pc + 2).toNat / 256 then 3 else 4
    else 2
  | _ => 2

end Ucsim.M65.Isa
