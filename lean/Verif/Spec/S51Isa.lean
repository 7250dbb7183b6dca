/-
The instruction set of the 8051 as the manual tells it (Intel MCS-51 Programmer's
Guide and Instruction Set), over a bare machine: no devices, no interrupts.  Does
not use anything of the model of the program.
-/
namespace Ucsim.S51.Isa

abbrev Byte := BitVec 8

/-- Memories of the machine; special function registers by their addresses. -/
@[ext] structure Cpu where
  pc : Nat
  iram : Nat → Byte
  sfr : Nat → Byte
  xram : Nat → Byte
  rom : Nat → Byte

def put (f : Nat → Byte) (a : Nat) (v : Byte) : Nat → Byte := fun x => if x = a then v else f x

namespace Cpu

/-! ### Registers and operands -/

def A (c : Cpu) : Byte := c.sfr 0xe0
def B (c : Cpu) : Byte := c.sfr 0xf0
def SP (c : Cpu) : Byte := c.sfr 0x81
def DPTR (c : Cpu) : Nat := 256 * (c.sfr 0x83).toNat + (c.sfr 0x82).toNat
def psw (c : Cpu) : Byte := c.sfr 0xd0
def CY (c : Cpu) : Bool := c.psw.getLsbD 7
def AC (c : Cpu) : Bool := c.psw.getLsbD 6
/-- Selected register bank. -/
def bank (c : Cpu) : Nat := 2 * (c.psw.getLsbD 4).toNat + (c.psw.getLsbD 3).toNat
def R (c : Cpu) (n : Nat) : Byte := c.iram (8 * c.bank + n)
def dir (c : Cpu) (a : Byte) : Byte := if a.toNat < 0x80 then c.iram a.toNat else c.sfr a.toNat
def ind (c : Cpu) (i : Nat) : Byte := c.iram (c.R i).toNat
/-- `n`-th byte of the instruction. -/
def code (c : Cpu) (n : Nat) : Byte := c.rom ((c.pc + n) % 0x10000)
/-- Bit `b` of the bit space: 0..0x7f is in internal memory from 0x20, the rest in the
registers with addresses divisible by 8. -/
def bit (c : Cpu) (b : Byte) : Bool :=
  if b.toNat < 0x80 then (c.iram (0x20 + b.toNat / 8)).getLsbD (b.toNat % 8)
  else (c.sfr (b.toNat / 8 * 8)).getLsbD (b.toNat % 8)

/-! ### Stores -/

/-- A byte with bit `i` set to `b`. -/
def withBit (v : Byte) (i : Nat) (b : Bool) : Byte := if b then v ||| (1#8 <<< i) else v &&& ~~~(1#8 <<< i)

def setSfr (c : Cpu) (a : Nat) (v : Byte) : Cpu := { c with sfr := put c.sfr a v }
def setIram (c : Cpu) (a : Nat) (v : Byte) : Cpu := { c with iram := put c.iram a v }
def setA (c : Cpu) (v : Byte) : Cpu := c.setSfr 0xe0 v
def setB (c : Cpu) (v : Byte) : Cpu := c.setSfr 0xf0 v
def setSP (c : Cpu) (v : Byte) : Cpu := c.setSfr 0x81 v
def setDPTR (c : Cpu) (v : Nat) : Cpu := (c.setSfr 0x83 (BitVec.ofNat 8 (v / 256))).setSfr 0x82 (BitVec.ofNat 8 v)
def setR (c : Cpu) (n : Nat) (v : Byte) : Cpu := c.setIram (8 * c.bank + n) v
def setDir (c : Cpu) (a : Byte) (v : Byte) : Cpu := if a.toNat < 0x80 then c.setIram a.toNat v else c.setSfr a.toNat v
def setInd (c : Cpu) (i : Nat) (v : Byte) : Cpu := c.setIram (c.R i).toNat v
def setXram (c : Cpu) (a : Nat) (v : Byte) : Cpu := { c with xram := put c.xram a v }
def setFlag (c : Cpu) (i : Nat) (b : Bool) : Cpu := c.setSfr 0xd0 (withBit c.psw i b)
def setCY (c : Cpu) (b : Bool) : Cpu := c.setFlag 7 b
def setAC (c : Cpu) (b : Bool) : Cpu := c.setFlag 6 b
def setOV (c : Cpu) (b : Bool) : Cpu := c.setFlag 2 b
def setBit (c : Cpu) (b : Byte) (v : Bool) : Cpu :=
  if b.toNat < 0x80 then c.setIram (0x20 + b.toNat / 8) (withBit (c.iram (0x20 + b.toNat / 8)) (b.toNat % 8) v)
  else c.setSfr (b.toNat / 8 * 8) (withBit (c.sfr (b.toNat / 8 * 8)) (b.toNat % 8) v)

/-- `n` bytes of program are passed. -/
def next (c : Cpu) (n : Nat) : Cpu := { c with pc := (c.pc + n) % 0x10000 }
def jump (c : Cpu) (a : Nat) : Cpu := { c with pc := a % 0x10000 }
/-- Relative jump, from the PC of the following instruction. -/
def rel (c : Cpu) (d : Byte) : Cpu := { c with pc := (((c.pc : Int) + d.toInt) % 0x10000).toNat }
def relIf (c : Cpu) (b : Bool) (d : Byte) : Cpu := if b then c.rel d else c

/-! ### Operations -/

/-- Operands by the low nibble of the opcode: 5 direct, 6-7 @Ri, 8-f Rn. -/
def opnd (c : Cpu) (lo : Nat) : Byte :=
  if lo = 5 then c.dir (c.code 1) else if lo < 8 then c.ind (lo - 6) else c.R (lo - 8)
/-- ... and 4 immediate. -/
def opndI (c : Cpu) (lo : Nat) : Byte := if lo = 4 then c.code 1 else c.opnd lo
/-- Where the operand is stored back; `a` is the direct address. -/
def store (c : Cpu) (lo : Nat) (a v : Byte) : Cpu :=
  if lo = 5 then c.setDir a v else if lo < 8 then c.setInd (lo - 6) v else c.setR (lo - 8) v

def outside (x : Int) : Bool := decide (x < -128) || decide (127 < x)

def add (c : Cpu) (x : Byte) (cy : Nat) : Cpu :=
  let a := c.A
  (((c.setA (BitVec.ofNat 8 (a.toNat + x.toNat + cy))).setCY (decide (255 < a.toNat + x.toNat + cy))).setOV
    (outside (a.toInt + x.toInt + cy))).setAC (decide (15 < a.toNat % 16 + x.toNat % 16 + cy))

def sub (c : Cpu) (x : Byte) (cy : Nat) : Cpu :=
  let a := c.A
  (((c.setA (BitVec.ofInt 8 ((a.toNat : Int) - x.toNat - cy))).setCY (decide (a.toNat < x.toNat + cy))).setOV
    (outside (a.toInt - x.toInt - cy))).setAC (decide (a.toNat % 16 < x.toNat % 16 + cy))

/-- DA A. -/
def da (c : Cpu) : Cpu :=
  let a1 := if c.A.toNat % 16 > 9 ∨ c.AC = true then c.A.toNat + 6 else c.A.toNat
  let cy1 := c.CY || decide (255 < a1)
  let a2 := if a1 % 256 / 16 > 9 ∨ cy1 = true then a1 % 256 + 0x60 else a1 % 256
  (c.setA (BitVec.ofNat 8 a2)).setCY (cy1 || decide (255 < a2))

def push (c : Cpu) (v : Byte) : Cpu := (c.setSP (c.SP + 1#8)).setIram (c.SP + 1#8).toNat v
def top (c : Cpu) : Byte := c.iram c.SP.toNat
def drop (c : Cpu) : Cpu := c.setSP (c.SP - 1#8)

/-- The return address, low byte first. -/
def call (c : Cpu) (a : Nat) : Cpu := ((c.push (BitVec.ofNat 8 c.pc)).push (BitVec.ofNat 8 (c.pc / 256))).jump a
def ret (c : Cpu) : Cpu := (c.drop.drop).jump (256 * c.top.toNat + c.drop.top.toNat)

/-- Target of AJMP and ACALL, `c` at the next instruction. -/
def page (c : Cpu) (op b : Byte) : Nat := c.pc / 2048 * 2048 + op.toNat / 32 * 256 + b.toNat

/-- Instructions with low nibble 0..3 of the opcode. -/
def low (c : Cpu) (op : Nat) (b1 b2 : Byte) : Cpu :=
  match op with
  | 0x00 => c.next 1                                                          -- NOP
  | 0x02 => c.jump (256 * b1.toNat + b2.toNat)                                -- LJMP
  | 0x03 => (c.next 1).setA (c.A.rotateRight 1)                               -- RR A
  | 0x10 => if c.bit b1 then ((c.next 3).setBit b1 false).rel b2 else c.next 3  -- JBC
  | 0x12 => (c.next 3).call (256 * b1.toNat + b2.toNat)                       -- LCALL
  | 0x13 => ((c.next 1).setA (withBit (c.A >>> 1) 7 c.CY)).setCY (c.A.getLsbD 0)  -- RRC A
  | 0x20 => (c.next 3).relIf (c.bit b1) b2                                    -- JB
  | 0x22 => c.ret                                                             -- RET
  | 0x23 => (c.next 1).setA (c.A.rotateLeft 1)                                -- RL A
  | 0x30 => (c.next 3).relIf (!c.bit b1) b2                                   -- JNB
  | 0x32 => c.ret                                                             -- RETI
  | 0x33 => ((c.next 1).setA (withBit (c.A <<< 1) 0 c.CY)).setCY (c.A.getLsbD 7)  -- RLC A
  | 0x40 => (c.next 2).relIf c.CY b1                                          -- JC
  | 0x42 => (c.next 2).setDir b1 (c.dir b1 ||| c.A)                           -- ORL dir,A
  | 0x43 => (c.next 3).setDir b1 (c.dir b1 ||| b2)                            -- ORL dir,#
  | 0x50 => (c.next 2).relIf (!c.CY) b1                                       -- JNC
  | 0x52 => (c.next 2).setDir b1 (c.dir b1 &&& c.A)                           -- ANL dir,A
  | 0x53 => (c.next 3).setDir b1 (c.dir b1 &&& b2)                            -- ANL dir,#
  | 0x60 => (c.next 2).relIf (decide (c.A = 0#8)) b1                          -- JZ
  | 0x62 => (c.next 2).setDir b1 (c.dir b1 ^^^ c.A)                           -- XRL dir,A
  | 0x63 => (c.next 3).setDir b1 (c.dir b1 ^^^ b2)                            -- XRL dir,#
  | 0x70 => (c.next 2).relIf (decide (c.A ≠ 0#8)) b1                          -- JNZ
  | 0x72 => (c.next 2).setCY (c.CY || c.bit b1)                               -- ORL C,bit
  | 0x73 => c.jump (c.DPTR + c.A.toNat)                                       -- JMP @A+DPTR
  | 0x80 => (c.next 2).rel b1                                                 -- SJMP
  | 0x82 => (c.next 2).setCY (c.CY && c.bit b1)                               -- ANL C,bit
  | 0x83 => (c.next 1).setA (c.rom (((c.pc + 1) % 0x10000 + c.A.toNat) % 0x10000))  -- MOVC A,@A+PC
  | 0x90 => (c.next 3).setDPTR (256 * b1.toNat + b2.toNat)                    -- MOV DPTR,#
  | 0x92 => (c.next 2).setBit b1 c.CY                                         -- MOV bit,C
  | 0x93 => (c.next 1).setA (c.rom ((c.DPTR + c.A.toNat) % 0x10000))          -- MOVC A,@A+DPTR
  | 0xa0 => (c.next 2).setCY (c.CY || !c.bit b1)                              -- ORL C,/bit
  | 0xa2 => (c.next 2).setCY (c.bit b1)                                       -- MOV C,bit
  | 0xa3 => (c.next 1).setDPTR (c.DPTR + 1)                                   -- INC DPTR
  | 0xb0 => (c.next 2).setCY (c.CY && !c.bit b1)                              -- ANL C,/bit
  | 0xb2 => (c.next 2).setBit b1 (!c.bit b1)                                  -- CPL bit
  | 0xb3 => (c.next 1).setCY (!c.CY)                                          -- CPL C
  | 0xc0 => let d := (c.next 2).setSP (c.SP + 1#8); d.setIram d.SP.toNat (d.dir b1)  -- PUSH
  | 0xc2 => (c.next 2).setBit b1 false                                        -- CLR bit
  | 0xc3 => (c.next 1).setCY false                                            -- CLR C
  | 0xd0 => ((c.next 2).drop).setDir b1 c.top                                 -- POP
  | 0xd2 => (c.next 2).setBit b1 true                                         -- SETB bit
  | 0xd3 => (c.next 1).setCY true                                             -- SETB C
  | 0xe0 => (c.next 1).setA (c.xram c.DPTR)                                   -- MOVX A,@DPTR
  | 0xe2 => (c.next 1).setA (c.xram (256 * (c.sfr 0xa0).toNat + (c.R 0).toNat))  -- MOVX A,@R0 (P2 high)
  | 0xe3 => (c.next 1).setA (c.xram (256 * (c.sfr 0xa0).toNat + (c.R 1).toNat))
  | 0xf0 => (c.next 1).setXram c.DPTR c.A                                     -- MOVX @DPTR,A
  | 0xf2 => (c.next 1).setXram (256 * (c.sfr 0xa0).toNat + (c.R 0).toNat) c.A -- MOVX @R0,A
  | 0xf3 => (c.next 1).setXram (256 * (c.sfr 0xa0).toNat + (c.R 1).toNat) c.A
  | _ =>                                                                      -- AJMP, ACALL
    if op / 16 % 2 = 0 then (c.next 2).jump ((c.next 2).page (BitVec.ofNat 8 op) b1)
    else (c.next 2).call ((c.next 2).page (BitVec.ofNat 8 op) b1)

/-- Instructions with low nibble 4. -/
def four (c : Cpu) (hi : Nat) (b1 b2 : Byte) : Cpu :=
  match hi with
  | 0x0 => (c.next 1).setA (c.A + 1#8)                                        -- INC A
  | 0x1 => (c.next 1).setA (c.A - 1#8)                                        -- DEC A
  | 0x2 => (c.next 2).add b1 0                                                -- ADD A,#
  | 0x3 => (c.next 2).add b1 c.CY.toNat                                       -- ADDC A,#
  | 0x4 => (c.next 2).setA (c.A ||| b1)                                       -- ORL A,#
  | 0x5 => (c.next 2).setA (c.A &&& b1)                                       -- ANL A,#
  | 0x6 => (c.next 2).setA (c.A ^^^ b1)                                       -- XRL A,#
  | 0x7 => (c.next 2).setA b1                                                 -- MOV A,#
  | 0x8 =>                                                                    -- DIV AB
    if c.B = 0#8 then ((c.next 1).setCY false).setOV true
    else ((((c.next 1).setA (BitVec.ofNat 8 (c.A.toNat / c.B.toNat))).setB (BitVec.ofNat 8 (c.A.toNat % c.B.toNat))).setCY false).setOV false
  | 0x9 => (c.next 2).sub b1 c.CY.toNat                                       -- SUBB A,#
  | 0xa =>                                                                    -- MUL AB
    ((((c.next 1).setA (BitVec.ofNat 8 (c.A.toNat * c.B.toNat))).setB (BitVec.ofNat 8 (c.A.toNat * c.B.toNat / 256))).setCY false).setOV
      (decide (255 < c.A.toNat * c.B.toNat))
  | 0xb => ((c.next 3).setCY (decide (c.A.toNat < b1.toNat))).relIf (decide (c.A ≠ b1)) b2  -- CJNE A,#,rel
  | 0xc => (c.next 1).setA (c.A.rotateLeft 4)                                 -- SWAP A
  | 0xd => (c.next 1).da                                                      -- DA A
  | 0xe => (c.next 1).setA 0#8                                                -- CLR A
  | _ => (c.next 1).setA (~~~c.A)                                             -- CPL A

/-- Instructions with low nibble 5..f. -/
def high (c : Cpu) (hi lo : Nat) (b1 b2 : Byte) : Cpu :=
  let x := c.opnd lo
  let n := if lo = 5 then 2 else 1
  match hi with
  | 0x0 => (c.next n).store lo b1 (x + 1#8)                                   -- INC
  | 0x1 => (c.next n).store lo b1 (x - 1#8)                                   -- DEC
  | 0x2 => (c.next n).add x 0                                                 -- ADD
  | 0x3 => (c.next n).add x c.CY.toNat                                        -- ADDC
  | 0x4 => (c.next n).setA (c.A ||| x)                                        -- ORL
  | 0x5 => (c.next n).setA (c.A &&& x)                                        -- ANL
  | 0x6 => (c.next n).setA (c.A ^^^ x)                                        -- XRL
  | 0x7 => if lo = 5 then (c.next 3).setDir b1 b2 else (c.next 2).store lo b1 b1   -- MOV ,#
  | 0x8 => if lo = 5 then (c.next 3).setDir b2 (c.dir b1) else (c.next 2).setDir b1 x  -- MOV dir,
  | 0x9 => (c.next n).sub x c.CY.toNat                                        -- SUBB
  | 0xa => (c.next 2).store lo b1 (c.dir b1)                                  -- MOV ,dir (a5 reserved)
  | 0xb =>                                                                    -- CJNE
    if lo = 5 then ((c.next 3).setCY (decide (c.A.toNat < x.toNat))).relIf (decide (c.A ≠ x)) b2
    else ((c.next 3).setCY (decide (x.toNat < b1.toNat))).relIf (decide (x ≠ b1)) b2
  | 0xc => ((c.next n).setA x).store lo b1 c.A                                -- XCH
  | 0xd =>
    if lo = 5 then ((c.next 3).setDir b1 (x - 1#8)).relIf (decide (x - 1#8 ≠ 0#8)) b2     -- DJNZ dir
    else if lo < 8 then ((c.next 1).setInd (lo - 6) ((x &&& 0xf0#8) ||| (c.A &&& 0x0f#8))).setA
      ((c.A &&& 0xf0#8) ||| (x &&& 0x0f#8))                                   -- XCHD
    else ((c.next 2).setR (lo - 8) (x - 1#8)).relIf (decide (x - 1#8 ≠ 0#8)) b1           -- DJNZ Rn
  | 0xe => (c.next n).setA x                                                  -- MOV A,
  | _ => (c.next n).store lo b1 c.A                                           -- MOV ,A

/-- One instruction. -/
def step (c : Cpu) : Cpu :=
  let op := (c.code 0).toNat
  if op % 16 < 4 then c.low op (c.code 1) (c.code 2)
  else if op % 16 = 4 then c.four (op / 16) (c.code 1) (c.code 2)
  else c.high (op / 16) (op % 16) (c.code 1) (c.code 2)

/-! ### What an instruction needs -/

/-- Directly addressed locations (for bit instructions: the byte of the bit). -/
def touched (c : Cpu) : List Byte :=
  let op := (c.code 0).toNat
  let b := c.code 1
  if op = 0x85 then [b, c.code 2]
  else if op % 16 = 5 ∨ (0x86 ≤ op ∧ op ≤ 0x8f) ∨ (0xa6 ≤ op ∧ op ≤ 0xaf) then [b]
  else if op = 0x42 ∨ op = 0x43 ∨ op = 0x52 ∨ op = 0x53 ∨ op = 0x62 ∨ op = 0x63 ∨ op = 0xc0 ∨ op = 0xd0 then [b]
  else if op = 0x10 ∨ op = 0x20 ∨ op = 0x30 ∨ op = 0x72 ∨ op = 0x82 ∨ op = 0x92 ∨ op = 0xa0 ∨ op = 0xa2 ∨ op = 0xb0 ∨ op = 0xb2 ∨
    op = 0xc2 ∨ op = 0xd2 then (if b.toNat < 0x80 then [] else [BitVec.ofNat 8 (b.toNat / 8 * 8)])
  else if op = 0xe2 ∨ op = 0xe3 ∨ op = 0xf2 ∨ op = 0xf3 then [0xa0#8]
  else []

/-- Locations of internal memory reached through R0, R1 or the stack pointer. -/
def reached (c : Cpu) : List Byte :=
  let op := (c.code 0).toNat
  if op % 16 = 6 ∨ op % 16 = 7 then [c.R (op % 2)]
  else if op = 0xc0 then [c.SP + 1#8]
  else if op = 0xd0 then [c.SP]
  else if op = 0x12 ∨ op % 32 = 17 then [c.SP + 1#8, c.SP + 2#8]
  else if op = 0x22 ∨ op = 0x32 then [c.SP, c.SP - 1#8]
  else []

/-- Code memory address read by MOVC, before it is taken modulo 64K. -/
def table (c : Cpu) : List Nat :=
  let op := (c.code 0).toNat
  if op = 0x83 then [(c.pc + 1) % 0x10000 + c.A.toNat]
  else if op = 0x93 then [c.DPTR + c.A.toNat]
  else []

/-- PSW (direct address 0xd0) or its bit P (bit address 0xd0) is a destination. -/
def writesPsw (c : Cpu) : Bool :=
  let op := (c.code 0).toNat
  ((op == 0x05 || op == 0x15 || op == 0x42 || op == 0x43 || op == 0x52 || op == 0x53 || op == 0x62 || op == 0x63 ||
    op == 0x75 || (0x86 ≤ op && op ≤ 0x8f) || op == 0xc5 || op == 0xd0 || op == 0xd5 || op == 0xf5 ||
    op == 0x10 || op == 0x92 || op == 0xb2 || op == 0xc2 || op == 0xd2) && c.code 1 == 0xd0#8) ||
  (op == 0x85 && c.code 2 == 0xd0#8)

def ones (v : Byte) : Nat :=
  (v.getLsbD 0).toNat + (v.getLsbD 1).toNat + (v.getLsbD 2).toNat + (v.getLsbD 3).toNat + (v.getLsbD 4).toNat +
  (v.getLsbD 5).toNat + (v.getLsbD 6).toNat + (v.getLsbD 7).toNat

/-- One instruction and the parity flag, which shows the parity of the accumulator. -/
def stepP (c : Cpu) : Cpu := c.step.setFlag 0 (ones c.step.A % 2 == 1)

/-- `n` instructions. -/
def run : Nat → Cpu → Cpu
  | 0, c => c
  | n + 1, c => (run n c).stepP

end Cpu

/-- Equal but for the parity flag. -/
structure Same (c d : Cpu) : Prop where
  pc : c.pc = d.pc
  iram : c.iram = d.iram
  xram : c.xram = d.xram
  rom : c.rom = d.rom
  sfr : ∀ a, a ≠ 0xd0 → c.sfr a = d.sfr a
  psw : ∀ i, 0 < i → c.psw.getLsbD i = d.psw.getLsbD i

end Ucsim.S51.Isa
