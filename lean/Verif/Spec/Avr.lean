/-
Specification of the AVR instruction set, after the Atmel "AVR Instruction Set" manual: a device
with a program memory of 64K words and a 16 bit stack pointer.  Instructions for larger or special
devices only (ELPM, SPM, EIJMP, EICALL, DES, XCH, LAS, LAC, LAT) are not part of it.  Independent
of the simulator.
-/
namespace Ucsim.Avr.Isa

/-- The registers R0-R31 are the first 32 cells of the data memory, the I/O registers the next 64;
among them the stack pointer (0x5d, 0x5e) and SREG (0x5f). -/
structure Mach where
  prog : BitVec 16 → BitVec 16
  mem : BitVec 16 → BitVec 8
  pc : BitVec 16
  asleep : Bool

inductive Op
  | nop | sleep | wdr | brk | ret | reti | ijmp | icall | rjmp | rcall | jmp | call
  | add | adc | sub | sbc | and | or | eor | mov | cp | cpc | cpse | mul
  | muls | mulsu | fmul | fmuls | fmulsu | movw
  | subi | sbci | andi | ori | cpi | ldi | adiw | sbiw
  | com | neg | swap | inc | dec | asr | lsr | ror
  | lddY | lddZ | stdY | stdZ | lds | sts | push | pop
  | ldX | ldXp | ldmX | ldYp | ldmY | ldZp | ldmZ
  | stX | stXp | stmX | stYp | stmY | stZp | stmZ
  | lpm0 | lpm | lpmp | inp | out | cbi | sbi | sbic | sbis
  | bset | bclr | brbs | brbc | bld | bst | sbrc | sbrs
  deriving DecidableEq, Repr

/-- An instruction: `x` the first operand (usually the number of the register Rd), `y` the second
(Rr, K, q, P, b or k). -/
structure Ins where
  op : Op
  x : Nat := 0
  y : Nat := 0
  deriving DecidableEq, Repr

/-- Codes 1001 00xd dddd xxxx. -/
def decode90 (st : Bool) (d lo : Nat) : Option Ins :=
  match st, lo with
  | false, 0 => some ⟨.lds, d, 0⟩
  | false, 1 => some ⟨.ldZp, d, 0⟩
  | false, 2 => some ⟨.ldmZ, d, 0⟩
  | false, 4 => some ⟨.lpm, d, 0⟩
  | false, 5 => some ⟨.lpmp, d, 0⟩
  | false, 9 => some ⟨.ldYp, d, 0⟩
  | false, 10 => some ⟨.ldmY, d, 0⟩
  | false, 12 => some ⟨.ldX, d, 0⟩
  | false, 13 => some ⟨.ldXp, d, 0⟩
  | false, 14 => some ⟨.ldmX, d, 0⟩
  | false, 15 => some ⟨.pop, d, 0⟩
  | true, 0 => some ⟨.sts, d, 0⟩
  | true, 1 => some ⟨.stZp, d, 0⟩
  | true, 2 => some ⟨.stmZ, d, 0⟩
  | true, 9 => some ⟨.stYp, d, 0⟩
  | true, 10 => some ⟨.stmY, d, 0⟩
  | true, 12 => some ⟨.stX, d, 0⟩
  | true, 13 => some ⟨.stXp, d, 0⟩
  | true, 14 => some ⟨.stmX, d, 0⟩
  | true, 15 => some ⟨.push, d, 0⟩
  | _, _ => none

/-- Codes 1001 010d dddd xxxx; `e` is the whole field of nine bits. -/
def decode94 (e d lo : Nat) : Option Ins :=
  match lo with
  | 0 => some ⟨.com, d, 0⟩
  | 1 => some ⟨.neg, d, 0⟩
  | 2 => some ⟨.swap, d, 0⟩
  | 3 => some ⟨.inc, d, 0⟩
  | 5 => some ⟨.asr, d, 0⟩
  | 6 => some ⟨.lsr, d, 0⟩
  | 7 => some ⟨.ror, d, 0⟩
  | 8 => if d < 8 then some ⟨.bset, d, 0⟩ else if d < 16 then some ⟨.bclr, d - 8, 0⟩
    else if d = 16 then some ⟨.ret, 0, 0⟩ else if d = 17 then some ⟨.reti, 0, 0⟩
    else if d = 24 then some ⟨.sleep, 0, 0⟩ else if d = 25 then some ⟨.brk, 0, 0⟩
    else if d = 26 then some ⟨.wdr, 0, 0⟩ else if d = 28 then some ⟨.lpm0, 0, 0⟩ else none
  | 9 => if d = 0 then some ⟨.ijmp, 0, 0⟩ else if d = 16 then some ⟨.icall, 0, 0⟩ else none
  | 10 => some ⟨.dec, d, 0⟩
  | 12 | 13 => some ⟨.jmp, e / 16 * 2 + e % 2, 0⟩
  | 14 | 15 => some ⟨.call, e / 16 * 2 + e % 2, 0⟩
  | _ => none

/-- The instruction of a code. -/
def decode (c : Nat) : Option Ins :=
  let d := c / 16 % 32                          -- ddddd of two registers
  let r := c / 512 % 2 * 16 + c % 16            -- rrrrr
  let d4 := 16 + c / 16 % 16                    -- dddd of an immediate instruction: R16-R31
  let k := c / 256 % 16 * 16 + c % 16           -- KKKK KKKK
  let q := c / 8192 % 2 * 32 + c / 1024 % 4 * 8 + c % 8
  match c / 4096 with
  | 0x0 => match c / 1024 with
    | 0 => match c / 256 with
      | 0 => if c = 0 then some ⟨.nop, 0, 0⟩ else none
      | 1 => some ⟨.movw, c / 16 % 16 * 2, c % 16 * 2⟩
      | 2 => some ⟨.muls, 16 + c / 16 % 16, 16 + c % 16⟩
      | _ => some ⟨(if c / 128 % 2 = 0 then (if c / 8 % 2 = 0 then .mulsu else .fmul)
          else (if c / 8 % 2 = 0 then .fmuls else .fmulsu)), 16 + c / 16 % 8, 16 + c % 8⟩
    | 1 => some ⟨.cpc, d, r⟩
    | 2 => some ⟨.sbc, d, r⟩
    | _ => some ⟨.add, d, r⟩
  | 0x1 => match c / 1024 % 4 with
    | 0 => some ⟨.cpse, d, r⟩
    | 1 => some ⟨.cp, d, r⟩
    | 2 => some ⟨.sub, d, r⟩
    | _ => some ⟨.adc, d, r⟩
  | 0x2 => match c / 1024 % 4 with
    | 0 => some ⟨.and, d, r⟩
    | 1 => some ⟨.eor, d, r⟩
    | 2 => some ⟨.or, d, r⟩
    | _ => some ⟨.mov, d, r⟩
  | 0x3 => some ⟨.cpi, d4, k⟩
  | 0x4 => some ⟨.sbci, d4, k⟩
  | 0x5 => some ⟨.subi, d4, k⟩
  | 0x6 => some ⟨.ori, d4, k⟩
  | 0x7 => some ⟨.andi, d4, k⟩
  | 0x8 | 0xa => some ⟨(if c / 512 % 2 = 0 then (if c / 8 % 2 = 0 then .lddZ else .lddY)
      else (if c / 8 % 2 = 0 then .stdZ else .stdY)), d, q⟩
  | 0x9 => match c / 512 % 8 with
    | 0 => decode90 false d (c % 16)
    | 1 => decode90 true d (c % 16)
    | 2 => decode94 (c % 512) d (c % 16)
    | 3 => some ⟨(if c / 256 % 2 = 0 then .adiw else .sbiw), 24 + c / 16 % 4 * 2, c / 64 % 4 * 16 + c % 16⟩
    | 4 => some ⟨(if c / 256 % 2 = 0 then .cbi else .sbic), c / 8 % 32, c % 8⟩
    | 5 => some ⟨(if c / 256 % 2 = 0 then .sbi else .sbis), c / 8 % 32, c % 8⟩
    | _ => some ⟨.mul, d, r⟩
  | 0xb => some ⟨(if c / 2048 % 2 = 0 then .inp else .out), d, c / 512 % 4 * 16 + c % 16⟩
  | 0xc => some ⟨.rjmp, c % 4096, 0⟩
  | 0xd => some ⟨.rcall, c % 4096, 0⟩
  | 0xe => some ⟨.ldi, d4, k⟩
  | _ => match c / 1024 % 4 with
    | 0 => some ⟨.brbs, c % 8, c / 8 % 128⟩
    | 1 => some ⟨.brbc, c % 8, c / 8 % 128⟩
    | 2 => if c / 8 % 2 = 0 then some ⟨(if c / 512 % 2 = 0 then .bld else .bst), d, c % 8⟩ else none
    | _ => if c / 8 % 2 = 0 then some ⟨(if c / 512 % 2 = 0 then .sbrc else .sbrs), d, c % 8⟩ else none

/-- The instructions of two words. -/
def twoWords (c : Nat) : Bool := match decode c with
  | some i => i.op == .lds || i.op == .sts || i.op == .jmp || i.op == .call
  | none => false

/-! ### The machine -/

def reg (m : Mach) (d : Nat) : BitVec 8 := m.mem (BitVec.ofNat 16 d)
def setReg (d : Nat) (v : BitVec 8) (m : Mach) : Mach :=
  { m with mem := fun a => if a = BitVec.ofNat 16 d then v else m.mem a }
def setMem (a : BitVec 16) (v : BitVec 8) (m : Mach) : Mach :=
  { m with mem := fun x => if x = a then v else m.mem x }
/-- A register pair: the low byte first. -/
def pair (m : Mach) (d : Nat) : BitVec 16 := reg m (d + 1) ++ reg m d
def setPair (d : Nat) (v : BitVec 16) (m : Mach) : Mach :=
  setReg (d + 1) (v.extractLsb' 8 8) (setReg d (v.extractLsb' 0 8) m)

/-- The number of SREG and, in it, of its bits C Z N V S H T I. -/
def SREG : Nat := 0x5f
def flag (m : Mach) (i : Nat) : Bool := (reg m SREG).getLsbD i
def setBit (i : Nat) (b : Bool) (v : BitVec 8) : BitVec 8 :=
  if b then v ||| (1#8 <<< i) else v &&& ~~~(1#8 <<< i)
def setFlag (i : Nat) (b : Bool) (m : Mach) : Mach := setReg SREG (setBit i b (reg m SREG)) m
def setFlags (l : List (Nat × Bool)) (m : Mach) : Mach := l.foldl (fun m f => setFlag f.1 f.2 m) m

/-- X, Y, Z and SP. -/
def X : Nat := 26
def Y : Nat := 28
def Z : Nat := 30
def SP : Nat := 0x5d

/-- The stack grows downwards, SP points to the free cell below the top. -/
def push (v : BitVec 8) (m : Mach) : Mach := let sp := pair m SP; setPair SP (sp - 1) (setMem sp v m)
def pop (m : Mach) : BitVec 8 × Mach := let sp := pair m SP + 1; (m.mem sp, setPair SP sp m)
/-- A return address: the high byte at the higher address. -/
def pushPC (m : Mach) : Mach :=
  let sp := pair m SP
  setPair SP (sp - 2) (setMem (sp - 1) (m.pc.extractLsb' 0 8) (setMem sp (m.pc.extractLsb' 8 8) m))
def popPC (m : Mach) : Mach :=
  let sp := pair m SP
  setPair SP (sp + 2) { m with pc := m.mem (sp + 2) ++ m.mem (sp + 1) }

/-- The word at the program counter, and past it. -/
def fetch (m : Mach) : BitVec 16 × Mach := (m.prog m.pc, { m with pc := m.pc + 1 })

/-- Skip the instruction at the program counter. -/
def skip (m : Mach) : Mach := { m with pc := m.pc + if twoWords (m.prog m.pc).toNat then 2 else 1 }

/-- The flags of an addition: H carry from bit 3, C from bit 7, V signed overflow, S the sign of
the exact result, N bit 7, Z. -/
def addFlags (x y : BitVec 8) (c : Nat) : List (Nat × Bool) :=
  [(5, 16 ≤ x.toNat % 16 + y.toNat % 16 + c), (4, x.toInt + y.toInt + c < 0),
   (3, x.toInt + y.toInt + c < -128 || 128 ≤ x.toInt + y.toInt + c),
   (2, (x + y + BitVec.ofNat 8 c).msb), (1, x + y + BitVec.ofNat 8 c == 0#8), (0, 256 ≤ x.toNat + y.toNat + c)]

/-- The flags of a subtraction: H and C are borrows.  `z`: with carry, Z is only ever cleared. -/
def subFlags (z : Bool) (x y : BitVec 8) (c : Nat) : List (Nat × Bool) :=
  [(5, decide (x.toNat % 16 < y.toNat % 16 + c)), (4, decide (x.toInt - y.toInt - c < 0)),
   (3, x.toInt - y.toInt - c < -128 || 128 ≤ x.toInt - y.toInt - c),
   (2, (x - y - BitVec.ofNat 8 c).msb), (1, x - y - BitVec.ofNat 8 c == 0#8 && z), (0, decide (x.toNat < y.toNat + c))]

def logFlags (v : BitVec 8) : List (Nat × Bool) := [(4, v.msb), (3, false), (2, v.msb), (1, v == 0#8)]

/-- The flags of a shift to the right: `c` the bit shifted out. -/
def shFlags (v : BitVec 8) (c : Bool) : List (Nat × Bool) :=
  [(4, xor v.msb (xor v.msb c)), (3, xor v.msb c), (2, v.msb), (1, v == 0#8), (0, c)]

/-- The flags of a product, in R1:R0; `c` bit 15 of the product. -/
def product (v : BitVec 16) (c : Bool) (m : Mach) : Mach := setFlags [(1, v == 0#16), (0, c)] (setPair 0 v m)

/-- A signed number of `n` bits, as a displacement of the program counter. -/
def rel (n k : Nat) : BitVec 16 := BitVec.ofInt 16 (if k < 2 ^ (n - 1) then k else k - 2 ^ n)

def carry (m : Mach) : Nat := if flag m 0 then 1 else 0

/-- A byte of the program memory, two in a word, the low one at the even address. -/
def progByte (m : Mach) (a : BitVec 16) : BitVec 8 :=
  let w := m.prog (a >>> 1)
  if a.getLsbD 0 then w.extractLsb' 8 8 else w.extractLsb' 0 8

/-- Load with the address, and the new value of the pointer, of one addressing mode. -/
def ld (d p : Nat) (addr new : BitVec 16) (m : Mach) : Mach := setReg d (m.mem addr) (setPair p new m)
def st (d p : Nat) (addr new : BitVec 16) (m : Mach) : Mach := setPair p new (setMem addr (reg m d) m)

/-- The instruction, `m` the machine past its first word. -/
def exec (i : Ins) (m : Mach) : Mach :=
  let x := reg m i.x
  let y := reg m i.y
  let k := BitVec.ofNat 8 i.y
  match i.op with
  | .nop | .wdr | .brk => m
  | .sleep => { m with asleep := true }
  | .ret => popPC m
  | .reti => setFlag 7 true (popPC m)
  | .ijmp => { m with pc := pair m Z }
  | .icall => { pushPC m with pc := pair m Z }
  | .rjmp => { m with pc := m.pc + rel 12 i.x }
  | .rcall => { pushPC m with pc := m.pc + rel 12 i.x }
  | .jmp => { m with pc := (fetch m).1 }
  | .call => { pushPC (fetch m).2 with pc := (fetch m).1 }
  | .add => setFlags (addFlags x y 0) (setReg i.x (x + y) m)
  | .adc => setFlags (addFlags x y (carry m)) (setReg i.x (x + y + BitVec.ofNat 8 (carry m)) m)
  | .sub => setFlags (subFlags true x y 0) (setReg i.x (x - y) m)
  | .sbc => setFlags (subFlags (flag m 1) x y (carry m)) (setReg i.x (x - y - BitVec.ofNat 8 (carry m)) m)
  | .cp => setFlags (subFlags true x y 0) m
  | .cpc => setFlags (subFlags (flag m 1) x y (carry m)) m
  | .and => setFlags (logFlags (x &&& y)) (setReg i.x (x &&& y) m)
  | .or => setFlags (logFlags (x ||| y)) (setReg i.x (x ||| y) m)
  | .eor => setFlags (logFlags (x ^^^ y)) (setReg i.x (x ^^^ y) m)
  | .mov => setReg i.x y m
  | .cpse => if x = y then skip m else m
  | .mul => product (BitVec.ofNat 16 (x.toNat * y.toNat)) (decide (0x8000 ≤ x.toNat * y.toNat)) m
  | .muls => let v := BitVec.ofInt 16 (x.toInt * y.toInt); product v v.msb m
  | .mulsu => let v := BitVec.ofInt 16 (x.toInt * y.toNat); product v v.msb m
  | .fmul => let v := BitVec.ofNat 16 (x.toNat * y.toNat); product (v <<< 1) v.msb m
  | .fmuls => let v := BitVec.ofInt 16 (x.toInt * y.toInt); product (v <<< 1) v.msb m
  | .fmulsu => let v := BitVec.ofInt 16 (x.toInt * y.toNat); product (v <<< 1) v.msb m
  | .movw => setPair i.x (pair m i.y) m
  | .subi => setFlags (subFlags true x k 0) (setReg i.x (x - k) m)
  | .sbci => setFlags (subFlags (flag m 1) x k (carry m)) (setReg i.x (x - k - BitVec.ofNat 8 (carry m)) m)
  | .cpi => setFlags (subFlags true x k 0) m
  | .andi => setFlags (logFlags (x &&& k)) (setReg i.x (x &&& k) m)
  | .ori => setFlags (logFlags (x ||| k)) (setReg i.x (x ||| k) m)
  | .ldi => setReg i.x k m
  | .adiw =>
    let v := pair m i.x
    let r := v + BitVec.ofNat 16 i.y
    setFlags [(4, v.toInt + i.y < 0), (3, decide (32768 ≤ v.toInt + i.y)), (2, r.msb), (1, r == 0#16),
      (0, decide (65536 ≤ v.toNat + i.y))] (setPair i.x r m)
  | .sbiw =>
    let v := pair m i.x
    let r := v - BitVec.ofNat 16 i.y
    setFlags [(4, v.toInt - i.y < 0), (3, decide (v.toInt - i.y < -32768)), (2, r.msb), (1, r == 0#16),
      (0, decide (v.toNat < i.y))] (setPair i.x r m)
  | .com => setFlags (logFlags (~~~x) ++ [(0, true)]) (setReg i.x (~~~x) m)
  | .neg => setFlags (subFlags true 0#8 x 0) (setReg i.x (-x) m)
  | .swap => setReg i.x (x.extractLsb' 0 4 ++ x.extractLsb' 4 4) m
  | .inc => setFlags [(4, decide (x.toInt + 1 < 0)), (3, x == 0x7f#8), (2, (x + 1#8).msb), (1, x + 1#8 == 0#8)] (setReg i.x (x + 1#8) m)
  | .dec => setFlags [(4, decide (x.toInt - 1 < 0)), (3, x == 0x80#8), (2, (x - 1#8).msb), (1, x - 1#8 == 0#8)] (setReg i.x (x - 1#8) m)
  | .asr => let v := x.sshiftRight 1; setFlags (shFlags v (x.getLsbD 0)) (setReg i.x v m)
  | .lsr => let v := x >>> 1; setFlags (shFlags v (x.getLsbD 0)) (setReg i.x v m)
  | .ror => let v := BitVec.ofBool (flag m 0) ++ x.extractLsb' 1 7; setFlags (shFlags v (x.getLsbD 0)) (setReg i.x v m)
  | .lddY => setReg i.x (m.mem (pair m Y + BitVec.ofNat 16 i.y)) m
  | .lddZ => setReg i.x (m.mem (pair m Z + BitVec.ofNat 16 i.y)) m
  | .stdY => setMem (pair m Y + BitVec.ofNat 16 i.y) x m
  | .stdZ => setMem (pair m Z + BitVec.ofNat 16 i.y) x m
  | .lds => setReg i.x (m.mem (fetch m).1) (fetch m).2
  | .sts => setMem (fetch m).1 x (fetch m).2
  | .push => push x m
  | .pop => let (v, m) := pop m; setReg i.x v m
  | .ldX => setReg i.x (m.mem (pair m X)) m
  | .ldXp => ld i.x X (pair m X) (pair m X + 1) m
  | .ldmX => ld i.x X (pair m X - 1) (pair m X - 1) m
  | .ldYp => ld i.x Y (pair m Y) (pair m Y + 1) m
  | .ldmY => ld i.x Y (pair m Y - 1) (pair m Y - 1) m
  | .ldZp => ld i.x Z (pair m Z) (pair m Z + 1) m
  | .ldmZ => ld i.x Z (pair m Z - 1) (pair m Z - 1) m
  | .stX => setMem (pair m X) x m
  | .stXp => st i.x X (pair m X) (pair m X + 1) m
  | .stmX => st i.x X (pair m X - 1) (pair m X - 1) m
  | .stYp => st i.x Y (pair m Y) (pair m Y + 1) m
  | .stmY => st i.x Y (pair m Y - 1) (pair m Y - 1) m
  | .stZp => st i.x Z (pair m Z) (pair m Z + 1) m
  | .stmZ => st i.x Z (pair m Z - 1) (pair m Z - 1) m
  | .lpm0 => setReg 0 (progByte m (pair m Z)) m
  | .lpm => setReg i.x (progByte m (pair m Z)) m
  | .lpmp => setReg i.x (progByte m (pair m Z)) (setPair Z (pair m Z + 1) m)
  | .inp => setReg i.x (reg m (0x20 + i.y)) m
  | .out => setReg (0x20 + i.y) x m
  | .cbi => setReg (0x20 + i.x) (setBit i.y false (reg m (0x20 + i.x))) m
  | .sbi => setReg (0x20 + i.x) (setBit i.y true (reg m (0x20 + i.x))) m
  | .sbic => if (reg m (0x20 + i.x)).getLsbD i.y then m else skip m
  | .sbis => if (reg m (0x20 + i.x)).getLsbD i.y then skip m else m
  | .bset => setFlag i.x true m
  | .bclr => setFlag i.x false m
  | .brbs => if flag m i.x then { m with pc := m.pc + rel 7 i.y } else m
  | .brbc => if flag m i.x then m else { m with pc := m.pc + rel 7 i.y }
  | .bld => setReg i.x (setBit i.y (flag m 6) x) m
  | .bst => setFlag 6 (x.getLsbD i.y) m
  | .sbrc => if x.getLsbD i.y then m else skip m
  | .sbrs => if x.getLsbD i.y then skip m else m

/-- One instruction: none when the word is not an instruction.  A sleeping processor does nothing
(the simulator has no interrupts for it). -/
def step (m : Mach) : Option Mach :=
  if m.asleep then some m else (decode (m.prog m.pc).toNat).map (fun i => exec i (fetch m).2)

/-- `n` instructions. -/
def run : Nat → Mach → Option Mach
  | 0, m => some m
  | n + 1, m => (step m).bind (run n)

/-! ### Cycles -/

/-- The instruction after the next word is skipped: its number of words. -/
def skipped (m : Mach) : Nat := if twoWords (m.prog m.pc).toNat then 2 else 1

/-- The clock cycles of an instruction (16 bit PC), `m` the machine past its first word. -/
def cycles (i : Ins) (m : Mach) : Nat := match i.op with
  | .ret | .reti | .call => 4
  | .icall | .rcall | .jmp | .lpm0 | .lpm | .lpmp => 3
  | .ijmp | .rjmp | .mul | .muls | .mulsu | .fmul | .fmuls | .fmulsu | .adiw | .sbiw | .push | .pop
  | .cbi | .sbi | .lds | .sts | .lddY | .lddZ | .stdY | .stdZ
  | .ldX | .ldXp | .ldmX | .ldYp | .ldmY | .ldZp | .ldmZ | .stX | .stXp | .stmX | .stYp | .stmY | .stZp | .stmZ => 2
  | .brbs => if flag m i.x then 2 else 1
  | .brbc => if flag m i.x then 1 else 2
  | .cpse => if reg m i.x = reg m i.y then 1 + skipped m else 1
  | .sbrc => if (reg m i.x).getLsbD i.y then 1 else 1 + skipped m
  | .sbrs => if (reg m i.x).getLsbD i.y then 1 + skipped m else 1
  | .sbic => if (reg m (0x20 + i.x)).getLsbD i.y then 1 else 1 + skipped m
  | .sbis => if (reg m (0x20 + i.x)).getLsbD i.y then 1 + skipped m else 1
  | _ => 1

end Ucsim.Avr.Isa
