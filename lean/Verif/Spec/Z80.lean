/-
The Z80 as Zilog's manual tells it (Z80 CPU User Manual UM0080), documented instructions
only.  Does not use anything of the model.
-/
namespace Ucsim.Z80.Isa

abbrev Byte := BitVec 8
abbrev Word := BitVec 16

/-- The six documented flags. -/
@[ext] structure Flags where
  s : Bool
  z : Bool
  h : Bool
  pv : Bool
  n : Bool
  cy : Bool
  deriving DecidableEq, Repr

/-- Registers, flags, memory; `out p` is the byte last sent to port p, `inp p` the byte port p
gives.  R is left out (see `Und`). -/
@[ext] structure Mach where
  a : Byte
  b : Byte
  c : Byte
  d : Byte
  e : Byte
  h : Byte
  l : Byte
  f : Flags
  a' : Byte
  b' : Byte
  c' : Byte
  d' : Byte
  e' : Byte
  h' : Byte
  l' : Byte
  f' : Flags
  ix : Word
  iy : Word
  sp : Word
  pc : Word
  i : Byte
  iff1 : Bool
  iff2 : Bool
  im : Nat
  mem : Word → Byte
  inp : Byte → Byte
  out : Byte → Byte

/-- What the manual leaves open: flags it calls unknown (`fl`, bits where F has them), bits
3 and 5 of the flag bytes PUSH AF stores (`x35`); and the present content of R. -/
structure Und where
  fl : Byte
  x35 : Byte
  r : Byte

def word (h l : Byte) : Word := h ++ l
def hiByte (w : Word) : Byte := w.extractLsb' 8 8
def loByte (w : Word) : Byte := w.extractLsb' 0 8

/-- Even number of ones. -/
def evenOnes (v : Byte) : Bool := ((List.range 8).filter v.getLsbD).length % 2 == 0

/-- HL, or the index register that stands for it after DD or FD. -/
inductive Idx | hl | ix | iy deriving DecidableEq, Repr
/-- BC, DE, HL (or IX, IY), SP. -/
inductive Pair | bc | de | idx (x : Idx) | sp deriving DecidableEq, Repr
/-- A register by its number (B C D E H L - A), or the memory cell at HL, IX+d, IY+d. -/
inductive Loc | reg (r : BitVec 3) | ind (x : Idx) deriving DecidableEq, Repr

namespace Mach

def idx (m : Mach) : Idx → Word
  | .hl => word m.h m.l | .ix => m.ix | .iy => m.iy
def setIdx (m : Mach) (x : Idx) (v : Word) : Mach :=
  match x with
  | .hl => { m with h := hiByte v, l := loByte v } | .ix => { m with ix := v } | .iy => { m with iy := v }

def HL (m : Mach) : Word := word m.h m.l
def BC (m : Mach) : Word := word m.b m.c
def DE (m : Mach) : Word := word m.d m.e

def pair (m : Mach) : Pair → Word
  | .bc => m.BC | .de => m.DE | .idx x => m.idx x | .sp => m.sp
def setPair (m : Mach) (p : Pair) (v : Word) : Mach :=
  match p with
  | .bc => { m with b := hiByte v, c := loByte v } | .de => { m with d := hiByte v, e := loByte v }
  | .idx x => m.setIdx x v | .sp => { m with sp := v }

/-- Address of (HL), (IX+d), (IY+d); d is the third byte, a two's complement number. -/
def ea (m : Mach) : Idx → Word
  | .hl => m.HL
  | .ix => m.ix + (m.mem (m.pc + 2)).signExtend 16
  | .iy => m.iy + (m.mem (m.pc + 2)).signExtend 16

def store (m : Mach) (a : Word) (v : Byte) : Mach := { m with mem := fun x => if x = a then v else m.mem x }

def get (m : Mach) : Loc → Byte
  | .reg r => match r.toNat with
    | 0 => m.b | 1 => m.c | 2 => m.d | 3 => m.e | 4 => m.h | 5 => m.l | _ => m.a
  | .ind x => m.mem (m.ea x)
def put (m : Mach) (k : Loc) (v : Byte) : Mach :=
  match k with
  | .reg r => match r.toNat with
    | 0 => { m with b := v } | 1 => { m with c := v } | 2 => { m with d := v } | 3 => { m with e := v }
    | 4 => { m with h := v } | 5 => { m with l := v } | _ => { m with a := v }
  | .ind x => m.store (m.ea x) v

def load16 (m : Mach) (a : Word) : Word := word (m.mem (a + 1)) (m.mem a)
def store16 (m : Mach) (a : Word) (v : Word) : Mach := (m.store a (loByte v)).store (a + 1) (hiByte v)

/-- High byte at SP-1, low byte at SP-2. -/
def push (m : Mach) (v : Word) : Mach :=
  { (m.store (m.sp - 1) (hiByte v)).store (m.sp - 2) (loByte v) with sp := m.sp - 2 }
def top (m : Mach) : Word := m.load16 m.sp
def drop (m : Mach) : Mach := { m with sp := m.sp + 2 }

/-- Condition field: NZ Z NC C PO PE P M. -/
def cond (m : Mach) (c : BitVec 3) : Bool :=
  match c.toNat with
  | 0 => !m.f.z | 1 => m.f.z | 2 => !m.f.cy | 3 => m.f.cy | 4 => !m.f.pv | 5 => m.f.pv | 6 => !m.f.s | _ => m.f.s

end Mach

/-! ### Flags -/

def bitAt (b : Bool) (i : Nat) : Byte := BitVec.ofNat 8 (if b then 2 ^ i else 0)
/-- F as a byte: S Z - H - P/V N C. -/
def Flags.byte (f : Flags) (x35 : Byte) : Byte :=
  bitAt f.s 7 ||| bitAt f.z 6 ||| bitAt f.h 4 ||| bitAt f.pv 2 ||| bitAt f.n 1 ||| bitAt f.cy 0 ||| (x35 &&& 0x28#8)
def Flags.ofByte (v : Byte) : Flags :=
  { s := v.getLsbD 7, z := v.getLsbD 6, h := v.getLsbD 4, pv := v.getLsbD 2, n := v.getLsbD 1, cy := v.getLsbD 0 }

/-- The number is not between -128 and 127. -/
def over8 (i : Int) : Bool := decide (i < -128 ∨ 127 < i)
def over16 (i : Int) : Bool := decide (i < -32768 ∨ 32767 < i)
def neg8 (r : Byte) : Bool := decide (128 ≤ r.toNat)

namespace Mach

/-- ADD A, ADC A: `c` is the carry added -/
def addA (m : Mach) (v : Byte) (c : Bool) : Mach :=
  let r : Byte := BitVec.ofNat 8 (m.a.toNat + v.toNat + c.toNat)
  { m with a := r, f := {
      s := neg8 r, z := r.toNat == 0, h := decide (16 ≤ m.a.toNat % 16 + v.toNat % 16 + c.toNat),
      pv := over8 (m.a.toInt + v.toInt + c.toNat), n := false, cy := decide (256 ≤ m.a.toNat + v.toNat + c.toNat) } }

/-- SUB, SBC A -/
def subA (m : Mach) (v : Byte) (c : Bool) : Mach :=
  let r : Byte := BitVec.ofInt 8 ((m.a.toNat : Int) - v.toNat - c.toNat)
  { m with a := r, f := {
      s := neg8 r, z := r.toNat == 0, h := decide (m.a.toNat % 16 < v.toNat % 16 + c.toNat),
      pv := over8 (m.a.toInt - v.toInt - c.toNat), n := true, cy := decide (m.a.toNat < v.toNat + c.toNat) } }

def cp (m : Mach) (v : Byte) : Mach := { m.subA v false with a := m.a }

/-- AND, XOR, OR: `h` is what H becomes -/
def logic (m : Mach) (r : Byte) (h : Bool) : Mach :=
  { m with a := r, f := { s := neg8 r, z := r.toNat == 0, h := h, pv := evenOnes r, n := false, cy := false } }

/-- Field of the eight operations: ADD ADC SUB SBC AND XOR OR CP. -/
def alu (m : Mach) (o : BitVec 3) (v : Byte) : Mach :=
  match o.toNat with
  | 0 => m.addA v false | 1 => m.addA v m.f.cy | 2 => m.subA v false | 3 => m.subA v m.f.cy
  | 4 => m.logic (m.a &&& v) true | 5 => m.logic (m.a ^^^ v) false | 6 => m.logic (m.a ||| v) false | _ => m.cp v

def incFlags (f : Flags) (v : Byte) : Flags :=
  { f with s := neg8 (v + 1), z := (v + 1).toNat == 0, h := decide (v.toNat % 16 = 15), pv := decide (v.toNat = 127), n := false }
def decFlags (f : Flags) (v : Byte) : Flags :=
  { f with s := neg8 (v - 1), z := (v - 1).toNat == 0, h := decide (v.toNat % 16 = 0), pv := decide (v.toNat = 128), n := true }

/-- ADD HL,ss; ADD IX,pp: H is the carry out of bit 11 -/
def addX (m : Mach) (x : Idx) (v : Word) : Mach :=
  let w := m.idx x
  { m.setIdx x (w + v) with f := { m.f with h := decide (4096 ≤ w.toNat % 4096 + v.toNat % 4096), n := false, cy := decide (65536 ≤ w.toNat + v.toNat) } }

def adcHL (m : Mach) (v : Word) : Mach :=
  let c := m.f.cy
  let r : Word := BitVec.ofNat 16 (m.HL.toNat + v.toNat + c.toNat)
  { m.setIdx .hl r with f := {
      s := decide (32768 ≤ r.toNat), z := r.toNat == 0, h := decide (4096 ≤ m.HL.toNat % 4096 + v.toNat % 4096 + c.toNat),
      pv := over16 (m.HL.toInt + v.toInt + c.toNat), n := false, cy := decide (65536 ≤ m.HL.toNat + v.toNat + c.toNat) } }

def sbcHL (m : Mach) (v : Word) : Mach :=
  let c := m.f.cy
  let r : Word := BitVec.ofInt 16 ((m.HL.toNat : Int) - v.toNat - c.toNat)
  { m.setIdx .hl r with f := {
      s := decide (32768 ≤ r.toNat), z := r.toNat == 0, h := decide (m.HL.toNat % 4096 < v.toNat % 4096 + c.toNat),
      pv := over16 (m.HL.toInt - v.toInt - c.toNat), n := true, cy := decide (m.HL.toNat < v.toNat + c.toNat) } }

/-- NEG: A is subtracted from 0 -/
def neg (m : Mach) : Mach := { m with a := 0 }.subA m.a false

end Mach

/-- RLC RRC RL RR SLA SRA - SRL: the result and the bit moved into carry. -/
def rotate (k : BitVec 3) (c : Bool) (v : Byte) : Byte × Bool :=
  match k.toNat with
  | 0 => (v.rotateLeft 1, v.getLsbD 7)
  | 1 => (v.rotateRight 1, v.getLsbD 0)
  | 2 => (BitVec.ofNat 8 (2 * v.toNat + c.toNat), v.getLsbD 7)
  | 3 => (BitVec.ofNat 8 ((v.toNat + 256 * c.toNat) / 2), v.getLsbD 0)
  | 4 => (BitVec.ofNat 8 (2 * v.toNat), v.getLsbD 7)
  | 5 => (v.sshiftRight 1, v.getLsbD 0)
  | _ => (BitVec.ofNat 8 (v.toNat / 2), v.getLsbD 0)

/-- Flags of the CB rotates and shifts. -/
def rotFlags (r : Byte) (c : Bool) : Flags := { s := neg8 r, z := r.toNat == 0, h := false, pv := evenOnes r, n := false, cy := c }

/-- The DAA table of the manual: C, H, high and low digit before; number added, C after.
(`none`: not in the table.  Its last line is printed with high digits "6-7" in some editions, a misprint for
"6-F".) -/
def daaTable (n c h : Bool) (up low : Nat) : Option (Byte × Bool) :=
  if !n then
    if !c then
      if !h && up ≤ 9 && low ≤ 9 then some (0x00, false)
      else if !h && up ≤ 8 && 10 ≤ low then some (0x06, false)
      else if h && up ≤ 9 && low ≤ 3 then some (0x06, false)
      else if !h && 10 ≤ up && low ≤ 9 then some (0x60, true)
      else if !h && 9 ≤ up && 10 ≤ low then some (0x66, true)
      else if h && 10 ≤ up && low ≤ 3 then some (0x66, true)
      else none
    else
      if !h && up ≤ 2 && low ≤ 9 then some (0x60, true)
      else if !h && up ≤ 2 && 10 ≤ low then some (0x66, true)
      else if h && up ≤ 3 && low ≤ 3 then some (0x66, true)
      else none
  else
    if !c then
      if !h && up ≤ 9 && low ≤ 9 then some (0x00, false)
      else if h && up ≤ 8 && 6 ≤ low then some (0xfa, false)
      else none
    else
      if !h && 7 ≤ up && low ≤ 9 then some (0xa0, true)
      else if h && 6 ≤ up && 6 ≤ low then some (0x9a, true)
      else none

/-! ### Instructions -/

inductive Ins
  | nop | halt | di | ei
  | ld (d s : Loc) | ldn (d : Loc) | ldnn (p : Pair) | ldaP (p : Pair) | staP (p : Pair) | lda | sta
  | ldPM (p : Pair) | stMP (p : Pair) | ldsp (x : Idx)
  | push (p : Pair) | pushAF | pop (p : Pair) | popAF | exdehl | exaf | exx | exsp (x : Idx)
  | alu (o : BitVec 3) (s : Loc) | alun (o : BitVec 3) | inc (k : Loc) | dec (k : Loc)
  | addX (x : Idx) (p : Pair) | adcHL (p : Pair) | sbcHL (p : Pair) | incP (p : Pair) | decP (p : Pair)
  | rlca | rrca | rla | rra | daa | cpl | scf | ccf | neg
  | rot (k : BitVec 3) (p : Loc) | bit (n : BitVec 3) (p : Loc) | res (n : BitVec 3) (p : Loc) | set (n : BitVec 3) (p : Loc)
  | jp | jpc (c : BitVec 3) | jpX (x : Idx) | jr | jrc (c : BitVec 3) | djnz
  | call | callc (c : BitVec 3) | ret | retc (c : BitVec 3) | rst (n : BitVec 3) | reti | retn
  | inA | outA | inR (r : BitVec 3) | outR (r : BitVec 3) | im (n : Nat) | ldia | ldra | ldai | ldar | rrd | rld
  /-- LDI LDD LDIR LDDR, CPI .., INI .., OUTI ..: downwards? repeated? -/
  | bld (dn rep : Bool) | bcp (dn rep : Bool) | bin (dn rep : Bool) | bout (dn rep : Bool)
  /-- Not documented. -/
  | other
  deriving DecidableEq, Repr

/-- Operand field r of an instruction without prefix. -/
def loc (r : BitVec 3) : Loc := if r = 6 then .ind .hl else .reg r
/-- Fields dd, ss, qq. -/
def pairOf (x : Idx) (p : BitVec 2) : Pair := match p.toNat with | 0 => .bc | 1 => .de | 2 => .idx x | _ => .sp

/-- Instructions of one opcode byte; with their length. -/
def decode1 (op : Byte) : Ins × Nat :=
  let y := op.extractLsb' 3 3
  let z := op.extractLsb' 0 3
  let p := op.extractLsb' 4 2
  let odd := op.getLsbD 3
  match (op.extractLsb' 6 2).toNat with
  | 0 =>
    match z.toNat with
    | 0 => match y.toNat with
      | 0 => (.nop, 1) | 1 => (.exaf, 1) | 2 => (.djnz, 2) | 3 => (.jr, 2) | _ => (.jrc (y - 4), 2)
    | 1 => if odd then (.addX .hl (pairOf .hl p), 1) else (.ldnn (pairOf .hl p), 3)
    | 2 => match y.toNat with
      | 0 => (.staP .bc, 1) | 1 => (.ldaP .bc, 1) | 2 => (.staP .de, 1) | 3 => (.ldaP .de, 1)
      | 4 => (.stMP (.idx .hl), 3) | 5 => (.ldPM (.idx .hl), 3) | 6 => (.sta, 3) | _ => (.lda, 3)
    | 3 => if odd then (.decP (pairOf .hl p), 1) else (.incP (pairOf .hl p), 1)
    | 4 => (.inc (loc y), 1)
    | 5 => (.dec (loc y), 1)
    | 6 => (.ldn (loc y), 2)
    | _ => match y.toNat with
      | 0 => (.rlca, 1) | 1 => (.rrca, 1) | 2 => (.rla, 1) | 3 => (.rra, 1)
      | 4 => (.daa, 1) | 5 => (.cpl, 1) | 6 => (.scf, 1) | _ => (.ccf, 1)
  | 1 => if op = 0x76#8 then (.halt, 1) else (.ld (loc y) (loc z), 1)
  | 2 => (.alu y (loc z), 1)
  | _ =>
    match z.toNat with
    | 0 => (.retc y, 1)
    | 1 => if odd then (match p.toNat with | 0 => (.ret, 1) | 1 => (.exx, 1) | 2 => (.jpX .hl, 1) | _ => (.ldsp .hl, 1))
      else if p = 3 then (.popAF, 1) else (.pop (pairOf .hl p), 1)
    | 2 => (.jpc y, 3)
    | 3 => match y.toNat with
      | 0 => (.jp, 3) | 2 => (.outA, 2) | 3 => (.inA, 2) | 4 => (.exsp .hl, 1) | 5 => (.exdehl, 1) | 6 => (.di, 1) | 7 => (.ei, 1)
      | _ => (.other, 1)
    | 4 => (.callc y, 3)
    | 5 => if odd then (if p = 0 then (.call, 3) else (.other, 1)) else if p = 3 then (.pushAF, 1) else (.push (pairOf .hl p), 1)
    | 6 => (.alun y, 2)
    | _ => (.rst y, 1)

/-- Rotates, shifts and bit instructions on `k`. -/
def bitOp (k : Loc) (op : Byte) : Ins :=
  let y := op.extractLsb' 3 3
  match (op.extractLsb' 6 2).toNat with
  | 0 => if y = 6 then .other else .rot y k
  | 1 => .bit y k
  | 2 => .res y k
  | _ => .set y k

def decodeCB (op : Byte) : Ins × Nat := (bitOp (loc (op.extractLsb' 0 3)) op, 2)

def decodeED (op : Byte) : Ins × Nat :=
  let y := op.extractLsb' 3 3
  let z := op.extractLsb' 0 3
  let p := op.extractLsb' 4 2
  let odd := op.getLsbD 3
  match (op.extractLsb' 6 2).toNat with
  | 1 =>
    match z.toNat with
    | 0 => if y = 6 then (.other, 2) else (.inR y, 2)
    | 1 => if y = 6 then (.other, 2) else (.outR y, 2)
    | 2 => if odd then (.adcHL (pairOf .hl p), 2) else (.sbcHL (pairOf .hl p), 2)
    | 3 => if odd then (.ldPM (pairOf .hl p), 4) else (.stMP (pairOf .hl p), 4)
    | 4 => if y = 0 then (.neg, 2) else (.other, 2)
    | 5 => if y = 0 then (.retn, 2) else if y = 1 then (.reti, 2) else (.other, 2)
    | 6 => if y = 0 then (.im 0, 2) else if y = 2 then (.im 1, 2) else if y = 3 then (.im 2, 2) else (.other, 2)
    | _ => match y.toNat with
      | 0 => (.ldia, 2) | 1 => (.ldra, 2) | 2 => (.ldai, 2) | 3 => (.ldar, 2) | 4 => (.rrd, 2) | 5 => (.rld, 2)
      | _ => (.other, 2)
  | 2 =>
    if y.getLsbD 2 = true ∧ z.getLsbD 2 = false then
      let dn := y.getLsbD 0
      let rep := y.getLsbD 1
      match z.toNat with
      | 0 => (.bld dn rep, 2) | 1 => (.bcp dn rep, 2) | 2 => (.bin dn rep, 2) | _ => (.bout dn rep, 2)
    else (.other, 2)
  | _ => (.other, 2)

/-- After DD (x = IX) or FD (x = IY): the instructions on HL and (HL), other than EX DE,HL
and HALT. -/
def decodeX (x : Idx) (op : Byte) : Ins × Nat :=
  let y := op.extractLsb' 3 3
  let z := op.extractLsb' 0 3
  match op.toNat with
  | 0x21 => (.ldnn (.idx x), 4) | 0x22 => (.stMP (.idx x), 4) | 0x2a => (.ldPM (.idx x), 4)
  | 0x23 => (.incP (.idx x), 2) | 0x2b => (.decP (.idx x), 2)
  | 0x34 => (.inc (.ind x), 3) | 0x35 => (.dec (.ind x), 3) | 0x36 => (.ldn (.ind x), 4)
  | 0xe1 => (.pop (.idx x), 2) | 0xe3 => (.exsp x, 2) | 0xe5 => (.push (.idx x), 2) | 0xe9 => (.jpX x, 2) | 0xf9 => (.ldsp x, 2)
  | _ =>
    match (op.extractLsb' 6 2).toNat with
    | 0 => if op.extractLsb' 0 4 = 9#4 then (.addX x (pairOf x (op.extractLsb' 4 2)), 2) else (.other, 2)
    | 1 => if y = 6 ∧ z ≠ 6 then (.ld (.ind x) (.reg z), 3) else if z = 6 ∧ y ≠ 6 then (.ld (.reg y) (.ind x), 3) else (.other, 2)
    | 2 => if z = 6 then (.alu y (.ind x), 3) else (.other, 2)
    | _ => (.other, 2)

/-- After DD CB d, FD CB d. -/
def decodeXCB (x : Idx) (op : Byte) : Ins × Nat := if op.extractLsb' 0 3 = 6#3 then (bitOp (.ind x) op, 4) else (.other, 4)

/-- The instruction made of the bytes at PC, PC+1 and PC+3, and its length. -/
def decode (b0 b1 b3 : Byte) : Ins × Nat :=
  if b0 = 0xcb#8 then decodeCB b1
  else if b0 = 0xed#8 then decodeED b1
  else if b0 = 0xdd#8 then (if b1 = 0xcb#8 then decodeXCB .ix b3 else decodeX .ix b1)
  else if b0 = 0xfd#8 then (if b1 = 0xcb#8 then decodeXCB .iy b3 else decodeX .iy b1)
  else decode1 b0

namespace Mach

/-- Last byte, last two bytes of an instruction of `len` bytes. -/
def imm8 (m : Mach) (len : Nat) : Byte := m.mem (m.pc + BitVec.ofNat 16 (len - 1))
def imm16 (m : Mach) (len : Nat) : Word := word (m.mem (m.pc + BitVec.ofNat 16 (len - 1))) (m.mem (m.pc + BitVec.ofNat 16 (len - 2)))
/-- To the next instruction. -/
def next (m : Mach) (len : Nat) : Mach := { m with pc := m.pc + BitVec.ofNat 16 len }
/-- Where JR goes: relative to the next instruction. -/
def rel (m : Mach) : Word := m.pc + 2 + (m.mem (m.pc + 1)).signExtend 16

def step1 (dn : Bool) (w : Word) : Word := if dn then w - 1 else w + 1

/-- One round of LDI.. : P/V tells BC-1 ≠ 0; while LDIR, LDDR are repeated it is left open. -/
def blockLd (m : Mach) (u : Und) (dn rep : Bool) : Mach :=
  let again := rep && (m.BC - 1).toNat != 0
  let n := (((m.store m.DE (m.mem m.HL)).setPair (.idx .hl) (step1 dn m.HL)).setPair .de (step1 dn m.DE)).setPair .bc (m.BC - 1)
  let n := { n with f := { m.f with h := false, n := false, pv := if again then u.fl.getLsbD 2 else (m.BC - 1).toNat != 0 } }
  if again then n else n.next 2

def blockCp (m : Mach) (dn rep : Bool) : Mach :=
  let v := m.mem m.HL
  let n := (m.setPair (.idx .hl) (step1 dn m.HL)).setPair .bc (m.BC - 1)
  let n := { n with f := { (m.cp v).f with cy := m.f.cy, pv := (m.BC - 1).toNat != 0 } }
  if rep && (m.BC - 1).toNat != 0 && m.a != v then n else n.next 2

def blockIoFlags (m : Mach) (u : Und) : Flags :=
  { s := u.fl.getLsbD 7, z := (m.b - 1).toNat == 0, h := u.fl.getLsbD 4, pv := u.fl.getLsbD 2, n := true, cy := m.f.cy }

def blockIn (m : Mach) (u : Und) (dn rep : Bool) : Mach :=
  let n := { (m.store m.HL (m.inp m.c)).setPair (.idx .hl) (step1 dn m.HL) with b := m.b - 1, f := m.blockIoFlags u }
  if rep && (m.b - 1).toNat != 0 then n else n.next 2

def send (m : Mach) (p : Byte) (v : Byte) : Mach := { m with out := fun q => if q = p then v else m.out q }

def blockOut (m : Mach) (u : Und) (dn rep : Bool) : Mach :=
  let n := { (m.send m.c (m.mem m.HL)).setPair (.idx .hl) (step1 dn m.HL) with b := m.b - 1, f := m.blockIoFlags u }
  if rep && (m.b - 1).toNat != 0 then n else n.next 2

/-- S, Z, P/V of a byte, H and N reset, C kept: IN r,(C), RRD, RLD. -/
def ioFlags (f : Flags) (v : Byte) : Flags := { f with s := neg8 v, z := v.toNat == 0, h := false, pv := evenOnes v, n := false }
/-- LD A,I and LD A,R: P/V is IFF2. -/
def irFlags (f : Flags) (v : Byte) (iff2 : Bool) : Flags := { f with s := neg8 v, z := v.toNat == 0, h := false, pv := iff2, n := false }

def daa (m : Mach) (u : Und) : Mach :=
  match daaTable m.f.n m.f.cy m.f.h (m.a.toNat / 16) (m.a.toNat % 16) with
  | some (v, c) =>
    let r := m.a + v
    { m with a := r, f := { m.f with s := neg8 r, z := r.toNat == 0, h := u.fl.getLsbD 4, pv := evenOnes r, cy := c } }
  | none => m

end Mach

open Mach in
/-- What an instruction of `len` bytes does. -/
def exec (u : Und) (i : Ins) (len : Nat) (m : Mach) : Mach :=
  match i with
  | .nop | .halt | .other => m.next len
  | .di => { m with iff1 := false, iff2 := false }.next len
  | .ei => { m with iff1 := true, iff2 := true }.next len
  | .ld d s => (m.put d (m.get s)).next len
  | .ldn d => (m.put d (m.imm8 len)).next len
  | .ldnn p => (m.setPair p (m.imm16 len)).next len
  | .ldaP p => { m with a := m.mem (m.pair p) }.next len
  | .staP p => (m.store (m.pair p) m.a).next len
  | .lda => { m with a := m.mem (m.imm16 len) }.next len
  | .sta => (m.store (m.imm16 len) m.a).next len
  | .ldPM p => (m.setPair p (m.load16 (m.imm16 len))).next len
  | .stMP p => (m.store16 (m.imm16 len) (m.pair p)).next len
  | .ldsp x => { m with sp := m.idx x }.next len
  | .push p => (m.push (m.pair p)).next len
  | .pushAF => (m.push (word m.a (m.f.byte u.x35))).next len
  | .pop p => (m.drop.setPair p m.top).next len
  | .popAF => { m.drop with a := hiByte m.top, f := .ofByte (loByte m.top) }.next len
  | .exdehl => { m with d := m.h, e := m.l, h := m.d, l := m.e }.next len
  | .exaf => { m with a := m.a', f := m.f', a' := m.a, f' := m.f }.next len
  | .exx => { m with b := m.b', c := m.c', d := m.d', e := m.e', h := m.h', l := m.l',
                     b' := m.b, c' := m.c, d' := m.d, e' := m.e, h' := m.h, l' := m.l }.next len
  | .exsp x => ((m.store16 m.sp (m.idx x)).setIdx x m.top).next len
  | .alu o s => (m.alu o (m.get s)).next len
  | .alun o => (m.alu o (m.imm8 len)).next len
  | .inc k => { m.put k (m.get k + 1) with f := incFlags m.f (m.get k) }.next len
  | .dec k => { m.put k (m.get k - 1) with f := decFlags m.f (m.get k) }.next len
  | .addX x p => (m.addX x (m.pair p)).next len
  | .adcHL p => (m.adcHL (m.pair p)).next len
  | .sbcHL p => (m.sbcHL (m.pair p)).next len
  | .incP p => (m.setPair p (m.pair p + 1)).next len
  | .decP p => (m.setPair p (m.pair p - 1)).next len
  | .rlca => { m with a := (rotate 0 m.f.cy m.a).1, f := { m.f with h := false, n := false, cy := (rotate 0 m.f.cy m.a).2 } }.next len
  | .rrca => { m with a := (rotate 1 m.f.cy m.a).1, f := { m.f with h := false, n := false, cy := (rotate 1 m.f.cy m.a).2 } }.next len
  | .rla => { m with a := (rotate 2 m.f.cy m.a).1, f := { m.f with h := false, n := false, cy := (rotate 2 m.f.cy m.a).2 } }.next len
  | .rra => { m with a := (rotate 3 m.f.cy m.a).1, f := { m.f with h := false, n := false, cy := (rotate 3 m.f.cy m.a).2 } }.next len
  | .daa => (m.daa u).next len
  | .cpl => { m with a := ~~~m.a, f := { m.f with h := true, n := true } }.next len
  | .scf => { m with f := { m.f with h := false, n := false, cy := true } }.next len
  | .ccf => { m with f := { m.f with h := m.f.cy, n := false, cy := !m.f.cy } }.next len
  | .neg => m.neg.next len
  | .rot k p => { m.put p (rotate k m.f.cy (m.get p)).1 with f := rotFlags (rotate k m.f.cy (m.get p)).1 (rotate k m.f.cy (m.get p)).2 }.next len
  | .bit n p => { m with f := { m.f with s := u.fl.getLsbD 7, z := !(m.get p).getLsbD n.toNat, h := true, pv := u.fl.getLsbD 2, n := false } }.next len
  | .res n p => (m.put p (m.get p &&& ~~~(bitAt true n.toNat))).next len
  | .set n p => (m.put p (m.get p ||| bitAt true n.toNat)).next len
  | .jp => { m with pc := m.imm16 len }
  | .jpc c => if m.cond c then { m with pc := m.imm16 len } else m.next len
  | .jpX x => { m with pc := m.idx x }
  | .jr => { m with pc := m.rel }
  | .jrc c => if m.cond c then { m with pc := m.rel } else m.next len
  | .djnz => if (m.b - 1).toNat ≠ 0 then { m with b := m.b - 1, pc := m.rel } else { m with b := m.b - 1 }.next len
  | .call => { m.push (m.pc + 3) with pc := m.imm16 len }
  | .callc c => if m.cond c then { m.push (m.pc + 3) with pc := m.imm16 len } else m.next len
  | .ret => { m.drop with pc := m.top }
  | .retc c => if m.cond c then { m.drop with pc := m.top } else m.next len
  | .rst n => { m.push (m.pc + 1) with pc := BitVec.ofNat 16 (8 * n.toNat) }
  | .reti => { m.drop with pc := m.top }
  | .retn => { m.drop with pc := m.top, iff1 := m.iff2 }
  | .inA => { m with a := m.inp (m.imm8 len) }.next len
  | .outA => (m.send (m.imm8 len) m.a).next len
  | .inR r => { m.put (.reg r) (m.inp m.c) with f := ioFlags m.f (m.inp m.c) }.next len
  | .outR r => (m.send m.c (m.get (.reg r))).next len
  | .im n => { m with im := n }.next len
  | .ldia => { m with i := m.a }.next len
  | .ldra => m.next len
  | .ldai => { m with a := m.i, f := irFlags m.f m.i m.iff2 }.next len
  | .ldar => { m with a := u.r, f := irFlags m.f u.r m.iff2 }.next len
  | .rrd =>
    let v := m.mem m.HL
    let a := BitVec.ofNat 8 (m.a.toNat / 16 * 16 + v.toNat % 16)
    { m.store m.HL (BitVec.ofNat 8 (m.a.toNat % 16 * 16 + v.toNat / 16)) with a := a, f := ioFlags m.f a }.next len
  | .rld =>
    let v := m.mem m.HL
    let a := BitVec.ofNat 8 (m.a.toNat / 16 * 16 + v.toNat / 16)
    { m.store m.HL (BitVec.ofNat 8 (v.toNat % 16 * 16 + m.a.toNat % 16)) with a := a, f := ioFlags m.f a }.next len
  | .bld dn rep => m.blockLd u dn rep
  | .bcp dn rep => m.blockCp dn rep
  | .bin dn rep => m.blockIn u dn rep
  | .bout dn rep => m.blockOut u dn rep

/-- The instruction at PC and its length. -/
def Mach.ins (m : Mach) : Ins × Nat := decode (m.mem m.pc) (m.mem (m.pc + 1)) (m.mem (m.pc + 3))

/-- One instruction (one round of a repeated one). -/
def step (u : Und) (m : Mach) : Mach := exec u m.ins.1 m.ins.2 m

/-! ### Clock periods (T states of the manual's tables) -/

/-- The condition is met, or the instruction is to be repeated. -/
def taken (m : Mach) : Ins → Bool
  | .jrc c | .callc c | .retc c => m.cond c
  | .djnz => (m.b - 1).toNat != 0
  | .bld _ true => (m.BC - 1).toNat != 0
  | .bcp _ true => (m.BC - 1).toNat != 0 && m.a != m.mem m.HL
  | .bin _ true | .bout _ true => (m.b - 1).toNat != 0
  | _ => false

/-- `t`: condition true, or repeated; `len`: length of the instruction (LD HL,(nn) and LD (nn),HL have two codes). -/
def states (t : Bool) (len : Nat) : Ins → Nat
  | .nop | .halt | .di | .ei => 4
  | .ld (.reg _) (.reg _) => 4
  | .ld (.ind .hl) _ | .ld _ (.ind .hl) => 7
  | .ld _ _ => 19
  | .ldn (.reg _) => 7 | .ldn (.ind .hl) => 10 | .ldn _ => 19
  | .ldnn (.idx .ix) | .ldnn (.idx .iy) => 14 | .ldnn _ => 10
  | .ldaP _ | .staP _ => 7 | .lda | .sta => 13
  | .ldPM _ | .stMP _ => if len = 3 then 16 else 20
  | .ldsp .hl => 6 | .ldsp _ => 10
  | .push (.idx .ix) | .push (.idx .iy) => 15 | .push _ | .pushAF => 11
  | .pop (.idx .ix) | .pop (.idx .iy) => 14 | .pop _ | .popAF => 10
  | .exdehl | .exaf | .exx => 4
  | .exsp .hl => 19 | .exsp _ => 23
  | .alu _ (.reg _) => 4 | .alu _ (.ind .hl) => 7 | .alu _ _ => 19
  | .alun _ => 7
  | .inc (.reg _) | .dec (.reg _) => 4 | .inc (.ind .hl) | .dec (.ind .hl) => 11 | .inc _ | .dec _ => 23
  | .addX .hl _ => 11 | .addX _ _ => 15
  | .adcHL _ | .sbcHL _ => 15
  | .incP (.idx .ix) | .incP (.idx .iy) | .decP (.idx .ix) | .decP (.idx .iy) => 10
  | .incP _ | .decP _ => 6
  | .rlca | .rrca | .rla | .rra | .daa | .cpl | .scf | .ccf => 4
  | .neg => 8
  | .rot _ (.reg _) | .res _ (.reg _) | .set _ (.reg _) | .bit _ (.reg _) => 8
  | .bit _ (.ind .hl) => 12 | .bit _ _ => 20
  | .rot _ (.ind .hl) | .res _ (.ind .hl) | .set _ (.ind .hl) => 15
  | .rot _ _ | .res _ _ | .set _ _ => 23
  | .jp | .jpc _ => 10
  | .jpX .hl => 4 | .jpX _ => 8
  | .jr => 12 | .jrc _ => if t then 12 else 7 | .djnz => if t then 13 else 8
  | .call => 17 | .callc _ => if t then 17 else 10
  | .ret => 10 | .retc _ => if t then 11 else 5
  | .rst _ => 11 | .reti | .retn => 14
  | .inA | .outA => 11 | .inR _ | .outR _ => 12
  | .im _ => 8 | .ldia | .ldra | .ldai | .ldar => 9 | .rrd | .rld => 18
  | .bld _ _ | .bcp _ _ | .bin _ _ | .bout _ _ => if t then 21 else 16
  | .other => 0

end Ucsim.Z80.Isa
