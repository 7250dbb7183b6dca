/-
The 8080 and 8085 as Intel's manual tells it (8080/8085 Assembly Language Programming
Manual; 8085: documented instructions only).  Does not use anything of the model.
-/
namespace Ucsim.I80.Isa

abbrev Byte := BitVec 8
abbrev Word := BitVec 16

/-- Registers, condition bits, memory. -/
@[ext] structure Mach where
  a : Byte
  b : Byte
  c : Byte
  d : Byte
  e : Byte
  h : Byte
  l : Byte
  cy : Bool
  ac : Bool
  z : Bool
  s : Bool
  p : Bool
  sp : Word
  pc : Word
  mem : Word → Byte

/-! ### Operands -/

/-- A register pair as a word. -/
def word (h l : Byte) : Word := h ++ l
def hiByte (w : Word) : Byte := w.extractLsb' 8 8
def loByte (w : Word) : Byte := w.extractLsb' 0 8

namespace Mach

def HL (m : Mach) : Word := word m.h m.l

/-- Operand field DDD or SSS: B C D E H L M A. -/
def reg (m : Mach) (r : BitVec 3) : Byte :=
  match r.toNat with
  | 0 => m.b | 1 => m.c | 2 => m.d | 3 => m.e | 4 => m.h | 5 => m.l
  | 6 => m.mem m.HL
  | _ => m.a

def store (m : Mach) (a : Word) (v : Byte) : Mach := { m with mem := fun x => if x = a then v else m.mem x }

def setReg (m : Mach) (r : BitVec 3) (v : Byte) : Mach :=
  match r.toNat with
  | 0 => { m with b := v } | 1 => { m with c := v } | 2 => { m with d := v } | 3 => { m with e := v }
  | 4 => { m with h := v } | 5 => { m with l := v }
  | 6 => m.store m.HL v
  | _ => { m with a := v }

/-- Field RP: BC DE HL SP. -/
def rp (m : Mach) (r : BitVec 2) : Word :=
  match r.toNat with
  | 0 => word m.b m.c | 1 => word m.d m.e | 2 => m.HL | _ => m.sp

def setRp (m : Mach) (r : BitVec 2) (v : Word) : Mach :=
  match r.toNat with
  | 0 => { m with b := hiByte v, c := loByte v } | 1 => { m with d := hiByte v, e := loByte v }
  | 2 => { m with h := hiByte v, l := loByte v } | _ => { m with sp := v }

/-- Second byte of the instruction. -/
def imm8 (m : Mach) : Byte := m.mem (m.pc + 1)
/-- Second (low) and third (high) byte. -/
def imm16 (m : Mach) : Word := word (m.mem (m.pc + 2)) (m.mem (m.pc + 1))
/-- To the next instruction. -/
def next (m : Mach) (len : Word) : Mach := { m with pc := m.pc + len }

def load16 (m : Mach) (a : Word) : Word := word (m.mem (a + 1)) (m.mem a)
def store16 (m : Mach) (a : Word) (v : Word) : Mach := (m.store a (loByte v)).store (a + 1) (hiByte v)

/-- High byte at SP-1, low byte at SP-2. -/
def push (m : Mach) (v : Word) : Mach :=
  { (m.store (m.sp - 1) (hiByte v)).store (m.sp - 2) (loByte v) with sp := m.sp - 2 }
def top (m : Mach) : Word := m.load16 m.sp
def drop (m : Mach) : Mach := { m with sp := m.sp + 2 }

/-- Field CCC: NZ Z NC C PO PE P M. -/
def cond (m : Mach) (c : BitVec 3) : Bool :=
  match c.toNat with
  | 0 => !m.z | 1 => m.z | 2 => !m.cy | 3 => m.cy | 4 => !m.p | 5 => m.p | 6 => !m.s | _ => m.s

/-! ### Condition bits -/

end Mach

/-- Even number of ones. -/
def evenOnes (v : Byte) : Bool := ((List.range 8).filter v.getLsbD).length % 2 == 0

def bitAt (b : Bool) (i : Nat) : Byte := BitVec.ofNat 8 (if b then 2 ^ i else 0)

namespace Mach

/-- Z, S, P of a result. -/
def zsp (m : Mach) (r : Byte) : Mach := { m with z := r.toNat == 0, s := decide (128 ≤ r.toNat), p := evenOnes r }

/-- The byte PUSH PSW stores: S Z - AC - P - CY; the bits in `u` (at least the blanks) are
those of `x`. -/
def psw (m : Mach) (u x : Byte) : Byte :=
  ((bitAt m.s 7 ||| bitAt m.z 6 ||| bitAt m.ac 4 ||| bitAt m.p 2 ||| bitAt m.cy 0) &&& ~~~u) ||| (x &&& u)

def setPsw (m : Mach) (v : Byte) : Mach :=
  { m with s := v.getLsbD 7, z := v.getLsbD 6, ac := v.getLsbD 4, p := v.getLsbD 2, cy := v.getLsbD 0 }

/-- ADD, ADC -/
def add (m : Mach) (v : Byte) (c : Bool) : Mach :=
  let t := m.a.toNat + v.toNat + c.toNat
  let r : Byte := BitVec.ofNat 8 t
  { m.zsp r with a := r, cy := decide (256 ≤ t), ac := decide (16 ≤ m.a.toNat % 16 + v.toNat % 16 + c.toNat) }

/-- SUB, SBB, CMP: the difference is made by adding the two's complement: CY tells a borrow,
AC the carry out of bit 3 of that addition. -/
def sub (m : Mach) (v : Byte) (c : Bool) : Mach :=
  let r : Byte := BitVec.ofInt 8 ((m.a.toNat : Int) - v.toNat - c.toNat)
  { m.zsp r with a := r, cy := decide (m.a.toNat < v.toNat + c.toNat), ac := decide (v.toNat % 16 + c.toNat ≤ m.a.toNat % 16) }

def cmp (m : Mach) (v : Byte) : Mach := { m.sub v false with a := m.a }

/-- ANA: AC is set on the 8085, the OR of the bits 3 of the operands on the 8080. -/
def ana (m : Mach) (is85 : Bool) (v : Byte) : Mach :=
  { m.zsp (m.a &&& v) with a := m.a &&& v, cy := false, ac := is85 || m.a.getLsbD 3 || v.getLsbD 3 }
def xra (m : Mach) (v : Byte) : Mach := { m.zsp (m.a ^^^ v) with a := m.a ^^^ v, cy := false, ac := false }
def ora (m : Mach) (v : Byte) : Mach := { m.zsp (m.a ||| v) with a := m.a ||| v, cy := false, ac := false }

/-- Field of the eight accumulator operations. -/
def alu (m : Mach) (is85 : Bool) (o : BitVec 3) (v : Byte) : Mach :=
  match o.toNat with
  | 0 => m.add v false | 1 => m.add v m.cy | 2 => m.sub v false | 3 => m.sub v m.cy
  | 4 => m.ana is85 v | 5 => m.xra v | 6 => m.ora v | _ => m.cmp v

def inr (m : Mach) (r : BitVec 3) : Mach :=
  let v := m.reg r
  { (m.setReg r (v + 1)).zsp (v + 1) with ac := decide (v.toNat % 16 = 15) }
def dcr (m : Mach) (r : BitVec 3) : Mach :=
  let v := m.reg r
  { (m.setReg r (v - 1)).zsp (v - 1) with ac := decide (v.toNat % 16 ≠ 0) }

/-- DAA: (1) if the low four bits are greater than 9 or AC is set, 6 is added; (2) if then
the high four bits are greater than 9 or CY is set, 6 is added to them. -/
def daa (m : Mach) : Mach :=
  let t1 := if 9 < m.a.toNat % 16 ∨ m.ac = true then m.a.toNat + 6 else m.a.toNat
  let high := decide (9 < t1 / 16) || m.cy
  let t2 := if high then t1 + 0x60 else t1
  let r : Byte := BitVec.ofNat 8 t2
  { m.zsp r with a := r, cy := high, ac := decide (9 < m.a.toNat % 16) }

def dad (m : Mach) (v : Word) : Mach :=
  { m.setRp 2 (m.HL + v) with cy := decide (0x10000 ≤ m.HL.toNat + v.toNat) }

def rlc (m : Mach) : Mach := { m with a := m.a.rotateLeft 1, cy := m.a.getLsbD 7 }
def rrc (m : Mach) : Mach := { m with a := m.a.rotateRight 1, cy := m.a.getLsbD 0 }
/-- Through carry. -/
def ral (m : Mach) : Mach := { m with a := BitVec.ofNat 8 (2 * m.a.toNat + m.cy.toNat), cy := m.a.getLsbD 7 }
def rar (m : Mach) : Mach := { m with a := BitVec.ofNat 8 ((m.a.toNat + 256 * m.cy.toNat) / 2), cy := m.a.getLsbD 0 }

end Mach

/-! ### Instructions -/

inductive Ins
  | nop | hlt | ei | di
  | mov (d s : BitVec 3) | mvi (d : BitVec 3) | lxi (p : BitVec 2)
  | lda | sta | lhld | shld | ldax (p : BitVec 2) | stax (p : BitVec 2) | xchg | xthl | sphl | pchl
  | inp | out | push (p : BitVec 2) | pushPsw | pop (p : BitVec 2) | popPsw
  | alu (o s : BitVec 3) | alui (o : BitVec 3) | dad (p : BitVec 2)
  | inr (r : BitVec 3) | dcr (r : BitVec 3) | inx (p : BitVec 2) | dcx (p : BitVec 2)
  | rlc | rrc | ral | rar | daa | cma | cmc | stc
  | jmp | jcc (c : BitVec 3) | call | ccc (c : BitVec 3) | ret | rcc (c : BitVec 3) | rst (n : BitVec 3)
  /-- Not an instruction of the 8080 manual (RIM and SIM of the 8085 included). -/
  | other
  deriving DecidableEq, Repr

/-- The binary formats of the manual: fields 7-6, 5-3, 2-0. -/
def decode (op : Byte) : Ins :=
  let ddd := op.extractLsb' 3 3
  let sss := op.extractLsb' 0 3
  let rp := op.extractLsb' 4 2
  let odd := op.getLsbD 3
  match (op.extractLsb' 6 2).toNat with
  | 0 =>
    match sss.toNat with
    | 0 => if ddd = 0 then .nop else .other
    | 1 => if odd then .dad rp else .lxi rp
    | 2 => match ddd.toNat with
      | 0 => .stax rp | 2 => .stax rp | 1 => .ldax rp | 3 => .ldax rp
      | 4 => .shld | 5 => .lhld | 6 => .sta | _ => .lda
    | 3 => if odd then .dcx rp else .inx rp
    | 4 => .inr ddd
    | 5 => .dcr ddd
    | 6 => .mvi ddd
    | _ => match ddd.toNat with
      | 0 => .rlc | 1 => .rrc | 2 => .ral | 3 => .rar | 4 => .daa | 5 => .cma | 6 => .stc | _ => .cmc
  | 1 => if op = 0x76#8 then .hlt else .mov ddd sss
  | 2 => .alu ddd sss
  | _ =>
    match sss.toNat with
    | 0 => .rcc ddd
    | 1 => if odd then (match rp.toNat with | 0 => .ret | 1 => .other | 2 => .pchl | _ => .sphl)
      else if rp = 3 then .popPsw else .pop rp
    | 2 => .jcc ddd
    | 3 => match ddd.toNat with
      | 0 => .jmp | 1 => .other | 2 => .out | 3 => .inp | 4 => .xthl | 5 => .xchg | 6 => .di | _ => .ei
    | 4 => .ccc ddd
    | 5 => if odd then (if rp = 0 then .call else .other) else if rp = 3 then .pushPsw else .push rp
    | 6 => .alui ddd
    | _ => .rst ddd

open Mach in
/-- What an instruction does.  `u`, `x`: undefined bits of PUSH PSW (see `Mach.psw`).
EI and DI change the interrupt enable only, which a program cannot see; IN, OUT are left
out (nothing of the machine above is said about them). -/
def exec (is85 : Bool) (u x : Byte) (i : Ins) (m : Mach) : Mach :=
  match i with
  | .nop | .hlt | .ei | .di | .other => m.next 1
  | .inp | .out => m.next 2
  | .mov d s => (m.setReg d (m.reg s)).next 1
  | .mvi d => (m.setReg d m.imm8).next 2
  | .lxi p => (m.setRp p m.imm16).next 3
  | .lda => { m with a := m.mem m.imm16 }.next 3
  | .sta => (m.store m.imm16 m.a).next 3
  | .lhld => (m.setRp 2 (m.load16 m.imm16)).next 3
  | .shld => (m.store16 m.imm16 m.HL).next 3
  | .ldax p => { m with a := m.mem (m.rp p) }.next 1
  | .stax p => (m.store (m.rp p) m.a).next 1
  | .xchg => { m with h := m.d, l := m.e, d := m.h, e := m.l }.next 1
  | .xthl => ((m.store16 m.sp m.HL).setRp 2 m.top).next 1
  | .sphl => { m with sp := m.HL }.next 1
  | .pchl => { m with pc := m.HL }
  | .push p => (m.push (m.rp p)).next 1
  | .pushPsw => (m.push (word m.a (m.psw u x))).next 1
  | .pop p => ((m.drop).setRp p m.top).next 1
  | .popPsw => { (m.drop).setPsw (loByte m.top) with a := hiByte m.top }.next 1
  | .alu o s => (m.alu is85 o (m.reg s)).next 1
  | .alui o => (m.alu is85 o m.imm8).next 2
  | .dad p => (m.dad (m.rp p)).next 1
  | .inr r => (m.inr r).next 1
  | .dcr r => (m.dcr r).next 1
  | .inx p => (m.setRp p (m.rp p + 1)).next 1
  | .dcx p => (m.setRp p (m.rp p - 1)).next 1
  | .rlc => m.rlc.next 1
  | .rrc => m.rrc.next 1
  | .ral => m.ral.next 1
  | .rar => m.rar.next 1
  | .daa => m.daa.next 1
  | .cma => { m with a := ~~~m.a }.next 1
  | .cmc => { m with cy := !m.cy }.next 1
  | .stc => { m with cy := true }.next 1
  | .jmp => { m with pc := m.imm16 }
  | .jcc c => if m.cond c then { m with pc := m.imm16 } else m.next 3
  | .call => { m.push (m.pc + 3) with pc := m.imm16 }
  | .ccc c => if m.cond c then { m.push (m.pc + 3) with pc := m.imm16 } else m.next 3
  | .ret => { m.drop with pc := m.top }
  | .rcc c => if m.cond c then { m.drop with pc := m.top } else m.next 1
  | .rst n => { m.push (m.pc + 1) with pc := BitVec.ofNat 16 (8 * n.toNat) }

/-- One instruction. -/
def step (is85 : Bool) (u x : Byte) (m : Mach) : Mach := exec is85 u x (decode (m.mem m.pc)) m

/-! ### Clock states (tables of the manual) -/

/-- States of an instruction on the 8080; `t`: condition true. -/
def states80 (t : Bool) : Ins → Nat
  | .mov d s => if d = 6 ∨ s = 6 then 7 else 5
  | .mvi d => if d = 6 then 10 else 7
  | .lxi _ => 10 | .lda => 13 | .sta => 13 | .lhld => 16 | .shld => 16 | .ldax _ => 7 | .stax _ => 7
  | .xchg => 4 | .xthl => 18 | .sphl => 5 | .pchl => 5 | .push _ => 11 | .pushPsw => 11 | .pop _ => 10 | .popPsw => 10
  | .alu _ s => if s = 6 then 7 else 4
  | .alui _ => 7 | .dad _ => 10
  | .inr r => if r = 6 then 10 else 5
  | .dcr r => if r = 6 then 10 else 5
  | .inx _ => 5 | .dcx _ => 5
  | .rlc | .rrc | .ral | .rar | .daa | .cma | .cmc | .stc | .nop | .ei | .di => 4
  | .hlt => 7 | .inp => 10 | .out => 10
  | .jmp => 10 | .jcc _ => 10 | .call => 17 | .ccc _ => if t then 17 else 11
  | .ret => 10 | .rcc _ => if t then 11 else 5 | .rst _ => 11
  | .other => 0

/-- States on the 8085. -/
def states85 (t : Bool) : Ins → Nat
  | .mov d s => if d = 6 ∨ s = 6 then 7 else 4
  | .mvi d => if d = 6 then 10 else 7
  | .lxi _ => 10 | .lda => 13 | .sta => 13 | .lhld => 16 | .shld => 16 | .ldax _ => 7 | .stax _ => 7
  | .xchg => 4 | .xthl => 16 | .sphl => 6 | .pchl => 6 | .push _ => 12 | .pushPsw => 12 | .pop _ => 10 | .popPsw => 10
  | .alu _ s => if s = 6 then 7 else 4
  | .alui _ => 7 | .dad _ => 10
  | .inr r => if r = 6 then 10 else 4
  | .dcr r => if r = 6 then 10 else 4
  | .inx _ => 6 | .dcx _ => 6
  | .rlc | .rrc | .ral | .rar | .daa | .cma | .cmc | .stc | .nop | .ei | .di => 4
  | .hlt => 5 | .inp => 10 | .out => 10
  | .jmp => 10 | .jcc _ => if t then 10 else 7 | .call => 18 | .ccc _ => if t then 18 else 9
  | .ret => 10 | .rcc _ => if t then 12 else 6 | .rst _ => 12
  | .other => 0

/-- Length in bytes. -/
def length : Ins → Nat
  | .mvi _ | .alui _ | .inp | .out => 2
  | .lxi _ | .lda | .sta | .lhld | .shld | .jmp | .jcc _ | .call | .ccc _ => 3
  | _ => 1

end Ucsim.I80.Isa
