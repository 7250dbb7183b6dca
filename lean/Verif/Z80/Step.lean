import Verif.Z80.Table

/-
Model of the Z80 simulator: execution of instructions.
-/
namespace Ucsim.Z80

/-- `if (c) f|= m` -/
def orIf (c : Bool) (m f : Byte) : Byte := if c then f ||| m else f

/-! ### Memory -/

/-- cl_address_space::read, mem.cc 1606-1617 -/
def rd (s : St) (a : Nat) : Byte := if a < 0x10000 then s.mem (BitVec.ofNat 16 a) else s.dummy

/-- cl_address_space::write, mem.cc 1645-1657; cl_dummy_cell::write, 1523-1531 -/
def wr (s : St) (a : Nat) (v : Byte) : St :=
  if a < 0x10000 then { s with mem := fun x => if x = BitVec.ofNat 16 a then v else s.mem x }
  else { s with dummy := s.rnd 0, rnd := fun n => s.rnd (n + 1) }

/-- cl_uc::fetch, uc.cc 3185-3197 (PCmask is 0xffff) -/
def fetch (s : St) : Byte × St := (rd s s.pc, { s with pc := (s.pc + 1) % 0x10000 })

/-- z80.cc 1134-1140 -/
def fetch2 (s : St) : Word × St :=
  let (l, s) := fetch s
  let (h, s) := fetch s
  (BitVec.ofNat 16 (h.toNat * 256 + l.toNat), s)

def hi (w : Word) : Byte := BitVec.ofNat 8 (w.toNat / 256)
def lo (w : Word) : Byte := BitVec.ofNat 8 w.toNat
def pair (h l : Byte) : Word := BitVec.ofNat 16 (h.toNat * 256 + l.toNat)

/-- store1, z80.cc 1108-1110 -/
def store1 (a : Word) (v : Byte) (s : St) : St := wr s a.toNat v
/-- store2, z80.cc 1112-1115 -/
def store2 (a : Word) (v : Word) (s : St) : St := wr (wr s a.toNat (lo v)) (a.toNat + 1) (hi v)
/-- get1, z80.cc 1117-1119 -/
def get1 (s : St) (a : Word) : Byte := rd s a.toNat
/-- get2, z80.cc 1121-1128 -/
def get2 (s : St) (a : Word) : Word := pair (rd s (a.toNat + 1)) (rd s a.toNat)

/-! ### Registers: regsz80.h -/

/-- regs_IX_OR_IY -/
def xx (x : Ix) (s : St) : Word := match x with | .ix => s.ix | .iy => s.iy
def setXx (x : Ix) (v : Word) (s : St) : St := match x with | .ix => { s with ix := v } | .iy => { s with iy := v }

def bc (s : St) : Word := pair s.b s.c
def de (s : St) : Word := pair s.d s.e
def hl (s : St) : Word := pair s.h s.l

def get8 (x : Ix) (s : St) : R8 → Byte
  | .a => s.a | .b => s.b | .c => s.c | .d => s.d | .e => s.e | .h => s.h | .l => s.l
  | .xh => hi (xx x s) | .xl => lo (xx x s)

def set8 (x : Ix) (r : R8) (v : Byte) (s : St) : St :=
  match r with
  | .a => { s with a := v } | .b => { s with b := v } | .c => { s with c := v } | .d => { s with d := v }
  | .e => { s with e := v } | .h => { s with h := v } | .l => { s with l := v }
  | .xh => setXx x (pair v (lo (xx x s))) s
  | .xl => setXx x (pair (hi (xx x s)) v) s

def get16 (x : Ix) (s : St) : RP → Word
  | .bc => bc s | .de => de s | .hl => hl s | .sp => s.sp | .xx => xx x s

def set16 (x : Ix) (p : RP) (v : Word) (s : St) : St :=
  match p with
  | .bc => { s with b := hi v, c := lo v } | .de => { s with d := hi v, e := lo v }
  | .hl => { s with h := hi v, l := lo v } | .sp => { s with sp := v } | .xx => setXx x v s

/-- add_u16_disp, z80mac.h 32 -/
def disp (w : Word) (d : Byte) : Word := w + d.signExtend 16

/-- A place: a register or a memory cell. -/
inductive Loc | reg (r : R8) | cell (a : Word) deriving DecidableEq, Repr

/-- The place of an operand; for IX+d the displacement is fetched. -/
def loc (x : Ix) (o : Opd) (s : St) : Loc × St :=
  match o with
  | .r r => (.reg r, s)
  | .m => (.cell (hl s), s)
  | .xd => let (d, s) := fetch s; (.cell (disp (xx x s) d), s)
  | .imm => (.cell 0, s)

def getL (x : Ix) (s : St) : Loc → Byte
  | .reg r => get8 x s r
  | .cell a => get1 s a

def setL (x : Ix) (k : Loc) (v : Byte) (s : St) : St :=
  match k with
  | .reg r => set8 x r v s
  | .cell a => store1 a v s

/-- Value of an operand: register, memory or fetch(). -/
def src (x : Ix) (o : Opd) (s : St) : Byte × St :=
  match o with
  | .imm => fetch s
  | .r r => (get8 x s r, s)
  | .m => (get1 s (hl s), s)
  | .xd => let (d, s) := fetch s; (get1 s (disp (xx x s) d), s)

/-! ### Flags -/

def bit7 (v : Byte) : Bool := v &&& 0x80#8 != 0#8
/-- macro parity, z80mac.h 34 -/
def parity (v : Byte) : Bool :=
  ((v >>> 7) &&& 1#8) ^^^ ((v >>> 6) &&& 1#8) ^^^ ((v >>> 5) &&& 1#8) ^^^ ((v >>> 4) &&& 1#8) ^^^
  ((v >>> 3) &&& 1#8) ^^^ ((v >>> 2) &&& 1#8) ^^^ ((v >>> 1) &&& 1#8) ^^^ (v &&& 1#8) ^^^ 1#8 != 0#8
/-- cl_z80::xy, z80.cc 1083-1087 -/
def xy (v f : Byte) : Byte := (f &&& ~~~0x28#8) ||| (v &&& 0x28#8)
/-- SET_Z, SET_S: z80mac.h 35-36 -/
def setZ (v f : Byte) : Byte := (f &&& ~~~bitZ) ||| (if v = 0#8 then bitZ else 0#8)
def setS (v f : Byte) : Byte := (f &&& ~~~bitS) ||| (if v &&& 0x80#8 = 0#8 then 0#8 else bitS)

def isC (s : St) : Bool := s.f &&& bitC != 0#8

/-! ### Arithmetic: z80mac.h; each gives the new A and F -/

/-- add_A_bytereg 38-52 (c: 0), adc_A_bytereg 54-69 (c: the carry) -/
def addA (c : Nat) (v : Byte) (s : St) : St :=
  let accu := s.a.toNat
  let oper := v.toNat + c
  let res : Int := s.a.toInt + v.toInt + c
  let f := s.f &&& ~~~bitAll
  let f := f &&& ~~~bitN
  let f := orIf (decide ((accu &&& 0x0f) + (oper &&& 0x0f) > 0x0f)) bitA f
  let f := orIf (decide (res < -128) || decide (res > 127)) bitP f
  let f := orIf (decide (accu + oper > 0xff)) bitC f
  let a : Byte := BitVec.ofNat 8 (accu + oper)
  let f := orIf (a == 0#8) bitZ f
  let f := orIf (bit7 a) bitS f
  { s with a := a, f := xy a f }

/-- sub_A_bytereg 110-125, sbc_A_bytereg 127-143 -/
def subA (c : Nat) (v : Byte) (s : St) : St :=
  let accu := s.a.toNat
  let oper := v.toNat + c
  let res : Int := s.a.toInt - v.toInt - c
  let f := s.f &&& ~~~bitAll
  let f := f ||| bitN
  let f := orIf (decide (accu &&& 0x0f < oper &&& 0x0f)) bitA f
  let f := orIf (decide (res < -128) || decide (res > 127)) bitP f
  let f := orIf (decide (accu < oper)) bitC f
  let a : Byte := s.a - BitVec.ofNat 8 oper
  let f := orIf (a == 0#8) bitZ f
  let f := orIf (bit7 a) bitS f
  { s with a := a, f := xy a f }

/-- cp_bytereg 162-176 -/
def cp (v : Byte) (s : St) : St :=
  let accu := s.a.toNat
  let oper := v.toNat
  let f := s.f &&& ~~~bitAll
  let f := f ||| bitN
  let f := orIf (decide (accu &&& 0x0f < oper &&& 0x0f)) bitA f
  let f := orIf (decide (accu &&& 0x7f < oper &&& 0x7f)) bitP f
  let f := if accu < oper then (f ||| bitC) ^^^ bitP else f
  let d : Byte := s.a - v
  let f := orIf (accu == oper) bitZ f
  let f := orIf (bit7 d) bitS f
  { s with f := xy d f }

/-- The common end of and, xor, or: 309-342. -/
def logic (f a : Byte) (s : St) : St :=
  let f := orIf (a == 0#8) bitZ f
  let f := orIf (bit7 a) bitS f
  let f := orIf (parity a) bitP f
  { s with a := a, f := xy a f }

/-- The eight operations on A: 38-176 and 309-342. -/
def aluOp (k : Alu) (v : Byte) (s : St) : St :=
  match k with
  | .add => addA 0 v s
  | .adc => addA (isC s).toNat v s
  | .sub => subA 0 v s
  | .sbc => subA (isC s).toNat v s
  | .and => logic ((s.f &&& ~~~bitAll) ||| bitA) (s.a &&& v) s
  | .xor => logic (s.f &&& ~~~bitAll) (s.a ^^^ v) s
  | .or => logic (s.f &&& ~~~bitAll) (s.a ||| v) s
  | .cp => cp v s

/-- add_HL_Word 71-80, add_IX_Word 82-91 -/
def add16 (x : Ix) (d : RP) (v : Word) (s : St) : St :=
  let accu := (get16 x s d).toNat
  let oper := v.toNat
  let f := s.f &&& ~~~(bitA ||| bitC)
  let f := f &&& ~~~bitN
  let f := orIf (decide ((accu &&& 0x0fff) + (oper &&& 0x0fff) > 0x0fff)) bitA f
  let f := orIf (decide (accu + oper > 0xffff)) bitC f
  set16 x d (BitVec.ofNat 16 (accu + oper)) { s with f := f }

/-- adc_HL_wordreg 93-108 -/
def adcHL (v : Word) (s : St) : St :=
  let accu := (hl s).toNat
  let c := (isC s).toNat
  let oper := v.toNat + c
  let res : Int := (hl s).toInt + v.toInt + c
  let f := s.f &&& ~~~bitAll
  let f := f &&& ~~~bitN
  let f := orIf (decide ((accu &&& 0x0fff) + (oper &&& 0x0fff) > 0x0fff)) bitA f
  let f := orIf (decide (res < -32768) || decide (res > 32767)) bitP f
  let f := orIf (decide (accu + oper > 0xffff)) bitC f
  let w : Word := BitVec.ofNat 16 (accu + oper)
  let f := orIf (w == 0#16) bitZ f
  let f := orIf (w &&& 0x8000#16 != 0#16) bitS f
  { s with h := hi w, l := lo w, f := f }

/-- sbc_HL_wordreg 145-160 -/
def sbcHL (v : Word) (s : St) : St :=
  let accu := (hl s).toNat
  let c := (isC s).toNat
  let oper := v.toNat + c
  let res : Int := (hl s).toInt - v.toInt - c
  let f := s.f &&& ~~~bitAll
  let f := f ||| bitN
  let f := orIf (decide (accu &&& 0x0fff < oper &&& 0x0fff)) bitA f
  let f := orIf (decide (res < -32768) || decide (res > 32767)) bitP f
  let f := orIf (decide (accu < oper)) bitC f
  let w : Word := hl s - BitVec.ofNat 16 oper
  let f := orIf (w == 0#16) bitZ f
  let f := orIf (w &&& 0x8000#16 != 0#16) bitS f
  { s with h := hi w, l := lo w, f := f }

/-- macro inc, 344-353: new value and F -/
def incV (v f : Byte) : Byte × Byte :=
  let v := v + 1
  let f := f &&& ~~~(bitN ||| bitP ||| bitA ||| bitZ ||| bitS)
  let f := orIf (v == 0#8) bitZ f
  let f := orIf (v == 0x80#8) bitP f
  let f := orIf (bit7 v) bitS f
  let f := orIf (v &&& 0x0f#8 == 0#8) bitA f
  (v, xy v f)

/-- macro dec, 355-365 -/
def decV (v f : Byte) : Byte × Byte :=
  let v := v - 1
  let f := f &&& ~~~(bitN ||| bitP ||| bitA ||| bitZ ||| bitS)
  let f := f ||| bitN
  let f := orIf (v == 0#8) bitZ f
  let f := orIf (v == 0x7f#8) bitP f
  let f := orIf (bit7 v) bitS f
  let f := orIf (v &&& 0x0f#8 == 0x0f#8) bitA f
  (v, xy v f)

/-- rr_byte .. slia_byte, 178-307: result and new carry; `c`: the old carry -/
def rotV (k : Rot) (c : Bool) (v : Byte) : Byte × Bool :=
  let b7 := bit7 v
  let b0 := v &&& 1#8 != 0#8
  match k with
  | .rr => (if c then (v >>> 1) ||| 0x80#8 else v >>> 1, b0)
  | .rrc => (if b0 then (v >>> 1) ||| 0x80#8 else v >>> 1, b0)
  | .rl => (if c then (v <<< 1) ||| 1#8 else v <<< 1, b7)
  | .rlc => (if b7 then (v <<< 1) ||| 1#8 else v <<< 1, b7)
  | .sla => (v <<< 1, b7)
  | .sra => (if b7 then (v >>> 1) ||| 0x80#8 else v >>> 1, b0)
  | .srl => (v >>> 1, b0)
  | .slia => ((v <<< 1) ||| 1#8, b7)

/-- Their flags; `a` is the content of A then: P is made of it, not of the result. -/
def rotF (a v : Byte) (c : Bool) (f : Byte) : Byte :=
  let f := f &&& ~~~bitAll
  let f := orIf c bitC f
  let f := orIf (v == 0#8) bitZ f
  let f := orIf (bit7 v) bitS f
  let f := orIf (parity a) bitP f
  xy v f

/-- macro bit_byte, 367-385 -/
def bitF (n : Nat) (v f : Byte) : Byte :=
  let f := f &&& ~~~(bitN ||| bitP ||| bitA ||| bitZ ||| bitS ||| 0x20#8)
  let f := f ||| bitA
  if v &&& (1#8 <<< n) = 0#8 then f ||| (bitZ ||| bitP)
  else orIf (n == 7) bitS (orIf (n == 5) 0x20#8 (orIf (n == 3) 0x08#8 f))

/-- inst.cc 574-586 -/
def rlca (s : St) : St :=
  let f := s.f &&& ~~~(bitA ||| bitN ||| bitC)
  if bit7 s.a then { s with f := f ||| bitC, a := (s.a <<< 1) ||| 1#8 } else { s with f := f, a := s.a <<< 1 }
/-- inst.cc 587-600 -/
def rrca (s : St) : St :=
  let f := s.f &&& ~~~(bitA ||| bitN ||| bitC)
  if s.a &&& 1#8 != 0#8 then { s with f := f ||| bitC, a := (s.a >>> 1) ||| 0x80#8 } else { s with f := f, a := s.a >>> 1 }
/-- inst.cc 753-763 -/
def rla (s : St) : St :=
  { s with a := (s.a <<< 1) ||| (if isC s then 1#8 else 0#8),
           f := (s.f &&& ~~~(bitA ||| bitC ||| bitN)) ||| (if bit7 s.a then bitC else 0#8) }
/-- inst.cc 741-751 -/
def rra (s : St) : St :=
  { s with a := (s.a >>> 1) ||| (if isC s then 0x80#8 else 0#8),
           f := (s.f &&& ~~~(bitN ||| bitA ||| bitC)) ||| (if s.a &&& 1#8 != 0#8 then bitC else 0#8) }

/-- inst.cc 812-852: the correction -/
def daaIncr (a f : Byte) : Byte :=
  let incr : Byte := if (f &&& bitA != 0#8) || decide ((a &&& 0x0f#8).toNat > 9) then 6#8 else 0#8
  if (f &&& bitC != 0#8) || decide ((a &&& 0xf0#8).toNat > 0x90) || decide (a.toNat > 0x99) then incr ||| 0x60#8 else incr

/-- inst.cc 812-852 -/
def daa (s : St) : St :=
  let n := s.f &&& bitN
  let c := s.f &&& bitC
  let incr := daaIncr s.a s.f
  let t := if s.f &&& bitN != 0#8 then subA 0 incr s else addA 0 incr s
  let f := t.f &&& ~~~(bitP ||| bitN)
  let f := orIf (parity t.a) bitP f
  { t with f := f ||| n ||| c }

/-- inst.cc 873-883 -/
def ccf (s : St) : St :=
  let f := s.f &&& ~~~(bitA ||| bitN)
  let f := orIf (f &&& bitC != 0#8) bitA f
  { s with f := f ^^^ bitC }

/-- NEG, inst_ed.cc (case 0x44) -/
def neg (s : St) : St :=
  let f := s.f &&& ~~~bitAll
  let f := orIf (s.a != 0#8) bitC f
  let f := orIf (s.a == 0x80#8) bitP f
  let f := orIf (s.a &&& 0x0f#8 != 0#8) bitA f
  let a := 0#8 - s.a
  let f := f ||| bitN
  let f := orIf (a == 0#8) bitZ f
  let f := orIf (bit7 a) bitS f
  { s with a := a, f := f }

/-! ### Stack: z80mac.h 11-30 -/

def push2 (v : Word) (s : St) : St := store2 (s.sp - 2) v { s with sp := s.sp - 2 }
def push1 (v : Byte) (s : St) : St := store1 (s.sp - 1) v { s with sp := s.sp - 1 }
def pop2 (s : St) : Word × St := (get2 s s.sp, { s with sp := s.sp + 2 })

/-! ### Branches -/

/-- The flag tests of inst_jr, inst_jp, inst_call, inst_ret. -/
def test (s : St) (flag : Byte) (v : Bool) : Bool := (s.f &&& flag != 0#8) == v

/-- `PC += j` (t_addr, 32 bits) -/
def jump (j : Byte) (s : St) : St := { s with pc := (((s.pc : Int) + j.toInt) % 0x100000000).toNat }

/-- inst_jr, inst.cc 765-810 -/
def jrIf (c : Bool) (s : St) : St :=
  let (j, s) := fetch s
  if c then { jump j s with cond := true } else s

/-- inst_djnz, inst.cc 723-739 -/
def djnz (s : St) : St :=
  let (j, s) := fetch s
  let s := { s with b := s.b - 1 }
  if s.b ≠ 0#8 then { jump j s with cond := true } else s

/-- inst_call, inst.cc 1390-1503: the return address is pushed before the operand is fetched. -/
def doCall (s : St) : St :=
  let s := push2 (BitVec.ofNat 16 (s.pc + 2)) s
  let (a, s) := fetch2 s
  { s with pc := a.toNat }

/-! ### Block instructions: inst_ed.cc (0xA0-0xBB) -/

/-- LDI, LDD, LDIR, LDDR: the transfer; `dn`: downwards -/
def blkMove (dn : Bool) (s : St) : St :=
  let s := { s with f := s.f &&& ~~~(bitP ||| bitN ||| bitA) }
  let s := store1 (de s) (get1 s (hl s)) s
  let s := set16 .ix .hl (if dn then hl s - 1 else hl s + 1) s
  let s := set16 .ix .de (if dn then de s - 1 else de s + 1) s
  set16 .ix .bc (bc s - 1) s

/-- `if (regs.BC != 0) regs.raf.F |= BIT_P;` -/
def pIfBc (s : St) : St := { s with f := orIf (bc s != 0#16) bitP s.f }

/-- `repeating= true; cond_true= true; PC= instPC;` -/
def again (ipc : Nat) (c : Bool) (s : St) : St := if c then { s with cond := true, pc := ipc } else s

/-- CPI (case 0xA1) -/
def cpi (s : St) : St :=
  let s := cp (get1 s (hl s)) s
  let s := set16 .ix .hl (hl s + 1) s
  pIfBc (set16 .ix .bc (bc s - 1) s)

/-- CPD (case 0xA9) -/
def cpd (s : St) : St :=
  let f := s.f &&& ~~~bitAll
  let s := { s with f := orIf (s.a == get1 s (hl s)) (bitZ ||| bitP) f }
  let s := set16 .ix .hl (hl s + 1) s
  pIfBc (set16 .ix .bc (bc s - 1) s)

/-- CPIR (case 0xB1) -/
def cpir (ipc : Nat) (s : St) : St :=
  let f := s.f &&& ~~~(bitP ||| bitA ||| bitZ ||| bitS)
  let f := f ||| bitN
  let v := get1 s (hl s)
  let f := if s.a = v then f ||| bitZ else f &&& ~~~bitZ
  let f := if bit7 (s.a - v) then f ||| bitS else f &&& ~~~bitS
  let s := { s with f := f }
  let s := set16 .ix .hl (hl s + 1) s
  let s := set16 .ix .bc (bc s - 1) s
  if bc s ≠ 0#16 then again ipc (s.f &&& bitZ == 0#8) { s with f := s.f ||| bitP } else s

/-- CPDR (case 0xB9) -/
def cpdr (ipc : Nat) (s : St) : St :=
  let f := s.f &&& ~~~bitAll
  if s.a = get1 s (hl s) then { s with f := f ||| (bitZ ||| bitP) }
  else
    let s := { s with f := f }
    let s := set16 .ix .hl (hl s - 1) s
    let s := set16 .ix .bc (bc s - 1) s
    again ipc (bc s != 0#16) s

/-- INI, IND, INIR, INDR (CPU_Z80) -/
def blkIn (dn : Bool) (s : St) : St :=
  let s := store1 (hl s) (s.inp s.c) s
  let s := { s with f := s.f &&& ~~~bitN }
  let s := set16 .ix .hl (if dn then hl s - 1 else hl s + 1) s
  let s := { s with b := s.b - 1 }
  { s with f := setZ s.b s.f }

/-- OUTI, OUTD, OTIR, OTDR (CPU_Z80); OUTI and OTIR use B as the port -/
def blkOut (dn : Bool) (s : St) : St :=
  let s := { s with b := s.b - 1 }
  let v := get1 s (hl s)
  let p := if dn then s.c else s.b
  let s := { s with out := fun q => if q = p then v else s.out q }
  let s := { s with f := setZ s.b (s.f &&& ~~~bitN) }
  set16 .ix .hl (if dn then hl s - 1 else hl s + 1) s

/-! ### One instruction -/

/-- `tmp= ..; reg= tmp` of inst_xxcb.cc -/
def setOpt (r : Option R8) (v : Byte) (s : St) : St :=
  match r with
  | some r => set8 .ix r v s
  | none => s

/-- IN r,(C): inst_ed.cc (0x40, 0x48 ..) -/
def inFlags (v f : Byte) : Byte := orIf (parity v) bitP (f &&& ~~~(bitN ||| bitP))

/-- LD A,I and LD A,R: inst_ed.cc (0x57, 0x5F) -/
def ldAFlags (v : Byte) (iff2 : Bool) (f : Byte) : Byte :=
  orIf iff2 bitP ((setZ v (setS v f)) &&& ~~~(bitA ||| bitN ||| bitP))

/-- The cases.  `ipc`: instPC, `x`: the index register of the prefix, `off`: n_offset of
inst_xxcb.cc. -/
def exec (ipc : Nat) (x : Ix) (off : Byte) (i : Inst) (s : St) : St :=
  match i with
  | .nop => s
  | .halt => s
  | .inv => s
  | .prefix => s
  | .ld d o =>
    let (k, s) := loc x d s
    let (v, s) := src x o s
    setL x k v s
  | .ld16 p => let (v, s) := fetch2 s; set16 x p v s
  | .ldMA p => store1 (get16 x s p) s.a s
  | .ldAM p => { s with a := get1 s (get16 x s p) }
  | .stRP p => let (a, s) := fetch2 s; store2 a (get16 x s p) s
  | .ldRP p => let (a, s) := fetch2 s; set16 x p (get2 s a) s
  | .stA => let (a, s) := fetch2 s; store1 a s.a s
  | .ldA => let (a, s) := fetch2 s; { s with a := get1 s a }
  | .ldSP p => { s with sp := get16 x s p }
  | .inc16 p => set16 x p (get16 x s p + 1) s
  | .dec16 p => set16 x p (get16 x s p - 1) s
  | .inc8 o =>
    let (k, s) := loc x o s
    let (v, f) := incV (getL x s k) s.f
    setL x k v { s with f := f }
  | .dec8 o =>
    let (k, s) := loc x o s
    let (v, f) := decV (getL x s k) s.f
    setL x k v { s with f := f }
  | .add16 d p => add16 x d (get16 x s p) s
  | .adcHL p => adcHL (get16 x s p) s
  | .sbcHL p => sbcHL (get16 x s p) s
  | .alu k o => let (v, s) := src x o s; aluOp k v s
  | .jr => let (j, s) := fetch s; jump j s
  | .jrIf g v => jrIf (test s g v) s
  | .djnz => djnz s
  | .jp => let (a, s) := fetch2 s; { s with pc := a.toNat }
  | .jpIf g v => let t := test s g v; let (a, s) := fetch2 s; if t then { s with pc := a.toNat } else s
  | .jpRP p => { s with pc := (get16 x s p).toNat }
  | .call => doCall s
  | .callIf g v => if test s g v then { doCall s with cond := true } else (fetch2 s).2
  | .ret => let (a, s) := pop2 s; { s with pc := a.toNat }
  | .retIf g v => if test s g v then { (pop2 s).2 with pc := (pop2 s).1.toNat, cond := true } else s
  | .rst a => { push2 (BitVec.ofNat 16 s.pc) s with pc := a.toNat }
  | .push p => push2 (get16 x s p) s
  | .pushAF => push1 s.f (push1 s.a s)
  | .pop p => let (v, s) := pop2 s; set16 x p v s
  | .popAF =>
    let f := get1 s s.sp
    let s := { s with f := f, sp := s.sp + 1 }
    { s with a := get1 s s.sp, sp := s.sp + 1 }
  | .exSP p =>
    let t := get16 x s p
    let s := set16 x p (get2 s s.sp) s
    store2 s.sp t s
  | .exDEHL => { s with d := s.h, e := s.l, h := s.d, l := s.e }
  | .exAF => { s with a := s.a2, f := s.f2, a2 := s.a, f2 := s.f }
  | .exx => { s with b := s.b2, c := s.c2, d := s.d2, e := s.e2, h := s.h2, l := s.l2,
                     b2 := s.b, c2 := s.c, d2 := s.d, e2 := s.e, h2 := s.h, l2 := s.l }
  | .di => { s with iff1 := false, iff2 := false }
  | .ei => { s with iff1 := true, iff2 := true }
  | .inA => let (p, s) := fetch s; { s with a := s.inp p }
  | .outA => let (p, s) := fetch s; { s with out := fun q => if q = p then s.a else s.out q }
  | .rlca => rlca s
  | .rrca => rrca s
  | .rla => rla s
  | .rra => rra s
  | .daa => daa s
  | .cpl => { s with f := s.f ||| (bitA ||| bitN), a := ~~~s.a }
  | .scf => { s with f := (s.f &&& ~~~(bitA ||| bitN)) ||| bitC }
  | .ccf => ccf s
  | .rot k o =>
    let (p, s) := loc x o s
    let (v, c) := rotV k (isC s) (getL x s p)
    setL x p v { s with f := rotF (if o = .r .a then v else s.a) v c s.f }
  | .bit n o =>
    let (p, s) := loc x o s
    { s with f := bitF n (getL x s p) s.f }
  | .res n o =>
    let (p, s) := loc x o s
    setL x p (getL x s p &&& ~~~(1#8 <<< n)) s
  | .set n o =>
    let (p, s) := loc x o s
    setL x p (getL x s p ||| (1#8 <<< n)) s
  | .xrot k r =>
    let a := disp (xx x s) off
    let (v, c) := rotV k (isC s) (get1 s a)
    store1 a v (setOpt r v { s with f := rotF s.a v c s.f })
  | .xbit n =>
    let a := disp (xx x s) off
    store1 a (get1 s a) { s with f := bitF n (get1 s a) s.f }
  | .xres n r =>
    let a := disp (xx x s) off
    let v := get1 s a &&& ~~~(1#8 <<< n)
    store1 a v (setOpt r v s)
  | .xset n r =>
    let a := disp (xx x s) off
    let v := get1 s a ||| (1#8 <<< n)
    store1 a v (setOpt r v s)
  | .inC r => { set8 x r (s.inp s.c) s with f := inFlags (s.inp s.c) s.f }
  | .inF => { s with f := inFlags (s.inp s.c) s.f }
  | .outC r => { s with out := fun q => if q = s.c then get8 x s r else s.out q }
  | .out0 => { s with out := fun q => if q = s.c then 0#8 else s.out q }
  | .im n => { s with imode := n }
  | .ldIA => { s with iv := s.a }
  | .ldRA => { s with r := s.a }
  | .ldAI => { s with a := s.iv, f := ldAFlags s.iv s.iff2 s.f }
  | .ldAR => { s with a := s.r, f := ldAFlags s.r s.iff2 s.f }
  | .retN => { (pop2 s).2 with pc := (pop2 s).1.toNat, iff1 := s.iff2, iff2 := false }
  | .neg => neg s
  | .rrd =>
    let t := get1 s (hl s)
    { store1 (hl s) ((t >>> 4) ||| (s.a <<< 4)) s with a := (s.a &&& 0xf0#8) ||| (t &&& 0x0f#8) }
  | .rld =>
    let t := get1 s (hl s)
    { store1 (hl s) ((t <<< 4) ||| (s.a &&& 0x0f#8)) s with a := (s.a &&& 0xf0#8) ||| (t >>> 4) }
  | .ldi => pIfBc (blkMove false s)
  | .ldd => pIfBc (blkMove true s)
  | .ldir => let s := blkMove false s; again ipc (bc s != 0#16) (pIfBc s)
  | .lddr => let s := blkMove true s; again ipc (bc s != 0#16) s
  | .cpi => cpi s
  | .cpd => cpd s
  | .cpir => cpir ipc s
  | .cpdr => cpdr ipc s
  | .ini => blkIn false s
  | .ind => blkIn true s
  | .inir => let s := blkIn false s; again ipc (s.b != 0#8) s
  | .indr => let s := blkIn true s; again ipc (s.b != 0#8) s
  | .outi => blkOut false s
  | .outd => blkOut true s
  | .otir => let s := blkOut false s; again ipc (s.b != 0#8) s
  | .otdr => let s := blkOut true s; again ipc (s.b != 0#8) s

/-- What an instruction is found to be: the body, the index register and the displacement
byte, and PC after the bytes read to find it. -/
structure Found where
  inst : Inst
  x : Ix
  off : Byte
  st : St

def at_ (t : Array Inst) (c : Byte) : Inst := t.getD c.toNat .inv

/-- The switch of exec_inst z80.cc 655-833, inst_cb, inst_ed, inst_dd, inst_fd, inst_ddcb,
inst_fdcb; `s` is the state after the first byte `c` was fetched. -/
def find (c : Byte) (s : St) : Found :=
  if c = 0xcb#8 then
    let (c2, s) := fetch s
    { inst := at_ tabCB c2, x := .ix, off := 0, st := s }
  else if c = 0xed#8 then
    let (c2, s) := fetch s
    { inst := at_ tabED c2, x := .ix, off := 0, st := s }
  else if c = 0xdd#8 ∨ c = 0xfd#8 then
    let x := if c = 0xdd#8 then Ix.ix else Ix.iy
    let (c2, s) := fetch s
    if c2 = 0xcb#8 then
      let (d, s) := fetch s
      let (c4, s) := fetch s
      { inst := at_ tabXC c4, x := x, off := d, st := s }
    else { inst := at_ tabXD c2, x := x, off := 0, st := s }
  else { inst := at_ tab00 c, x := .ix, off := 0, st := s }

/-- cl_z80::tickt, z80.cc 840-892: the table entry; the bytes after the first are read again,
after the instruction was executed. -/
def tEntry (c : Byte) (ipc : Nat) (s : St) : Nat :=
  if c = 0xdd#8 then
    if rd s (ipc + 1) = 0xcb#8 then ttabDdcb.getD (rd s (ipc + 3)).toNat 0 else ttabDd.getD (rd s (ipc + 1)).toNat 0
  else if c = 0xfd#8 then
    if rd s (ipc + 1) = 0xcb#8 then ttabFdcb.getD (rd s (ipc + 3)).toNat 0 else ttabFd.getD (rd s (ipc + 1)).toNat 0
  else if c = 0xcb#8 then ttabCb.getD (rd s (ipc + 1)).toNat 0
  else if c = 0xed#8 then ttabEd.getD (rd s (ipc + 1)).toNat 0
  else ttab00.getD c.toNat 0

/-- inc_R, z80.cc 1074-1080 -/
def incR (r : Byte) : Byte := (r &&& 0x80#8) ||| (((r &&& 0x7f#8) + 1) &&& 0x7f#8)

inductive Res | go | halt | inv deriving DecidableEq, Repr

/-- The rest of cl_z80::exec_inst (z80.cc 655-843) when the instruction has been found, and what
cl_uc::do_inst (uc.cc 3244-3275) does of its result: PC goes back to the instruction when it is
invalid.  `c`: its first byte. -/
def finish (ipc : Nat) (c : Byte) (k : Found) : Res × St :=
  let s := exec ipc k.x k.off k.inst k.st
  let t := tEntry c ipc s
  let t := if s.cond then t / 256 else t % 256
  let s := { s with ticks := s.ticks + ((t : Int) - 1) }
  match k.inst with
  | .halt => (.halt, s)
  | .inv => (.inv, { s with pc := ipc })
  | _ => (.go, s)

/-- cl_z80::exec_inst, z80.cc 637-843 -/
def step (s : St) : Res × St :=
  let (c, t) := fetch s
  finish s.pc c (find c { t with ticks := t.ticks + 1, r := incR t.r, cond := false })

/-- Any number of instructions. -/
def steps : Nat → St → St
  | 0, s => s
  | n + 1, s => steps n (step s).2

end Ucsim.Z80
