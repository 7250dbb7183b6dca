import Verif.I80.Table

/-
Model of the 8080/8085 simulator: execution of instructions.
-/
namespace Ucsim.I80

/-- `if (c) f|= m` -/
def orIf (c : Bool) (m f : Byte) : Byte := if c then f ||| m else f

/-! ### Memory -/

/-- cl_address_space::read, mem.cc 1606-1617 -/
def rd (s : St) (a : Nat) : Byte := if a < 0x10000 then s.mem (BitVec.ofNat 16 a) else s.dummy

/-- cl_address_space::write, mem.cc 1645-1657; cl_dummy_cell::write, 1523-1531 -/
def wr (s : St) (a : Nat) (v : Byte) : St :=
  if a < 0x10000 then { s with mem := fun x => if x = BitVec.ofNat 16 a then v else s.mem x }
  else { s with dummy := s.rnd 0, rnd := fun n => s.rnd (n + 1) }

/-- cl_uc::read_addr, uc.cc 2892-2898 -/
def readAddr (s : St) (a : Nat) : Nat := (rd s a).toNat + 256 * (rd s (a + 1)).toNat

/-- cl_uc::fetch, uc.cc 3185-3197 (PCmask is 0xffff: uc.cc 638) -/
def fetch (s : St) : Byte × St := (rd s s.pc.toNat, { s with pc := s.pc + 1 })

/-- i8080.cc 411-418 -/
def fetch16 (s : St) : Word × St :=
  let (l, s) := fetch s
  let (h, s) := fetch s
  (BitVec.ofNat 16 (h.toNat * 256 + l.toNat), s)

/-! ### Registers -/

def hi (w : Word) : Byte := BitVec.ofNat 8 (w.toNat / 256)
def lo (w : Word) : Byte := BitVec.ofNat 8 w.toNat
def pair (h l : Byte) : Word := BitVec.ofNat 16 (h.toNat * 256 + l.toNat)

def hl (s : St) : Word := pair s.h s.l

/-- rA .. rL, rM: i8080cl.h 58-73 -/
def get8 (s : St) : R8 → Byte
  | .a => s.a | .b => s.b | .c => s.c | .d => s.d | .e => s.e | .h => s.h | .l => s.l
  | .m => rd s (hl s).toNat

/-- cA.W .. cL.W, cM().W -/
def set8 (s : St) (r : R8) (v : Byte) : St :=
  match r with
  | .a => { s with a := v } | .b => { s with b := v } | .c => { s with c := v } | .d => { s with d := v }
  | .e => { s with e := v } | .h => { s with h := v } | .l => { s with l := v }
  | .m => wr s (hl s).toNat v

/-- rBC, rDE, rHL, rSP -/
def get16 (s : St) : RP → Word
  | .bc => pair s.b s.c | .de => pair s.d s.e | .hl => pair s.h s.l | .sp => s.sp

/-- cBC.W, cDE.W, cHL.W, cSP.W -/
def set16 (s : St) (p : RP) (v : Word) : St :=
  match p with
  | .bc => { s with b := hi v, c := lo v } | .de => { s with d := hi v, e := lo v }
  | .hl => { s with h := hi v, l := lo v } | .sp => { s with sp := v }

/-- cl_flag80_op::write i8080.cc 41-47, cl_flag85_op::write i8085.cc 39-44 -/
def flagOp (cpu : Cpu) (v : Byte) : Byte :=
  match cpu with
  | .i8080 => (v &&& 0xd7#8) ||| 0x02#8
  | .i8085 => v &&& ~~~(0x08#8)

/-- cF.W -/
def setF (cpu : Cpu) (v : Byte) (s : St) : St := { s with f := flagOp cpu v }

def src (s : St) : Src → Byte × St
  | .reg r => (get8 s r, s)
  | .imm => fetch s

/-! ### Flags: i8080cl.h 94-98, ptab -/

def bit7 (v : Byte) : Bool := v &&& 0x80#8 != 0#8
/-- ADDV8 as a condition -/
def addv8 (a b r : Byte) : Bool := bit7 ((a &&& b &&& ~~~r) ||| (~~~a &&& ~~~b &&& r))
/-- ADDV16 as a condition -/
def addv16 (a b r : Word) : Bool := ((a &&& b &&& ~~~r) ||| (~~~a &&& ~~~b &&& r)) &&& 0x8000#16 != 0#16
/-- X5 as a condition, `f` is rF at that point -/
def x5 (f r : Byte) : Bool := (f &&& flagV != 0#8) != bit7 r
def parity (r : Byte) : Bool := ptab.getD r.toNat 0 != 0

/-! ### Arithmetic: ialu.cc -/

/-- ialu.cc 30-53 -/
def add8 (cpu : Cpu) (op : Byte) (add_c is_daa : Bool) (s : St) : St :=
  let op := if add_c && (s.f &&& flagC != 0#8) then op + 1 else op
  let res := s.a.toNat + op.toNat
  let f := s.f &&& ~~~fAll_A
  let f := if is_daa then f else f &&& ~~~flagA
  let f := orIf (res > 0xff) flagC f
  let f := orIf (res &&& 0x80 != 0) flagS f
  let r : Byte := BitVec.ofNat 8 res
  let f := orIf (r == 0#8) flagZ f
  let f := orIf (!is_daa && decide ((s.a.toNat &&& 0xf) + (op.toNat &&& 0xf) > 0xf)) flagA f
  let f := orIf (addv8 s.a op r) flagV f
  let f := orIf (x5 f r) flagK f
  let f := orIf (parity r) flagP f
  setF cpu f { s with a := r }

/-- ialu.cc 55-76 -/
def sub8 (cpu : Cpu) (op : Byte) (sub_c cmp : Bool) (s : St) : St :=
  let orgb := op
  let op := if sub_c && (s.f &&& flagC != 0#8) then op + 1 else op
  let op := ~~~op + 1
  let res := s.a.toNat + op.toNat
  let f := s.f &&& ~~~fAll
  let f := orIf (s.a.toNat < orgb.toNat) flagC f
  let f := orIf (res &&& 0x80 != 0) flagS f
  let r : Byte := BitVec.ofNat 8 res
  let f := orIf (r == 0#8) flagZ f
  let f := orIf (decide ((s.a.toNat &&& 0xf) + (op.toNat &&& 0xf) > 0xf)) flagA f
  let f := orIf (addv8 s.a op r) flagV f
  let f := orIf (x5 f r) flagK f
  let f := orIf (parity r) flagP f
  setF cpu f (if cmp then s else { s with a := r })

/-- ialu.cc 78-88 -/
def dad (cpu : Cpu) (op : Word) (s : St) : St :=
  let res := (hl s).toNat + op.toNat
  let f := s.f &&& ~~~(flagC ||| flagV)
  let f := orIf (res > 0xffff) flagC f
  let f := orIf (addv16 (hl s) op (BitVec.ofNat 16 res)) flagV f
  setF cpu f (set16 s .hl (BitVec.ofNat 16 res))

/-- ialu.cc 90-106 -/
def inr (cpu : Cpu) (r : R8) (s : St) : St :=
  let f := s.f &&& ~~~fAll_C
  let a := get8 s r
  let res := a + 1
  let f := orIf (res == 0#8) flagZ f
  let f := orIf (bit7 res) flagS f
  let f := orIf (a &&& 0xf#8 == 0xf#8) flagA f
  let f := orIf (addv8 a 1 res) flagV f
  let f := orIf (x5 f res) flagK f
  let f := orIf (parity res) flagP f
  setF cpu f (set8 s r res)

/-- ialu.cc 108-123 -/
def dcr (cpu : Cpu) (r : R8) (s : St) : St :=
  let a := get8 s r
  let m1 : Byte := ~~~1 + 1
  let res := a + m1
  let f := s.f &&& ~~~fAll_C
  let f := orIf (res == 0#8) flagZ f
  let f := orIf (bit7 res) flagS f
  let f := orIf (decide ((a.toNat &&& 0xf) + (m1.toNat &&& 0xf) > 0xf)) flagA f
  let f := orIf (addv8 a m1 res) flagV f
  let f := orIf (x5 f res) flagK f
  let f := orIf (parity res) flagP f
  setF cpu f (set8 s r res)

/-- ialu.cc 125-132, i8085.cc 203-213 -/
def inx (cpu : Cpu) (p : RP) (s : St) : St :=
  let r := get16 s p
  match cpu with
  | .i8080 => set16 s p (r + 1)
  | .i8085 => setF cpu (orIf (r == 0xffff#16) flagK (s.f &&& ~~~flagK)) (set16 s p (r + 1))

/-- ialu.cc 134-141, i8085.cc 215-225 -/
def dcx (cpu : Cpu) (p : RP) (s : St) : St :=
  let r := get16 s p
  match cpu with
  | .i8080 => set16 s p (r - 1)
  | .i8085 => setF cpu (orIf (r == 0#16) flagK (s.f &&& ~~~flagK)) (set16 s p (r - 1))

/-- The common end of ana, ora, xra: ialu.cc 143-183. -/
def logic (cpu : Cpu) (f res : Byte) (s : St) : St :=
  let f := orIf (res == 0#8) flagZ f
  let f := orIf (bit7 res) flagS f
  let f := orIf (x5 f res) flagK f
  let f := orIf (parity res) flagP f
  setF cpu f { s with a := res }

/-- ialu.cc 143-155 -/
def ana (cpu : Cpu) (op : Byte) (s : St) : St := logic cpu ((s.f &&& ~~~fAll) ||| flagA) (s.a &&& op) s
/-- ialu.cc 157-168 -/
def ora (cpu : Cpu) (op : Byte) (s : St) : St := logic cpu (s.f &&& ~~~fAll) (s.a ||| op) s
/-- ialu.cc 170-181 -/
def xra (cpu : Cpu) (op : Byte) (s : St) : St := logic cpu (s.f &&& ~~~fAll) (s.a ^^^ op) s

/-- ialu.cc 183-196 -/
def rlc (cpu : Cpu) (s : St) : St :=
  let newc := bit7 s.a
  let newa := orIf newc 1#8 (s.a <<< 1)
  setF cpu (orIf newc flagC (orIf (addv8 s.a s.a newa) flagV (s.f &&& ~~~flagC))) { s with a := newa }

/-- ialu.cc 198-210 -/
def rrc (cpu : Cpu) (s : St) : St :=
  let newc := s.a &&& 1#8 != 0#8
  let newa := orIf newc 0x80#8 (s.a >>> 1)
  setF cpu (orIf newc flagC (s.f &&& ~~~flagC)) { s with a := newa }

/-- ialu.cc 212-226 -/
def ral (cpu : Cpu) (s : St) : St :=
  let oldc := s.f &&& flagC != 0#8
  let newc := bit7 s.a
  let newa := orIf oldc 1#8 (s.a <<< 1)
  setF cpu (orIf newc flagC (orIf (addv8 s.a s.a newa) flagV (s.f &&& ~~~flagC))) { s with a := newa }

/-- ialu.cc 228-241 -/
def rar (cpu : Cpu) (s : St) : St :=
  let oldc := s.f &&& flagC != 0#8
  let newc := s.a &&& 1#8 != 0#8
  let newa := orIf oldc 0x80#8 (s.a >>> 1)
  setF cpu (orIf newc flagC (s.f &&& ~~~flagC)) { s with a := newa }

/-- ialu.cc 243-271: the correction DAA adds -/
def daaCorr (a f : Byte) : Byte :=
  let corr : Byte := if a.toNat &&& 0xf > 9 ∨ (f &&& flagA != 0#8) = true then 6#8 else 0#8
  let c := if corr = 6#8 then 9 else 10
  if (a >>> 4).toNat ≥ c ∨ (f &&& flagC != 0#8) = true then corr ||| 0x60#8 else corr

def daa (cpu : Cpu) (s : St) : St :=
  if daaCorr s.a s.f ≠ 0#8 then add8 cpu (daaCorr s.a s.f) false true s else s

/-! ### Stack: i8080.cc 440-466 -/

def push2 (v : Word) (s : St) : St :=
  let s := { s with sp := s.sp - 1 }
  let s := wr s s.sp.toNat (hi v)
  let s := { s with sp := s.sp - 1 }
  wr s s.sp.toNat (lo v)

def pop2 (s : St) : Word × St :=
  let l := rd s s.sp.toNat
  let s := { s with sp := s.sp + 1 }
  let h := rd s s.sp.toNat
  let s := { s with sp := s.sp + 1 }
  (BitVec.ofNat 16 (h.toNat * 256 + l.toNat), s)

/-! ### Branches: ibranch.cc -/

def cond (s : St) (flag : Byte) (v : Bool) : Bool := (s.f &&& flag != 0#8) == v

/-- ibranch.cc 39-48 -/
def jmpIf (c : Bool) (s : St) : St :=
  let (a, s) := fetch16 s
  if c then { s with pc := a, shift := true } else s

/-- ibranch.cc 50-57 -/
def call (s : St) : St :=
  let (a, s) := fetch16 s
  { push2 s.pc s with pc := a }

/-- ibranch.cc 59-70 -/
def callIf (c : Bool) (s : St) : St :=
  let (a, s) := fetch16 s
  if c then { push2 s.pc s with pc := a, shift := true } else s

/-- ibranch.cc 72-77 -/
def ret (s : St) : St :=
  let (a, s) := pop2 s
  { s with pc := a }

/-- ibranch.cc 79-88 -/
def retIf (c : Bool) (s : St) : St :=
  if c then { ret s with shift := true } else s

/-- ibranch.cc 97-104 -/
def rst (code : Byte) (s : St) : St :=
  { push2 s.pc s with pc := BitVec.ofNat 16 (code.toNat &&& 0x28) }

/-! ### 8085 only: i8085.cc -/

/-- i8085.cc 241-251 -/
def arhl (cpu : Cpu) (s : St) : St :=
  let f := orIf (s.l &&& 1#8 != 0#8) flagC (s.f &&& ~~~flagC)
  setF cpu f (set16 s .hl ((hl s).sshiftRight 1))

/-- i8085.cc 253-267 -/
def rdel (cpu : Cpu) (s : St) : St :=
  let oldC := s.f &&& flagC != 0#8
  let newC := bit7 s.d
  let f := s.f &&& ~~~(flagC ||| flagV)
  let f := orIf newC flagC f
  let f := orIf (bit7 (s.d ^^^ (s.d <<< 1))) flagV f
  let de := (pair s.d s.e) <<< 1
  let de := if oldC then de ||| 1#16 else de
  setF cpu f (set16 s .de de)

/-- i8085.cc 269-286 -/
def dsub (cpu : Cpu) (s : St) : St :=
  let a := hl s
  let b : Word := ~~~(pair s.b s.c) + 1
  let r := a.toNat + b.toNat
  let f := s.f &&& ~~~fAll
  let f := orIf (r ≤ 0xffff) flagC f
  let f := orIf (r &&& 0x8000 != 0) flagS f
  let w : Word := BitVec.ofNat 16 r
  let f := orIf (w == 0#16) flagZ f
  let f := orIf (decide ((a.toNat &&& 0xfff) + (b.toNat &&& 0xfff) > 0xfff)) flagA f
  let f := orIf (parity (hi w)) flagP f
  setF cpu f (set16 s .hl w)

/-! ### One instruction -/

inductive Res | go | halt deriving DecidableEq, Repr

/-- Bodies: i8080cl.h 151-362, imove.cc, inst.cc, i8085.cc 227-239 and 288-345.  IN, OUT,
EI, DI, RIM, SIM do nothing ("TODO" in the source). -/
def exec (cpu : Cpu) (code : Byte) (i : Inst) (s : St) : St :=
  match i with
  | .nop => s
  | .hlt => s
  | .ei => s
  | .di => s
  | .mov d r => set8 s d (get8 s r)
  | .mvi d => let (v, s) := fetch s; set8 s d v
  | .lxi p => let (v, s) := fetch16 s; set16 s p v
  | .lda => let (a, s) := fetch16 s; { s with a := rd s a.toNat }
  | .sta => let (a, s) := fetch16 s; wr s a.toNat s.a
  | .lhld => let (a, s) := fetch16 s; set16 s .hl (BitVec.ofNat 16 (readAddr s a.toNat))
  | .shld => let (a, s) := fetch16 s; wr (wr s a.toNat s.l) (a.toNat + 1) s.h
  | .ldax p => { s with a := rd s (get16 s p).toNat }
  | .stax p => wr s (get16 s p).toNat s.a
  | .xchg => { s with h := s.d, l := s.e, d := s.h, e := s.l }
  | .inp => (fetch s).2
  | .out => (fetch s).2
  | .push p => push2 (get16 s p) s
  | .pushPsw => push2 (pair s.a s.f) s
  | .pop p => let (v, s) := pop2 s; set16 s p v
  | .popPsw => let (v, s) := pop2 s; { s with a := hi v, f := lo v }
  | .xthl =>
    let t := readAddr s s.sp.toNat
    set16 (wr (wr s s.sp.toNat s.l) (s.sp.toNat + 1) s.h) .hl (BitVec.ofNat 16 t)
  | .sphl => { s with sp := hl s }
  | .add8 o c => let (v, s) := src s o; add8 cpu v c false s
  | .sub8 o c k => let (v, s) := src s o; sub8 cpu v c k s
  | .dad p => dad cpu (get16 s p) s
  | .inr r => inr cpu r s
  | .dcr r => dcr cpu r s
  | .inx p => inx cpu p s
  | .dcx p => dcx cpu p s
  | .ana o => let (v, s) := src s o; ana cpu v s
  | .ora o => let (v, s) := src s o; ora cpu v s
  | .xra o => let (v, s) := src s o; xra cpu v s
  | .rlc => rlc cpu s
  | .rrc => rrc cpu s
  | .ral => ral cpu s
  | .rar => rar cpu s
  | .daa => daa cpu s
  | .cma => { s with a := ~~~s.a }
  | .cmc => setF cpu (s.f ^^^ flagC) s
  | .stc => setF cpu (s.f ||| flagC) s
  | .jmp => let (a, s) := fetch16 s; { s with pc := a }
  | .jmpIf g v => jmpIf (cond s g v) s
  | .call => call s
  | .callIf g v => callIf (cond s g v) s
  | .ret => ret s
  | .retIf g v => retIf (cond s g v) s
  | .rst => rst code s
  | .pchl => { s with pc := hl s }
  | .rim => s
  | .sim => s
  | .arhl => arhl cpu s
  | .rdel => rdel cpu s
  | .dsub => dsub cpu s
  | .jnx5 => jmpIf (s.f &&& flagK != 0#8) s
  | .jx5 => jmpIf (!(s.f &&& flagK != 0#8)) s
  | .rstv => if s.f &&& flagV != 0#8 then { push2 s.pc s with pc := 0x40#16, shift := true } else s
  | .ldhi => let (v, s) := fetch s; set16 s .de (BitVec.ofNat 16 (readAddr s (hl s + v.zeroExtend 16).toNat))
  | .ldsi => let (v, s) := fetch s; set16 s .de (BitVec.ofNat 16 (readAddr s (s.sp + v.zeroExtend 16).toNat))
  | .lhlx => set16 s .hl (BitVec.ofNat 16 (readAddr s (get16 s .de).toNat))
  | .shlx =>
    let a := get16 s .de
    wr (wr s a.toNat s.l) (a + 1).toNat s.h

/-- itab of the processor: cl_i8080::init i8080.cc 79-90, cl_i8085::init i8085.cc 55-62. -/
def itab (cpu : Cpu) (op : Byte) : Option Inst :=
  match cpu with
  | .i8080 =>
    match alias80.find? (·.1 = op) with
    | some e => table.getD e.2.toNat none
    | none => table.getD op.toNat none
  | .i8085 =>
    match own85.find? (·.1 = op) with
    | some e => some e.2
    | none => table.getD op.toNat none

def tickTab : Cpu → List Nat
  | .i8080 => tick80
  | .i8085 => tick85

/-- cl_i8080::exec_inst, i8080.cc 420-438, with exec_inst_tab, uc.cc 3328-3349 (every opcode
has an instruction: `itab_total`). tickt counts one clock (uccl.h 431: no table). -/
def step (cpu : Cpu) (s : St) : Res × St :=
  let instPC := s.pc
  let s := { s with shift := false }
  let (c, s) := fetch s
  match itab cpu c with
  | none => (.go, { s with pc := instPC })
  | some i =>
    let s := exec cpu c i { s with ticks := s.ticks + 1 }
    let t := (tickTab cpu).getD (rd s instPC.toNat).toNat 0
    let t := (if s.shift then t / 256 else t) % 256
    (if i = .hlt then .halt else .go, { s with ticks := s.ticks + ((t : Int) - 1) })

/-- Any number of instructions (cl_uc::do_inst, uc.cc 3244-3275, no interrupt sources). -/
def steps (cpu : Cpu) : Nat → St → St
  | 0, s => s
  | n + 1, s => steps cpu n (step cpu s).2

end Ucsim.I80
