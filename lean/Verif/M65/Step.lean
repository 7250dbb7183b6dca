import Verif.M65.Table

/-
Model of the 6502 simulator: execution of instructions and interrupts.
-/
namespace Ucsim.M65

/-- `if (c) f|= m` -/
def orIf (c : Bool) (m f : Byte) : Byte := if c then f ||| m else f

/-- cl_uc::tick, uc.cc 3049-3078 (one clock per cycle: mos6502cl.h 133) -/
def tick (n : Nat) (s : St) : St := { s with ticks := s.ticks + n }

/-! ### Memory -/

/-- cl_address_space::read, mem.cc 1606-1617 -/
def rd (s : St) (a : Nat) : Byte := if a < 0x10000 then s.mem (BitVec.ofNat 16 a) else s.dummy

/-- cl_address_space::write, mem.cc 1645-1657; cl_dummy_cell::write, 1523-1531 -/
def wr (s : St) (a : Nat) (v : Byte) : St :=
  if a < 0x10000 then { s with mem := fun x => if x = BitVec.ofNat 16 a then v else s.mem x }
  else { s with dummy := s.rnd 0, rnd := fun n => s.rnd (n + 1) }

/-- cl_mos6502::read_addr, mos6502.cc 485-492 -/
def readAddr (s : St) (a : Nat) : Nat := (rd s (a + 1)).toNat * 256 + (rd s a).toNat

/-- cl_uc::fetch, uc.cc 3185-3197 (PCmask is 0xffff) -/
def fetch (s : St) : Byte × St := (rd s s.pc, { s with pc := (s.pc + 1) % 0x10000 })

/-- mos6502cl.h 191 -/
def i16 (s : St) : Nat × St :=
  let (l, s) := fetch s
  let (h, s) := fetch s
  (h.toNat * 256 + l.toNat, s)

/-! ### Operands: mos6502.cc 494-613 -/

/-- The cell an operand function returns: ci8 or a memory cell. -/
inductive Ref | imm | at (a : Nat) deriving DecidableEq, Repr

/-- `if ((a1&0xff00) != (a2&0xff00)) tick(1)` -/
def cross (a1 a2 : Nat) (s : St) : St := if a1 / 256 ≠ a2 / 256 then tick 1 s else s

def operand (m : Mode) (s : St) : Ref × St :=
  match m with
  | .imm => let (v, s) := fetch s; (.imm, tick 1 { s with i8d := v })
  | .zpg => let (v, s) := fetch s; (.at v.toNat, tick 2 s)
  | .zpgX => let (v, s) := fetch s; (.at (v + s.x).toNat, tick 3 s)
  | .zpgY => let (v, s) := fetch s; (.at (v + s.y).toNat, tick 3 s)
  | .abs => let (a, s) := i16 s; (.at a, tick 3 s)
  | .absX => let (a1, s) := i16 s; let a2 := (a1 + s.x.toNat) % 0x10000; (.at a2, cross a1 a2 (tick 3 s))
  | .absY => let (a1, s) := i16 s; let a2 := (a1 + s.y.toNat) % 0x10000; (.at a2, cross a1 a2 (tick 3 s))
  | .indX => let (v, s) := fetch s; (.at (readAddr s (v + s.x).toNat), tick 5 s)
  | .indY =>
    let (v, s) := fetch s
    let a1 := readAddr s v.toNat
    let a2 := (a1 + s.y.toNat) % 0x10000
    (.at a2, cross a1 a2 (tick 4 s))

/-- Read-modify-write operands, mos6502cl.h 180-189 -/
def rmwOperand (m : Mode) (s : St) : Ref × St :=
  match m with
  | .absX | .absY => operand m (tick 3 s)
  | .indX | .indY => operand m (tick 1 s)
  | _ => operand m (tick 2 s)

/-- op.R() -/
def rdRef (s : St) : Ref → Byte
  | .imm => s.i8d
  | .at a => rd s a

/-- op.W(v) -/
def wrRef (s : St) (r : Ref) (v : Byte) : St :=
  match r with
  | .imm => { s with i8d := v }
  | .at a => wr s a v

def getReg (s : St) : Reg → Byte
  | .a => s.a | .x => s.x | .y => s.y

def setReg (s : St) (r : Reg) (v : Byte) : St :=
  match r with
  | .a => { s with a := v } | .x => { s with x := v } | .y => { s with y := v }

/-! ### Arithmetic: ialu.cc -/

def bit7 (v : Byte) : Bool := v &&& 0x80#8 != 0#8
def nonz (v : Byte) : Bool := v != 0#8

/-- `if (!v) f|= flagZ; if (v & 0x80) f|= flagN` -/
def nz (v f : Byte) : Byte := orIf (bit7 v) flagN (orIf (v == 0#8) flagZ f)

/-- The common part of INX, INY, DEX, DEY, inc, dec (ialu.cc 30-100), ora, And, eor (102-133),
lda and ld (imove.cc 137-157): Z and N from the value. -/
def setNZ (v : Byte) (s : St) : St := { s with p := nz v (s.p &&& ~~~(flagZ ||| flagN)) }

/-- The form of TYA, TAY, TXA, TAX, TSX: imove.cc 30-121 -/
def transNZ (v : Byte) (s : St) : St :=
  let f := if nonz v then s.p &&& ~~~flagZ else s.p ||| flagZ
  { s with p := if bit7 v then f ||| flagN else f &&& ~~~flagN }

/-- `((x & 0xf0) >> 4) * 10 + (x & 0x0f)` -/
def digits (v : Byte) : Nat := v.toNat / 16 * 10 + v.toNat % 16

/-- `(u8_t)tens << 4 | (u8_t)units`, 0 outside of 0..99 -/
def toDigits (n : Nat) : Byte := if n < 100 then BitVec.ofNat 8 (n / 10 * 16 + n % 10) else 0#8

def carry (s : St) : Bool := s.p &&& flagC != 0#8

/-- ialu.cc 135-182 -/
def adc (op : Byte) (s : St) : St :=
  let c := (carry s).toNat
  let f := s.p &&& ~~~(flagZ ||| flagC ||| flagN)
  if s.p &&& flagD = 0#8 then
    let f := f &&& ~~~flagV
    let res := s.a.toNat + op.toNat + c
    let r : Byte := BitVec.ofNat 8 res
    let f := orIf (bit7 r) flagN (orIf (r == 0#8) flagZ f)
    let f := orIf (res > 255) flagC f
    let f := orIf (bit7 (r ^^^ s.a) && !bit7 (s.a ^^^ op)) flagV f
    { s with a := r, p := f }
  else
    let sum := digits op + digits s.a + c
    let (f, sum) := if sum > 99 then (f ||| flagC, sum - 100) else (f &&& ~~~flagC, sum)
    let r := toDigits sum
    { s with a := r, p := orIf (bit7 r) flagN (orIf (r == 0#8) flagZ f) }

/-- ialu.cc 184-229; the difference as a u16_t -/
def sbc (op : Byte) (s : St) : St :=
  let c := (carry s).toNat
  let f := s.p &&& ~~~(flagC ||| flagZ ||| flagN)
  if s.p &&& flagD = 0#8 then
    let f := f &&& ~~~flagV
    let res := (s.a.toNat + 0x10000 - op.toNat - 1 + c) % 0x10000
    let r : Byte := BitVec.ofNat 8 res
    let f := orIf (bit7 ((r &&& op &&& ~~~s.a) ||| (~~~r &&& ~~~op &&& s.a))) flagV f
    let f := orIf (res < 0x100) flagC f
    let f := orIf (r == 0#8) flagZ f
    let f := orIf (bit7 r) flagN f
    { s with a := r, p := f }
  else
    let res : Int := (digits s.a : Int) - digits op - (if c = 0 then 1 else 0)
    let (f, res) := if res < 0 then (f &&& ~~~flagC, res + 100) else (f ||| flagC, res)
    let r := if 0 ≤ res then toDigits res.toNat else 0#8
    { s with a := r, p := orIf (bit7 r) flagN (orIf (r == 0#8) flagZ f) }

/-- ialu.cc 231-241 -/
def cmp (v op : Byte) (s : St) : St :=
  let res := (v.toNat + 0x10000 - op.toNat) % 0x10000
  let f := s.p &&& ~~~(flagZ ||| flagN ||| flagC)
  let f := orIf (res < 256) flagC f
  let r : Byte := BitVec.ofNat 8 res
  let f := orIf (r == 0#8) flagZ f
  { s with p := orIf (bit7 r) flagN f }

/-- New value and flags of a read-modify-write operation on `v`: inc 54-64, dec 90-100,
asl 243-254, lsr 256-266, rol 268-281, ror 283-296 in ialu.cc. -/
def rmw (o : Rmw) (f v : Byte) : Byte × Byte :=
  let g := f &&& ~~~(flagZ ||| flagN ||| flagC)
  let c := f &&& flagC != 0#8
  match o with
  | .inc => let r := v + 1; (r, nz r (f &&& ~~~(flagZ ||| flagN)))
  | .dec => let r := v - 1; (r, nz r (f &&& ~~~(flagZ ||| flagN)))
  | .asl => let r := v <<< 1; (r, nz r (orIf (bit7 v) flagC g))
  | .lsr => let r := v >>> 1; (r, orIf (r == 0#8) flagZ (orIf (v &&& 1#8 != 0#8) flagC g))
  | .rol => let r := (v <<< 1) ||| (if c then 1#8 else 0#8); (r, nz r (orIf (bit7 v) flagC g))
  | .ror => let r := (v >>> 1) ||| (if c then 0x80#8 else 0#8); (r, nz r (orIf (v &&& 1#8 != 0#8) flagC g))

/-- ialu.cc 298-308 -/
def bit (v : Byte) (s : St) : St :=
  let f := s.p &&& ~~~(flagZ ||| flagN ||| flagV)
  let f := orIf (bit7 v) flagN f
  let f := orIf (v &&& 0x40#8 != 0#8) flagV f
  { s with p := orIf (s.a &&& v == 0#8) flagZ f }

/-! ### Stack: mos6502.cc 736-816, inst.cc -/

def stackAt (s : St) : Nat := 0x100 + s.sp.toNat

/-- rom->write(SPh + rSP, v); cSP.W(rSP-1) -/
def push (v : Byte) (s : St) : St :=
  let s := wr s (stackAt s) v
  { s with sp := s.sp - 1 }

/-- cSP.W(rSP+1); rom->read(SPh + rSP) -/
def pop (s : St) : Byte × St :=
  let s := { s with sp := s.sp + 1 }
  (rd s (stackAt s), s)

/-- mos6502.cc 736-755 -/
def pushAddr (a : Nat) (s : St) : St :=
  tick 2 (push (BitVec.ofNat 8 a) (push (BitVec.ofNat 8 (a / 256)) s))

/-- mos6502.cc 785-796 -/
def popAddr (s : St) : Nat × St :=
  let (l, s) := pop s
  let (h, s) := pop s
  (h.toNat * 256 + l.toNat, tick 2 s)

/-! ### Branches: ibranch.cc -/

/-- ibranch.cc 79-95 -/
def branch (c : Bool) (s : St) : St :=
  let (rel, s) := fetch s
  let s :=
    if c then
      let a := (((s.pc : Int) + rel.toInt) % 0x10000).toNat
      tick 1 { cross (s.pc % 0x10000) a s with pc := a }
    else s
  tick 1 s

/-! ### One instruction -/

/-- Bodies: mos6502cl.h 194-382, inst.cc, imove.cc, ialu.cc, ibranch.cc. -/
def exec (i : Inst) (s : St) : St :=
  match i with
  | .nop => s
  | .brk => { s with setB := true, pc := (s.pc + 1) % 0x10000, p := s.p ||| flagB, brk := true }
  | .rti =>
    let (f, s) := pop s
    let s := { s with p := f &&& ~~~(0x20#8 ||| flagB) }
    let (a, s) := popAddr s
    tick 3 { s with pc := a, levels := s.levels.drop 1 }
  | .cli => tick 1 { s with p := s.p &&& ~~~flagI }
  | .sei => tick 1 { s with p := s.p ||| flagI }
  | .php => tick 2 (push (s.p ||| 0x20#8 ||| flagB) s)
  | .clc => tick 1 { s with p := s.p &&& ~~~flagC }
  | .plp => let (v, s) := pop s; tick 3 { s with p := v &&& ~~~(0x20#8 ||| flagB) }
  | .sec => tick 1 { s with p := s.p ||| flagC }
  | .pha => tick 2 (push s.a s)
  | .pla => let (v, s) := pop s; tick 3 (setNZ v { s with a := v })
  | .dey => tick 1 (setNZ (s.y - 1) { s with y := s.y - 1 })
  | .tya => tick 1 (transNZ s.y { s with a := s.y })
  | .tay => tick 1 (transNZ s.a { s with y := s.a })
  | .clv => tick 1 { s with p := s.p &&& ~~~flagV }
  | .iny => tick 1 (setNZ (s.y + 1) { s with y := s.y + 1 })
  | .cld => tick 1 { s with p := s.p &&& ~~~flagD }
  | .inx => tick 1 (setNZ (s.x + 1) { s with x := s.x + 1 })
  | .sed => tick 1 { s with p := s.p ||| flagD }
  | .txa => tick 1 (transNZ s.x { s with a := s.x })
  | .txs => tick 1 { s with sp := s.x }
  | .tax => tick 1 (transNZ s.a { s with x := s.a })
  | .tsx => tick 1 (transNZ s.sp { s with x := s.sp })
  | .dex => tick 1 (setNZ (s.x - 1) { s with x := s.x - 1 })
  | .ora m => let (r, s) := operand m s; let v := s.a ||| rdRef s r; setNZ v { s with a := v }
  | .and m => let (r, s) := operand m s; let v := s.a &&& rdRef s r; setNZ v { s with a := v }
  | .eor m => let (r, s) := operand m s; let v := s.a ^^^ rdRef s r; setNZ v { s with a := v }
  | .adc m => let (r, s) := operand m s; adc (rdRef s r) s
  | .sbc m => let (r, s) := operand m s; sbc (rdRef s r) s
  | .lda m => let (r, s) := operand m s; let v := rdRef s r; setNZ v { s with a := v }
  | .sta t m => let (r, s) := operand m (tick t s); wrRef s r s.a
  | .cmp g m => let (r, s) := operand m s; cmp (getReg s g) (rdRef s r) s
  | .st g m => let v := getReg s g; let (r, s) := operand m s; wrRef s r v
  | .ld g m => let (r, s) := operand m s; let v := rdRef s r; setNZ v (setReg s g v)
  | .rmw o m =>
    let (r, s) := rmwOperand m s
    let q := rmw o s.p (rdRef s r)
    { wrRef s r q.1 with p := q.2 }
  | .rmwA o => let q := rmw o s.p s.a; tick 1 { s with a := q.1, p := q.2 }
  | .bit m => let (r, s) := operand m s; bit (rdRef s r) s
  | .jmpA => let (a, s) := i16 s; tick 2 { s with pc := a }
  | .jmpI => let (a, s) := i16 s; tick 4 { s with pc := readAddr s a }
  | .jsr =>
    let (l, s) := fetch s
    let pc := s.pc
    let (h, s) := fetch s
    { pushAddr pc s with pc := (l.toNat + h.toNat * 256) % 0x10000 }
  | .rts => let (a, s) := popAddr s; tick 3 { s with pc := a + 1 }
  | .branch g v => branch ((s.p &&& g != 0#8) == v) s

inductive Res | go | inv deriving DecidableEq, Repr

/-- cl_mos6502::exec_inst mos6502.cc 691-702, exec_inst_tab uc.cc 3328-3349; resINV_INST puts PC
back (do_inst, uc.cc 3256). -/
def execInst (s : St) : Res × St :=
  let instPC := s.pc
  let (c, s) := fetch { s with setB := false }
  let s := tick 1 s
  match table.getD c.toNat none with
  | none => (.inv, { s with pc := instPC })
  | some i => (.go, exec i s)

/-! ### Interrupts -/

inductive Src | irq | nmi | brk deriving DecidableEq, Repr

/-- priority_of: mos6502cl.h 145, the numbers of itsrccl.h 104-111 -/
def Src.level : Src → Nat
  | .nmi => 1 | .irq => 3 | .brk => 4

/-- mos6502.cc 176-224 -/
def Src.vector : Src → Nat
  | .nmi => 0xfffa | _ => 0xfffe

/-- Order of it_sources: a sorted list where each source of the same poll_priority (0) is put in
front of the others (pobj.cc 640-720; mos6502.cc 176-224 add irq, nmi, brk). -/
def sources : List Src := [.brk, .nmi, .irq]

/-- is_active, enabled, pending and, unless is_nmi, it_enabled (uc.cc 3445-3459, itsrc.cc
116-135, mos6502.cc 730-734).  cl_it_src never initialises `nmi`, which the irq source does not
set: as its own enable bit is the I flag, nothing depends on it. -/
def wants (s : St) : Src → Bool
  | .brk => s.brk
  | .nmi => s.nmi
  | .irq => s.irq && (s.p &&& flagI == 0#8)

/-- The level of the service in progress; priority_main is 0 (uccl.h 463). -/
def level (s : St) : Nat := s.levels.headD 0

/-- cl_mos6502::accept_it, mos6502.cc 704-728; only the brk source has clr_bit. -/
def accept (q : Src) (s : St) : St :=
  let s := pushAddr s.pc (tick 2 s)
  let s := wr s (stackAt s) (s.p ||| 0x20#8)
  let s := if s.setB then { s with p := s.p &&& ~~~flagB } else s
  let s := tick 1 { s with sp := s.sp - 1 }
  let s := tick 2 { s with pc := readAddr s q.vector }
  { s with p := s.p ||| flagI, brk := if q = .brk then false else s.brk, levels := q.level :: s.levels }

/-- cl_uc::do_interrupt, uc.cc 3428-3488 -/
def doInterrupt (s : St) : St :=
  match sources.find? (fun q => wants s q && decide (level s < q.level)) with
  | some q => accept q s
  | none => s

/-- cl_uc::do_inst, uc.cc 3244-3275, without the stop on a self jump; there is no Idle state. -/
def step (s : St) : Res × St :=
  let (r, s) := execInst s
  (r, if r = .go then doInterrupt s else s)

def steps : Nat → St → St
  | 0, s => s
  | n + 1, s => steps n (step s).2

/-- cl_mos6502::reset, mos6502.cc 157-167, with cl_uc::reset, uc.cc 773-806 (the irq hardware
has no reset of its own: requests stay). -/
def reset (s : St) : St :=
  let s := { s with levels := [], ticks := 0, p := flagI }
  tick 7 { s with pc := readAddr s 0xfffc, sp := 0xfd#8 }

end Ucsim.M65
