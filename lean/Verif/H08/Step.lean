/-
Model of the M68HC08 / HCS08 simulator: /repo/src/sims/m68hc08.src.

Not modelled: the counters of reads, writes and fetches (vc), the record of stack operations and
the error of a stack below sp_limit, breakpoints (C19-C23), the 7-segment display (dreg).  Memory
is the plain 64K chip of make_memories (m68hc08.cc 152-171); cells without operators behave as in
C01-C05.  The 9S08 (paged memory) is in H08/Mmu.lean.
-/
namespace Ucsim.H08

abbrev Byte := BitVec 8
abbrev Word := BitVec 16

/-- regshc08.h 37-45, m68hc08cl.h 40-45.  `s08`: type->type == CPU_HCS08.  `pc` is a t_addr: jumps
can leave it above 0xffff.  `vector`: regs.VECTOR.  `dummy`, `rnd`: contents of the address space's
dummy cell and the random values the following writes to it will leave there (mem.cc 1523-1531). -/
structure St where
  s08 : Bool
  a : Byte
  p : Byte
  h : Byte
  x : Byte
  sp : Word
  vector : Bool
  pc : Nat
  mem : Word → Byte
  dummy : Byte
  rnd : Nat → Byte
  ticks : Nat

/-! regshc08.h 47-52 -/
def bC : Byte := 0x01#8
def bZ : Byte := 0x02#8
def bN : Byte := 0x04#8
def bI : Byte := 0x08#8
def bH : Byte := 0x10#8
def bV : Byte := 0x80#8

/-- cl_uc::tick, uc.cc 3049-3078 (one clock per cycle) -/
def tick (n : Nat) (s : St) : St := { s with ticks := s.ticks + n }

/-! ### Memory -/

/-- cl_address_space::read, mem.cc 1606-1617 -/
def rd (s : St) (a : Nat) : Byte := if a < 0x10000 then s.mem (BitVec.ofNat 16 a) else s.dummy

/-- cl_address_space::write, mem.cc 1645-1657; cl_dummy_cell::write, 1523-1531.
store1, hc08mac.h 24: the address is not masked. -/
def store1 (s : St) (a : Nat) (v : Byte) : St :=
  if a < 0x10000 then { s with mem := fun x => if x = BitVec.ofNat 16 a then v else s.mem x }
  else { s with dummy := s.rnd 0, rnd := fun n => s.rnd (n + 1) }

/-- cl_hc08::get_1, m68hc08.cc 718-723 -/
def get1 (s : St) (a : Nat) : Byte := rd s (a % 0x10000)

/-- cl_hc08::get_2, m68hc08.cc 725-730 -/
def get2 (s : St) (a : Nat) : Nat := (get1 s a).toNat * 256 + (get1 s (a + 1)).toNat

/-- store2, hc08mac.h 21-23: both addresses are masked. -/
def store2 (s : St) (a : Word) (v : Nat) : St :=
  store1 (store1 s a.toNat (BitVec.ofNat 8 (v / 256))) (a + 1).toNat (BitVec.ofNat 8 v)

/-- hc08mac.h 31-39 -/
def push2 (v : Nat) (s : St) : St := let s := store2 s (s.sp - 1) v; { s with sp := s.sp - 2 }
/-- hc08mac.h 40-48 -/
def push1 (v : Byte) (s : St) : St := let s := store1 s s.sp.toNat v; { s with sp := s.sp - 1 }
/-- hc08mac.h 49 -/
def pop2 (s : St) : Nat × St := (get2 s (s.sp.toNat + 1), { s with sp := s.sp + 2 })
/-- hc08mac.h 50 -/
def pop1 (s : St) : Byte × St := (get1 s (s.sp.toNat + 1), { s with sp := s.sp + 1 })

/-- cl_uc::fetch, uc.cc 3185-3197 (PCmask is 0xffff) -/
def fetch (s : St) : Byte × St := (rd s s.pc, { s with pc := (s.pc + 1) % 0x10000 })

/-- `(regs.H << 8) | regs.X` -/
def hx (s : St) : Nat := s.h.toNat * 256 + s.x.toNat

/-- `regs.H = (v >> 8) & 0xff; regs.X = v & 0xff` -/
def setHX (v : Nat) (s : St) : St := { s with h := BitVec.ofNat 8 (v / 256), x := BitVec.ofNat 8 v }

/-- inst.cc 41-48 -/
def incx (s : St) : St := setHX (hx s + 1) s

/-- inst.cc 50-58 -/
def fetch2 (s : St) : Nat × St :=
  let (h, s) := fetch s
  let (l, s) := fetch s
  (h.toNat * 256 + l.toNat, tick 2 s)

/-- inst.cc 60-91; `nib` is `(code >> 4) & 0x0f` -/
def fetchea (nib : Nat) (pre : Bool) (s : St) : Nat × St :=
  match nib with
  | 0x0 | 0x1 | 0x3 | 0xb => let (v, s) := fetch (tick 1 s); (v.toNat, s)
  | 0x7 | 0xf => (hx s, tick 1 s)
  | 0x6 | 0xe => let (v, s) := fetch (tick 1 s); (v.toNat + if pre then s.sp.toNat else hx s, s)
  | 0xd => let (v, s) := fetch2 s; (v + if pre then s.sp.toNat else hx s, s)
  | 0xc => fetch2 s
  | _ => (101, s)

/-- OPERAND, hc08mac.h 62-63 -/
def operand (nib : Nat) (pre : Bool) (s : St) : Byte × St :=
  if nib = 0xa then fetch s else let (a, s) := fetchea nib pre s; (get1 s a, s)

/-! ### Flags: hc08mac.h 54-61 -/

/-- FLAG_ASSIGN; FLAG_SET and FLAG_CLEAR are its two cases -/
def assign (f : Byte) (c : Bool) (p : Byte) : Byte := if c then p ||| f else p &&& ~~~f

/-- FLAG_NZ looks at the low eight bits only -/
def flagNZ (v : Byte) (p : Byte) : Byte :=
  (p &&& ~~~(bN ||| bZ)) ||| (if v = 0#8 then bZ else 0#8) ||| (if v &&& 0x80#8 = 0#8 then 0#8 else bN)

def flag (p f : Byte) : Bool := p &&& f != 0#8

/-- `0x80 & (operand1 ^ operand2 ^ result ^ (result >>1))` -/
def ovf (x y r : Nat) : Bool := 0x80 &&& (x ^^^ y ^^^ r ^^^ (r >>> 1)) != 0

/-- Flags of the sum `x + y + c`: inst.cc 219-254 -/
def addP (x y c : Nat) (p : Byte) : Byte :=
  let r := x + y + c
  let p := flagNZ (BitVec.ofNat 8 r) p
  let p := assign bV (ovf x y r) p
  let p := assign bC (0x100 &&& r != 0) p
  assign bH (0x10 &&& (x ^^^ y ^^^ r) != 0) p

/-- The int `x - y - c` as a 32 bit number. -/
@[irreducible] def diff (x y c : Nat) : Nat := 0x100000000 + x - y - c

/-- Flags of the difference `x - y - c`: inst.cc 256-321 -/
def subP (x y c : Nat) (p : Byte) : Byte :=
  let r := diff x y c
  let p := flagNZ (BitVec.ofNat 8 r) p
  let p := assign bV (ovf x y r) p
  assign bC (0x100 &&& r != 0) p

/-- Instructions of one operand of the forms 0xAx-0xFx. -/
inductive Alu | sub | cmp | sbc | cpx | and | bit | lda | eor | adc | ora | add | ldx deriving DecidableEq, Repr

/-- FLAG_CLEAR(BIT_V); FLAG_NZ(v) -/
def logicP (v p : Byte) : Byte := flagNZ v (assign bV false p)

/-- What they do after OPERAND and tick(1): inst_lda 175-183, ldx 185-193, add 219-235, adc
237-254, sub 256-271, sbc 273-289, cmp 291-305, cpx 307-321, and 375-383, bit 385-393, ora
395-403, eor 405-413 of inst.cc. -/
def aluOp (o : Alu) (v : Byte) (s : St) : St :=
  let c := (flag s.p bC).toNat
  match o with
  | .lda => { s with a := v, p := logicP v s.p }
  | .ldx => { s with x := v, p := logicP v s.p }
  | .and => { s with a := s.a &&& v, p := logicP (s.a &&& v) s.p }
  | .bit => { s with p := logicP (s.a &&& v) s.p }
  | .ora => { s with a := s.a ||| v, p := logicP (s.a ||| v) s.p }
  | .eor => { s with a := s.a ^^^ v, p := logicP (s.a ^^^ v) s.p }
  | .add => { s with a := BitVec.ofNat 8 (s.a.toNat + v.toNat), p := addP s.a.toNat v.toNat 0 s.p }
  | .adc => { s with a := BitVec.ofNat 8 (s.a.toNat + v.toNat + c), p := addP s.a.toNat v.toNat c s.p }
  | .sub => { s with a := BitVec.ofNat 8 (diff s.a.toNat v.toNat 0), p := subP s.a.toNat v.toNat 0 s.p }
  | .sbc => { s with a := BitVec.ofNat 8 (diff s.a.toNat v.toNat c), p := subP s.a.toNat v.toNat c s.p }
  | .cmp => { s with p := subP s.a.toNat v.toNat 0 s.p }
  | .cpx => { s with p := subP s.x.toNat v.toNat 0 s.p }

/-! ### Read-modify-write -/

inductive Rmw | neg | com | lsr | ror | asr | lsl | rol | dec | inc | tst | clr deriving DecidableEq, Repr

/-- `FLAG_ASSIGN (BIT_V, C ^ N)` after the other flags -/
def shiftP (c : Bool) (v p : Byte) : Byte :=
  let p := flagNZ v (assign bC c p)
  assign bV (flag p bC ^^ flag p bN) p

/-- New value and flags: inst.cc asr 415-448, lsr 451-483, lsl 486-518, rol 521-554, ror 557-590,
inc 593-624, dec 627-658, tst 702-724, clr 727-759, com 773-804, neg 807-838. -/
def rmwOp (o : Rmw) (v p : Byte) : Byte × Byte :=
  match o with
  | .asr => let r := (v >>> 1) ||| (v &&& 0x80#8); (r, shiftP (v &&& 1#8 != 0#8) r p)
  | .lsr => let r := (v >>> 1) &&& 0x7f#8; (r, shiftP (v &&& 1#8 != 0#8) r p)
  | .lsl => let r := v <<< 1; (r, shiftP (v &&& 0x80#8 != 0#8) r p)
  | .rol => let r := (v <<< 1) ||| (if flag p bC then 1#8 else 0#8); (r, shiftP (v &&& 0x80#8 != 0#8) r p)
  | .ror => let r := (v >>> 1) ||| (if flag p bC then 0x80#8 else 0#8); (r, shiftP (v &&& 1#8 != 0#8) r p)
  | .inc => let r := v + 1; (r, assign bV (r == 0x80#8) (flagNZ r p))
  | .dec => let r := v - 1; (r, assign bV (r == 0x7f#8) (flagNZ r p))
  | .tst => (v, assign bV false (flagNZ v p))
  | .clr => (0#8, assign bZ true (assign bN false (assign bV false p)))
  | .com => let r := ~~~v; (r, assign bV false (flagNZ r (assign bC true p)))
  | .neg => let r := -v; (r, flagNZ r (assign bC (v != 0#8) (assign bV (v == 0x80#8) p)))

/-- The common beginning: `ea`, `operand` -/
def rmwGet (nib : Nat) (pre : Bool) (s : St) : Nat × Byte × St :=
  if nib = 4 then (0xffff, s.a, s)
  else if nib = 5 then (0xffff, s.x, s)
  else let (ea, s) := fetchea nib pre s; (ea, get1 s ea, tick 1 s)

/-- The common end; `n`: 1 where it has tick(1) after store1 (com, clr and neg have not).
`(code & 0x70) != 0x70` -/
def rmwPut (nib : Nat) (n ea : Nat) (v : Byte) (s : St) : St :=
  if nib = 4 then { s with a := v }
  else if nib = 5 then { s with x := v }
  else
    let s := tick n (store1 s ea v)
    if nib % 8 ≠ 7 then tick 1 s else s

/-- inst.cc 415-838 (but dbnz, clrh) -/
def rmwInst (o : Rmw) (nib : Nat) (pre : Bool) (s : St) : St :=
  let (ea, v, s) := rmwGet nib pre s
  let q := rmwOp o v s.p
  let s := { s with p := q.2 }
  match o with
  | .tst => if nib = 3 ∨ nib = 6 then tick 1 s else s
  | .clr | .com | .neg => rmwPut nib 0 ea q.1 s
  | _ => rmwPut nib 1 ea q.1 s

/-! ### Jumps -/

/-- `PC += ofs`: PC is a u32_t, ofs a signed char -/
def addPC (o : Byte) (s : St) : St := { s with pc := (((s.pc : Int) + o.toInt) % 0x100000000).toNat }

/-- `ofs = fetch(); tick(1); if (t) PC += ofs; tick(1)` -/
def jrel (t : Bool) (s : St) : St :=
  let (o, s) := fetch s
  let s := tick 1 s
  let s := if t then addPC o s else s
  tick 1 s

/-- inst.cc 660-699 -/
def dbnz (nib : Nat) (pre : Bool) (s : St) : St :=
  let (ea, v, s) := rmwGet nib pre s
  let q := rmwOp .dec v s.p
  let s := rmwPut nib 1 ea q.1 { s with p := q.2 }
  jrel (q.1 != 0#8) s

/-- `taken` of inst_condbranch, inst.cc 958-1022; none: resHALT -/
def taken (code p : Byte) : Option Bool :=
  let t :=
    match code.toNat / 16, code.toNat / 2 % 8 with
    | 2, 0 => some true
    | 2, 1 => some (!flag p (bC ||| bZ))
    | 2, 2 => some (!flag p bC)
    | 2, 3 => some (!flag p bZ)
    | 2, 4 => some (!flag p bH)
    | 2, 5 => some (!flag p bN)
    | 2, 6 => some (!flag p bI)
    | 2, _ => some false
    | 9, 0 => let m := p &&& (bN ||| bV); some (m == 0#8 || m == bN ||| bV)
    | 9, 1 => let m := p &&& (bN ||| bV ||| bZ); some (m == 0#8 || m == bN ||| bV)
    | _, _ => none
  if code.toNat % 2 = 1 then t.map (!·) else t

/-- inst.cc 1024-1040 -/
def bitset (code : Byte) (s : St) : St :=
  let bit := code.toNat / 2 % 8
  let (ea, s) := fetchea (code.toNat / 16) false s
  let v := get1 s ea
  let s := tick 1 s
  let v := if code.toNat % 2 = 1 then v &&& ~~~(1#8 <<< bit) else v ||| (1#8 <<< bit)
  tick 1 (store1 (tick 1 s) ea v)

/-- inst.cc 1042-1065 -/
def bittest (code : Byte) (s : St) : St :=
  let bit := code.toNat / 2 % 8
  let (ea, s) := fetchea (code.toNat / 16) false s
  let v := get1 s ea
  let b := v &&& (1#8 <<< bit) != 0#8
  let s := jrel (if code.toNat % 2 = 1 then !b else b) (tick 1 s)
  { s with p := assign bC b s.p }

/-- inst.cc 1067-1101 -/
def cbeq (code : Byte) (pre : Bool) (s : St) : St :=
  let nib := code.toNat / 16
  let (v1, v2, s) :=
    if nib = 4 then let (v, s) := fetch s; (s.a, v, tick 1 s)
    else if nib = 5 then let (v, s) := fetch s; (s.x, v, tick 1 s)
    else let (ea, s) := fetchea nib pre s; (get1 s ea, s.a, tick 1 s)
  let (o, s) := fetch s
  let s := tick 1 s
  let s := if v1 = v2 then addPC o s else s
  let s := if code = 0x71#8 ∨ (!pre ∧ code = 0x61#8) then incx s else s
  tick 1 s

/-! ### Others -/

/-- inst.cc 895-920.  The result is not stored in A. -/
def daa (s : St) : St :=
  let lsn := s.a.toNat % 16
  let msn := s.a.toNat / 16
  let (lsn, msn) := if flag s.p bH then (lsn + 16, (msn + 15) % 16) else (lsn, msn)
  let msn := if flag s.p bC then msn + 16 else msn
  -- while (lsn>9) { lsn -= 10; msn++; }: lsn is at most 31
  let msn := if lsn > 29 then msn + 3 else if lsn > 19 then msn + 2 else if lsn > 9 then msn + 1 else msn
  { s with p := assign bC (msn > 9) s.p }

/-- inst.cc 934-955 -/
def div (s : St) : St :=
  let d := s.h.toNat * 256 + s.a.toNat
  let s :=
    if s.x ≠ 0#8 then
      let q := d / s.x.toNat
      if q ≤ 0xff then
        { s with a := BitVec.ofNat 8 q, h := BitVec.ofNat 8 (d % s.x.toNat), p := assign bZ (q == 0) (assign bC false s.p) }
      else { s with p := assign bC true s.p }
    else { s with p := assign bC true s.p }
  tick 5 s

/-- `FLAG_CLEAR(V); FLAG_ASSIGN(N, H & 0x80); FLAG_ASSIGN(Z, !X && !H)` -/
def hxP (s : St) : St :=
  { s with p := assign bZ (s.x == 0#8 && s.h == 0#8) (assign bN (s.h &&& 0x80#8 != 0#8) (assign bV false s.p)) }

/-- inst.cc 1131-1182: store1, incx and the flags -/
def movEnd (ea : Nat) (v : Byte) (aix : Bool) (s : St) : St :=
  let s := tick 1 (store1 s ea v)
  let s := if aix then incx s else s
  { s with p := assign bV false (flagNZ v s.p) }

def mov (code : Byte) (s : St) : St :=
  let x := hx s
  if code = 0x4e#8 then
    let (d, s) := fetch s
    let v := get1 s d.toNat
    let (e, s) := fetch (tick 2 s)
    movEnd e.toNat v false (tick 1 s)
  else if code = 0x5e#8 then
    let (d, s) := fetch s
    movEnd x (get1 s d.toNat) true (tick 1 (tick 2 s))
  else if code = 0x6e#8 then
    let (v, s) := fetch s
    let (e, s) := fetch (tick 1 s)
    movEnd e.toNat v false (tick 1 s)
  else
    let v := get1 s x
    let (e, s) := fetch (tick 1 s)
    movEnd e.toNat v true (tick 1 (tick 1 s))

/-- inst.cc 1185-1216; none: resINV_INST -/
def sthx (code : Byte) (pre : Bool) (s : St) : Option St :=
  let fin (e : Nat × St) : Option St :=
    let s := tick 1 (store1 e.2 e.1 e.2.h)
    some (hxP (tick 1 (store1 s ((e.1 + 1) % 0x10000) s.x)))
  if code = 0x35#8 then let (e, s) := fetch s; fin (e.toNat, tick 1 s)
  else if code = 0x96#8 ∧ s.s08 then let (e, s) := fetch2 s; fin (e, tick 2 s)
  else if pre ∧ code = 0xff#8 ∧ s.s08 then let (e, s) := fetch s; fin (s.sp.toNat + e.toNat, tick 1 s)
  else none

/-- inst.cc 1218-1284 -/
def ldhx (code : Byte) (pre : Bool) (s : St) : Option St :=
  let fin (e : Nat × St) : Option St :=
    let s := tick 1 { e.2 with h := get1 e.2 e.1 }
    some (hxP (tick 1 { s with x := get1 s (e.1 + 1) }))
  if code = 0x45#8 then
    let (v, s) := fetch s
    let (w, s) := fetch (tick 1 { s with h := v })
    some (hxP (tick 1 { s with x := w }))
  else if code = 0x55#8 then let (e, s) := fetch s; fin (e.toNat, tick 1 s)
  else if code = 0x32#8 ∧ s.s08 then let (e, s) := fetch2 s; fin (e, tick 2 s)
  else if pre ∧ code = 0xae#8 ∧ s.s08 then fin (hx s, tick 1 s)
  else if pre ∧ code = 0xbe#8 ∧ s.s08 then let (e, s) := fetch2 s; fin (hx s + e, tick 2 s)
  else if pre ∧ code = 0xce#8 ∧ s.s08 then let (e, s) := fetch s; fin (hx s + e.toNat, tick 1 s)
  else if pre ∧ code = 0xfe#8 ∧ s.s08 then let (e, s) := fetch s; fin (s.sp.toNat + e.toNat, tick 1 s)
  else none

/-- inst.cc 1324-1330 -/
def cphxP (x y : Nat) (p : Byte) : Byte :=
  let r := diff x y 0
  let p := assign bV (0x8000 &&& (x ^^^ y ^^^ r ^^^ (r >>> 1)) != 0) p
  let p := assign bC (0x10000 &&& r != 0) p
  let p := assign bN (r &&& 0x8000 != 0) p
  assign bZ (r &&& 0xffff == 0) p

/-- inst.cc 1287-1332 -/
def cphx (code : Byte) (pre : Bool) (s : St) : Option St :=
  let fin (e : Nat × St) : Option St :=
    let v := (get1 e.2 e.1).toNat * 256 + (get1 e.2 (e.1 + 1)).toNat
    let s := tick 1 (tick 2 e.2)
    some { s with p := cphxP (hx s) v s.p }
  if code = 0x65#8 then let (v, s) := fetch2 s; let s := tick 2 s; some { s with p := cphxP (hx s) v s.p }
  else if code = 0x75#8 then let (e, s) := fetch s; fin (e.toNat, tick 1 s)
  else if code = 0x3e#8 ∧ s.s08 then let (e, s) := fetch2 s; fin (e, tick 2 s)
  else if pre ∧ code = 0xf3#8 ∧ s.s08 then let (e, s) := fetch s; fin (e.toNat + s.sp.toNat, tick 1 s)
  else none

/-- inst.cc 1334-1352 -/
def swi (s : St) : St :=
  let s := tick 2 (push2 s.pc s)
  let s := tick 1 (push1 s.x s)
  let s := tick 1 (push1 s.a s)
  let s := tick 1 (push1 s.p s)
  let s := { s with p := assign bI false s.p }
  tick 3 (tick 2 { s with pc := get2 s 0xfffc })

/-- inst.cc 1103-1118 -/
def rti (s : St) : St :=
  let (p, s) := pop1 s
  let s := { tick 1 s with p := p ||| 0x60#8 }
  let (a, s) := pop1 s
  let s := { tick 1 s with a := a }
  let (x, s) := pop1 s
  let s := { tick 1 s with x := x }
  let (pc, s) := pop2 s
  tick 3 (tick 2 { s with pc := pc })

/-- inst.cc 1120-1128 -/
def rts (s : St) : St :=
  let (pc, s) := pop2 s
  tick 3 (tick 2 { s with pc := pc })

/-- inst.cc 101-132 -/
def transfer (code : Byte) (s : St) : Option St :=
  if code = 0x84#8 then some { s with p := s.a ||| 0x60#8 }
  else if code = 0x85#8 then some { s with a := s.p ||| 0x60#8 }
  else if code = 0x97#8 then some { s with x := s.a }
  else if code = 0x9f#8 then some { s with a := s.x }
  else if code = 0x94#8 then some { s with sp := BitVec.ofNat 16 (0xffff + hx s) }
  else if code = 0x95#8 then some (setHX (s.sp.toNat + 1) s)
  else none

/-- inst.cc 135-155 -/
def setclear (code : Byte) (s : St) : Option St :=
  if code = 0x98#8 then some { s with p := assign bC false s.p }
  else if code = 0x99#8 then some { s with p := assign bC true s.p }
  else if code = 0x9a#8 then some { s with p := assign bI false s.p }
  else if code = 0x9b#8 then some { s with p := assign bI true s.p }
  else none

/-- inst.cc 842-874 -/
def pushpull (code : Byte) (s : St) : Option St :=
  if code = 0x86#8 then let (v, s) := pop1 s; some (tick 2 { s with a := v })
  else if code = 0x87#8 then some (tick 1 (push1 s.a s))
  else if code = 0x88#8 then let (v, s) := pop1 s; some (tick 2 { s with x := v })
  else if code = 0x89#8 then some (tick 1 (push1 s.x s))
  else if code = 0x8a#8 then let (v, s) := pop1 s; some (tick 2 { s with h := v })
  else if code = 0x8b#8 then some (tick 1 (push1 s.h s))
  else none

/-! ### One instruction -/

/-- The member function exec_inst calls. -/
inductive Fn
  | bittest | bitset | condbranch | rmw (o : Rmw) | cbeq | dbnz | ldhx | sthx | cphx | mul | div | nsa | daa | mov
  | rti | rts | swi | transfer | pushpull | clrh | stop | wait | setclear | rsp | nop
  | alu (o : Alu) | sta | stx | jmp | jsr | bsr | ais | aix
  /-- the 9e prefix -/
  | pre
  | inv | halt
  deriving DecidableEq, Repr

/-- The columns of 0x3x-0x7x: m68hc08.cc 494-541 -/
def colRmw (code : Byte) : Fn :=
  match code.toNat % 16 with
  | 0x0 => .rmw .neg
  | 0x1 => .cbeq
  | 0x2 => if code = 0x32#8 then .ldhx else if code = 0x42#8 then .mul else if code = 0x52#8 then .div
      else if code = 0x62#8 then .nsa else if code = 0x72#8 then .daa else .halt
  | 0x3 => .rmw .com
  | 0x4 => .rmw .lsr
  | 0x5 => if code = 0x35#8 then .sthx else if code = 0x45#8 ∨ code = 0x55#8 then .ldhx
      else if code = 0x65#8 ∨ code = 0x75#8 then .cphx else .halt
  | 0x6 => .rmw .ror
  | 0x7 => .rmw .asr
  | 0x8 => .rmw .lsl
  | 0x9 => .rmw .rol
  | 0xa => .rmw .dec
  | 0xb => .dbnz
  | 0xc => .rmw .inc
  | 0xd => .rmw .tst
  | 0xe => if code = 0x3e#8 then .cphx
      else if code = 0x4e#8 ∨ code = 0x5e#8 ∨ code = 0x6e#8 ∨ code = 0x7e#8 then .mov else .halt
  | _ => .rmw .clr

/-- The columns of 0xAx-0xFx, m68hc08.cc 650-690 -/
def colAlu (code : Byte) : Fn :=
  match code.toNat % 16 with
  | 0x0 => .alu .sub
  | 0x1 => .alu .cmp
  | 0x2 => .alu .sbc
  | 0x3 => .alu .cpx
  | 0x4 => .alu .and
  | 0x5 => .alu .bit
  | 0x6 => .alu .lda
  | 0x7 => if code = 0xa7#8 then .ais else .sta
  | 0x8 => .alu .eor
  | 0x9 => .alu .adc
  | 0xa => .alu .ora
  | 0xb => .alu .add
  | 0xc => if code = 0xac#8 then .inv else .jmp
  | 0xd => if code = 0xad#8 then .bsr else .jsr
  | 0xe => .alu .ldx
  | _ => if code = 0xaf#8 then .aix else .stx

/-- The switch of exec_inst, m68hc08.cc 485-692; inst_call and inst_rtc of the base class answer
resINV (m68hc08cl.h 75-76). -/
def select (code : Byte) : Fn :=
  if code = 0xac#8 ∨ code = 0x8d#8 then .inv else
  match code.toNat / 16 with
  | 0x0 => .bittest
  | 0x1 => .bitset
  | 0x2 => .condbranch
  | 0x3 | 0x4 | 0x5 | 0x6 | 0x7 => colRmw code
  | 0x8 =>
    match code.toNat % 16 with
    | 0x0 => .rti
    | 0x1 => .rts
    | 0x3 => .swi
    | 0x4 | 0x5 => .transfer
    | 0x6 | 0x7 | 0x8 | 0x9 | 0xa | 0xb => .pushpull
    | 0xc => .clrh
    | 0xe => .stop
    | 0xf => .wait
    | _ => .inv
  | 0x9 =>
    match code.toNat % 16 with
    | 0x0 | 0x1 | 0x2 | 0x3 => .condbranch
    | 0x4 | 0x5 => .transfer
    | 0x6 => .sthx
    | 0x7 | 0xf => .transfer
    | 0x8 | 0x9 | 0xa | 0xb => .setclear
    | 0xc => .rsp
    | 0xd => .nop
    | _ => .pre
  | _ => colAlu code

/-- After 9e: m68hc08.cc 577-647 -/
def select9e (code : Byte) : Fn :=
  match code.toNat / 16 with
  | 0x6 =>
    match code.toNat % 16 with
    | 0x2 | 0x5 | 0xe => .inv
    | _ => colRmw code
  | 0xa => if code = 0xae#8 then .ldhx else .inv
  | 0xb => if code = 0xbe#8 then .ldhx else .inv
  | 0xc => if code = 0xce#8 then .ldhx else .inv
  | 0xd | 0xe =>
    match code.toNat % 16 with
    | 0xc | 0xd => .inv
    | _ => colAlu code
  | 0xf => if code = 0xf3#8 then .cphx else if code = 0xfe#8 then .ldhx else if code = 0xff#8 then .sthx else .inv
  | _ => .inv

inductive Res | go | inv | halt deriving DecidableEq, Repr

def orHalt (s : St) : Option St → Res × St
  | some t => (.go, t)
  | none => (.halt, s)
def orInv (s : St) : Option St → Res × St
  | some t => (.go, t)
  | none => (.inv, s)

/-- The bodies.  inst_nop 94-98, rsp 158-163, nsa 166-171, sta 195-205, stx 207-217, jmp 323-329,
jsr 331-342, bsr 344-355, ais 357-362, aix 364-373, clrh 762-770, stop 879-884, wait 887-892, mul
922-932, condbranch 958-1022 of inst.cc. -/
def exec (f : Fn) (code : Byte) (pre : Bool) (s : St) : Res × St :=
  let nib := code.toNat / 16
  match f with
  | .bittest => (.go, bittest code s)
  | .bitset => (.go, bitset code s)
  | .condbranch => orHalt s ((taken code s.p).map fun t => jrel t s)
  | .rmw o => (.go, rmwInst o nib pre s)
  | .cbeq => (.go, cbeq code pre s)
  | .dbnz => (.go, dbnz nib pre s)
  | .ldhx => orInv s (ldhx code pre s)
  | .sthx => orInv s (sthx code pre s)
  | .cphx => orInv s (cphx code pre s)
  | .mul =>
    let r := s.a.toNat * s.x.toNat
    (.go, tick 4 { s with a := BitVec.ofNat 8 r, x := BitVec.ofNat 8 (r / 256), p := assign bH false (assign bC false s.p) })
  | .div => (.go, div s)
  | .nsa => (.go, { s with a := (s.a &&& 0xf0#8) >>> 4 ||| (s.a &&& 0x0f#8) <<< 4 })
  | .daa => (.go, daa s)
  | .mov => (.go, mov code s)
  | .rti => (.go, rti s)
  | .rts => (.go, rts s)
  | .swi => (.go, swi s)
  | .transfer => orHalt s (transfer code s)
  | .pushpull => orHalt s (pushpull code s)
  | .clrh => (.go, { s with h := 0#8, p := assign bZ true (assign bN false (assign bV false s.p)) })
  | .stop => (.go, { s with p := assign bI false s.p })
  | .wait => (.go, { s with p := assign bI false s.p })
  | .setclear => orHalt s (setclear code s)
  | .rsp => (.go, { s with sp := 0xff#16 })
  | .nop => (.go, s)
  | .alu o => let (v, s) := operand nib pre s; (.go, aluOp o v (tick 1 s))
  | .sta => let (ea, s) := fetchea nib pre s; (.go, tick 1 (store1 { s with p := logicP s.a s.p } ea s.a))
  | .stx => let (ea, s) := fetchea nib pre s; (.go, tick 1 (store1 { s with p := logicP s.x s.p } ea s.x))
  | .jmp => let (ea, s) := fetchea nib pre s; (.go, tick 1 { s with pc := ea })
  | .jsr =>
    let (ea, s) := fetchea nib pre s
    let s := tick 2 (push2 s.pc s)
    (.go, tick 1 { s with pc := ea })
  | .bsr =>
    let (o, s) := fetch s
    let s := tick 2 (push2 s.pc s)
    (.go, tick 1 (addPC o s))
  | .ais => let (o, s) := fetch s; (.go, { s with sp := s.sp + o.signExtend 16 })
  | .aix =>
    let x := hx s
    let (o, s) := fetch s
    (.go, setHX (((x : Int) + o.toInt) % 0x10000).toNat (tick 1 s))
  | .pre | .inv => (.inv, s)
  | .halt => (.halt, s)

/-- cl_hc08::exec_inst, m68hc08.cc 472-696 -/
def execInst (s : St) : Res × St :=
  if s.vector then (.go, { s with pc := get2 s 0xfffe, vector := false })
  else
    let (code, s) := fetch s
    let s := tick 1 s
    if select code = .pre then
      let (code, s) := fetch s
      exec (select9e code) code true (tick 1 s)
    else exec (select code) code false s

/-- cl_uc::do_inst, uc.cc 3244-3275, without the stop on a self jump; there are no interrupts. -/
def step (s : St) : Res × St :=
  let r := execInst s
  (r.1, if r.1 = .inv then { r.2 with pc := s.pc } else r.2)

def steps : Nat → St → St
  | 0, s => s
  | n + 1, s => steps n (step s).2

/-- cl_hc08::reset, m68hc08.cc 93-106, with cl_uc::reset (uc.cc 773-806): clears the clock. -/
def reset (s : St) : St :=
  let v := (rd s 0xfffe).toNat * 256 + (rd s 0xffff).toNat
  { s with sp := 0xff#16, a := 0#8, x := 0#8, h := 0#8, p := 0x60#8, vector := true, ticks := 0, pc := v }

end Ucsim.H08
