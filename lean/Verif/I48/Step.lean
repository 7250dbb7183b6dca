/-
Model of the MCS-48 simulator: /repo/src/sims/i8048.src, class cl_i8048 (8048, 8049, 8050, 8035,
8039, 8040; the 8021, 8022 and 8041 families are not modelled).

Not modelled: the counters of reads, writes and fetches (vc), the error reported when the stack
wraps (stack_check_overflow), breakpoints (C19-C23), the record of directions of the port
expander, variables and display of the ports, stop_selfjump (off unless asked for).
-/
namespace Ucsim.I48

abbrev Byte := BitVec 8
/-- Program addresses; PCmask is 0xfff (i8020.cc 55) and every value the simulator gives to PC is
below 0x1000: branch.cc 37-38, 60-61, 72-73, 151, 158-159, 171-172; i8020.cc 132-144, 544;
i8048.cc 269-281; cPC.W masks with 0xfff (i8020cl.h 108-113). -/
abbrev Addr := BitVec 12

/-- timercl.h 34-38 -/
inductive TMode | stop | counter | timer deriving DecidableEq, Repr

/-- i8020cl.h 120-141, i8048cl.h 47-51, timercl.h 55-62, intscl.h 44, portcl.h.
`rom`: the chip behind the rom space, `romSize` of it decoded; `iram`: the ram chip, `ramSize` of
it decoded; `und`: the word def_data (mem.cc 55) which every cell without a chip refers to.
`psw`, `mb` (A11), `f1`, `inIsr`, `pc`; `p1`, `p2`: cells of the ports (output registers), `p1pin`,
`p2pin`: levels outside; `x`, `xpin`: the same of the expander's ports 4-7; `bus`: output latch,
`busIn`: levels outside; `t0`, `t1`, `int`: ipins.  `ene`: external interrupt enabled. -/
structure St where
  romSize : Nat
  ramSize : Nat
  inner : Nat
  rom : Addr → Byte
  iram : Byte → Byte
  und : Byte
  xram : Byte → Byte
  a : Byte
  psw : Byte
  mb : Bool
  f1 : Bool
  inIsr : Bool
  pc : Addr
  p1 : Byte
  p2 : Byte
  p1pin : Byte
  p2pin : Byte
  x : Fin 4 → Byte
  xpin : Fin 4 → Byte
  bus : Byte
  busIn : Byte
  t0 : Bool
  t1 : Bool
  int : Bool
  ene : Bool
  pre16 : Nat
  pre : Nat
  tmr : Byte
  mode : TMode
  tflag : Bool
  ovf : Bool
  ien : Bool
  ireq : Bool
  ticks : Nat

/-! i8020cl.h 43-50 -/
def flagC : Byte := 0x80#8
def flagA : Byte := 0x40#8
def flagF0 : Byte := 0x20#8
def flagBS : Byte := 0x10#8

def has (p f : Byte) : Bool := p &&& f != 0#8

/-- cF.W(v): the operator of the PSW cell, i8048.cc 37-42; the bank of registers follows the value
(decode_regs, i8048.cc 216-230; C06 is about bankers). -/
def setPsw (v : Byte) (s : St) : St := { s with psw := v ||| 0x08#8 }

/-! ### Memory -/

/-- rom->read: decode_rom, i8020.cc 298-306 -/
def romRd (s : St) (a : Addr) : Byte := if a.toNat < s.romSize then s.rom a else s.und

/-- iram->read: decode_iram, i8020.cc 323-332 -/
def ramRd (s : St) (a : Byte) : Byte := if a.toNat < s.ramSize then s.iram a else s.und

/-- iram->write -/
def ramWr (s : St) (a v : Byte) : St :=
  if a.toNat < s.ramSize then { s with iram := fun b => if b = a then v else s.iram b }
  else { s with und := v }

/-- Place of R[n] in the ram chip: i8048.cc 216-230.  The chip has at least 64 bytes. -/
def regAddr (s : St) (n : Fin 8) : Byte := (if has s.psw flagBS then 24#8 else 0#8) + BitVec.ofNat 8 n.val

def regRd (s : St) (n : Fin 8) : Byte := s.iram (regAddr s n)
def regWr (s : St) (n : Fin 8) (v : Byte) : St :=
  let a := regAddr s n
  { s with iram := fun b => if b = a then v else s.iram b }

/-- iram_ir, read_ir: i8020.cc 595-608 -/
def ptr (s : St) (r : Bool) : Byte := regRd s (if r then 1 else 0)

/-- cl_bus::latch, bus.cc 99-103 -/
def latch (v : Byte) (s : St) : St := { s with bus := v }

/-- set_PC, i8020.cc 131-138 -/
def setPC (a : Addr) (s : St) : St := { s with pc := (s.pc &&& 0x800#12) ||| (a &&& 0x7ff#12) }

/-- cl_i8020::fetch, i8020.cc 140-149 -/
def fetch (s : St) : Byte × St :=
  let c := romRd s s.pc
  let s := setPC (s.pc + 1) s
  (c, if s.pc.toNat ≥ s.inner then latch (s.pc.setWidth 8) s else s)

/-- cl_uc::tick, uc.cc 3053-3081 (one clock per cycle) -/
def tick (n : Nat) (s : St) : St := { s with ticks := s.ticks + n }

/-! ### Arithmetic: arith.cc -/

/-- arith.cc 31-42 -/
def add (v : Byte) (c : Bool) (s : St) : St :=
  let ci := if c then (if has s.psw flagC then 1 else 0) else 0
  let r := s.a.toNat + v.toNat + ci
  let p := s.psw &&& ~~~(flagC ||| flagA)
  let p := if r > 0xff then p ||| flagC else p
  let p := if s.a.toNat % 16 + v.toNat % 16 + ci > 0xf then p ||| flagA else p
  { setPsw p s with a := BitVec.ofNat 8 r }

/-- arith.cc 79-95 -/
def daa (s : St) : St :=
  let (a, p) :=
    if (s.a &&& 0x0f#8).toNat > 9 ∨ has s.psw flagA then
      (s.a + 6#8, if s.a.toNat > 0xf9 then s.psw ||| flagC else s.psw)
    else (s.a, s.psw)
  let (a, p) := if (a &&& 0xf0#8).toNat > 0x90 ∨ has p flagC then (a + 0x60#8, p ||| flagC) else (a, p)
  setPsw p { s with a := a }

/-- arith.cc 97-108 -/
def rrc (s : St) : St :=
  let p := if has s.a 1#8 then (s.psw &&& ~~~flagC) ||| flagC else s.psw &&& ~~~flagC
  setPsw p { s with a := if has s.psw flagC then (s.a >>> 1) ||| 0x80#8 else s.a >>> 1 }

/-- arith.cc 130-141 -/
def rlc (s : St) : St :=
  let p := if has s.a 0x80#8 then (s.psw &&& ~~~flagC) ||| flagC else s.psw &&& ~~~flagC
  setPsw p { s with a := if has s.psw flagC then (s.a <<< 1) ||| 1#8 else s.a <<< 1 }

inductive Op | add | adc | orl | anl | xrl | mov deriving DecidableEq, Repr
inductive Src | imm | ir (r : Bool) | r (n : Fin 8) deriving DecidableEq, Repr

/-- The operand: fetch(), iram_ir(r), R[n] -/
def operand (k : Src) (s : St) : Byte × St :=
  match k with
  | .imm => fetch s
  | .ir r => (ramRd s (ptr s r), s)
  | .r n => (regRd s n, s)

/-- ADD.., ADC.., ORL.., ANL.., XRL.. (i8020cl.h 215-299), MOVAI8, MOVAIR0.., MOVAR0.. (i8020cl.h
370-413) -/
def aluOp (o : Op) (v : Byte) (s : St) : St :=
  match o with
  | .add => add v false s
  | .adc => add v true s
  | .orl => { s with a := s.a ||| v }
  | .anl => { s with a := s.a &&& v }
  | .xrl => { s with a := s.a ^^^ v }
  | .mov => { s with a := v }

/-! ### Stack: i8020.cc 507-545 -/

/-- push(true); the two bytes are always inside the ram chip -/
def push (s : St) : St :=
  let spb := s.psw &&& 7#8
  let spa := (spb + 1#8) &&& 7#8
  let ib := 8#8 + spb * 2#8
  let s := ramWr s ib (s.pc.setWidth 8)
  let h := ((s.pc >>> 8).setWidth 8 &&& 0xf#8) ||| (s.psw &&& 0xf0#8)
  let s := ramWr s (ib + 1#8) h
  setPsw ((s.psw &&& ~~~7#8) ||| spa) s

/-- pop(popf), and the assignment of its result to PC -/
def pop (popf : Bool) (s : St) : St :=
  let spa := ((s.psw &&& 7#8) - 1#8) &&& 7#8
  let ia := 8#8 + spa * 2#8
  let v := ramRd s ia
  let vh := ramRd s (ia + 1#8)
  let p := if popf then (s.psw &&& 0xf#8) ||| (vh &&& 0xf0#8) else s.psw
  setPsw ((p &&& ~~~7#8) ||| spa) { s with pc := (vh.setWidth 4 : BitVec 4) ++ v }

/-! ### Jumps: branch.cc -/

/-- The address of jmp and call: branch.cc 31-40, i8048.cc 264-273; `p` is `code >> 5` -/
def target (p : BitVec 3) (s : St) : Addr × St :=
  let (l, s) := fetch s
  let a : Addr := (0#1 ++ p) ++ l
  (if s.mb then a ||| 0x800#12 else a, s)

/-- branch.cc 53-76 -/
def jif (c : Bool) (s : St) : St :=
  let (l, s) := fetch s
  if c then { s with pc := (s.pc &&& 0xf00#12) ||| l.setWidth 12 } else s

/-- branch.cc 155-161 -/
def jmpp (s : St) : St :=
  let p := s.pc &&& 0xf00#12
  { s with pc := p ||| (romRd s (p ||| s.a.setWidth 12)).setWidth 12 }

/-- branch.cc 163-175: `code >> 5` is 7 for all of e8-ef, and the test is of the pointer R[r], not
of the register: always true.  `p` is `code >> 5`. -/
def djnz (p : BitVec 3) (s : St) : St :=
  let (l, s) := fetch s
  let s := regWr s p.toFin (regRd s p.toFin - 1#8)
  { s with pc := (s.pc &&& 0xf00#12) + l.setWidth 12 }

/-! ### Ports -/

/-- ports->read(1) and (2), in(): move.cc 31-39, port.cc 91-98, 202-213 (flags41 is 0xff) -/
def inPort (two : Bool) (s : St) : Byte := if two then s.p2 &&& s.p2pin else s.p1 &&& s.p1pin

/-- ports->write: port.cc 100-105 -/
def outPort (two : Bool) (v : Byte) (s : St) : St := if two then { s with p2 := v } else { s with p1 := v }

/-- get_odr: port.cc 138-142 -/
def odr (two : Bool) (s : St) : Byte := if two then s.p2 else s.p1

/-- cl_p2::set_low, port.cc 215-223: writes `val`, not `r`. -/
def setLow (v : Byte) (s : St) : St := { s with p2 := v &&& 0xf#8 }

/-- cl_pext::in, port.cc 388-405, and cA.W -/
def movdA (n : Fin 4) (s : St) : St :=
  let r := s.xpin n
  { setLow r s with a := r }

def setX (n : Fin 4) (v : Byte) (s : St) : St := { s with x := fun k => if k = n then v &&& 0xf#8 else s.x k }

/-- cl_pext::out, port.cc 407-422 -/
def movdP (n : Fin 4) (s : St) : St := setLow s.a (setX n s.a s)

/-- cl_pext::orl, port.cc 424-442; arith.cc 143-149 -/
def orld (n : Fin 4) (s : St) : St :=
  let v := (s.a &&& 0xf#8) ||| s.x n
  setLow v (setX n v s)

/-- cl_pext::anl, port.cc 444-462; arith.cc 151-157 -/
def anld (n : Fin 4) (s : St) : St :=
  let v := (s.a &&& 0xf#8) &&& s.x n
  setLow v (setX n v s)

/-! ### Timer -/

/-- conf_op of tcfg_mode: timer.cc 172-180 -/
def setMode (m : TMode) (s : St) : St := { s with mode := m, pre := if m = .stop then s.pre else 0 }

/-! ### Instructions -/

inductive Cond | nz | z | nc | c | t0 | nt0 | t1 | nt1 | f0 | f1 | ni deriving DecidableEq, Repr

/-- i8020cl.h 354-360, i8048cl.h 77-80, inst.cc 47-53 -/
def cond (k : Cond) (s : St) : Bool :=
  match k with
  | .nz => s.a != 0#8
  | .z => s.a == 0#8
  | .nc => !has s.psw flagC
  | .c => has s.psw flagC
  | .t0 => s.t0
  | .nt0 => !s.t0
  | .t1 => s.t1
  | .nt1 => !s.t1
  | .f0 => has s.psw flagF0
  | .f1 => s.f1
  | .ni => !s.int

/-- The methods named in decode.h; those that differ only in a register, a port or the operand
are one, and parts of `code` are arguments. -/
inductive Fn
  | nop | outlb | ins | alu (o : Op) (k : Src) | jmp (p : BitVec 3) | call (p : BitVec 3)
  | eni | disi | entcnti | distcnti
  | deca | inca | clra | cpla | swapa | daa | rr | rl | rrc | rlc
  | inP (two : Bool) | outlP (two : Bool) | orlP (two : Bool) | anlP (two : Bool) | orlBus | anlBus
  | movdA (n : Fin 4) | movdP (n : Fin 4) | orld (n : Fin 4) | anld (n : Fin 4)
  | incIr (r : Bool) | incR (n : Fin 8) | decR (n : Fin 8)
  | xchIr (r : Bool) | xchR (n : Fin 8) | xchdIr (r : Bool)
  | movIrA (r : Bool) | movRA (n : Fin 8) | movIrI (r : Bool) | movRI (n : Fin 8)
  | movxA (r : Bool) | movxR (r : Bool) | movp | movp3
  | jb (b : BitVec 3) | jif (k : Cond) | jtf | jmpp | djnz (p : BitVec 3) | ret | retr
  | movAT | movTA | strtcnt | strtt | stoptcnt
  | clrC | cplC | clrF0 | cplF0 | clrF1 | cplF1 | selrb (b : Bool) | selmb (b : Bool) | movAF | movFA
  /-- listed in decode.h, but the class has no such method: instruction_xx of cl_itab -/
  | missing
  /-- not in decode.h for this family: invalid_instruction -/
  | inv
  deriving DecidableEq, Repr

/-- decode.h 3-263, entries whose last column has an '8' -/
def select (code : Byte) : Fn :=
  let c := code.toNat
  let p : BitVec 3 := (code >>> 5).setWidth 3
  let n : Fin 8 := (code.setWidth 3 : BitVec 3).toFin
  let x : Fin 4 := (code.setWidth 2 : BitVec 2).toFin
  let r := code.getLsbD 0
  if c % 32 = 0x04 then .jmp p
  else if c % 32 = 0x14 then .call p
  else if c % 32 = 0x12 then .jb p
  else
  match c with
  | 0x00 => .nop | 0x02 => .outlb | 0x03 => .alu .add .imm | 0x05 => .eni | 0x07 => .deca | 0x08 => .ins
  | 0x09 => .inP false | 0x0a => .inP true
  | 0x0c | 0x0d | 0x0e | 0x0f => .movdA x
  | 0x10 | 0x11 => .incIr r | 0x13 => .alu .adc .imm | 0x15 => .disi | 0x16 => .jtf | 0x17 => .inca
  | 0x18 | 0x19 | 0x1a | 0x1b | 0x1c | 0x1d | 0x1e | 0x1f => .incR n
  | 0x20 | 0x21 => .xchIr r | 0x23 => .alu .mov .imm | 0x25 => .entcnti | 0x26 => .jif .nt0 | 0x27 => .clra
  | 0x28 | 0x29 | 0x2a | 0x2b | 0x2c | 0x2d | 0x2e | 0x2f => .xchR n
  | 0x30 | 0x31 => .xchdIr r | 0x35 => .distcnti | 0x36 => .jif .t0 | 0x37 => .cpla
  | 0x39 => .outlP false | 0x3a => .outlP true
  | 0x3c | 0x3d | 0x3e | 0x3f => .movdP x
  | 0x40 | 0x41 => .alu .orl (.ir r) | 0x42 => .movAT | 0x43 => .alu .orl .imm | 0x45 => .strtcnt
  | 0x46 => .jif .nt1 | 0x47 => .swapa
  | 0x48 | 0x49 | 0x4a | 0x4b | 0x4c | 0x4d | 0x4e | 0x4f => .alu .orl (.r n)
  | 0x50 | 0x51 => .alu .anl (.ir r) | 0x53 => .alu .anl .imm | 0x55 => .strtt | 0x56 => .jif .t1 | 0x57 => .daa
  | 0x58 | 0x59 | 0x5a | 0x5b | 0x5c | 0x5d | 0x5e | 0x5f => .alu .anl (.r n)
  | 0x60 | 0x61 => .alu .add (.ir r) | 0x62 => .movTA | 0x65 => .stoptcnt | 0x67 => .rrc
  | 0x68 | 0x69 | 0x6a | 0x6b | 0x6c | 0x6d | 0x6e | 0x6f => .alu .add (.r n)
  | 0x70 | 0x71 => .missing | 0x75 => .nop | 0x76 => .jif .f1 | 0x77 => .rr
  | 0x78 | 0x79 | 0x7a | 0x7b | 0x7c | 0x7d | 0x7e | 0x7f => .alu .adc (.r n)
  | 0x80 | 0x81 => .movxA r | 0x83 => .ret | 0x85 => .clrF0 | 0x86 => .jif .ni
  | 0x88 => .orlBus | 0x89 => .orlP false | 0x8a => .orlP true
  | 0x8c | 0x8d | 0x8e | 0x8f => .orld x
  | 0x90 | 0x91 => .movxR r | 0x93 => .retr | 0x95 => .cplF0 | 0x96 => .jif .nz | 0x97 => .clrC
  | 0x98 => .anlBus | 0x99 => .anlP false | 0x9a => .anlP true
  | 0x9c | 0x9d | 0x9e | 0x9f => .anld x
  | 0xa0 | 0xa1 => .movIrA r | 0xa3 => .movp | 0xa5 => .clrF1 | 0xa7 => .cplC
  | 0xa8 | 0xa9 | 0xaa | 0xab | 0xac | 0xad | 0xae | 0xaf => .movRA n
  | 0xb0 | 0xb1 => .movIrI r | 0xb3 => .jmpp | 0xb5 => .cplF1 | 0xb6 => .jif .f0
  | 0xb8 | 0xb9 | 0xba | 0xbb | 0xbc | 0xbd | 0xbe | 0xbf => .movRI n
  | 0xc5 => .selrb false | 0xc6 => .jif .z | 0xc7 => .movAF
  | 0xc8 | 0xc9 | 0xca | 0xcb | 0xcc | 0xcd | 0xce | 0xcf => .decR n
  | 0xd0 | 0xd1 => .alu .xrl (.ir r) | 0xd3 => .alu .xrl .imm | 0xd5 => .selrb true | 0xd7 => .movFA
  | 0xd8 | 0xd9 | 0xda | 0xdb | 0xdc | 0xdd | 0xde | 0xdf => .alu .xrl (.r n)
  | 0xe3 => .movp3 | 0xe5 => .selmb false | 0xe6 => .jif .nc | 0xe7 => .rl
  | 0xe8 | 0xe9 | 0xea | 0xeb | 0xec | 0xed | 0xee | 0xef => .djnz p
  | 0xf0 | 0xf1 => .alu .mov (.ir r) | 0xf5 => .selmb true | 0xf6 => .jif .c | 0xf7 => .rlc
  | 0xf8 | 0xf9 | 0xfa | 0xfb | 0xfc | 0xfd | 0xfe | 0xff => .alu .mov (.r n)
  | _ => .inv

/-- `xch`, move.cc 51-58, of iram_ir -/
def xchIr (r : Bool) (s : St) : St :=
  let p := ptr s r
  ramWr { s with a := ramRd s p } p s.a

/-- `xchd`, move.cc 60-68 -/
def xchdIr (r : Bool) (s : St) : St :=
  let p := ptr s r
  let o := ramRd s p
  ramWr { s with a := (s.a &&& 0xf0#8) ||| (o &&& 0xf#8) } p ((o &&& 0xf0#8) ||| (s.a &&& 0xf#8))

/-- movp and movp3, move.cc 78-98; `a`: the address -/
def movpAt (a : Addr) (s : St) : St :=
  let s := { s with a := romRd s a }
  if a.toNat ≥ s.inner then latch (a.setWidth 8) s else s

inductive Res | go | inv | notDone deriving DecidableEq, Repr

/-- The bodies: arith.cc, branch.cc, move.cc, inst.cc, timer.cc 224-306, i8020cl.h 196-425,
i8048cl.h 72-103, i8048.cc 232-284, 350-421. -/
def exec (f : Fn) (s : St) : St :=
  match f with
  | .nop => s
  | .outlb => latch s.a s
  | .ins => { s with a := s.busIn }
  | .alu o k => let (v, s) := operand k s; aluOp o v s
  | .jmp p => let (a, s) := target p s; { s with pc := a }
  | .call p => let (a, s) := target p s; { push s with pc := a }
  | .eni => { s with ene := true }
  | .disi => { s with ene := false }
  | .entcnti => { s with ien := true }
  | .distcnti => { s with ien := false, ovf := false, ireq := false }
  | .deca => { s with a := s.a - 1#8 }
  | .inca => { s with a := s.a + 1#8 }
  | .clra => { s with a := 0#8 }
  | .cpla => { s with a := ~~~s.a }
  | .swapa => { s with a := (s.a >>> 4) ||| ((s.a &&& 0xf#8) <<< 4) }
  | .daa => daa s
  | .rr => { s with a := (s.a >>> 1) ||| (if has s.a 1#8 then 0x80#8 else 0#8) }
  | .rl => { s with a := (s.a <<< 1) ||| (if has s.a 0x80#8 then 1#8 else 0#8) }
  | .rrc => rrc s
  | .rlc => rlc s
  | .inP two => { s with a := inPort two s }
  | .outlP two => outPort two s.a s
  | .orlP two => let (v, s) := fetch s; outPort two (odr two s ||| v) s
  | .anlP two => let (v, s) := fetch s; outPort two (odr two s &&& v) s
  | .orlBus => let (v, s) := fetch s; latch (s.bus ||| v) s
  | .anlBus => let (v, s) := fetch s; latch (s.bus &&& v) s
  | .movdA n => movdA n s
  | .movdP n => movdP n s
  | .orld n => orld n s
  | .anld n => anld n s
  | .incIr r => let p := ptr s r; ramWr s p (ramRd s p + 1#8)
  | .incR n => regWr s n (regRd s n + 1#8)
  | .decR n => regWr s n (regRd s n - 1#8)
  | .xchIr r => xchIr r s
  | .xchR n => regWr { s with a := regRd s n } n s.a
  | .xchdIr r => xchdIr r s
  | .movIrA r => ramWr s (ptr s r) s.a
  | .movRA n => regWr s n s.a
  | .movIrI r => let (v, s) := fetch s; ramWr s (ptr s r) v
  | .movRI n => let (v, s) := fetch s; regWr s n v
  | .movxA r => let p := ptr s r; let s := latch p s; { s with a := s.xram p }
  | .movxR r => let p := ptr s r; latch s.a { s with xram := fun b => if b = p then s.a else s.xram b }
  | .movp => movpAt ((s.pc &&& 0xf00#12) ||| s.a.setWidth 12) s
  | .movp3 => movpAt ((s.pc &&& 0x800#12) ||| (0x300#12 + s.a.setWidth 12)) s
  | .jb b => jif (has s.a (1#8 <<< b.toNat)) s
  | .jif k => jif (cond k s) s
  | .jtf => { jif s.tflag s with tflag := false }
  | .jmpp => jmpp s
  | .djnz p => djnz p s
  | .ret => pop false s
  | .retr => pop true { s with inIsr := false }
  | .movAT => { s with a := s.tmr }
  | .movTA => { s with tmr := s.a }
  | .strtcnt => setMode .counter s
  | .strtt => setMode .timer s
  | .stoptcnt => setMode .stop s
  | .clrC => setPsw (s.psw &&& ~~~flagC) s
  | .cplC => setPsw (s.psw ^^^ flagC) s
  | .clrF0 => setPsw (s.psw &&& ~~~flagF0) s
  | .cplF0 => setPsw (s.psw ^^^ flagF0) s
  | .clrF1 => { s with f1 := false }
  | .cplF1 => { s with f1 := !s.f1 }
  | .selrb b => setPsw (if b then s.psw ||| flagBS else s.psw &&& ~~~flagBS) s
  | .selmb b => { s with mb := b }
  | .movAF => { s with a := s.psw }
  | .movFA => setPsw s.a s
  | .missing => s
  | .inv => s

/-- cl_i8020::init, i8020.cc 98-114: ticks of decode.h times 5; none: the code stays 0 in
tick_tab20 (glob.cc 40). -/
def cyclesOf (code : Byte) : Nat :=
  match select code with
  | .inv => 0
  | .nop => if code = 0x75#8 then 2 else 1
  | .outlb | .ins | .jmp _ | .call _ | .inP _ | .outlP _ | .orlP _ | .anlP _ | .orlBus | .anlBus => 2
  | .movdA _ | .movdP _ | .orld _ | .anld _ => 2
  | .alu .anl .imm => 1
  | .alu _ .imm => 2
  | .movIrA _ | .movIrI _ | .movRI _ | .movxA _ | .movxR _ | .movp | .movp3 => 2
  | .jb _ | .jif _ | .jtf | .jmpp | .djnz _ | .ret | .retr => 2
  | _ => 1

/-- exec_inst_uctab, uc.cc 3353-3373, and the end of do_inst's first part (uc.cc 3254-3257): both
answers other than resGO put PC back. -/
def execInst (s : St) : Res × St :=
  let pc := s.pc
  let (code, s) := fetch s
  let s := tick (cyclesOf code * 5) s
  match select code with
  | .inv => (.inv, { s with pc := pc })
  | .missing => (.notDone, { s with pc := pc })
  | f => (.go, exec f s)

/-! ### The timer's clock: timer.cc 85-147 -/

/-- do_overflow, timer.cc 141-147 -/
def overflow (s : St) : St := { s with tflag := true, ovf := if s.ien then true else s.ovf }

/-- do_timer, timer.cc 114-124 -/
def doTimer (c : Nat) (s : St) : St :=
  let t := s.tmr.toNat + c
  let s := if t > 0xff then overflow s else s
  { s with tmr := BitVec.ofNat 8 t }

/-- cl_timer::tick(1), timer.cc 85-112 (the hw is on) -/
def hwTick (s : St) : St :=
  let p16 := s.pre16 + 1
  let c := p16 / 16
  let (p16, pre, c) :=
    if c ≠ 0 then
      let pre := s.pre + c
      (p16 % 16, if pre / 32 ≠ 0 then pre % 32 else pre, pre / 32)
    else (p16, s.pre, c)
  let s := { s with pre16 := p16, pre := pre }
  match s.mode with
  | .stop | .counter => s
  | .timer => doTimer c s

/-- tick_hw, uc.cc 3028-3050 -/
def tickHw : Nat → St → St
  | 0, s => s
  | n + 1, s => tickHw n (hwTick s)

/-- conf_op of i8020cpu_t1, i8020.cc 874-893: `val` is the number written to the variable.  The
cell gets the value (856-857) before it is compared. -/
def setT1 (val : Nat) (s : St) : St :=
  let cell := val
  let v := if val ≠ 0 then 1 else 0
  let s := { s with t1 := v != 0 }
  if cell ≠ 0 ∧ v = 0 then (if s.mode = .counter then doTimer 1 s else s) else s

/-! ### Interrupts -/

/-- accept_it, i8048.cc 275-284 -/
def accept (a : Addr) (s : St) : St := { push { s with inIsr := true } with pc := a }

/-- do_interrupt, uc.cc 3431-3485, with the sources of i8048.cc 173-206 in the order of their
poll_priority; priority_main is 0 and nothing is put on it_levels, so the test of priorities
passes. -/
def interrupt (s : St) : St :=
  if s.inIsr then s
  else if s.ene ∧ !s.int then accept 3#12 s
  else if s.ien ∧ s.ireq then accept 7#12 { s with ireq := false }
  else s

/-- cl_uc::do_inst, uc.cc 3244-3275 -/
def step (s : St) : Res × St :=
  let r := execInst s
  let t := tickHw (r.2.ticks - s.ticks) r.2
  (r.1, if r.1 = .inv then t else interrupt t)

def steps : Nat → St → St
  | 0, s => s
  | n + 1, s => steps n (step s).2

/-- reset: i8020.cc 566-587, i8048.cc 90-95, timer.cc 58-67, ints.cc 72-76, i8020.cc 827-834;
cl_uc::reset (uc.cc 773-806) clears the clock.  Port 0's cell is not used in this family. -/
def reset (s : St) : St :=
  { setPsw 0#8 s with
      inIsr := false, pc := 0#12, mb := false, p1 := 0xff#8, p2 := 0xff#8, f1 := false, ticks := 0,
      pre := 0, pre16 := 0, tmr := 0#8, mode := .stop, ien := false, ovf := false, tflag := false,
      ireq := false, ene := false, t0 := true, t1 := true, int := true }

end Ucsim.I48
