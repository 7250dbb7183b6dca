import Verif.Avr.DisTable
/-
Model of the AVR simulator: /repo/src/sims/avr.src.

Not modelled: the counters of reads, writes and fetches (vc), breakpoints (C19-C23), the 7-segment
display (dreg); the port element does nothing (port.cc 36-55).  Cells without operators behave as
in C01-C05.  t_mem and t_addr are 32 bit unsigned numbers, here natural numbers below 2^32.
-/
namespace Ucsim.Avr

abbrev Byte := BitVec 8
abbrev Word := BitVec 16

/-- avrcl.h.  The registers and the I/O registers are cells of the data memory.

`mem`: the 0x80 cells of the chip iram_chip (make_memories, avr.cc 164-196; only the arguments
below 0x80 are used).  `und`: the one cell all the addresses of the data space without a chip
share (def_data, mem.cc 55, 1104).  `dummy`, `rnd`: the dummy cell of the space and the random
values the following writes to it will leave there (mem.cc 1523-1531); `romDummy` is that of the
program memory.  `pc` is a t_addr: a jump can leave it at 0x10000.  `sleep`: sleep_executed. -/
structure St where
  rom : Word → Word
  romDummy : Word
  mem : Nat → Byte
  und : Byte
  dummy : Byte
  rnd : Nat → Byte
  pc : Nat
  sleep : Bool
  ticks : Nat

/-- cl_uc::tick, uc.cc 3049-3078 (one clock per cycle) -/
def tick (n : Nat) (s : St) : St := { s with ticks := s.ticks + n }

/-- cl_address_space::read and get, mem.cc 1606-1643 -/
def rd (s : St) (a : Nat) : Byte := if a < 0x80 then s.mem a else if a < 0x10000 then s.und else s.dummy

/-- cl_address_space::write and set, mem.cc 1645-1680; cl_dummy_cell::write, 1523-1531 -/
def wr (a : Nat) (v : Byte) (s : St) : St :=
  if a < 0x80 then { s with mem := fun x => if x = a then v else s.mem x }
  else if a < 0x10000 then { s with und := v }
  else { s with dummy := s.rnd 0, rnd := fun n => s.rnd (n + 1) }

/-- rom->read -/
def romRd (s : St) (a : Nat) : Word := if a < 0x10000 then s.rom (BitVec.ofNat 16 a) else s.romDummy

/-- cl_uc::fetch, uc.cc 3185-3197 (PCmask is 0xffff) -/
def fetch (s : St) : Nat × St := ((romRd s s.pc).toNat, { s with pc := (s.pc + 1) % 0x10000 })

/-- cl_memory::validate_address, mem.cc 178-189, of the program memory -/
def validate (a : Nat) : Nat := if a > 0x10000 then a % 0x10000 else a

/-- `PC= rom->validate_address(a)` -/
def jump (a : Nat) (s : St) : St := { s with pc := validate a }

/-! ### Registers: regsavr.h 36-43, 86-98 -/
def rX : Nat := 0x1a
def rY : Nat := 0x1c
def rZ : Nat := 0x1e
def SPL : Nat := 0x5d
def SPH : Nat := 0x5e
def SREG : Nat := 0x5f
def bI : Byte := 0x80#8
def bT : Byte := 0x40#8
def bH : Byte := 0x20#8
def bS : Byte := 0x10#8
def bV : Byte := 0x08#8
def bN : Byte := 0x04#8
def bZ : Byte := 0x02#8
def bC : Byte := 0x01#8

/-- `sreg|= f` or `sreg&= ~f` -/
def put (f : Byte) (b : Bool) (p : Byte) : Byte := if b then p ||| f else p &&& ~~~f

def sreg (s : St) : Byte := rd s SREG
def setSreg (p : Byte) (s : St) : St := wr SREG p s

/-! ### Operands -/

/-- `(code&0x1f0)>>4` -/
def cd (c : Nat) : Nat := (c &&& 0x1f0) >>> 4
/-- `((code&0x200)>>5)|(code&0xf)` -/
def cr (c : Nat) : Nat := ((c &&& 0x200) >>> 5) ||| (c &&& 0xf)
/-- `(code&0xf0)>>4` -/
def cd4 (c : Nat) : Nat := (c &&& 0xf0) >>> 4
/-- `((code&0xf00)>>4)|(code&0xf)` -/
def cK (c : Nat) : Nat := ((c &&& 0xf00) >>> 4) ||| (c &&& 0xf)
/-- `(code&0xf) | ((code&0xf00)>>8)`, arith_inst.cc 46, 96, 147 -/
def cKa (c : Nat) : Nat := (c &&& 0xf) ||| ((c &&& 0xf00) >>> 8)
/-- `((code&0xc0)>>2)|(code&0xf)` -/
def cK6 (c : Nat) : Nat := ((c &&& 0xc0) >>> 2) ||| (c &&& 0xf)
/-- `24+(2*((code&0x30)>>4))` -/
def cdl (c : Nat) : Nat := 24 + 2 * ((c &&& 0x30) >>> 4)
/-- `((code&0x2000)>>8)|((code&0xc00)>>7)|(code&0x7)` -/
def cq (c : Nat) : Nat := ((c &&& 0x2000) >>> 8) ||| ((c &&& 0xc00) >>> 7) ||| (c &&& 0x7)
/-- `((code&0x600)>>5)|(code&0xf)` -/
def cP (c : Nat) : Nat := ((c &&& 0x600) >>> 5) ||| (c &&& 0xf)
/-- `((code&0xf8)>>3)` -/
def cP5 (c : Nat) : Nat := (c &&& 0xf8) >>> 3
/-- `code&7` -/
def cb (c : Nat) : Nat := c &&& 7
/-- `1<<b` -/
def bit (b : Nat) : Byte := 1#8 <<< b

/-- A pointer register: `ram->get(hi)*256 + ram->get(lo)` -/
def ptr (p : Nat) (s : St) : Nat := (rd s (p + 1)).toNat * 256 + (rd s p).toNat

/-! ### 32 bit arithmetic -/

/-- `if (x & 0x80) x|= ~0xff` -/
def sx (x : Nat) : Nat := if x &&& 0x80 != 0 then x ||| 0xffffff00 else x
/-- `~x` -/
def not32 (x : Nat) : Nat := 0xffffffff ^^^ x
/-- `x - y` -/
def sub32 (x y : Nat) : Nat := (0x100000000 + x - y) % 0x100000000

/-! ### Arithmetic: arith_inst.cc -/

/-- Bit `m` of `((~D)&K) | (K&res) | (res&(~D))` -/
def borrow (m D K res : Nat) : Bool := m &&& ((not32 D &&& K) ||| (K &&& res) ||| (res &&& not32 D)) != 0

/-- `0x80 & ((D&(~K)&(~res)) | ((~D)&K&res))` -/
def subV (D K res : Nat) : Bool := 0x80 &&& ((D &&& not32 K &&& not32 res) ||| (not32 D &&& K &&& res)) != 0

/-- The flags of cpi, subi, cp, sub (arith_inst.cc 54-81, 156-183, 393-420, 443-470); with `keep`
those of sbci, cpc, sbc (107-133, 243-268, 294-319), which leave Z alone when the result is 0. -/
def subF (keep : Bool) (D K res : Nat) (p : Byte) : Byte :=
  let p := p &&& ~~~(bH ||| bS ||| bV ||| bN ||| bC)
  let p := if keep then p else p &&& ~~~bZ
  let p := if borrow 0x08 D K res then p ||| bH else p
  let v := subV D K res
  let p := if v then p ||| bV else p
  let n := res &&& 0x80 != 0
  let p := if n then p ||| bN else p
  let p := if xor n v then p ||| bS else p
  let p := if keep then (if res != 0 then p &&& ~~~bZ else p) else (if res == 0 then p ||| bZ else p)
  if borrow 0x80 D K res then p ||| bC else p

/-- `((signed)D-(signed)K) & 0xff` of the sign extended numbers -/
def subRes (D K : Nat) : Nat := sub32 D K &&& 0xff

/-- `result= (signed)D-(signed)R-(sreg&BIT_C)?1:0`, arith_inst.cc 105, 241, 291: the whole
difference is the condition -/
def sbcRes (D K : Nat) (p : Byte) : Nat := if sub32 (sub32 D K) (p &&& bC).toNat != 0 then 1 else 0

/-- The flags of add and adc, arith_inst.cc 339-370, 492-521 -/
def addF (D R result : Nat) (p : Byte) : Byte :=
  let res := result &&& 0xff
  let p := put bZ (res == 0) p
  let p := put (bV ||| bS) ((D &&& R &&& not32 res) &&& 0x80 != 0 || (not32 D &&& not32 R &&& res) &&& 0x80 != 0) p
  let p := if res &&& 0x80 != 0 then (p ||| bN) ^^^ bS else p &&& ~~~bN
  let p := put bC (result &&& not32 0xff != 0) p
  put bH ((R &&& 0xf) + (D &&& 0xf) > 15) p

/-- com, arith_inst.cc 541-554 -/
def comF (res : Nat) (p : Byte) : Byte :=
  let p := put bZ (res == 0) p
  let p := p &&& ~~~bV
  let p := put (bN ||| bS) (res &&& 0x80 != 0) p
  p ||| bC

/-- neg, arith_inst.cc 578-607: `d` is the number of the register -/
def negF (d res : Nat) (p : Byte) : Byte :=
  let p := put bH (res &&& not32 d &&& 0x08 != 0) p
  let p := put bS (res > 0x80) p
  let p := if res == 0 then (p ||| bZ) &&& ~~~bC else (p &&& ~~~bZ) ||| bC
  let p := put bV (res == 0x80) p
  put bN (res &&& 0x80 != 0) p

/-- inc, arith_inst.cc 627-652 -/
def incF (data : Nat) (p : Byte) : Byte :=
  if data &&& 0x80 != 0 then
    let p := p ||| bN
    let p := if data == 0x80 then (p ||| bV) &&& ~~~bS else (p &&& ~~~bV) ||| bS
    p &&& ~~~bZ
  else
    let p := p &&& ~~~(bN ||| bV ||| bS)
    put bZ (data == 0) p

/-- dec, arith_inst.cc 795-823 -/
def decF (D res : Nat) (p : Byte) : Byte :=
  let p := put bZ (res == 0) p
  let n := res &&& 0x80 != 0
  let p := put bN n p
  let v := D == 0x80
  let p := put bV v p
  put bS (xor n v) p

/-- asr and ror, arith_inst.cc 671-699, 746-774: `c` the bit shifted out -/
def shF (c : Bool) (res : Nat) (p : Byte) : Byte :=
  let p := p &&& ~~~(bS ||| bV ||| bN ||| bZ ||| bC)
  let p := if c then p ||| bC else p
  let n := res &&& 0x80 != 0
  let p := if n then p ||| bN else p
  let v := xor n c
  let p := if v then p ||| bV else p
  let p := if xor n v then p ||| bS else p
  if res == 0 then p ||| bZ else p

/-- lsr, arith_inst.cc 717-727 -/
def lsrF (c : Bool) (res : Nat) (p : Byte) : Byte :=
  let p := p &&& ~~~(bS ||| bV ||| bN ||| bZ ||| bC)
  let p := if c then p ||| (bC ||| bV ||| bS) else p
  if res == 0 then p ||| bZ else p

/-- adiw, arith_inst.cc 877-901: `D&res&0x8000` in the condition of V -/
def adiwF (D res : Nat) (p : Byte) : Byte :=
  let p := put bZ (res == 0) p
  let p := put (bV ||| bS) (D &&& res &&& 0x8000 != 0) p
  let p := if res &&& 0x8000 != 0 then (p ||| bN) ^^^ bS else p &&& ~~~bN
  put bC (not32 res &&& D &&& 0x8000 != 0) p

/-- sbiw, arith_inst.cc 931-948 -/
def sbiwF (D res : Nat) (p : Byte) : Byte :=
  let p := p &&& ~~~(bS ||| bV ||| bN ||| bZ ||| bC)
  let v := 0x8000 &&& D &&& not32 res != 0
  let p := if v then p ||| bV else p
  let n := res &&& 0x8000 != 0
  let p := if n then p ||| bN else p
  let p := if xor n v then p ||| bS else p
  let p := if res == 0 then p ||| bZ else p
  if 0x8000 &&& res &&& not32 D != 0 then p ||| bC else p

/-- set_zn0s, avr.cc 756-770 -/
def logF (data : Byte) (p : Byte) : Byte :=
  let p := p &&& ~~~bV
  let p := put bZ (data == 0#8) p
  put (bN ||| bS) (data &&& 0x80#8 != 0#8) p

/-! ### Stack: avr.cc 666-749 -/

def setSP (sp : Nat) (s : St) : St :=
  wr SPH (BitVec.ofNat 8 (sp / 256)) (wr SPL (BitVec.ofNat 8 sp) s)

/-- push_data, avr.cc 666-683 -/
def pushData (v : Byte) (s : St) : St :=
  let sp := ptr SPL s
  setSP ((sp + 0xffff) % 0x10000) (wr sp v s)

/-- push_addr, avr.cc 685-706 -/
def pushAddr (a : Nat) (s : St) : St :=
  let sp := ptr SPL s
  let s := wr sp (BitVec.ofNat 8 (a / 256)) s
  let sp := (sp + 0xffff) % 0x10000
  let s := wr sp (BitVec.ofNat 8 a) s
  setSP ((sp + 0xffff) % 0x10000) s

/-- pop_data, avr.cc 708-726 -/
def popData (s : St) : Byte × St :=
  let sp := (ptr SPL s + 1) % 0x10000
  (rd s sp, setSP sp s)

/-- pop_addr, avr.cc 728-749 -/
def popAddr (s : St) : Nat × St :=
  let sp := (ptr SPL s + 1) % 0x10000
  let al := rd s sp
  let sp := (sp + 1) % 0x10000
  let ah := rd s sp
  (ah.toNat * 256 + al.toNat, setSP sp s)

/-! ### Pointers: move_inst.cc 231-430, 479-650 -/

/-- `ram->set(lo, data= (ram->get(lo)+1)&0xff); if (!data) ram->set(hi, (ram->get(hi)+1)&0xff)` -/
def incPtr (p : Nat) (s : St) : St :=
  let data := rd s p + 1#8
  let s := wr p data s
  if data == 0#8 then wr (p + 1) (rd s (p + 1) + 1#8) s else s

/-- `ram->set(lo, z= (ram->get(lo)-1)&0xff); if (z == 0xff) ram->set(hi, (ram->get(hi)-1)&0xff);
z= ram->get(hi)*256 + z` -/
def decPtr (p : Nat) (s : St) : Nat × St :=
  let z := rd s p - 1#8
  let s := wr p z s
  let s := if z == 0xff#8 then wr (p + 1) (rd s (p + 1) - 1#8) s else s
  ((rd s (p + 1)).toNat * 256 + z.toNat, s)

/-! ### Skips: jump_inst.cc 181-206, 312-424 -/

/-- The common part of cpse, sbrc and sbrs, jump_inst.cc 188-203: none is resINV_INST. -/
def skipTab (s : St) : Option St := match disEntry (romRd s s.pc).toNat with
  | some e => some (tick 1 (jump (s.pc + e.length) s))
  | none => none

/-- cl_uc::inst_length, uc.cc 2626-2638 -/
def instLength (s : St) (addr : Nat) : Nat := match disEntry (romRd s addr).toNat with
  | some e => e.length
  | none => 1

/-- `while (size > 1) { fetch(); size--; }` -/
def fetchN : Nat → St → St
  | 0, s => s
  | n + 1, s => fetchN n (fetch s).2

/-- The common part of sbic and sbis, jump_inst.cc 386-396: the code of the next instruction is
taken for its address. -/
def skipFetch (s : St) : St :=
  let (code, s) := fetch s
  tick 1 (fetchN (instLength s code - 1) s)

/-! ### Instructions -/

/-- The member functions called by exec_inst.  `bset i`, `bclr i`: sec ... seh, clc ... clh of
bit_inst.cc 41-281, `i` the number of the bit.  `p`: the pointer register of the name. -/
inductive Fn
  | nop | sleep | wdr | eijmp | eicall | ret | reti | lpm | elpm | spm | espm
  | bset (i : Nat) | bclr (i : Nat)
  | cpi | sbci | subi | ori | andi | rjmp | rcall | ldi
  | movw | muls | mulsu | fmul | fmuls | fmulsu
  | cpc | sbc | add | cpse | cp | sub | adc | and | eor | or | mov
  | ldd (p : Nat) | std (p : Nat) | icall | ijmp | adiw | sbiw
  | lds | ldInc (p : Nat) | ldDec (p : Nat) | lpmZ | lpmZinc | elpmZ | elpmZinc | ldX | pop
  | sts | stInc (p : Nat) | stDec (p : Nat) | stX | push
  | com | neg | swap | inc | asr | lsr | ror | dec | jmp | call
  | cbi | sbic | sbi | sbis | mul | inp | out | ser | brbs | brbc | bld | bst | sbrc | sbrs
  deriving DecidableEq, Repr

/-- exec_inst, avr.cc 383-660: the cases of the nested switches in the order they are tried, each
with the mask of the innermost switch (whose bits include those of the enclosing ones). -/
def cases : List (Nat × Nat × Fn) := [
  -- avr.cc 393-456
  (0xffff, 0x9419, .eijmp), (0xffff, 0x9519, .eicall),
  (0xffff, 0x9508, .ret), (0xffff, 0x9528, .ret), (0xffff, 0x9548, .ret), (0xffff, 0x9568, .ret),
  (0xffff, 0x9518, .reti), (0xffff, 0x9538, .reti), (0xffff, 0x9558, .reti), (0xffff, 0x9578, .reti),
  (0xffff, 0x95c8, .lpm), (0xffff, 0x95d8, .elpm), (0xffff, 0x95e8, .spm), (0xffff, 0x95f8, .espm),
  (0xffff, 0x9408, .bset 0), (0xffff, 0x9488, .bclr 0), (0xffff, 0x9428, .bset 2), (0xffff, 0x94a8, .bclr 2),
  (0xffff, 0x9418, .bset 1), (0xffff, 0x9498, .bclr 1), (0xffff, 0x9478, .bset 7), (0xffff, 0x94f8, .bclr 7),
  (0xffff, 0x9448, .bset 4), (0xffff, 0x94c8, .bclr 4), (0xffff, 0x9438, .bset 3), (0xffff, 0x94b8, .bclr 3),
  (0xffff, 0x9468, .bset 6), (0xffff, 0x94e8, .bclr 6), (0xffff, 0x9458, .bset 5), (0xffff, 0x94d8, .bclr 5),
  (0xffff, 0x0000, .nop), (0xffff, 0x9588, .sleep), (0xffff, 0x9598, .sleep),
  (0xffff, 0x95a8, .wdr), (0xffff, 0x95b8, .wdr),
  -- 457-467
  (0xf000, 0x3000, .cpi), (0xf000, 0x4000, .sbci), (0xf000, 0x5000, .subi), (0xf000, 0x6000, .ori),
  (0xf000, 0x7000, .andi), (0xf000, 0xc000, .rjmp), (0xf000, 0xd000, .rcall), (0xf000, 0xe000, .ldi),
  -- 470-503
  (0xff00, 0x0100, .movw), (0xff00, 0x0200, .muls), (0xff88, 0x0300, .mulsu), (0xff88, 0x0308, .fmul),
  (0xff88, 0x0380, .fmuls), (0xff88, 0x0388, .fmulsu),
  (0xfc00, 0x0400, .cpc), (0xfc00, 0x0800, .sbc), (0xfc00, 0x0c00, .add),
  -- 504-527
  (0xfc00, 0x1000, .cpse), (0xfc00, 0x1400, .cp), (0xfc00, 0x1800, .sub), (0xfc00, 0x1c00, .adc),
  (0xfc00, 0x2000, .and), (0xfc00, 0x2400, .eor), (0xfc00, 0x2800, .or), (0xfc00, 0x2c00, .mov),
  -- 528-539
  (0xf208, 0x8000, .ldd rZ), (0xf208, 0x8008, .ldd rY), (0xf208, 0x8200, .std rZ), (0xf208, 0x8208, .std rY),
  -- 540-611
  (0xff0f, 0x9509, .icall), (0xff0f, 0x9409, .ijmp), (0xff00, 0x9600, .adiw), (0xff00, 0x9700, .sbiw),
  (0xfe0f, 0x9000, .lds), (0xfe0f, 0x9001, .ldInc rZ), (0xfe0f, 0x9002, .ldDec rZ), (0xfe0f, 0x9004, .lpmZ),
  (0xfe0f, 0x9005, .lpmZinc), (0xfe0f, 0x9006, .elpmZ), (0xfe0f, 0x9007, .elpmZinc), (0xfe0f, 0x9009, .ldInc rY),
  (0xfe0f, 0x900a, .ldDec rY), (0xfe0f, 0x900c, .ldX), (0xfe0f, 0x900d, .ldInc rX), (0xfe0f, 0x900e, .ldDec rX),
  (0xfe0f, 0x900f, .pop), (0xfe0f, 0x9200, .sts), (0xfe0f, 0x9201, .stInc rZ), (0xfe0f, 0x9202, .stDec rZ),
  (0xfe0f, 0x9209, .stInc rY), (0xfe0f, 0x920a, .stDec rY), (0xfe0f, 0x920c, .stX), (0xfe0f, 0x920d, .stInc rX),
  (0xfe0f, 0x920e, .stDec rX), (0xfe0f, 0x920f, .push),
  (0xfe0f, 0x9400, .com), (0xfe0f, 0x9401, .neg), (0xfe0f, 0x9402, .swap), (0xfe0f, 0x9403, .inc),
  (0xfe0f, 0x9405, .asr), (0xfe0f, 0x9406, .lsr), (0xfe0f, 0x9407, .ror), (0xfe0f, 0x940a, .dec),
  (0xfe0f, 0x940c, .jmp), (0xfe0f, 0x940d, .jmp), (0xfe0f, 0x940e, .call), (0xfe0f, 0x940f, .call),
  (0xff00, 0x9800, .cbi), (0xff00, 0x9900, .sbic), (0xff00, 0x9a00, .sbi), (0xff00, 0x9b00, .sbis),
  (0xfc00, 0x9c00, .mul),
  -- 612-633
  (0xf208, 0xa000, .ldd rZ), (0xf208, 0xa008, .ldd rY), (0xf208, 0xa200, .std rZ), (0xf208, 0xa208, .std rY),
  (0xf800, 0xb000, .inp), (0xf800, 0xb800, .out),
  -- 634-641: never reached, 0xe000 is returned from above
  (0xff0f, 0xef0f, .ser),
  -- 642-657
  (0xfc00, 0xf000, .brbs), (0xfc00, 0xf400, .brbc),
  (0xfe08, 0xf800, .bld), (0xfe08, 0xfa00, .bst), (0xfe08, 0xfc00, .sbrc), (0xfe08, 0xfc08, .sbrc),
  (0xfe08, 0xfe00, .sbrs), (0xfe08, 0xfe08, .sbrs)]

def select (c : Nat) : Option Fn := (cases.find? (fun e => c &&& e.1 == e.2.1)).map (·.2.2)

/-- `code&0xfff`, sign extended to 32 bits: jump_inst.cc 140-143, 163-165 -/
def k12 (c : Nat) : Nat := if (c &&& 0xfff) &&& 0x800 != 0 then (c &&& 0xfff) ||| 0xfffff000 else c &&& 0xfff
/-- `(code&0x3f8)>>3`, sign extended to 32 bits: jump_inst.cc 262-269 -/
def k7 (c : Nat) : Nat := if c &&& 0x200 != 0 then ((c &&& 0x3f8) >>> 3) ||| 0xffffff80 else (c &&& 0x3f8) >>> 3
/-- `((code&0x1f0)>>3)|(code&1)` -/
def kh (c : Nat) : Nat := ((c &&& 0x1f0) >>> 3) ||| (c &&& 1)
/-- `(signed)PC + (signed)k` -/
def rel (s : St) (k : Nat) : Nat := (s.pc + k) % 0x100000000

/-- The two register instructions that write a result and flags. -/
def alu (d : Nat) (res : Byte) (p : Byte) (s : St) : St := setSreg p (wr d res s)

/-- The member functions; `s` is the state after the fetch of `c` and tick(1); none: resINV_INST. -/
def exec (f : Fn) (c : Nat) (s : St) : Option St :=
  match f with
  -- inst.cc 43-79
  | .nop | .wdr => some s
  | .sleep => some { s with sleep := true }
  -- empty functions: jump_inst.cc 52-56, 83-87, move_inst.cc 58-76, 99-103, 275-300, arith_inst.cc 184-217
  | .eijmp | .eicall | .elpm | .spm | .espm | .movw | .muls | .mulsu | .fmul | .fmuls | .fmulsu
  | .lpmZ | .lpmZinc | .elpmZ | .elpmZinc => some s
  -- jump_inst.cc 97-129
  | .ret => let (a, s) := popAddr s; some (tick 3 (jump a s))
  | .reti => let (a, s) := popAddr s; let s := jump a s; some (tick 3 (setSreg (sreg s ||| bI) s))
  -- move_inst.cc 40-56
  | .lpm =>
    let addr := ptr rZ s
    let data := (romRd s addr).toNat
    let s := if addr &&& 1 != 0 then wr 0 (BitVec.ofNat 8 (data >>> 8)) s else wr 0 (BitVec.ofNat 8 data) s
    some (tick 2 s)
  -- bit_inst.cc 41-281
  | .bset i => some (setSreg (bit i ||| sreg s) s)
  | .bclr i => some (setSreg (~~~bit i &&& sreg s) s)
  -- arith_inst.cc 40-182
  | .cpi =>
    let K := sx (cKa c); let D := sx (rd s (16 + cd4 c)).toNat
    some (setSreg (subF false D K (subRes D K) (sreg s)) s)
  | .sbci =>
    let d := 16 + cd4 c
    let K := sx (cKa c); let D := sx (rd s d).toNat
    let p := sreg s
    let res := sbcRes D K p
    some (setSreg (subF true D K res p) (wr d (BitVec.ofNat 8 res) s))
  | .subi =>
    let d := 16 + cd4 c
    let K := sx (cKa c); let D := sx (rd s d).toNat
    let res := subRes D K
    let s := wr d (BitVec.ofNat 8 res) s
    some (setSreg (subF false D K res (sreg s)) s)
  -- logic_inst.cc 40-76: the source register is d, not d+16
  | .ori =>
    let data := BitVec.ofNat 8 (cK c) ||| rd s (cd4 c)
    let s := wr (cd4 c + 16) data s
    some (setSreg (logF data (sreg s)) s)
  | .andi =>
    let data := BitVec.ofNat 8 (cK c) &&& rd s (cd4 c)
    let s := wr (cd4 c + 16) data s
    some (setSreg (logF data (sreg s)) s)
  -- jump_inst.cc 138-172
  | .rjmp => some (tick 1 (jump (rel s (k12 c)) s))
  | .rcall => let s := pushAddr s.pc s; some (tick 2 (jump (rel s (k12 c)) s))
  -- move_inst.cc 86-97
  | .ldi => some (wr (cd4 c + 16) (BitVec.ofNat 8 (cK c)) s)
  -- arith_inst.cc 226-325, 379-476
  | .cpc =>
    let R := sx (rd s (cr c)).toNat; let D := sx (rd s (cd c)).toNat
    let p := sreg s
    some (setSreg (subF true D R (sbcRes D R p) p) s)
  | .sbc =>
    let R := sx (rd s (cr c)).toNat; let D := sx (rd s (cd c)).toNat
    let p := sreg s
    let res := sbcRes D R p
    some (setSreg (subF true D R res p) (wr (cd c) (BitVec.ofNat 8 res) s))
  | .cp =>
    let R := sx (rd s (cr c)).toNat; let D := sx (rd s (cd c)).toNat
    some (setSreg (subF false D R (subRes D R) (sreg s)) s)
  | .sub =>
    let R := sx (rd s (cr c)).toNat; let D := sx (rd s (cd c)).toNat
    let res := subRes D R
    let s := wr (cd c) (BitVec.ofNat 8 res) s
    some (setSreg (subF false D R res (sreg s)) s)
  -- arith_inst.cc 327-377, 478-528
  | .add =>
    let R := (rd s (cr c)).toNat; let D := (rd s (cd c)).toNat
    let result := D + R
    let s := wr (cd c) (BitVec.ofNat 8 result) s
    some (setSreg (addF D R result (sreg s)) s)
  | .adc =>
    let R := (rd s (cr c)).toNat; let D := (rd s (cd c)).toNat
    let p := sreg s
    let result := D + R + (if p &&& bC != 0#8 then 1 else 0)
    let s := wr (cd c) (BitVec.ofNat 8 result) s
    some (setSreg (addF D R result p) s)
  -- jump_inst.cc 181-206
  | .cpse => if rd s (cr c) == rd s (cd c) then skipTab s else some s
  -- logic_inst.cc 84-148
  | .and => let v := rd s (cd c) &&& rd s (cr c); let s := wr (cd c) v s; some (setSreg (logF v (sreg s)) s)
  | .eor => let v := rd s (cd c) ^^^ rd s (cr c); let s := wr (cd c) v s; some (setSreg (logF v (sreg s)) s)
  | .or => let v := rd s (cd c) ||| rd s (cr c); let s := wr (cd c) v s; some (setSreg (logF v (sreg s)) s)
  -- move_inst.cc 743-753
  | .mov => some (wr (cd c) (rd s (cr c)) s)
  -- move_inst.cc 113-200
  | .ldd p => some (tick 1 (wr (cd c) (rd s (ptr p s + cq c)) s))
  | .std p => some (tick 1 (wr (ptr p s + cq c) (rd s (cd c)) s))
  -- jump_inst.cc 40-50, 66-81
  | .ijmp => some (jump (ptr rZ s) s)
  | .icall => let s := pushAddr s.pc s; some (tick 2 { s with pc := ptr rZ s })
  -- arith_inst.cc 864-954
  | .adiw =>
    let dl := cdl c
    let D := ptr dl s
    let res := (D + cK6 c) &&& 0xffff
    let s := wr dl (BitVec.ofNat 8 res) (wr (dl + 1) (BitVec.ofNat 8 (res >>> 8)) s)
    some (tick 1 (setSreg (adiwF D res (sreg s)) s))
  | .sbiw =>
    let dl := cdl c
    let K := if cK6 c &&& 0x20 != 0 then cK6 c ||| 0xffffffc0 else cK6 c
    let D := if ptr dl s &&& 0x8000 != 0 then ptr dl s ||| 0xffff0000 else ptr dl s
    let res := sub32 D K &&& 0xffff
    let s := wr dl (BitVec.ofNat 8 res) (wr (dl + 1) (BitVec.ofNat 8 (res >>> 8)) s)
    some (tick 1 (setSreg (sbiwF D res (sreg s)) s))
  -- move_inst.cc 210-430
  | .lds => let (k, s) := fetch s; some (tick 2 (wr (cd c) (rd s k) s))
  | .ldInc p => some (tick 1 (incPtr p (wr (cd c) (rd s (ptr p s)) s)))
  | .ldDec p => let (z, s) := decPtr p s; some (tick 1 (wr (cd c) (rd s z) s))
  | .ldX => some (tick 1 (wr (cd c) (rd s (ptr rX s)) s))
  -- move_inst.cc 434-446, 655-668
  | .pop => let (v, s) := popData s; some (tick 1 (wr (cd c) v s))
  | .push => some (tick 1 (pushData (rd s (cd c)) s))
  -- move_inst.cc 457-650
  | .sts => let (k, s) := fetch s; some (tick 2 (wr k (rd s (cd c)) s))
  | .stInc p => some (tick 1 (incPtr p (wr (ptr p s) (rd s (cd c)) s)))
  | .stDec p => let (z, s) := decPtr p s; some (tick 1 (wr z (rd s (cd c)) s))
  | .stX => some (tick 1 (wr (ptr rX s) (rd s (cd c)) s))
  -- arith_inst.cc 530-618
  | .com =>
    let res := not32 (rd s (cd c)).toNat &&& 0xff
    let s := wr (cd c) (BitVec.ofNat 8 res) s
    some (setSreg (comF res (sreg s)) s)
  | .neg =>
    let res := (not32 (rd s (cd c)).toNat + 1) &&& 0xff
    let s := wr (cd c) (BitVec.ofNat 8 res) s
    some (setSreg (negF (cd c) res (sreg s)) s)
  -- move_inst.cc 677-690
  | .swap =>
    let data := (rd s (cd c)).toNat
    some (wr (cd c) (BitVec.ofNat 8 ((data <<< 4) ||| ((data >>> 4) &&& 0xf))) s)
  -- arith_inst.cc 618-655
  | .inc =>
    let data := (rd s (cd c)).toNat + 1
    let s := wr (cd c) (BitVec.ofNat 8 data) s
    some (setSreg (incF (data &&& 0xff) (sreg s)) s)
  -- arith_inst.cc 664-782
  | .asr =>
    let D := (rd s (cd c)).toNat
    let result := D >>> 1
    let res := if result &&& 0x40 != 0 then result ||| 0x80 else result
    some (setSreg (shF (D &&& 1 != 0) res (sreg s)) (wr (cd c) (BitVec.ofNat 8 res) s))
  | .lsr =>
    let D := (rd s (cd c)).toNat
    some (setSreg (lsrF (D &&& 1 != 0) (D >>> 1) (sreg s)) (wr (cd c) (BitVec.ofNat 8 (D >>> 1)) s))
  -- `result= (D >> 1) | oldc?0x80:0`: the or is the condition
  | .ror =>
    let D := (rd s (cd c)).toNat
    let res := if (D >>> 1) ||| (sreg s &&& bC).toNat != 0 then 0x80 else 0
    some (setSreg (shF (D &&& 1 != 0) res (sreg s)) (wr (cd c) (BitVec.ofNat 8 res) s))
  -- arith_inst.cc 784-826
  | .dec =>
    let D := (rd s (cd c)).toNat
    let res := sub32 D 1 &&& 0xff
    let s := wr (cd c) (BitVec.ofNat 8 res) s
    some (setSreg (decF D res (sreg s)) s)
  -- jump_inst.cc 216-249
  | .jmp => let (lo, s) := fetch s; some (tick 2 (jump ((kh c <<< 16) ||| lo) s))
  | .call => let (lo, s) := fetch s; let s := pushAddr s.pc s; some (tick 3 (jump (kh c * 0x10000 + lo) s))
  -- bit_inst.cc 297-337
  | .cbi => let a := cP5 c + 0x20; some (tick 1 (wr a (~~~bit (cb c) &&& rd s a) s))
  | .sbi => let a := cP5 c + 0x20; some (tick 1 (wr a (bit (cb c) ||| rd s a) s))
  -- jump_inst.cc 378-424
  | .sbic => some (if bit (cb c) &&& rd s (cP5 c + 0x20) == 0#8 then skipFetch s else s)
  | .sbis => some (if bit (cb c) &&& rd s (cP5 c + 0x20) != 0#8 then skipFetch s else s)
  -- arith_inst.cc 833-855
  | .mul =>
    let result := (rd s (cr c)).toNat * (rd s (cd c)).toNat
    let resh := (result >>> 8) &&& 0xff
    let s := wr 1 (BitVec.ofNat 8 resh) (wr 0 (BitVec.ofNat 8 result) s)
    let p := sreg s &&& ~~~bC
    some (tick 1 (setSreg (if resh &&& 0x80 != 0 then p ||| bC else p) s))
  -- move_inst.cc 699-731
  | .inp => some (wr (cd c) (rd s (cP c + 0x20)) s)
  | .out => some (wr (cP c + 0x20) (rd s (cd c)) s)
  -- inst.cc 87-94
  | .ser => some (wr (cd4 c) 0xff#8 s)
  -- jump_inst.cc 258-302
  | .brbs => some (if sreg s &&& bit (cb c) != 0#8 then tick 1 (jump (rel s (k7 c)) s) else s)
  | .brbc => some (if sreg s &&& bit (cb c) == 0#8 then tick 1 (jump (rel s (k7 c)) s) else s)
  -- bit_inst.cc 344-387
  | .bld =>
    some (wr (cd c) (if sreg s &&& bT != 0#8 then rd s (cd c) ||| bit (cb c) else rd s (cd c) &&& ~~~bit (cb c)) s)
  | .bst => some (setSreg (if rd s (cd c) &&& bit (cb c) != 0#8 then sreg s ||| bT else sreg s &&& ~~~bT) s)
  -- jump_inst.cc 312-370
  | .sbrc => if rd s (cd c) &&& bit (cb c) == 0#8 then skipTab s else some s
  | .sbrs => if rd s (cd c) &&& bit (cb c) != 0#8 then skipTab s else some s

/-- exec_inst with do_inst (uc.cc 3244-3275): the flag is false when the result is resINV_INST, and
then PC is that of the instruction again. -/
def step (s : St) : Bool × St :=
  let (c, s1) := fetch s
  let s1 := tick 1 s1
  match (select c).bind (fun f => exec f c s1) with
  | some s2 => (true, s2)
  | none => (false, { s1 with pc := s.pc })

/-- A run of `n` instructions, up to the first invalid one. -/
def run : Nat → St → Bool × St
  | 0, s => (true, s)
  | n + 1, s => match step s with
    | (true, s) => run n s
    | r => r

end Ucsim.Avr
