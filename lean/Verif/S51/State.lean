/-
Model of the 8051 core of S51 (/repo/src/sims/s51.src, class cl_51core, types 8051
and 8052): state and the elementary accesses that instructions are made of.

Peripherals are arbitrary: a `Hw` gives the reactions of the hardware elements to
reads and writes of special function registers, to elapsed machine cycles and to
accesses of unmapped addresses.  What they cannot do in this code base is fixed
by construction: none of them touches the CPU registers ACC, PSW, SP, B, DPL and
DPH (register_cell and get_cell calls in port.cc 96-101, serial.cc 69-76,
timer0.cc 100-114, timer2.cc 46-55, interrupt.cc 56-62; the watchdog, PCA, MDU
and the 390's own devices are not part of the 8051/8052 and are not modelled).
Not modelled: breakpoints (see Verif.Core.Brk), the tracking of stack operations
and sp_most (reports only), access statistics, xram and code memory with hardware
attached, multiple data pointers, configurable high address of MOVX @Ri.
-/
namespace Ucsim.S51

abbrev Byte := BitVec 8

/-! SFR addresses: /repo/src/sims/s51.src/regs51.h 30-110. -/
def ACC : Nat := 0xe0
def PSW : Nat := 0xd0
def SP : Nat := 0x81
def DPL : Nat := 0x82
def DPH : Nat := 0x83
def SFRB : Nat := 0xf0
def IE : Nat := 0xa8
def IP : Nat := 0xb8
def P2 : Nat := 0xa0
def PCON : Nat := 0x87
def TCON : Nat := 0x88

/-- The registers of the CPU proper. -/
def isCore (a : Nat) : Bool := a == 0xe0 || a == 0xd0 || a == 0x81 || a == 0xf0 || a == 0x82 || a == 0x83

/-- Parity table, /repo/src/sims/s51.src/glob.cc 299-332 (`true` for bmP). -/
def ptabRow0 : List Bool := [false, true, true, false, true, false, false, true]
def ptabRow1 : List Bool := [true, false, false, true, false, true, true, false]
def ptab51 : List Bool :=
  ptabRow0 ++ ptabRow1 ++ ptabRow1 ++ ptabRow0 ++ ptabRow1 ++ ptabRow0 ++ ptabRow0 ++ ptabRow1 ++
  ptabRow1 ++ ptabRow0 ++ ptabRow0 ++ ptabRow1 ++ ptabRow0 ++ ptabRow1 ++ ptabRow1 ++ ptabRow0 ++
  ptabRow1 ++ ptabRow0 ++ ptabRow0 ++ ptabRow1 ++ ptabRow0 ++ ptabRow1 ++ ptabRow1 ++ ptabRow0 ++
  ptabRow0 ++ ptabRow1 ++ ptabRow1 ++ ptabRow0 ++ ptabRow1 ++ ptabRow0 ++ ptabRow0 ++ ptabRow1

/-- `ptab51[n]` as a mask. -/
def parityMask (n : Byte) : Byte := if ptab51.getD n.toNat false then 1#8 else 0#8

/-- cl_it_src, /repo/src/core/sim.src/itsrc.cc 47-79 (the enable cell is always
IE in this core; src_value = src_mask). -/
structure ItSrc where
  ieMask : Byte
  srcAddr : Nat
  srcMask : Byte
  addr : Nat
  clrBit : Bool
  active : Bool
deriving DecidableEq

/-- it_level, /repo/src/core/sim.src/itsrc.cc 217-240: priority, handler address,
interrupted PC. -/
structure ItLevel where
  level : Int
  addr : Nat
  pc : Nat
deriving DecidableEq

/-- stGO, stIDLE, stPD. -/
inductive CpuState | go | idle | pd
deriving DecidableEq

/-- Everything around the CPU. -/
structure Hw (H : Type) where
  /-- 0x80 for the 8051 (uc51.cc 886-), 0x100 for the 8052 (uc52.cc 71-). -/
  iramSize : Nat
  /-- Value delivered when an SFR is read; `true`: ports are skipped
  (cell->read(HW_PORT)), the output latch is read. -/
  sfrRd : H → (Nat → Byte) → Nat → Bool → Byte
  /-- What reading does to the hardware. -/
  sfrRdEff : H → (Nat → Byte) → Nat → Bool → H
  /-- Reaction to writing an SFR: value to be stored, hardware, other SFRs. -/
  sfrWr : H → (Nat → Byte) → Nat → Byte → Byte × H × (Nat → Byte)
  /-- Reaction to writing a bit of an SFR (hardware registered for the bit). -/
  bitWr : H → (Nat → Byte) → Nat → Bool → H × (Nat → Byte)
  /-- One machine cycle. -/
  tick : H → (Nat → Byte) → H × (Nat → Byte)
  /-- The dummy cell of an address space (random values, mem.cc 1512-1538). -/
  dummyRd : H → Byte
  dummyWr : H → H
  /-- Contents of code memory outside of 0..0xffff. -/
  romDummy : H → Byte
  /-- Interrupt sources in polling order. -/
  sources : H → List ItSrc
  /-- Option stop_selfjump. -/
  stopSelfjump : Bool
  /-- CPU_CMOS subtype: has Idle and PowerDown. -/
  cmos : Bool

@[ext] structure St (H : Type) where
  pc : Nat
  instPC : Nat
  iram : Nat → Byte
  sfr : Nat → Byte
  xram : Nat → Byte
  rom : Nat → Byte
  /-- Register bank the R0..R7 cells are decoded to (cl_banker of `regs`). -/
  bank : Nat
  wasReti : Bool
  state : CpuState
  levels : List ItLevel
  /-- inst_ticks. -/
  cyc : Nat
  /-- Counter `ticks`, in machine cycles. -/
  total : Nat
  hw : H

/-- An action of the CPU. -/
def M (H α : Type) : Type := St H → α × St H

instance (H : Type) : Monad (M H) where
  pure a := fun s => (a, s)
  bind x f := fun s => f (x s).1 (x s).2

theorem bind_def {H α β : Type} (x : M H α) (f : α → M H β) (s : St H) : (x >>= f) s = f (x s).1 (x s).2 := rfl
theorem pure_def {H α : Type} (a : α) (s : St H) : (pure a : M H α) s = (a, s) := rfl

def upd (f : Nat → Byte) (a : Nat) (v : Byte) : Nat → Byte := fun x => if x = a then v else f x

/-- Changes of SFRs made by hardware leave the CPU registers alone. -/
def protect (old new : Nat → Byte) : Nat → Byte := fun a => if isCore a then old a else new a

section
variable {H : Type} (P : Hw H)

/-- cl_uc::tick, uc.cc 3058-3081: only counts; the hardware runs in post_inst. -/
def tick (n : Nat) : M H Unit := fun s => ((), { s with cyc := s.cyc + n, total := s.total + n })

def getPC : M H Nat := fun s => (s.pc, s)
def setPC (a : Nat) : M H Unit := fun s => ((), { s with pc := a })

/-- rom->read: code memory is 64K, uc51.cc 886-895. -/
def romRead (a : Nat) : M H Byte := fun s => (if a < 0x10000 then s.rom a else P.romDummy s.hw, s)

/-- cl_uc::fetch, uc.cc 3185-3197, PCmask 0xffff (uc.cc 638). -/
def fetch : M H Byte := do
  let pc ← getPC
  let c ← romRead P pc
  setPC ((pc + 1) % 0x10000)
  pure c

/-- sfr->get. -/
def sfrGet (a : Nat) : M H Byte := fun s => (s.sfr a, s)

/-- sfr->set. -/
def sfrSet (a : Nat) (v : Byte) : M H Unit := fun s => ((), { s with sfr := upd s.sfr a v })

/-- cell->read of an SFR cell, mem.cc 1204-1235: the attached hardware delivers
the value. -/
def sfrRead (a : Nat) (latch : Bool := false) : M H Byte := fun s =>
  if isCore a then (s.sfr a, s)
  else (P.sfrRd s.hw s.sfr a latch, { s with hw := P.sfrRdEff s.hw s.sfr a latch })

/-- ACC: cl_uc51_cpu::write, uc51.cc 2049-2076, then the cell is stored. -/
def accWrite (v : Byte) : M H Unit := fun s =>
  ((), { s with sfr := upd (upd s.sfr PSW ((s.sfr PSW &&& ~~~(1#8)) ||| parityMask v)) ACC v })

/-- PSW: the operator of the banker stores the value and selects the bank,
mem.cc 795-803 and 2733-2790; banks at 0, 8, 16, 24: uc51.cc 949-965. -/
def pswWrite (v : Byte) : M H Unit := fun s =>
  ((), { s with sfr := upd s.sfr PSW v, bank := ((v &&& 0x18#8) >>> 3).toNat })

/-- cell->write of an SFR cell, mem.cc 1237-1271; IE also tells the interrupt
controller (interrupt.cc 88-104).  Returns the stored value. -/
def sfrWrite (a : Nat) (v : Byte) : M H Byte := fun s =>
  if a = ACC then (v, (accWrite v s).2)
  else if a = PSW then (v, (pswWrite v s).2)
  else if isCore a then (v, { s with sfr := upd s.sfr a v })
  else
    let r := P.sfrWr s.hw s.sfr a v
    (r.1, { s with sfr := upd (protect s.sfr r.2.2) a r.1, hw := r.2.1, wasReti := s.wasReti || a == IE })

/-- iram->get_cell(a)->read: unmapped addresses give the dummy cell. -/
def iramRead (a : Nat) : M H Byte := fun s => (if a < P.iramSize then s.iram a else P.dummyRd s.hw, s)

/-- iram->get_cell(a)->write. -/
def iramWrite (a : Nat) (v : Byte) : M H Unit := fun s =>
  if a < P.iramSize then ((), { s with iram := upd s.iram a v })
  else ((), { s with hw := P.dummyWr s.hw })

/-- get_direct(a)->read, uc51.cc 1630-1636. -/
def dirRead (a : Byte) (latch : Bool := false) : M H Byte :=
  if a.toNat < 0x80 then iramRead P a.toNat else sfrRead P a.toNat latch

/-- get_direct(a)->write. -/
def dirWrite (a : Byte) (v : Byte) : M H Unit :=
  if a.toNat < 0x80 then iramWrite P a.toNat v
  else do let _ ← sfrWrite P a.toNat v

/-- R[n]->read: cells of the banked address space `regs`, uc51.cc 949-965. -/
def regRead (n : Nat) : M H Byte := fun s => (s.iram (8 * s.bank + n), s)

def regWrite (n : Nat) (v : Byte) : M H Unit := fun s =>
  ((), { s with iram := upd s.iram (8 * s.bank + n) v })

def accRead : M H Byte := sfrGet ACC

/-- xram->read / write. -/
def xramRead (a : Nat) : M H Byte := fun s => (s.xram a, s)
def xramWrite (a : Nat) (v : Byte) : M H Unit := fun s => ((), { s with xram := upd s.xram a v })

/-- Setting or clearing the bits of a mask. -/
def putBits (v mask : Byte) (b : Bool) : Byte := if b then v ||| mask else v &&& ~~~mask

def bitMask (b : Byte) : Byte := 1#8 <<< (b.toNat % 8)

/-- bits->get(b): the bit of the chip byte, banders of uc51.cc 967-997; bit
0xd7 is CY. -/
def bitGet (b : Byte) : M H Bool := fun s =>
  if b.toNat < 0x80 then ((s.iram (0x20 + b.toNat / 8) &&& bitMask b) != 0#8, s)
  else ((s.sfr (b &&& 0xf8#8).toNat &&& bitMask b) != 0#8, s)

/-- bits->set(b, v): the bit of the chip byte, no operators. -/
def bitSet (b : Byte) (v : Bool) : M H Unit := fun s =>
  if b.toNat < 0x80 then
    ((), { s with iram := upd s.iram (0x20 + b.toNat / 8) (putBits (s.iram (0x20 + b.toNat / 8)) (bitMask b) v) })
  else
    ((), { s with sfr := upd s.sfr (b &&& 0xf8#8).toNat (putBits (s.sfr (b &&& 0xf8#8).toNat) (bitMask b) v) })

/-- bits->read(b): SFR bits go through cl_bitsfr::read, uc51.cc 505-512.  (The hardware
registered for the bit is asked last, mem.cc 1209-1214; it delivers the same value: the
stored bit, or for ports the stored bit and the pin, port.cc 139-153.) -/
def bitRead (b : Byte) : M H Bool :=
  if b.toNat < 0x80 then bitGet b
  else do
    let v ← sfrRead P (b &&& 0xf8#8).toNat
    pure ((v &&& bitMask b) != 0#8)

/-- Hardware registered for a bit cell. -/
def bitHook (b : Byte) (v : Bool) : M H Unit := fun s =>
  let r := P.bitWr s.hw s.sfr b.toNat v
  ((), { s with hw := r.1, sfr := protect s.sfr r.2 })

/-- bits->write(b, v): the operators of the bit cell in the order they were added,
mem.cc 1243-1258: cl_bitsfr::write (read-modify-write of the SFR), uc51.cc 514-528,
added by make_memories; then the hardware, added by mk_hw_elements (uc.cc 746-756);
then the bit itself is stored.  (The hook of the CPU for bits of ACC computes the
parity that the write of ACC has computed.) -/
def bitWrite (b : Byte) (v : Bool) : M H Unit :=
  if b.toNat < 0x80 then bitSet b v
  else do
    let o ← sfrGet (b &&& 0xf8#8).toNat
    let _ ← sfrWrite P (b &&& 0xf8#8).toNat (putBits o (bitMask b) v)
    bitHook P b v
    bitSet b v

/-- SFR_SET_BIT, types51.h 52-56. -/
def sfrSetBit (c : Bool) (a : Nat) (m : Byte) : M H Unit := do
  let v ← sfrGet a
  sfrSet a (putBits v m c)

/-- dptr->read(1)*256 + dptr->read(0): cells of `dptr` decoded to the SFRs
(single data pointer), uc51.cc 1035-1130. -/
def dptrRead : M H Nat := do
  let h ← sfrGet DPH
  let l ← sfrGet DPL
  pure (h.toNat * 256 + l.toNat)

def dptrWrite (v : Nat) : M H Unit := do
  sfrSet DPH (BitVec.ofNat 8 (v / 256))
  sfrSet DPL (BitVec.ofNat 8 v)

/-- cl_memory::validate_address for code memory (start 0, size 0x10000), mem.cc
178-189; the argument is a 32 bit unsigned t_addr. -/
def validate (x : Int) : Nat :=
  let u := (x % 4294967296).toNat
  if u > 0x10000 then u % 0x10000 else u

/-- `PC= rom->validate_address(PC + (signed char)jaddr)`. -/
def relJump (d : Byte) : M H Unit := do
  let pc ← getPC
  setPC (validate (pc + d.toInt))

end
end Ucsim.S51
