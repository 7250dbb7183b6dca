import Verif.H08.Dis

/-
Model of the 9S08: m68hc08.cc 749-927 (memory map, CALL, RTC, disassembly) and 980-1124 (cl_mmu).

The decoders and the banker make_memories builds are taken as the map they describe (decoders:
C06, C07; the banker follows writes of its selector: C08).  Not modelled: the configuration cells
of the MMU, values forced into register cells with `set` (they do not reach the banker: C08).
-/
namespace Ucsim.H08

/-- cells of the rom address space below 0x2080 (`low`; the registers' cells too), contents of
las_chip (`las`, 0x20000 bytes), cl_mmu::lin_addr, and the dummy cell. -/
structure Mmu where
  low : Nat → Byte
  las : Nat → Byte
  lin : Nat
  dummy : Byte

def poke (f : Nat → Byte) (a : Nat) (v : Byte) : Nat → Byte := fun x => if x = a then v else f x

/-- The slot of las_chip behind an address of the rom space from 0x2080: cl_9s08::make_memories,
m68hc08.cc 773-826; the banker: selector 0x78, mask 7. -/
def slot (m : Mmu) (a : Nat) : Nat :=
  if 0x8000 ≤ a ∧ a < 0xc000 then (m.low 0x78 &&& 7#8).toNat * 0x4000 + (a - 0x8000) else a

/-- las->read, las->write at lin_addr; the dummy cell of las is not kept apart from that of rom, lin_addr never leaves las. -/
def lasRead (m : Mmu) : Byte := m.las m.lin
def lasWrite (m : Mmu) (v : Byte) : Mmu := { m with las := poke m.las m.lin v }
/-- `lin_addr= (lin_addr+1) & 0x1ffff` -/
def linInc (m : Mmu) : Mmu := { m with lin := (m.lin + 1) % 0x20000 }
def setLow (m : Mmu) (a : Nat) (v : Byte) : Mmu := { m with low := poke m.low a v }

/-- cl_mmu::read, m68hc08.cc 1015-1057 -/
def mmuRead (m : Mmu) (a : Nat) : Byte × Mmu :=
  let m :=
    if a = 0x79 then setLow m a (BitVec.ofNat 8 (m.lin >>> 16))
    else if a = 0x7a then setLow m a (BitVec.ofNat 8 (m.lin >>> 8))
    else if a = 0x7b then setLow m a (BitVec.ofNat 8 (m.lin &&& 0xff))
    else if a = 0x7c then linInc (setLow m a (lasRead m))
    else if a = 0x7d then linInc (setLow m a (lasRead m))
    else if a = 0x7e then setLow m a (lasRead m)
    else if a = 0x7f then setLow m a 0#8
    else m
  (m.low a, m)

/-- cl_mmu::write, m68hc08.cc 1059-1103; the cell keeps the value written.  lapab: `i8_t v`,
`lin_addr+= v` in 32 bits. -/
def mmuWrite (m : Mmu) (a : Nat) (v : Byte) : Mmu :=
  let m :=
    if a = 0x79 then { m with lin := (m.lin &&& 0xffff) ||| ((v.toNat &&& 1) <<< 16) }
    else if a = 0x7a then { m with lin := (m.lin &&& 0x100ff) ||| (v.toNat <<< 8) }
    else if a = 0x7b then { m with lin := (m.lin &&& 0x1ff00) ||| v.toNat }
    else if a = 0x7c then linInc (lasWrite m v)
    else if a = 0x7d then linInc (lasWrite m v)
    else if a = 0x7e then lasWrite m v
    else if a = 0x7f then { m with lin := ((((m.lin : Int) + v.toInt) % 0x100000000).toNat) &&& 0x1ffff }
    else m
  setLow m a v

/-- rom->read: cl_address_space::read, mem.cc 1606-1617, with the operator of the MMU on
0x78-0x7f. -/
def busRead (m : Mmu) (a : Nat) : Byte × Mmu :=
  if a < 0x2080 then mmuRead m a
  else if a < 0x10000 then (m.las (slot m a), m)
  else (m.dummy, m)

/-- rom->write for addresses inside the space. -/
def busWrite (m : Mmu) (a : Nat) (v : Byte) : Mmu :=
  if a < 0x2080 then mmuWrite m a v
  else { m with las := poke m.las (slot m a) v }

/-- One access of a program. -/
inductive Acc | rd (a : Word) | wr (a : Word) (v : Byte)

/-- The values read. -/
def accs (m : Mmu) : List Acc → List Byte × Mmu
  | [] => ([], m)
  | .rd a :: l => let r := busRead m a.toNat; let q := accs r.2 l; (r.1 :: q.1, q.2)
  | .wr a v :: l => accs (busWrite m a.toNat v) l

/-! ### CALL and RTC -/

structure Cpu9 where
  a : Byte
  p : Byte
  h : Byte
  x : Byte
  sp : Word
  pc : Nat
  ticks : Nat
  m : Mmu

def tick9 (n : Nat) (s : Cpu9) : Cpu9 := { s with ticks := s.ticks + n }

/-- cl_uc::fetch, uc.cc 3185-3197 -/
def fetch9 (s : Cpu9) : Byte × Cpu9 :=
  let r := busRead s.m s.pc
  (r.1, { s with m := r.2, pc := (s.pc + 1) % 0x10000 })

/-- inst.cc 50-58 -/
def fetch29 (s : Cpu9) : Nat × Cpu9 :=
  let (h, s) := fetch9 s
  let (l, s) := fetch9 s
  (h.toNat * 256 + l.toNat, tick9 2 s)

def store9 (s : Cpu9) (a : Word) (v : Byte) : Cpu9 := { s with m := busWrite s.m a.toNat v }

/-- hc08mac.h 31-39 and 21-23: the high byte first -/
def push29 (v : Nat) (s : Cpu9) : Cpu9 :=
  let s := store9 (store9 s (s.sp - 1) (BitVec.ofNat 8 (v / 256))) s.sp (BitVec.ofNat 8 v)
  { s with sp := s.sp - 2 }
/-- hc08mac.h 40-48 -/
def push19 (v : Byte) (s : Cpu9) : Cpu9 := let s := store9 s s.sp v; { s with sp := s.sp - 1 }
/-- hc08mac.h 50 -/
def pop19 (s : Cpu9) : Byte × Cpu9 :=
  let r := busRead s.m (s.sp + 1).toNat
  (r.1, { s with m := r.2, sp := s.sp + 1 })
/-- hc08mac.h 49, get_2 of m68hc08.cc 725-730: the high byte first -/
def pop29 (s : Cpu9) : Nat × Cpu9 :=
  let r := busRead s.m (s.sp + 1).toNat
  let q := busRead r.2 (s.sp + 2).toNat
  (r.1.toNat * 256 + q.1.toNat, { s with m := q.2, sp := s.sp + 2 })

/-- cl_9s08::inst_call, m68hc08.cc 899-910 -/
def call9 (s : Cpu9) : Cpu9 :=
  let (p, s) := fetch9 s
  let (a, s) := fetch29 s
  let s := push29 s.pc s
  let r := busRead s.m 0x78
  let s := push19 r.1 { s with m := r.2 }
  tick9 5 { s with m := busWrite s.m 0x78 p, pc := a }

/-- cl_9s08::inst_rtc, m68hc08.cc 912-923 -/
def rtc9 (s : Cpu9) : Cpu9 :=
  let (p, s) := pop19 s
  let (a, s) := pop29 s
  tick9 6 { s with m := busWrite s.m 0x78 p, pc := a }

/-- exec_inst, m68hc08.cc 485-489, for the two codes; none: another instruction -/
def step9 (s : Cpu9) : Option Cpu9 :=
  let (code, s) := fetch9 s
  let s := tick9 1 s
  if code = 0xac#8 then some (call9 s)
  else if code = 0x8d#8 then some (rtc9 s)
  else none

/-- cl_9s08::reset, m68hc08.cc 843-848: the page register; `reset` for the rest.  -/
def reset9 (m : Mmu) : Mmu := busWrite m 0x78 2#8

/-- type->type is CPU_9S08 (simm68hc08.cc 57), so `type->type == CPU_HCS08` of inst.cc 1194-1313 does not hold. -/
def s08of9 : Bool := false

/-! ### Disassembly -/

/-- disass_9s08, glob.cc 395-400 -/
def dis9s08 : List (Byte × Nat × String) := [(0xac#8, 4, "call %C"), (0x8d#8, 1, "rtc")]

/-- cl_9s08::get_disasm_info, m68hc08.cc 851-896, with cl_hc08::inst_length (227-236): `addr` was
already incremented when it goes on to the base class. -/
def instLength9 (s : St) (addr : Nat) : Nat :=
  match dis9s08.find? (fun e => e.1 == rd s addr) with
  | some e => e.2.1
  | none => instLength s (addr + 1)

end Ucsim.H08
