/-
Model of the memory system: chips, cells, address spaces, operators and
bankers.  Source: /repo/src/core/sim.src/mem.cc and memcl.h.

Machine integers: `t_mem` (u32) is `BitVec 32`; `t_addr` (u32) is a `Nat`,
the wrap modulo 2^32 is written out (`u32`) where C++ arithmetic can wrap.
Undefined behaviour (indexing the bank table outside of its bounds, null
dereference) sets the sticky flag `World.ub`.
-/
namespace Ucsim

/-- `t_mem` (stypes.h 56: `typedef u32_t t_mem`). -/
abbrev W := BitVec 32

/-- Conversion of an arithmetic result to `t_addr` (stypes.h 55: u32). -/
def u32 (n : Nat) : Nat := n % 4294967296

/-- u32 subtraction. -/
def subU (a b : Nat) : Nat := (a + 4294967296 - b) % 4294967296

/-- Functional update. -/
def upd {α : Type _} {β : Type _} [DecidableEq α] (f : α → β) (a : α) (b : β) : α → β :=
  fun x => if x = a then b else f x

@[simp] theorem upd_same {α : Type _} {β : Type _} [DecidableEq α] (f : α → β) (a : α) (b : β) :
    upd f a b a = b := by simp [upd]

theorem upd_other {α : Type _} {β : Type _} [DecidableEq α] (f : α → β) (a : α) (b : β) (x : α)
    (h : x ≠ a) : upd f a b x = f x := by simp [upd, h]

/-- The `data` pointer of a cell (memcl.h 310): into the byte array of a chip
(`blk = some chip`) or at the global `def_data` word (mem.cc 55, `blk = none`). -/
structure Ptr where
  blk : Option Nat
  off : Nat
deriving DecidableEq, Repr

/-- All the bytes pointed to by cells: chip arrays and `def_data`. -/
abbrev Bytes := Option Nat → Nat → BitVec 8

/-- `*((u8_t*)data)`, mem.cc 920. -/
def Bytes.load8 (m : Bytes) (p : Ptr) : BitVec 8 := m p.blk p.off
/-- `*((u16_t*)data)` on a little-endian host, mem.cc 965. -/
def Bytes.load16 (m : Bytes) (p : Ptr) : BitVec 16 := m p.blk (p.off + 1) ++ m p.blk p.off
/-- `*((u32_t*)data)` on a little-endian host, mem.cc 1007. -/
def Bytes.load32 (m : Bytes) (p : Ptr) : BitVec 32 :=
  m p.blk (p.off + 3) ++ (m p.blk (p.off + 2) ++ (m p.blk (p.off + 1) ++ m p.blk p.off : BitVec 16) : BitVec 24)

/-- One byte store. -/
def Bytes.put (m : Bytes) (b : Option Nat) (o : Nat) (v : BitVec 8) : Bytes :=
  fun b' o' => if b' = b ∧ o' = o then v else m b' o'

/-- `*((u8_t*)data)= v`, mem.cc 927. -/
def Bytes.store8 (m : Bytes) (p : Ptr) (v : BitVec 8) : Bytes := m.put p.blk p.off v
/-- `*((u16_t*)data)= v`, mem.cc 971. -/
def Bytes.store16 (m : Bytes) (p : Ptr) (v : BitVec 16) : Bytes :=
  (m.put p.blk p.off (v.extractLsb' 0 8)).put p.blk (p.off + 1) (v.extractLsb' 8 8)
/-- `*((u32_t*)data)= v`, mem.cc 1014. -/
def Bytes.store32 (m : Bytes) (p : Ptr) (v : BitVec 32) : Bytes :=
  (((m.put p.blk p.off (v.extractLsb' 0 8)).put p.blk (p.off + 1) (v.extractLsb' 8 8)).put
    p.blk (p.off + 2) (v.extractLsb' 16 8)).put p.blk (p.off + 3) (v.extractLsb' 24 8)

/-- Concrete cell classes of cell_template (mem.cc 1579-1591) and the dummy
cell (mem.cc 1512).  `cl_bit_cell16/32` are never instantiated. -/
inductive Kind | bit8 | c8 | c16 | c32 | dummy
deriving DecidableEq, Repr

/-- Operator objects chained on a cell: write event break (mem.cc 869), read
event break (891), peripheral callback (808), bank switcher (786).  The number
identifies the breakpoint / peripheral / banker. -/
inductive MOp
  | wr (bp : Nat) | rd (bp : Nat) | hw (h : Nat) | bank (k : Nat)
deriving DecidableEq, Repr

/-- cl_memory_cell (memcl.h 316-382).  The flag byte is split in the three
flags of `enum cell_flag` (memcl.h 46). -/
structure Cell where
  ptr : Ptr
  mask : W
  width : Nat
  kind : Kind
  fetchBrk : Bool
  ro : Bool
  nonDec : Bool
  ops : List MOp

/-- `&def_data`. -/
def defPtr : Ptr := ⟨none, 0⟩

/-- The mask loop of the cell constructor and set_width (mem.cc 1081-1087,
1109-1119): `mask=1; for (--w; w; w--) mask= mask<<1 | 1`.  For width 0 the C
loop runs through 2^32 values of w (model: 0 iterations; width 0 is excluded by
every theorem). -/
def maskLoop : Nat → W → W
  | 0, m => m
  | n + 1, m => maskLoop n ((m <<< 1) ||| 1#32)

/-- See `maskLoop`. -/
def maskOf (w : Nat) : W := maskLoop (w - 1) 1#32

/-- Cell class chosen by cl_address_space::cell_template (mem.cc 1579-1590). -/
def kindOf (width : Nat) : Kind :=
  if width = 1 then .bit8 else if width ≤ 8 then .c8 else if width ≤ 16 then .c16 else .c32

/-- Cell after cl_address_space::init copied the template (mem.cc 1556-1572,
constructor 1052-1069, init 1101-1106). -/
def newCell (width : Nat) : Cell :=
  { ptr := defPtr, mask := maskOf width, width := width, kind := kindOf width,
    fetchBrk := false, ro := false, nonDec := true, ops := [] }

/-- The dummy cell (mem.cc 1550-1551). -/
def newDummy (width : Nat) : Cell := { newCell width with kind := .dummy }

/-- `d()`: raw read of a cell, mem.cc 917-1035 and 1512. -/
def Cell.d (m : Bytes) (c : Cell) : W :=
  match c.kind with
  | .bit8 => if (m.load8 c.ptr &&& c.mask.setWidth 8) ≠ 0#8 then 1#32 else 0#32
  | .c8 => (m.load8 c.ptr).setWidth 32
  | .c16 => (m.load16 c.ptr).setWidth 32
  | .c32 | .dummy => m.load32 c.ptr

/-- `d(v)`: raw store in a cell, mem.cc 924-1045 and 1518.  `dl(v)` is the same
for every class (mem.cc 932, 975, 1020; memcl.h 313). -/
def Cell.dSet (m : Bytes) (c : Cell) (v : W) : Bytes :=
  match c.kind with
  | .bit8 =>
    if v ≠ 0#32 then m.store8 c.ptr (m.load8 c.ptr ||| c.mask.setWidth 8)
    else m.store8 c.ptr (m.load8 c.ptr &&& ~~~(c.mask.setWidth 8))
  | .c8 => m.store8 c.ptr (v.setWidth 8)
  | .c16 => m.store16 c.ptr (v.setWidth 16)
  | .c32 | .dummy => m.store32 c.ptr v

/-- The tail of cl_memory_cell::download (mem.cc 1274-1282), also the storing
part of write and set (1257-1260, 1268-1271). -/
def Cell.put (m : Bytes) (c : Cell) (v : W) : Bytes :=
  if c.width = 1 then c.dSet m v else c.dSet m (v &&& c.mask)

/-- cl_memory_cell::set, mem.cc 1261-1271 (non dummy cells). -/
def Cell.set (m : Bytes) (c : Cell) (v : W) : Bytes :=
  if c.ro then m else c.put m v

/-- cl_memory_cell::un_decode, mem.cc 1149-1157. -/
def Cell.unDecode (c : Cell) : Cell :=
  if c.nonDec then c else { c with ptr := defPtr, nonDec := true }

/-- cl_memory_cell::decode(void*), mem.cc 1172-1185, and the common part of the
two other decode functions (1159-1170, 1187-1201); `none` is NULL. -/
def Cell.decode (c : Cell) (p : Option Ptr) : Cell :=
  match p with
  | none => { c with ptr := defPtr, nonDec := true }
  | some q => { c with ptr := q, nonDec := false }

/-- cl_memory_cell::decode(void*, t_mem), mem.cc 1187-1201. -/
def Cell.decodeMask (c : Cell) (p : Option Ptr) (m : W) : Cell :=
  { c.decode p with mask := m }

/-- cl_memory_chip (mem.cc 2049-2087): element count and width in bits. -/
structure Chip where
  size : Nat
  width : Nat
deriving DecidableEq, Repr

/-- `bwidth`, mem.cc 2057-2062. -/
def Chip.bwidth (c : Chip) : Nat :=
  if c.width ≤ 8 then 1 else if c.width ≤ 16 then 2 else 4

/-- `alloc_size` of a chip that owns its array, mem.cc 2063. -/
def Chip.allocSize (c : Chip) : Nat := c.size * 4

/-- cl_memory_chip::get_slot, mem.cc 2112-2120 (`array` non-null). -/
def getSlot (chips : Nat → Chip) (k addr : Nat) : Option Ptr :=
  if (chips k).size ≤ addr then none else some ⟨some k, addr * (chips k).bwidth⟩

/-- cl_chip8/16/32::d(addr), mem.cc 2188-2256: read of a chip element. -/
def chipGet (chips : Nat → Chip) (m : Bytes) (k addr : Nat) : W :=
  if (chips k).size ≤ addr then 0#32
  else
    let p : Ptr := ⟨some k, addr * (chips k).bwidth⟩
    (if (chips k).width ≤ 8 then (m.load8 p).setWidth 32
     else if (chips k).width ≤ 16 then (m.load16 p).setWidth 32
     else m.load32 p) &&& maskOf (chips k).width

/-- cl_chip8/16/32::d(addr,v), mem.cc 2197-2266: store in a chip element. -/
def chipSet (chips : Nat → Chip) (m : Bytes) (k addr : Nat) (v : W) : Bytes :=
  if (chips k).size ≤ addr then m
  else
    let p : Ptr := ⟨some k, addr * (chips k).bwidth⟩
    let v := v &&& maskOf (chips k).width
    if (chips k).width ≤ 8 then m.store8 p (v.setWidth 8)
    else if (chips k).width ≤ 16 then m.store16 p (v.setWidth 16)
    else m.store32 p v

/-- cl_address_decoder (mem.cc 2294-2312).  `id` stands for the object's
address; `chip = none` is a null memchip (bankers). -/
structure Dec where
  id : Nat
  chip : Option Nat
  asb : Nat
  ase : Nat
  cb : Nat
  act : Bool
deriving DecidableEq, Repr

/-- cl_address_space (memcl.h 506-560): cells by index (address - start). -/
structure Space where
  start : Nat
  size : Nat
  width : Nat
  hasUc : Bool
  cells : Nat → Cell
  dummy : Cell
  decs : List Dec

/-- Constructor and init of an address space, mem.cc 1545-1572. -/
def newSpace (start size width : Nat) (hasUc : Bool) : Space :=
  { start, size, width, hasUc, cells := fun _ => newCell width,
    dummy := newDummy width, decs := [] }

/-- The range test of every access, mem.cc 1609-1611 and alike:
`idx= addr-start_address; if (idx >= size || addr < start_address)` fails. -/
def Space.idx? (s : Space) (addr : Nat) : Option Nat :=
  let idx := subU addr s.start
  if idx ≥ s.size ∨ addr < s.start then none else some idx

/-- cl_banker (mem.cc 2538-2591): selector location(s), banked area, table of
bank decoders (chip, chip_begin), number of the active bank. -/
structure Banker where
  selSp : Nat
  selAddr : Nat
  selMask : W
  sel2 : Option (Nat × Nat)
  sel2Mask : W
  sel2Shift : Nat
  sp : Nat
  asb : Nat
  ase : Nat
  shiftBy : Nat
  shift2By : Nat
  nuof : Nat
  banks : Nat → Option (Nat × Nat)
  bank : Option Nat

/-- Hit counting part of cl_brk (brk.cc 45-107). -/
structure BrkCnt where
  hit : Int
  cnt : Int
  cond : Bool      -- has a condition expression

/-- A cell of the world: a regular cell or the dummy cell of a space. -/
inductive CRef | cell (sp idx : Nat) | dummy (sp : Nat)
deriving DecidableEq, Repr

/-- State of the memory system. -/
structure World where
  bytes : Bytes
  spaces : Nat → Space
  bankers : Nat → Banker
  brks : Nat → BrkCnt
  /-- breakpoints added to uc->events, newest first -/
  events : List Nat
  /-- invalid address errors (space, address), newest first -/
  errors : List (Nat × Nat)
  /-- numbers drawn from urnd() so far -/
  nrnd : Nat
  /-- undefined behaviour happened -/
  ub : Bool

/-- The parts of the program outside of the memory system, as parameters:
chip geometry, peripherals, condition expressions of breakpoints, random
numbers. -/
structure Env where
  chips : Nat → Chip
  hwRead : Nat → CRef → World → World × W
  hwWrite : Nat → CRef → World → W → World × W
  cond : Nat → World → Bool
  rnd : Nat → W

def World.cell (w : World) : CRef → Cell
  | .cell sp i => (w.spaces sp).cells i
  | .dummy sp => (w.spaces sp).dummy

def World.setSpace (w : World) (sp : Nat) (s : Space) : World :=
  { w with spaces := upd w.spaces sp s }

def World.setCell (w : World) (r : CRef) (c : Cell) : World :=
  match r with
  | .cell sp i => w.setSpace sp { w.spaces sp with cells := upd (w.spaces sp).cells i c }
  | .dummy sp => w.setSpace sp { w.spaces sp with dummy := c }

/-- cl_memory_cell::get, mem.cc 1236. -/
def World.cget (w : World) (r : CRef) : W := (w.cell r).d w.bytes

/-- Dummy cell store, mem.cc 1523-1538: a random number is stored. -/
def World.dummyStore (env : Env) (w : World) (sp : Nat) : World :=
  let c := (w.spaces sp).dummy
  { w with bytes := w.bytes.store32 c.ptr (env.rnd w.nrnd &&& c.mask), nrnd := w.nrnd + 1 }

/-- cl_memory_cell::set (mem.cc 1261) / cl_dummy_cell::set (1533). -/
def World.cset (env : Env) (w : World) (r : CRef) (v : W) : World :=
  match r with
  | .cell sp i => { w with bytes := ((w.spaces sp).cells i).set w.bytes v }
  | .dummy sp => w.dummyStore env sp

/-- cl_memory_cell::download (mem.cc 1273; not overridden by the dummy). -/
def World.cdownload (w : World) (r : CRef) (v : W) : World :=
  { w with bytes := (w.cell r).put w.bytes v }

/-- cl_brk::do_hit, brk.cc 87-107: count down, on reaching zero reload and
report a hit if the condition (if any) holds. -/
def World.doHit (env : Env) (w : World) (bp : Nat) : World × Bool :=
  let b := w.brks bp
  let cnt := b.cnt - 1
  if cnt ≤ 0 then
    let w' := { w with brks := upd w.brks bp { b with cnt := b.hit } }
    (w', if b.cond then env.cond bp w' else true)
  else ({ w with brks := upd w.brks bp { b with cnt := cnt } }, false)

/-- `if (bp->do_hit()) uc->events->add(bp)`, mem.cc 881, 903. -/
def World.event (env : Env) (w : World) (bp : Nat) : World :=
  let (w', hit) := w.doHit env bp
  if hit then { w' with events := bp :: w'.events } else w'

/-- Reading operators: cl_memory_operator::read (mem.cc 767), cl_hw_operator::
read (817), cl_read_operator::read (900).  Write-event and bank operators
inherit the first. -/
def World.opRead (env : Env) (w : World) (r : CRef) : MOp → World × W
  | .wr _ | .bank _ => (w, w.cget r)
  | .rd bp => let w' := w.event env bp; (w', w'.cget r)
  | .hw h => env.hwRead h r w

/-- The read loop over the operators, mem.cc 1212-1215. -/
def World.readOps (env : Env) (r : CRef) : List MOp → World → W → World × W
  | [], w, x => (w, x)
  | o :: os, w, _ => let (w', x') := w.opRead env r o; World.readOps env r os w' x'

/-- cl_memory_cell::read, mem.cc 1203-1218. -/
def World.cread (env : Env) (w : World) (r : CRef) : World × W :=
  match (w.cell r).ops with
  | [] => (w, w.cget r)
  | os => World.readOps env r os w 0#32

/-- cl_memory::err_inv_addr, mem.cc 192-199. -/
def World.err (w : World) (sp addr : Nat) : World :=
  if (w.spaces sp).hasUc then { w with errors := (sp, addr) :: w.errors } else w

/-- cl_address_space::get_cell, mem.cc 1701-1713. -/
def World.getCell (w : World) (sp addr : Nat) : World × CRef :=
  match (w.spaces sp).idx? addr with
  | none => (w.err sp addr, .dummy sp)
  | some i => (w, .cell sp i)

/-- cl_address_space::read, mem.cc 1606-1617. -/
def World.read (env : Env) (w : World) (sp addr : Nat) : World × W :=
  match (w.spaces sp).idx? addr with
  | none => (w.err sp addr).cread env (.dummy sp)
  | some i => w.cread env (.cell sp i)

/-- cl_address_space::get, mem.cc 1632-1643. -/
def World.get (w : World) (sp addr : Nat) : World × W :=
  match (w.spaces sp).idx? addr with
  | none => (w.err sp addr, (w.err sp addr).cget (.dummy sp))
  | some i => (w, w.cget (.cell sp i))

/-- cl_banker::actual_bank, mem.cc 2733-2750. -/
def World.actualBank (env : Env) (w : World) (k : Nat) : World × Nat :=
  let b := w.bankers k
  let (w1, v) := w.read env b.selSp b.selAddr
  let v := (v &&& b.selMask) >>> b.shiftBy
  match b.sel2 with
  | none => (w1, v.toNat)
  | some (sp2, a2) =>
    if b.sel2Mask = 0#32 then (w1, v.toNat)
    else
      let (w2, v2) := w1.read env sp2 a2
      let v2 := ((v2 &&& b.sel2Mask) >>> b.shift2By) <<< b.sel2Shift
      (w2, (v ||| v2).toNat)

/-- One turn of the loop in cl_banker::activate, mem.cc 2765-2771: element
`cb+i` of the bank's chip is decoded at address `asb+i`. -/
def World.bankCell (env : Env) (w : World) (sp asb chip cb i : Nat) : World :=
  let (w', r) := w.getCell sp (u32 (asb + i))
  w'.setCell r ((w'.cell r).decode (getSlot env.chips chip (u32 (cb + i))))

/-- The loop of cl_banker::activate, mem.cc 2765-2771. -/
def World.bankLoop (env : Env) (sp asb chip cb : Nat) : Nat → World → World
  | 0, w => w
  | n + 1, w => (World.bankLoop env sp asb chip cb n w).bankCell env sp asb chip cb n

/-- cl_banker::switch_to, mem.cc 2777-2801, which is also the tail of
cl_banker::activate (2757-2774).  Indexing `banks` out of its bounds is
undefined behaviour. -/
def World.switchTo (env : Env) (w : World) (k b : Nat) : World :=
  let bk := w.bankers k
  if bk.bank = some b then w
  else if b ≥ bk.nuof then { w with ub := true }
  else match bk.banks b with
    | none => w
    | some (chip, cb) =>
      let w' := World.bankLoop env bk.sp bk.asb chip cb (u32 (subU bk.ase bk.asb + 1)) w
      { w' with bankers := upd w'.bankers k { w'.bankers k with bank := some b } }

/-- cl_banker::activate, mem.cc 2752-2775. -/
def World.bankActivate (env : Env) (w : World) (k : Nat) : World :=
  let (w', b) := w.actualBank env k
  w'.switchTo env k b

/-- Writing operators: cl_memory_operator::write (mem.cc 775),
cl_bank_switcher_operator::write (794), cl_hw_operator::write (851),
cl_write_operator::write (878). -/
def World.opWrite (env : Env) (w : World) (r : CRef) (v : W) : MOp → World × W
  | .rd _ => (w, v)
  | .wr bp => (w.event env bp, v)
  | .hw h => env.hwWrite h r w v
  | .bank k => let w' := (w.cset env r v).bankActivate env k; (w', w'.cget r)

/-- The write loop over the operators, mem.cc 1248-1252. -/
def World.writeOps (env : Env) (r : CRef) : List MOp → World → W → World × W
  | [], w, v => (w, v)
  | o :: os, w, v => let (w', v') := w.opWrite env r v o; World.writeOps env r os w' v'

/-- cl_memory_cell::write (mem.cc 1241-1259) / cl_dummy_cell::write (1523). -/
def World.cwrite (env : Env) (w : World) (r : CRef) (v : W) : World × W :=
  match r with
  | .dummy sp => let w' := w.dummyStore env sp; (w', w'.cget r)
  | .cell sp i =>
    let (w', v') := World.writeOps env r (w.cell r).ops w v
    let w'' := { w' with bytes := ((w'.spaces sp).cells i).set w'.bytes v' }
    (w'', w''.cget r)

/-- cl_address_space::write, mem.cc 1645-1657. -/
def World.write (env : Env) (w : World) (sp addr : Nat) (v : W) : World × W :=
  match (w.spaces sp).idx? addr with
  | none => (w.err sp addr).cwrite env (.dummy sp) v
  | some i => w.cwrite env (.cell sp i) v

/-- cl_address_space::set, mem.cc 1659-1671. -/
def World.set (env : Env) (w : World) (sp addr : Nat) (v : W) : World :=
  match (w.spaces sp).idx? addr with
  | none => (w.err sp addr).cset env (.dummy sp) v
  | some i => w.cset env (.cell sp i) v

/-- cl_address_space::download, mem.cc 1673-1685. -/
def World.download (w : World) (sp addr : Nat) (v : W) : World :=
  match (w.spaces sp).idx? addr with
  | none => (w.err sp addr).cdownload (.dummy sp) v
  | some i => w.cdownload (.cell sp i) v

/-- cl_address_space::get_cell_flag, mem.cc 1727-1737 (read-only flag). -/
def World.isRo (w : World) (sp addr : Nat) : Bool :=
  match (w.spaces sp).idx? addr with
  | none => (w.spaces sp).dummy.ro
  | some i => ((w.spaces sp).cells i).ro

/-- cl_address_space::set_cell_flag, mem.cc 1739-1753, for CELL_READ_ONLY. -/
def World.setRo (w : World) (sp addr : Nat) (b : Bool) : World :=
  match (w.spaces sp).idx? addr with
  | none => w.setCell (.dummy sp) { (w.spaces sp).dummy with ro := b }
  | some i => w.setCell (.cell sp i) { (w.spaces sp).cells i with ro := b }

end Ucsim
