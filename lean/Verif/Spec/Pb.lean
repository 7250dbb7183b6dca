/-
The PicoBlaze processors KCPSM3 and KCPSM6, from their user guides: the instructions, their codes, and
what they do.
-/
namespace Ucsim.Pb

abbrev Byte := BitVec 8
abbrev Reg := BitVec 4

/-- second operand: a constant or a register -/
inductive Opd | k (v : Byte) | r (y : Reg) deriving DecidableEq
inductive Cnd | always | z | nz | c | nc deriving DecidableEq
inductive Alu | load | and | or | xor | add | addcy | sub | subcy deriving DecidableEq
inductive Tst | test | compare | testcy | comparecy deriving DecidableEq
inductive Shf | sl0 | sl1 | slx | sla | rl | sr0 | sr1 | srx | sra | rr deriving DecidableEq

inductive I
  | alu (f : Alu) (x : Reg) (o : Opd)
  | tst (f : Tst) (x : Reg) (o : Opd)
  | shf (f : Shf) (x : Reg)
  | input (x : Reg) (o : Opd)
  | output (x : Reg) (o : Opd)
  | outputk (v : Byte) (p : BitVec 4)
  | fetch (x : Reg) (o : Opd)
  | store (x : Reg) (o : Opd)
  | jump (c : Cnd) (a : BitVec 12)
  | call (c : Cnd) (a : BitVec 12)
  | ret (c : Cnd)
  | jumpAt (x y : Reg)
  | callAt (x y : Reg)
  | loadRet (x : Reg) (v : Byte)
  | reti (e : Bool)
  | intr (e : Bool)
  | bank (b : Bool)
  | star (x y : Reg)
  | hwbuild (x : Reg)
  deriving DecidableEq

/-- the lower twelve bits of an instruction with the operands x and o -/
def low (x : Reg) : Opd → BitVec 12
  | .k v => x ++ v
  | .r y => x ++ (y ++ 0#4)

/-- the shift code of both processors -/
def shfCode : Shf → BitVec 8
  | .sla => 0x00 | .rl => 0x02 | .slx => 0x04 | .sl0 => 0x06 | .sl1 => 0x07
  | .sra => 0x08 | .srx => 0x0A | .rr => 0x0C | .sr0 => 0x0E | .sr1 => 0x0F

def isK : Opd → Bool
  | .k _ => true
  | .r _ => false

def cnd2 : Cnd → BitVec 2
  | .z => 0 | .nz => 1 | .c => 2 | .nc => 3 | .always => 0

/-- KCPSM3: the upper six and the lower twelve bits of the code of an instruction; `none` if it has none -/
def enc3 : I → Option (BitVec 6 × BitVec 12)
  | .alu f x o =>
    let b : BitVec 6 := match f with
      | .load => 0x00 | .and => 0x0A | .or => 0x0C | .xor => 0x0E | .add => 0x18 | .addcy => 0x1A | .sub => 0x1C | .subcy => 0x1E
    some (if isK o then b else b + 1, low x o)
  | .tst .test x o => some (if isK o then 0x12 else 0x13, low x o)
  | .tst .compare x o => some (if isK o then 0x14 else 0x15, low x o)
  | .shf f x => some (0x20, x ++ shfCode f)
  | .input x o => some (if isK o then 0x04 else 0x05, low x o)
  | .output x o => some (if isK o then 0x2C else 0x2D, low x o)
  | .fetch x (.k v) => if v.toNat < 64 then some (0x06, low x (.k v)) else none
  | .fetch x (.r y) => some (0x07, low x (.r y))
  | .store x (.k v) => if v.toNat < 64 then some (0x2E, low x (.k v)) else none
  | .store x (.r y) => some (0x2F, low x (.r y))
  | .jump c a => if a.toNat < 1024 then some (if c = .always then 0x34 else 0x35, cnd2 c ++ a.setWidth 10) else none
  | .call c a => if a.toNat < 1024 then some (if c = .always then 0x30 else 0x31, cnd2 c ++ a.setWidth 10) else none
  | .ret c => some (if c = .always then 0x2A else 0x2B, cnd2 c ++ 0#10)
  | .reti e => some (0x38, if e then 1 else 0)
  | .intr e => some (0x3C, if e then 1 else 0)
  | _ => none

/-- KCPSM6 -/
def enc6 : I → Option (BitVec 6 × BitVec 12)
  | .alu f x o =>
    let b : BitVec 6 := match f with
      | .load => 0x00 | .and => 0x02 | .or => 0x04 | .xor => 0x06 | .add => 0x10 | .addcy => 0x12 | .sub => 0x18 | .subcy => 0x1A
    some (if isK o then b + 1 else b, low x o)
  | .tst f x o =>
    let b : BitVec 6 := match f with
      | .test => 0x0C | .testcy => 0x0E | .compare => 0x1C | .comparecy => 0x1E
    some (if isK o then b + 1 else b, low x o)
  | .shf f x => some (0x14, x ++ shfCode f)
  | .hwbuild x => some (0x14, x ++ 0x80#8)
  | .input x o => some (if isK o then 0x09 else 0x08, low x o)
  | .output x o => some (if isK o then 0x2D else 0x2C, low x o)
  | .outputk v p => some (0x2B, v ++ p)
  | .fetch x o => some (if isK o then 0x0B else 0x0A, low x o)
  | .store x o => some (if isK o then 0x2F else 0x2E, low x o)
  | .jump c a => some (match c with | .always => 0x22 | .z => 0x32 | .nz => 0x36 | .c => 0x3A | .nc => 0x3E, a)
  | .call c a => some (match c with | .always => 0x20 | .z => 0x30 | .nz => 0x34 | .c => 0x38 | .nc => 0x3C, a)
  | .ret c => some (match c with | .always => 0x25 | .z => 0x31 | .nz => 0x35 | .c => 0x39 | .nc => 0x3D, 0)
  | .jumpAt x y => some (0x26, low x (.r y))
  | .callAt x y => some (0x24, low x (.r y))
  | .loadRet x v => some (0x21, low x (.k v))
  | .reti e => some (0x29, if e then 1 else 0)
  | .intr e => some (0x28, if e then 1 else 0)
  | .bank b => some (0x37, if b then 1 else 0)
  | .star x y => some (0x16, low x (.r y))

/-- The machine: two banks of registers (KCPSM3 uses only the first), flags, the addresses that wait for
RETURN, the scratch pad, and what was put out, latest first. -/
@[ext] structure S where
  /-- bank (true for B), register -/
  reg : Bool → Reg → Byte
  bank : Bool
  C : Bool
  Z : Bool
  IE : Bool
  /-- the flags that an interrupt has saved -/
  sC : Bool
  sZ : Bool
  stack : List Nat
  ram : Byte → Byte
  PC : Nat
  out : List (Byte × Byte)
  clocks : Nat

/-- What the machine is built into. -/
structure Env where
  six : Bool
  ramSize : Nat
  hwc : Byte
  /-- what an input port gives at a time -/
  inp : Byte → Nat → Byte

def opd (s : S) : Opd → Byte
  | .k v => v
  | .r y => s.reg s.bank y

def setReg (s : S) (x : Reg) (v : Byte) : S :=
  { s with reg := fun b z => if b = s.bank ∧ z = x then v else s.reg b z }

/-- the number of ones of a byte is odd -/
def odd (v : Byte) : Bool := decide (((List.range 8).countP fun i => v.getLsbD i) % 2 = 1)

def cond (s : S) : Cnd → Bool
  | .always => true | .z => s.Z | .nz => !s.Z | .c => s.C | .nc => !s.C

/-- result, C and Z of an operation on a and b; `k` is KCPSM6 -/
def alu (k : Bool) (C Z : Bool) (a b : Nat) : Alu → Nat × Bool × Bool
  | .load => (b, C, Z)
  | .and => (a &&& b, false, a &&& b = 0)
  | .or => (a ||| b, false, a ||| b = 0)
  | .xor => (a ^^^ b, false, a ^^^ b = 0)
  | .add => ((a + b) % 256, decide (256 ≤ a + b), decide ((a + b) % 256 = 0))
  | .addcy => ((a + b + C.toNat) % 256, decide (256 ≤ a + b + C.toNat), decide ((a + b + C.toNat) % 256 = 0) && (!k || Z))
  | .sub => ((a + 256 - b) % 256, decide (a < b), decide ((a + 256 - b) % 256 = 0))
  | .subcy => ((a + 512 - b - C.toNat) % 256, decide (a < b + C.toNat), decide ((a + 512 - b - C.toNat) % 256 = 0) && (!k || Z))

/-- C and Z of a test; the comparisons are subtractions that keep only the flags -/
def tst (C Z : Bool) (a b : Byte) : Tst → Bool × Bool
  | .test => (odd (a &&& b), decide (a &&& b = 0))
  | .testcy => (odd (a &&& b) != C, decide (a &&& b = 0) && Z)
  | .compare => (alu true C Z a.toNat b.toNat .sub).2
  | .comparecy => (alu true C Z a.toNat b.toNat .subcy).2

/-- the bit that comes in and the direction (true is left) -/
def shf (C : Bool) (v : Byte) : Shf → Byte × Bool
  | .sl0 => (v <<< 1, v.getLsbD 7) | .sl1 => (v <<< 1 ||| 1, v.getLsbD 7)
  | .slx => (v <<< 1 ||| (v &&& 1), v.getLsbD 7) | .sla => (v <<< 1 ||| (if C then 1 else 0), v.getLsbD 7)
  | .rl => (v.rotateLeft 1, v.getLsbD 7)
  | .sr0 => (v >>> 1, v.getLsbD 0) | .sr1 => (v >>> 1 ||| 0x80, v.getLsbD 0)
  | .srx => (v >>> 1 ||| (v &&& 0x80), v.getLsbD 0) | .sra => (v >>> 1 ||| (if C then 0x80 else 0), v.getLsbD 0)
  | .rr => (v.rotateRight 1, v.getLsbD 0)

def updR (f : Byte → Byte) (a v : Byte) : Byte → Byte := fun z => if z = a then v else f z

/-- an address in the scratch pad -/
def place (e : Env) (a : Byte) : Byte := BitVec.ofNat 8 (a.toNat % e.ramSize)

/-- At most 30 addresses wait (the last place of the 31 of KCPSM3 is not used here). -/
def push (s : S) (target : Nat) : Option S :=
  if s.stack.length < 30 then some { s with stack := s.PC :: s.stack, PC := target } else none

def pop (s : S) : Option S :=
  match s.stack with
  | a :: t => some { s with stack := t, PC := a }
  | [] => none

/-- the twelve bits of two registers -/
def pair (s : S) (x y : Reg) : Nat := (s.reg s.bank x).toNat % 16 * 256 + (s.reg s.bank y).toNat

/-- one instruction; `s.PC` is already the next address and the clock has been counted -/
def exec (e : Env) (s : S) : I → Option S
  | .alu f x o =>
    let r := alu e.six s.C s.Z (s.reg s.bank x).toNat (opd s o).toNat f
    some { setReg s x (BitVec.ofNat 8 r.1) with C := r.2.1, Z := r.2.2 }
  | .tst f x o => let r := tst s.C s.Z (s.reg s.bank x) (opd s o) f; some { s with C := r.1, Z := r.2 }
  | .shf f x => let r := shf s.C (s.reg s.bank x) f; some { setReg s x r.1 with C := r.2, Z := decide (r.1 = 0) }
  | .input x o => some (setReg s x (e.inp (opd s o) s.clocks))
  | .output x o => some { s with out := (opd s o, s.reg s.bank x) :: s.out }
  | .outputk v p => some { s with out := (p.setWidth 8, v) :: s.out }
  | .fetch x o => some (setReg s x (s.ram (place e (opd s o))))
  | .store x o => some { s with ram := updR s.ram (place e (opd s o)) (s.reg s.bank x) }
  | .jump c a => some (if cond s c then { s with PC := a.toNat } else s)
  | .call c a => if cond s c then push s a.toNat else some s
  | .ret c => if cond s c then pop s else some s
  | .jumpAt x y => some { s with PC := pair s x y }
  | .callAt x y => push s (pair s x y)
  | .loadRet x v => pop (setReg s x v)
  | .reti b => (pop s).map fun s => { s with C := s.sC, Z := s.sZ, IE := b }
  | .intr b => some { s with IE := b }
  | .bank b => some { s with bank := b }
  | .star x y => some { s with reg := fun b z => if b = !s.bank ∧ z = x then s.reg s.bank y else s.reg b z }
  | .hwbuild x => some { setReg s x e.hwc with C := true, Z := decide (e.hwc = 0) }

/-- One step of a program; the program memory has 1024 words, or up to 4096 (KCPSM6). -/
def sstep (e : Env) (prog : Nat → Option I) (s : S) : Option S :=
  (prog s.PC).bind fun i => exec e { s with PC := (s.PC + 1) % (if e.six then 4096 else 1024), clocks := s.clocks + 1 } i

/-- n steps -/
def srun (e : Env) (prog : Nat → Option I) : Nat → S → Option S
  | 0, s => some s
  | n + 1, s => (sstep e prog s).bind (srun e prog n)

/-- An interrupt: the address of the instruction that would have been next waits, the flags are saved,
interrupts are off, and the program goes on at 0x3FF. -/
def accept (s : S) : Option S :=
  push { s with sC := s.C, sZ := s.Z, IE := false, clocks := s.clocks + 1 } 0x3FF

end Ucsim.Pb
