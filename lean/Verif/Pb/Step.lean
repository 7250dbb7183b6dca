import Verif.Pb.Table
set_option linter.constructorNameAsVariable false
/-
The PicoBlaze simulator: /repo/src/sims/pblaze.src/inst.cc, stack.cc, pblaze.cc (exec_inst, reset,
do_interrupt) and cl_uc::fetch, uc.cc 3185-3197.

Simplifications: the files of inputs are a function of port and time, the ports' values for displays are
not kept; an unmapped cell reads as `dummy` and a write to it is forgotten; breakpoints are left out.
-/
namespace Ucsim.Pb

structure M where
  /-- sfr cells 0-15 (bank A) and 16-31 (bank B) -/
  reg : Bool → Reg → Byte
  bank : Bool
  C : Bool
  Z : Bool
  IE : Bool
  /-- interrupt->preserved_flag_c and _z, interrupt->interrupt_request -/
  sC : Bool
  sZ : Bool
  irq : Bool
  /-- the cell SP of sfr, and the stack space of 12 bits -/
  sp : Nat
  stk : Nat → BitVec 12
  ram : Byte → Byte
  PC : Nat
  rom : Nat → BitVec 18
  out : List (Byte × Byte)
  clocks : Nat
  dummy : Byte

/-- cl_pblaze::get_register, inst.cc 38-54: the codes of the two registers -/
def getX (w : BitVec 18) : Reg := w.extractLsb' 8 4
def getY (w : BitVec 18) : Reg := w.extractLsb' 4 4
/-- get_constant, inst.cc 56-59 -/
def getK (w : BitVec 18) : Byte := w.extractLsb' 0 8
/-- get_address10, get_address12, inst.cc 66-74 -/
def getA10 (w : BitVec 18) : Nat := (w.extractLsb' 0 10).toNat
def getA12 (w : BitVec 18) : Nat := (w.extractLsb' 0 12).toNat

def wreg (m : M) (x : Reg) (v : Byte) : M :=
  { m with reg := fun b z => if b = m.bank ∧ z = x then v else m.reg b z }

/-- cl_pblaze::reset, pblaze.cc 110-119, with cl_uc::reset, uc.cc 774-800 -/
def reset (m : M) : M := { m with C := false, Z := false, IE := false, sp := 0, bank := false, PC := 0, clocks := 0 }

/-- stack_size, pblaze.cc 1345-1348 -/
def stackSize (e : Env) : Nat := if e.six then 30 else 31

/-- cl_pblaze::stack_push, stack.cc 31-46 -/
def stackPush (e : Env) (m : M) (v : BitVec 12) : M × Bool :=
  ({ m with stk := fun i => if i = m.sp ∧ m.sp < stackSize e then v else m.stk i, sp := (m.sp + 1) % 31 }, decide (30 < m.sp + 1))

/-- cl_pblaze::stack_pop, stack.cc 49-68 -/
def stackPop (e : Env) (m : M) : M × Nat × Bool :=
  let p := if m.sp = 0 then 30 else m.sp - 1
  ({ m with sp := p }, if p < stackSize e then (m.stk p).toNat else m.dummy.toNat, decide (p = 30))

/-- FLAGS_GET as the switches of inst_call, inst_jump and inst_return use it, inst.cc 206-240, 415-449, 604-633 -/
def cnd (m : M) : Op → Bool
  | .CALL | .CALL_AT | .JUMP | .JUMP_AT | .RETURN => true
  | .CALL_C | .JUMP_C | .RETURN_C => m.C
  | .CALL_NC | .JUMP_NC | .RETURN_NC => !m.C
  | .CALL_Z | .JUMP_Z | .RETURN_Z => m.Z
  | .CALL_NZ | .JUMP_NZ | .RETURN_NZ => !m.Z
  | _ => false

/-- the operand of the arithmetic instructions, inst.cc 87-96 and the same lines of the others -/
def operand (m : M) (w : BitVec 18) : Opr → Byte
  | .REG_CONSTANT | .REG_PORT => getK w
  | .REG_REG => m.reg m.bank (getY w)
  | .REG_ADDRESS6 => getK w &&& 0x3F
  | .REG_ADDRESS8 => getK w
  | _ => 0

/-- the address of inst_call and inst_jump, inst.cc 192-204, 401-413 -/
def target (m : M) (w : BitVec 18) : Opr → Nat
  | .ADDRESS10 => getA10 w
  | .ADDRESS12 => getA12 w
  | _ => ((m.reg m.bank (getX w)).toNat % 16) * 256 + (m.reg m.bank (getY w)).toNat

/-- inst_call when the jump is made, inst.cc 242-251 -/
def call (e : Env) (m : M) (address : Nat) : M :=
  let r := stackPush e m (BitVec.ofNat 12 (m.PC + 4095))
  let m := if r.2 && e.six then reset r.1 else r.1
  { m with PC := address }

/-- inst_return when the jump is made, inst.cc 635-646 -/
def ret (e : Env) (m : M) : M :=
  let r := stackPop e m
  let m := if r.2.2 && e.six then reset r.1 else r.1
  { m with PC := r.2.1 + 1 }

/-- the parity loop of inst_test, inst.cc 931-937 -/
def parity (fuel : Nat) (r : Nat) (p : Bool) : Bool :=
  match fuel with
  | 0 => p
  | n + 1 => if r = 0 then p else parity n (r &&& (r - 1)) (!p)

/-- cl_pblaze::exec_inst, pblaze.cc 782-866, and the inst_ functions of inst.cc -/
def execM (e : Env) (m : M) (w : BitVec 18) (op : Op) (opr : Opr) : M :=
  let x := getX w
  let a := m.reg m.bank x
  let b := operand m w opr
  match op with
  | .ADD => let r := a.toNat + b.toNat
    wreg { m with C := decide (255 < r), Z := decide (r % 256 = 0) } x (BitVec.ofNat 8 (r % 256))
  | .ADDCY => let r := a.toNat + b.toNat + (if m.C then 1 else 0)
    wreg { m with C := decide (255 < r), Z := if e.six then m.Z && decide (r % 256 = 0) else decide (r % 256 = 0) } x (BitVec.ofNat 8 (r % 256))
  | .SUB => let r : Int := (a.toNat : Int) - b.toNat
    wreg { m with C := decide (r < 0), Z := decide (r.tmod 256 = 0) } x (BitVec.ofInt 8 (r.tmod 256))
  | .SUBCY => let r : Int := (a.toNat : Int) - b.toNat - (if m.C then 1 else 0)
    wreg { m with C := decide (r < 0), Z := if e.six then m.Z && decide (r.tmod 256 = 0) else decide (r.tmod 256 = 0) } x (BitVec.ofInt 8 (r.tmod 256))
  | .AND => wreg { m with C := false, Z := decide (a &&& b = 0) } x (a &&& b)
  | .OR => wreg { m with C := false, Z := decide (a ||| b = 0) } x (a ||| b)
  | .XOR => wreg { m with C := false, Z := decide (a ^^^ b = 0) } x (a ^^^ b)
  | .LOAD => wreg m x b
  | .COMPARE => { m with C := decide (a.toNat < b.toNat), Z := decide (a = b) }
  | .COMPARECY => { m with Z := decide (a.toNat = b.toNat + m.C.toNat) && m.Z, C := decide (a.toNat < b.toNat + m.C.toNat) }
  | .TEST => { m with Z := decide (a &&& b = 0), C := parity 9 (a &&& b).toNat false }
  | .TESTCY => { m with Z := decide (a &&& b = 0) && m.Z, C := parity 9 (a &&& b).toNat false != m.C }
  | .FETCH => wreg m x (if b.toNat < e.ramSize then m.ram b else m.dummy)
  | .STORE => if b.toNat < e.ramSize then { m with ram := fun z => if z = b then a else m.ram z } else m
  | .HWBUILD => wreg { m with C := true, Z := decide (e.hwc = 0) } x e.hwc
  | .IINPUT => wreg m x (e.inp b m.clocks)
  | .OUTPUT => { m with out := (b, a) :: m.out }
  | .OUTPUTK => { m with out := (BitVec.ofNat 8 (w.toNat % 16), BitVec.ofNat 8 ((w.toNat &&& 0xFF0) / 256)) :: m.out }
  | .ENABLE_INTERRUPT => { m with IE := true }
  | .DISABLE_INTERRUPT => { m with IE := false }
  | .JUMP => { m with PC := target m w opr }
  | .JUMP_AT => { m with PC := target m w opr }
  | .JUMP_C => if cnd m .JUMP_C then { m with PC := target m w opr } else m
  | .JUMP_NC => if cnd m .JUMP_NC then { m with PC := target m w opr } else m
  | .JUMP_Z => if cnd m .JUMP_Z then { m with PC := target m w opr } else m
  | .JUMP_NZ => if cnd m .JUMP_NZ then { m with PC := target m w opr } else m
  | .CALL => call e m (target m w opr)
  | .CALL_AT => call e m (target m w opr)
  | .CALL_C => if cnd m .CALL_C then call e m (target m w opr) else m
  | .CALL_NC => if cnd m .CALL_NC then call e m (target m w opr) else m
  | .CALL_Z => if cnd m .CALL_Z then call e m (target m w opr) else m
  | .CALL_NZ => if cnd m .CALL_NZ then call e m (target m w opr) else m
  | .RETURN => ret e m
  | .RETURN_C => if cnd m .RETURN_C then ret e m else m
  | .RETURN_NC => if cnd m .RETURN_NC then ret e m else m
  | .RETURN_Z => if cnd m .RETURN_Z then ret e m else m
  | .RETURN_NZ => if cnd m .RETURN_NZ then ret e m else m
  | .LOAD_RETURN => ret e (wreg m x b)
  | .RETURNI_DISABLE => let m := ret e m; { m with C := m.sC, Z := m.sZ, IE := false }
  | .RETURNI_ENABLE => let m := ret e m; { m with C := m.sC, Z := m.sZ, IE := true }
  | .REGBANK_A => { m with bank := false }
  | .REGBANK_B => { m with bank := true }
  | .STAR => { m with reg := fun b z => if b = !m.bank ∧ z = getY w then m.reg m.bank (getY w) else m.reg b z }
  | .RL => wreg { m with C := a.getLsbD 7, Z := decide (a <<< 1 ||| a >>> 7 = 0) } x (a <<< 1 ||| a >>> 7)
  | .RR => wreg { m with C := a.getLsbD 0, Z := decide (a >>> 1 ||| a <<< 7 = 0) } x (a >>> 1 ||| a <<< 7)
  | .SL0 => wreg { m with C := a.getLsbD 7, Z := decide (a <<< 1 = 0) } x (a <<< 1)
  | .SL1 => wreg { m with C := a.getLsbD 7, Z := decide (a <<< 1 ||| 1 = 0) } x (a <<< 1 ||| 1)
  | .SLA => let r := a <<< 1 ||| (if m.C then 1 else 0); wreg { m with C := a.getLsbD 7, Z := decide (r = 0) } x r
  | .SLX => let r := a <<< 1 ||| (a &&& 1); wreg { m with C := a.getLsbD 7, Z := decide (r = 0) } x r
  | .SR0 => wreg { m with C := a.getLsbD 0, Z := decide (a >>> 1 = 0) } x (a >>> 1)
  | .SR1 => wreg { m with C := a.getLsbD 0, Z := decide (a >>> 1 ||| 0x80 = 0) } x (a >>> 1 ||| 0x80)
  | .SRA => let r := a >>> 1 ||| (if m.C then 0x80 else 0); wreg { m with C := a.getLsbD 0, Z := decide (r = 0) } x r
  | .SRX => let r := a >>> 1 ||| (a &&& 0x80); wreg { m with C := a.getLsbD 0, Z := decide (r = 0) } x r

def table (e : Env) : List Ent := if e.six then t6 else t3

/-- cl_pblaze::exec_inst, pblaze.cc 764-875, with cl_uc::fetch; PCmask is 0x3ff, pblaze.cc 70. An
unknown code leaves PC, as cl_uc::do_inst, uc.cc 3255-3257, puts it back. -/
def step (e : Env) (m : M) : M :=
  let w := m.rom m.PC
  let m' := { m with PC := (m.PC + 1) % 1024, clocks := m.clocks + 1 }
  match find (table e) w with
  | some t => execM e m' w t.op t.opr
  | none => { m' with PC := m.PC }

/-- cl_pblaze::do_interrupt, pblaze.cc 881-920, with the interrupt vector 0x3ff -/
def interrupt (e : Env) (m : M) : M :=
  if m.IE && m.irq then
    call e { m with clocks := m.clocks + 1, sC := m.C, sZ := m.Z, IE := false, irq := false } 0x3FF
  else m

/-- what the user guide speaks of -/
def view (m : M) : S where
  reg := m.reg
  bank := m.bank
  C := m.C
  Z := m.Z
  IE := m.IE
  sC := m.sC
  sZ := m.sZ
  stack := (List.range m.sp).reverse.map fun i => (m.stk i).toNat + 1
  ram := m.ram
  PC := m.PC
  out := m.out
  clocks := m.clocks

end Ucsim.Pb
