import Verif.Spec.H08

/-
Where the simulator is known not to do what the manual says (each is shown in Props/H08.lean), in
terms of the manual's machine before the instruction.
-/
namespace Ucsim.H08.Isa

/-- The effective address before it wraps around the 64K. -/
def Mach.sum (m : Mach) (q : Word) : Mode → Nat
  | .dir => (m.mem q).toNat
  | .ext => (m.word q).toNat
  | .ix2 => m.hx.toNat + (m.word q).toNat
  | .ix1 => m.hx.toNat + (m.mem q).toNat
  | .ix => m.hx.toNat
  | .sp2 => m.sp.toNat + (m.word q).toNat
  | .sp1 => m.sp.toNat + (m.mem q).toNat
  | .imm | .A | .X => 0

/-- It does wrap around. -/
def Mach.over (m : Mach) (q : Word) (k : Mode) : Prop := 0x10000 ≤ m.sum q k

/-- A branch (its offset is at `q`) that is taken leaves the 64K at either end. -/
def Mach.leaves (m : Mach) (q : Word) (t : Bool) : Prop :=
  t = true ∧ ¬ (0 ≤ ((q + 1).toNat : Int) + (m.mem q).toInt ∧ ((q + 1).toNat : Int) + (m.mem q).toInt < 0x10000)

/-- Where the offset of a CBEQ is, and whether it branches. -/
def Mach.cb (m : Mach) (q : Word) : CbMode → Word × Bool
  | .dir => (q + 1, m.operand q .dir == m.a)
  | .a => (q + 1, m.mem q == m.a)
  | .x => (q + 1, m.mem q == m.x)
  | .ix1 => (q + 1, m.operand q .ix1 == m.a)
  | .ix => (q, m.operand q .ix == m.a)
  | .sp1 => (q + 1, m.operand q .sp1 == m.a)

/-- A DBNZ that counts in its own offset byte. -/
def Mach.ownOffset (m : Mach) (q : Word) (k : Mode) : Prop := k ≠ .A ∧ k ≠ .X ∧ m.ea q k = q + BitVec.ofNat 16 k.bytes

/-- `q`: the address of the operand bytes. -/
def Differs (m : Mach) (q : Word) : Ins → Prop
  | .other | .daa | .swi | .stop | .wait => True
  | .sta k | .stx k | .sthx k | .jmp k | .jsr k => m.over q k
  | .rmw o k => o ≠ .tst ∧ m.over q k
  | .brbit b n => m.leaves (q + 1) ((m.operand q .dir).getLsbD n == b)
  | .br c b => m.leaves q (m.cond c == b)
  | .cbeq k => m.leaves (m.cb q k).1 (m.cb q k).2
  | .dbnz k =>
    let r := m.operand q k - 1
    m.over q k ∨ m.leaves (q + BitVec.ofNat 16 k.bytes) (r != 0) ∨ m.ownOffset q k ∨ ¬ (m.n = r.msb ∧ m.z = (r == 0) ∧ m.v = (r == 0x7f#8))
  | .bsr => m.leaves q true
  | .rsp => m.sp.extractLsb' 8 8 ≠ 0#8
  | _ => False

def run (s08 : Bool) : List Undef → Mach → Mach
  | [], m => m
  | u :: us, m => run s08 us (step s08 u m)

end Ucsim.H08.Isa
