/-
The Ultimate RISC of D. W. Jones, from the table in urisc.cc: a word is moved from a source to a
destination; the arithmetic unit is at 0xFFF0-0xFFF7 and the program counter at 0xFFFF.
-/
namespace Ucsim.Urisc

abbrev Word := BitVec 16

@[ext] structure S where
  A : Word
  N : Bool
  Z : Bool
  O : Bool
  C : Bool
  PC : Word
  /-- memory below 0xFFF0 -/
  ram : Word → Word

inductive Src | acc | n | z | o | c | no | noz | cz | pc | mem (a : Word) deriving DecidableEq
inductive Dst | acc | sub | rsub | add | xor | and | or | shr | pc | mem (a : Word) deriving DecidableEq

def srcOf (a : Word) : Option Src :=
  if a = 0xFFF0 then some .acc else if a = 0xFFF1 then some .n else if a = 0xFFF2 then some .z else if a = 0xFFF3 then some .o
  else if a = 0xFFF4 then some .c else if a = 0xFFF5 then some .no else if a = 0xFFF6 then some .noz else if a = 0xFFF7 then some .cz
  else if a = 0xFFFF then some .pc else if a.toNat < 0xFFF0 then some (.mem a) else none

def dstOf (a : Word) : Option Dst :=
  if a = 0xFFF0 then some .acc else if a = 0xFFF1 then some .sub else if a = 0xFFF2 then some .rsub else if a = 0xFFF3 then some .add
  else if a = 0xFFF4 then some .xor else if a = 0xFFF5 then some .and else if a = 0xFFF6 then some .or else if a = 0xFFF7 then some .shr
  else if a = 0xFFFF then some .pc else if a.toNat < 0xFFF0 then some (.mem a) else none

/-- a condition as a word: the length of an instruction, so that a jump can skip one -/
def cond (b : Bool) : Word := if b then 2 else 0

def val (s : S) : Src → Word
  | .acc => s.A
  | .n => cond s.N
  | .z => cond s.Z
  | .o => cond s.O
  | .c => cond s.C
  | .no => cond (s.N != s.O)
  | .noz => cond ((s.N != s.O) || s.Z)
  | .cz => cond (s.C != !s.Z)
  | .pc => s.PC
  | .mem a => s.ram a

def upd (f : Word → Word) (a v : Word) : Word → Word := fun x => if x = a then v else f x

/-- x + y + c with its four flags -/
def sum (s : S) (x y : Word) (c : Nat) : S :=
  let r := x.toNat + y.toNat + c
  let i := x.toInt + y.toInt + c
  { s with A := BitVec.ofNat 16 r, C := decide (65536 ≤ r), Z := decide (r % 65536 = 0), N := decide (32768 ≤ r % 65536), O := decide (i < -32768 ∨ 32767 < i) }

def put (s : S) (v : Word) : Dst → S
  | .acc => { s with A := v }
  | .sub => sum s s.A (~~~v) 1
  | .rsub => sum s v (~~~s.A) 1
  | .add => sum s s.A v 0
  | .xor => { s with A := s.A ^^^ v }
  | .and => { s with A := s.A &&& v }
  | .or => { s with A := s.A ||| v }
  | .shr => { s with A := BitVec.ofNat 16 (v.toNat / 2) }
  | .pc => { s with PC := v }
  | .mem a => { s with ram := upd s.ram a v }

/-- One instruction; `none` where the table says nothing. -/
def sstep (s : S) : Option S :=
  if s.PC.toNat + 1 < 0xFFF0 then
    (srcOf (s.ram s.PC)).bind fun x => (dstOf (s.ram (s.PC + 1))).map fun y => put { s with PC := s.PC + 2 } (val s x) y
  else none

/-- the sources that do not look at the overflow flag or at PC -/
def plainSrc : Src → Prop
  | .o | .no | .noz | .pc => False
  | _ => True

/-- a - b -/
theorem sum_sub (s : S) (a b : Word) : (sum s a (~~~b) 1).A = a - b := by
  apply BitVec.eq_of_toNat_eq
  simp only [sum]
  rw [BitVec.toNat_sub, BitVec.toNat_ofNat, BitVec.toNat_not]
  have := a.isLt; have := b.isLt
  congr 1; omega

end Ucsim.Urisc
