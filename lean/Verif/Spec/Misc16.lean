/-
The MISC16 processor, from the table of its designers (also in the comment of misc16.cc): every
instruction moves a word from a source to a destination, and some addresses mean something.
-/
namespace Ucsim.Misc

abbrev Word := BitVec 16

/-- Accumulator, carry, program counter, and the memory from address 16 on. -/
@[ext] structure S where
  A : Word
  C : Bool
  PC : Word
  ram : Word → Word

inductive Src
  | pc | pc2 | pc4 | pc6 | ind | acc
  | mem (a : Word)
  deriving DecidableEq

inductive Dst
  | pc | ifNeg | ifZero | ifCarry | ind | acc | sub | add | xor | or | and | shr
  | mem (a : Word)
  deriving DecidableEq

/-- the column Source of the table -/
def srcOf (a : Word) : Option Src :=
  if a = 0 then some .pc else if a = 1 then some .pc2 else if a = 2 then some .pc4
  else if a = 3 then some .pc6 else if a = 7 then some .ind else if a = 8 then some .acc
  else if 16 ≤ a.toNat then some (.mem a) else none

/-- the column Destination of the table -/
def dstOf (a : Word) : Option Dst :=
  if a = 0 then some .pc else if a = 1 then some .ifNeg else if a = 2 then some .ifZero
  else if a = 4 then some .ifCarry else if a = 7 then some .ind else if a = 8 then some .acc
  else if a = 9 then some .sub else if a = 11 then some .add else if a = 12 then some .xor
  else if a = 13 then some .or else if a = 14 then some .and else if a = 15 then some .shr
  else if 16 ≤ a.toNat then some (.mem a) else none

/-- what a source gives; PC is the address of the instruction -/
def val (s : S) : Src → Option Word
  | .pc => some s.PC
  | .pc2 => some (s.PC + 2)
  | .pc4 => some (s.PC + 4)
  | .pc6 => some (s.PC + 6)
  | .ind => if 16 ≤ s.A.toNat then some (s.ram s.A) else none
  | .acc => some s.A
  | .mem a => some (s.ram a)

def upd (f : Word → Word) (a v : Word) : Word → Word := fun x => if x = a then v else f x

/-- What a destination does with the word; PC is the address of the next instruction. -/
def put (s : S) (v : Word) : Dst → Option S
  | .pc => some { s with PC := v }
  | .ifNeg => some { s with PC := if 32768 ≤ s.A.toNat then v else s.PC }
  | .ifZero => some { s with PC := if s.A.toNat = 0 then v else s.PC }
  | .ifCarry => some { s with PC := if s.C then v else s.PC }
  | .ind => if 16 ≤ s.A.toNat then some { s with ram := upd s.ram s.A v } else none
  | .acc => some { s with A := v }
  | .sub => some { s with A := BitVec.ofNat 16 (s.A.toNat + 65536 - v.toNat), C := decide (s.A.toNat < v.toNat) }
  | .add => some { s with A := BitVec.ofNat 16 (s.A.toNat + v.toNat), C := decide (65536 ≤ s.A.toNat + v.toNat) }
  | .xor => some { s with A := s.A ^^^ v }
  | .or => some { s with A := s.A ||| v }
  | .and => some { s with A := s.A &&& v }
  | .shr => some { s with A := BitVec.ofNat 16 (v.toNat / 2 + if s.C then 32768 else 0), C := decide (v.toNat % 2 = 1) }
  | .mem a => some { s with ram := upd s.ram a v }

/-- One instruction; `none` where the table says nothing (an address with `-`, an instruction in or
below the first 16 words). -/
def sstep (s : S) : Option S :=
  if 16 ≤ s.PC.toNat ∧ s.PC.toNat + 1 < 65536 then
    (srcOf (s.ram s.PC)).bind fun a => (dstOf (s.ram (s.PC + 1))).bind fun d =>
      (val s a).bind fun v => put { s with PC := s.PC + 2 } v d
  else none

def srun : Nat → S → Option S
  | 0, s => some s
  | n + 1, s => (sstep s).bind (srun n)

/-- the number whose words are at `x`, highest first -/
def num (f : Word → Word) (x : Nat) : Nat → Nat
  | 0 => 0
  | n + 1 => (f (BitVec.ofNat 16 x)).toNat * 65536 ^ n + num f (x + 1) n

/-- how a source is written, `none` for a memory address -/
def srcName : Src → Option String
  | .pc => some "PC" | .pc2 => some "PC+2" | .pc4 => some "PC+4" | .pc6 => some "PC+6" | .ind => some "[A]" | .acc => some "A" | .mem _ => none

/-- how a destination is written: a jump with its condition, an operation with its sign -/
def dstName : Dst → Option String
  | .pc => some "PC" | .ifNeg => some "PC(A<0)" | .ifZero => some "PC(A==0)" | .ifCarry => some "PC(C)" | .ind => some "[A]" | .acc => some "A"
  | .sub => some "A-" | .add => some "A+" | .xor => some "A^" | .or => some "A|" | .and => some "A&" | .shr => some ">>" | .mem _ => none

end Ucsim.Misc
