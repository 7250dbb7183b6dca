import Verif.H08.Mmu

/-
The memory management unit of the MC9S08 with paged flash (MC9S08QE128 reference manual, chapter
Memory): 128K of extended addresses; PPAGE selects the 16K page seen at 8000-bfff; 2080-7fff and
c000-ffff show the beginning of the extended map; the linear address pointer LAP (17 bits) and its
data registers.
-/
namespace Ucsim.H08.Mm

structure Chip where
  /-- 0000-207f but the registers of the MMU -/
  ram : Word → Byte
  /-- by extended address -/
  ext : BitVec 17 → Byte
  ppage : Byte
  lap : BitVec 17

/-- The extended address of a CPU address. -/
def Chip.extOf (c : Chip) (a : Word) : BitVec 17 :=
  if 0x8000#16 ≤ a ∧ a < 0xc000#16 then (c.ppage.extractLsb' 0 3) ++ (a.extractLsb' 0 14) else a.zeroExtend 17

def Chip.putExt (c : Chip) (e : BitVec 17) (v : Byte) : Chip := { c with ext := fun x => if x = e then v else c.ext x }

def Chip.read (c : Chip) (a : Word) : Byte × Chip :=
  if a = 0x78#16 then (c.ppage, c)
  else if a = 0x79#16 then ((c.lap.extractLsb' 16 1).zeroExtend 8, c)
  else if a = 0x7a#16 then (c.lap.extractLsb' 8 8, c)
  else if a = 0x7b#16 then (c.lap.extractLsb' 0 8, c)
  -- linear word post increment, linear byte post increment, linear byte
  else if a = 0x7c#16 ∨ a = 0x7d#16 then (c.ext c.lap, { c with lap := c.lap + 1 })
  else if a = 0x7e#16 then (c.ext c.lap, c)
  -- linear address pointer add byte reads as 0
  else if a = 0x7f#16 then (0#8, c)
  else if a < 0x2080#16 then (c.ram a, c)
  else (c.ext (c.extOf a), c)

def Chip.write (c : Chip) (a : Word) (v : Byte) : Chip :=
  if a = 0x78#16 then { c with ppage := v }
  else if a = 0x79#16 then { c with lap := v.extractLsb' 0 1 ++ c.lap.extractLsb' 0 16 }
  else if a = 0x7a#16 then { c with lap := c.lap.extractLsb' 16 1 ++ v ++ c.lap.extractLsb' 0 8 }
  else if a = 0x7b#16 then { c with lap := c.lap.extractLsb' 8 9 ++ v }
  else if a = 0x7c#16 ∨ a = 0x7d#16 then { c.putExt c.lap v with lap := c.lap + 1 }
  else if a = 0x7e#16 then c.putExt c.lap v
  else if a = 0x7f#16 then { c with lap := c.lap + v.signExtend 17 }
  else if a < 0x2080#16 then { c with ram := fun x => if x = a then v else c.ram x }
  else c.putExt (c.extOf a) v

/-- The values a program reads. -/
def Chip.run (c : Chip) : List Acc → List Byte × Chip
  | [] => ([], c)
  | .rd a :: l => let r := c.read a; let q := r.2.run l; (r.1 :: q.1, q.2)
  | .wr a v :: l => (c.write a v).run l

end Ucsim.H08.Mm
