import Verif.Spec.S51

/- A small machine (8052 without devices) for showing that the hypotheses of the
theorems can be met. -/
namespace Ucsim.S51.Demo
open Ucsim.S51

def hw : Hw Unit where
  iramSize := 0x100
  sfrRd := fun _ f a _ => f a
  sfrRdEff := fun h _ _ _ => h
  sfrWr := fun h f _ v => (v, h, f)
  bitWr := fun h f _ _ => (h, f)
  tick := fun h f => (h, f)
  dummyRd := fun _ => 0#8
  dummyWr := fun h => h
  romDummy := fun _ => 0#8
  sources := fun _ => [⟨0x82#8, 0x88, 0x20#8, 0x0b, true, true⟩, ⟨0x88#8, 0x88, 0x80#8, 0x1b, true, true⟩]
  stopSelfjump := false
  cmos := true

/-- Program at address 0, registers as given. -/
def st (prog : List Byte) (a b psw sp : Byte) : St Unit where
  pc := 0
  instPC := 0
  iram := fun x => BitVec.ofNat 8 (x * 7 + 3)
  sfr := fun x => if x = ACC then a else if x = SFRB then b else if x = PSW then psw else if x = SP then sp else 0#8
  xram := fun _ => 0#8
  rom := fun x => prog.getD x 0#8
  bank := ((psw &&& 0x18#8) >>> 3).toNat
  wasReti := false
  state := .go
  levels := []
  cyc := 0
  total := 0
  hw := ()

theorem ok (prog : List Byte) (a b psw sp : Byte) : Spec.Ok hw (st prog a b psw sp) := by
  refine ⟨(by decide : (0:Nat) < 0x10000), ?_, by decide⟩
  have rsBits : ∀ p : Byte, ((p &&& 0x18#8) >>> 3).toNat = 2 * (p.getLsbD 4).toNat + (p.getLsbD 3).toNat := by
    decide +kernel
  exact rsBits psw

end Ucsim.S51.Demo
