import Verif.S51.Xint

/-
Reset of the 8051 and 8052: cl_uc::reset, /repo/src/core/sim.src/uc.cc 773-806, and
cl_51core::reset, cl_51core::clear_sfr, cl_uc52::clear_sfr (/repo/src/sims/s51.src/uc51.cc
1549-1602, uc52.cc 118-127).
-/
namespace Ucsim.S51

section
variable {H : Type} (P : Hw H)

/-- The ports, uc51.cc 1575-1578. -/
def resetPorts : List (Nat × Byte) := [(0x80, 0xff#8), (0x90, 0xff#8), (0xa0, 0xff#8), (0xb0, 0xff#8)]

/-- ACC B PSW SP DPL DPH IP IE TMOD TCON TH0 TL0 TH1 TL1 SCON PCON, uc51.cc 1581-1596. -/
def resetRegs : List (Nat × Byte) :=
  [(0xe0, 0#8), (0xf0, 0#8), (0xd0, 0#8), (0x81, 7#8), (0x82, 0#8), (0x83, 0#8), (0xb8, 0#8), (0xa8, 0#8), (0x89, 0#8),
   (0x88, 0#8), (0x8c, 0#8), (0x8a, 0#8), (0x8d, 0#8), (0x8b, 0#8), (0x98, 0#8), (0x87, 0#8)]

/-- T2CON TH2 TL2 RCAP2L RCAP2H, uc52.cc 121-126. -/
def resetRegs52 : List (Nat × Byte) := [(0xc8, 0#8), (0xcd, 0#8), (0xcc, 0#8), (0xca, 0#8), (0xcb, 0#8)]

def writeAll : List (Nat × Byte) → M H Unit
  | [] => pure ()
  | (a, v) :: l => do
    let _ ← sfrWrite P a v
    writeAll l

/-- `for (i= 0x80; i <= 0xff; i++) sfr->set(i, 0)`, uc51.cc 1573-1574. -/
def zeroSfr : M H Unit := fun s => ((), { s with sfr := fun a => if 0x80 ≤ a ∧ a ≤ 0xff then 0#8 else s.sfr a })

/-- cl_51core::clear_sfr (with the reads of prev_p1, prev_p3), and cl_uc52::clear_sfr. -/
def clearSfr (t2 : Bool) : M H Unit := do
  zeroSfr
  writeAll P resetPorts
  let _ ← sfrRead P 0x90
  let _ ← sfrRead P 0xb0
  writeAll P resetRegs
  if t2 then writeAll P resetRegs52 else pure ()

/-- cl_uc::reset: the interrupt levels above the main program are removed; `hwReset`:
what the hardware elements do on reset (interrupt.cc 119-123: was_reti; the timers and
ports have no reset of their own, hwcl.h 116). -/
def resetUc (hwReset : H → H) : M H Unit := fun s =>
  ((), { s with pc := 0, instPC := 0, state := .go, total := 0, wasReti := false
                levels := s.levels.dropWhile (fun l => decide (0 ≤ l.level)), hw := hwReset s.hw })

/-- cl_51core::reset. -/
def reset (hwReset : H → H) (t2 : Bool) : M H Unit := do
  resetUc hwReset
  clearSfr P t2

end
end Ucsim.S51
