import Verif.S51.Dis

/-
The `next` command on the 8051: /repo/src/core/cmd.src/cmd_exec.cc 260-299.
-/
namespace Ucsim.S51

variable {H : Type}

/-- Entries of disass_51 with is_call set, s51.src/glob.cc 40-297 (lines 58, 89, 121, 153,
185, 217, 249, 281). -/
def callTab : List Byte := [0x12, 0x31, 0x51, 0x71, 0x91, 0xb1, 0xd1, 0xf1]

/-- cl_uc::is_call, uc.cc 2656-2670 (every entry's mask is 0xff). -/
def isCall (c : Byte) : Bool := callTab.contains c

/-- Instructions executed one after another. -/
def after' (P : Hw H) : Nat → St H → St H
  | 0, s => s
  | n + 1, s => after' P n (execInst P s).2

/-- Where the command leaves the machine.  On a call a temporary breakpoint is put after the
call (next_inst, uccl.h 513: the address plus the disassembler's length) and execution is
started: it stops when PC gets there, not looking before the first instruction (do_brk,
uc.cc 3204-3231).  On other instructions it is `step 1`.  Only this breakpoint is modelled, and
execution without interrupts. -/
def NextStop (P : Hw H) (s t : St H) : Prop :=
  let c := s.rom s.pc
  if isCall c then
    ∃ k, 1 ≤ k ∧ t = after' P k s ∧ t.pc = s.pc + disLen c ∧ ∀ j, 1 ≤ j → j < k → (after' P j s).pc ≠ s.pc + disLen c
  else t = (execInst P s).2

end Ucsim.S51
