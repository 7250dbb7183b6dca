import Verif.Props.Z80
import Verif.Proof.Z80Clk

/-
C87: instructions of the Z80 take the number of clock periods the manual gives.
-/
namespace Ucsim.Z80
open Isa (taken)

/-- **C87**, one instruction: INC (HL), DEC (HL), BIT b,(HL) and OUT (C),E apart; the instruction
does not lie over the end of the memory and does not overwrite its second or fourth byte. -/
theorem c87_step_partial (s : St) (hp : s.pc + 3 < 0x10000) (ho : (abs s).ins.1 ≠ .other) (hx : clkWrong (abs s).ins.1 = false)
    (m1 : (step s).2.mem ((abs s).pc + 1) = s.mem ((abs s).pc + 1)) (m3 : (step s).2.mem ((abs s).pc + 3) = s.mem ((abs s).pc + 3)) :
    (step s).2.ticks = s.ticks + Isa.states (taken (abs s) (abs s).ins.1) (abs s).ins.2 (abs s).ins.1 :=
  clocks_ok s hp ho hx m1 m3

/-- Clock periods the manual gives for the instruction before a machine. -/
def period (m : Isa.Mach) : Nat := Isa.states (taken m m.ins.1) m.ins.2 m.ins.1

/-- **C87**, any number of instructions. -/
theorem c87_program_partial (n : Nat) (s : St)
    (hd : ∀ k, k < n → (steps k s).pc + 3 < 0x10000 ∧ (abs (steps k s)).ins.1 ≠ .other ∧ clkWrong (abs (steps k s)).ins.1 = false ∧
      (steps (k + 1) s).mem ((abs (steps k s)).pc + 1) = (steps k s).mem ((abs (steps k s)).pc + 1) ∧
      (steps (k + 1) s).mem ((abs (steps k s)).pc + 3) = (steps k s).mem ((abs (steps k s)).pc + 3)) :
    (steps n s).ticks = s.ticks + (((List.range n).map (fun k => period (abs (steps k s)))).sum : Nat) := by
  have sw : ∀ (n : Nat) (s : St), steps (n + 1) s = (step (steps n s)).2 := by
    intro n
    induction n with
    | zero => intro s; rfl
    | succ n ih => intro s; exact ih (step s).2
  induction n with
  | zero => simp [steps]
  | succ n ih =>
    have r := ih (fun k hk => hd k (by omega))
    obtain ⟨h1, h2, h3, h4, h5⟩ := hd n (by omega)
    rw [sw] at h4 h5
    rw [sw, c87_step_partial _ h1 h2 h3 h4 h5, r, List.range_succ, List.map_append, List.sum_append]
    simp only [List.map_cons, List.map_nil, List.sum_cons, List.sum_nil, Nat.add_zero, period]
    omega

/-- JR NZ taken: 12, not taken: 7; LDIR: 21 and 16; SET 3,(IX+5): 23. -/
example : (step { demo (prog [0x20, 0x05]) with f := 0 }).2.ticks = 12 ∧ (step { demo (prog [0x20, 0x05]) with f := 0x40 }).2.ticks = 7 ∧
    (step (demo (prog [0xed, 0xb0]))).2.ticks = 21 ∧ (step { demo (prog [0xed, 0xb0]) with b := 0, c := 1 }).2.ticks = 16 ∧
    (step (demo (prog [0xdd, 0xcb, 0x05, 0xde]))).2.ticks = 23 := by decide +kernel

/-- A state meets the hypotheses. -/
example : let s := demo (prog [0xed, 0xb0])
    s.pc + 3 < 0x10000 ∧ (abs s).ins.1 ≠ .other ∧ clkWrong (abs s).ins.1 = false ∧
    (step s).2.mem ((abs s).pc + 1) = s.mem ((abs s).pc + 1) ∧ (step s).2.mem ((abs s).pc + 3) = s.mem ((abs s).pc + 3) := by decide +kernel

/-! #### Where it is false -/

/-- INC (HL): 7, not 11. -/
theorem c87_false_inc : let s := demo (prog [0x34])
    (step s).2.ticks = 7 ∧ period (abs s) = 11 := by decide +kernel
/-- DEC (HL): 7, not 11. -/
theorem c87_false_dec : let s := demo (prog [0x35])
    (step s).2.ticks = 7 ∧ period (abs s) = 11 := by decide +kernel
/-- BIT 0,(HL): 15, not 12. -/
theorem c87_false_bit : let s := demo (prog [0xcb, 0x46])
    (step s).2.ticks = 15 ∧ period (abs s) = 12 := by decide +kernel
/-- OUT (C),E: 1, not 12. -/
theorem c87_false_out : let s := demo (prog [0xed, 0x59])
    (step s).2.ticks = 1 ∧ period (abs s) = 12 := by decide +kernel
/-- LD (IX+0),B that makes 0x23 (INC IX) of its own second byte counts as that: 10, not 19. -/
theorem c87_false_self : let s := { demo (prog [0xdd, 0x70, 0x00]) with ix := 0x101, b := 0x23 }
    (step s).2.ticks = 10 ∧ period (abs s) = 19 := by decide +kernel
/-- DEC IX over the end of the memory counts as something else. -/
theorem c87_false_end : let s := { demo (also 0xffff 0xdd (also 0 0x2b (prog []))) with pc := 0xffff }
    (step s).2.ticks = 0 ∧ period (abs s) = 10 ∧ (step s).2.ix = 0x4fff := by decide +kernel

end Ucsim.Z80
