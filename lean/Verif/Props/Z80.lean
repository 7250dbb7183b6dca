import Verif.Proof.Z80Io

/-
C86: instructions of the Z80 do what Zilog's manual says.
-/
namespace Ucsim.Z80
open Isa (Flags Differs)

/-- A machine to try things on. -/
def demo (mem : Word → Byte) : St :=
  { a := 0x12, f := 0, b := 0x01, c := 0x34, d := 0x30, e := 0x20, h := 0x40, l := 0x10, ix := 0x5000, iy := 0x6000, sp := 0x8000,
    a2 := 1, f2 := 0xff, b2 := 2, c2 := 3, d2 := 4, e2 := 5, h2 := 6, l2 := 7, iv := 0x3f, r := 0x7f, iff1 := false, iff2 := false,
    imode := 0, pc := 0x100, mem := mem, dummy := 0, rnd := fun n => BitVec.ofNat 8 (7 * n + 3), inp := fun p => p + 1,
    out := fun _ => 0, ticks := 0, cond := false }

/-- Some bytes from 0x100. -/
def prog (l : List Byte) : Word → Byte := fun x => l.getD (x - 0x100#16).toNat 0
/-- .. with another one elsewhere. -/
def also (a : Word) (v : Byte) (m : Word → Byte) : Word → Byte := fun x => if x = a then v else m x

/-- What the simulator leaves where the manual leaves things open, and its R. -/
def seen (s : St) : Isa.Und := { fl := (step s).2.f, x35 := s.f, r := incR s.r }

/-! ### C86 -/

/-- **C86**, one instruction (one round of a repeated one): wherever `Differs` does not hold, the
simulator does to registers, flags, interrupt flip-flops, memory, ports and PC exactly what the
manual says, and stops just at HALT. -/
theorem c86_step_partial (s : St) (hp : s.pc < 0x10000) (hd : ¬ Differs (abs s) (abs s).ins.2 (abs s).ins.1) :
    abs (step s).2 = Isa.step (seen s) (abs s) ∧ (step s).2.pc < 0x10000 ∧
      (step s).1 ≠ .inv ∧ ((step s).1 = .halt ↔ (abs s).ins.1 = .halt) := step_ok s hp hd

/-- **C86**, any number of instructions. -/
theorem c86_program_partial (n : Nat) (s : St) (hp : s.pc < 0x10000)
    (hd : ∀ k, k < n → ¬ Differs (abs (steps k s)) (abs (steps k s)).ins.2 (abs (steps k s)).ins.1) :
    ∃ us : List Isa.Und, us.length = n ∧ abs (steps n s) = Isa.run us (abs s) ∧ (steps n s).pc < 0x10000 := by
  induction n generalizing s with
  | zero => exact ⟨[], rfl, rfl, hp⟩
  | succ n ih =>
    obtain ⟨k1, k2, -, -⟩ := step_ok s hp (hd 0 (by omega))
    obtain ⟨us, h1, h2, h3⟩ := ih (step s).2 k2 (fun k hk => hd (k + 1) (by omega))
    refine ⟨seen s :: us, by simp [h1], ?_, h3⟩
    rw [show steps (n + 1) s = steps n (step s).2 from rfl, h2, k1]; rfl

/-- **C86**: INI, IND, INIR, INDR, OUTD and OTDR do what the manual says, N apart. -/
theorem c86_blockio_partial (s : St) (hp : s.pc < 0x10000) (hi : blockIo (abs s).ins.1 = true) :
    { abs (step s).2 with f := { (abs (step s).2).f with n := true } } = Isa.step (seen s) (abs s) ∧ (step s).2.pc < 0x10000 :=
  io_step_ok s hp hi

/-- A run the theorem is about: LD IX,nn; LD (IX+5),7; RL (IX+5); ADD A,(IX+5); DJNZ. -/
example :
    let s := { demo (prog [0xdd, 0x21, 0x00, 0x90, 0xdd, 0x36, 0x05, 0x07, 0xdd, 0xcb, 0x05, 0x16, 0xdd, 0x86, 0x05, 0x10, 0xfe]) with a := 0x13 }
    (abs s).ins = (.ldnn (.idx .ix), 4) ∧ (abs (steps 1 s)).ins = (.ldn (.ind .ix), 4) ∧ (abs (steps 2 s)).ins = (.rot 2 (.ind .ix), 4) ∧
      (abs (steps 3 s)).ins = (.alu 0 (.ind .ix), 3) ∧ (abs (steps 4 s)).ins = (.djnz, 2) ∧
      (steps 4 s).a = 0x21 ∧ (steps 4 s).mem 0x9005 = 0x0e ∧ (steps 4 s).pc = 0x10f ∧
      Isa.evenOnes (abs (steps 2 s)).a = false ∧ Isa.evenOnes ((abs (steps 3 s)).mem 0x9005) = false := by decide +kernel

/-- A state meets the hypotheses. -/
example : (demo (prog [0xdd, 0x21, 0x00, 0x90])).pc < 0x10000 ∧
    ¬ Differs (abs (demo (prog [0xdd, 0x21, 0x00, 0x90]))) (abs (demo (prog [0xdd, 0x21, 0x00, 0x90]))).ins.2
      (abs (demo (prog [0xdd, 0x21, 0x00, 0x90]))).ins.1 := by
  refine ⟨by decide, ?_⟩
  have : (abs (demo (prog [0xdd, 0x21, 0x00, 0x90]))).ins = (.ldnn (.idx .ix), 4) := by decide +kernel
  rw [this]; exact fun h => h

example : blockIo (abs (demo (prog [0xed, 0xb2]))).ins.1 = true := by decide +kernel

/-! #### Where it is false -/

/-- ADC A,15 with carry: no half carry. -/
theorem c86_false_adc : let s := { demo (prog [0xce, 0x0f]) with a := 0, f := 1 }
    (abs (step s).2).f.h = false ∧ (Isa.step (seen s) (abs s)).f.h = true := by decide +kernel
/-- SBC A,B with B = 0x1f, A = 0x05 and carry: H (borrow) is lost. -/
theorem c86_false_sbc : let s := { demo (prog [0x98]) with a := 5, b := 0x1f, f := 1 }
    (abs (step s).2).f.h = false ∧ (Isa.step (seen s) (abs s)).f.h = true := by decide +kernel
/-- ADC HL,BC -/
theorem c86_false_adchl : let s := { demo (prog [0xed, 0x4a]) with b := 0x0f, c := 0xff, h := 0, l := 0, f := 1 }
    (abs (step s).2).f.h = false ∧ (Isa.step (seen s) (abs s)).f.h = true := by decide +kernel
/-- SBC HL,BC -/
theorem c86_false_sbchl : let s := { demo (prog [0xed, 0x42]) with b := 0x0f, c := 0xff, h := 0, l := 0, f := 1 }
    (abs (step s).2).f.h = false ∧ (Isa.step (seen s) (abs s)).f.h = true := by decide +kernel
/-- RLC B: P/V is the parity of A. -/
theorem c86_false_rot : let s := { demo (prog [0xcb, 0x00]) with a := 1, b := 3 }
    (abs (step s).2).f.pv = false ∧ (Isa.step (seen s) (abs s)).f.pv = true := by decide +kernel
/-- IN B,(C) of a zero: Z stays clear. -/
theorem c86_false_in : let s := { demo (prog [0xed, 0x40]) with c := 0xff }
    (step s).2.b = 0 ∧ (abs (step s).2).f.z = false ∧ (Isa.step (seen s) (abs s)).f.z = true := by decide +kernel
/-- RRD that makes A zero: Z stays clear. -/
theorem c86_false_rrd : let s := { demo (prog [0xed, 0x67]) with a := 5 }
    (step s).2.a = 0 ∧ (abs (step s).2).f.z = false ∧ (Isa.step (seen s) (abs s)).f.z = true := by decide +kernel
/-- RLD that makes A negative: S stays clear. -/
theorem c86_false_rld : let s := { demo (prog [0xed, 0x6f]) with a := 0x85 }
    (abs (step s).2).f.s = false ∧ (Isa.step (seen s) (abs s)).f.s = true := by decide +kernel
/-- LD (0xffff),HL does not wrap around: the high byte is lost. -/
theorem c86_false_stHL : let s := demo (prog [0x22, 0xff, 0xff])
    (step s).2.mem 0 = 0 ∧ (Isa.step (seen s) (abs s)).mem 0 = 0x40 := by decide +kernel
/-- LD HL,(0xffff) takes the high byte from nowhere (dummy cell). -/
theorem c86_false_ldHL : let s := { demo (also 0 0x77 (prog [0x2a, 0xff, 0xff])) with dummy := 0x55 }
    (step s).2.h = 0x55 ∧ (Isa.step (seen s) (abs s)).h = 0x77 := by decide +kernel
/-- PUSH HL at SP = 1: the high byte is lost. -/
theorem c86_false_push : let s := { demo (prog [0xe5]) with sp := 1 }
    (step s).2.mem 0 = 0 ∧ (Isa.step (seen s) (abs s)).mem 0 = 0x40 := by decide +kernel
/-- POP HL at SP = 0xffff. -/
theorem c86_false_pop : let s := { demo (also 0 0x77 (prog [0xe1])) with sp := 0xffff, dummy := 0x55 }
    (step s).2.h = 0x55 ∧ (Isa.step (seen s) (abs s)).h = 0x77 := by decide +kernel
/-- RETN clears IFF2. -/
theorem c86_false_retn : let s := { demo (prog [0xed, 0x45]) with iff2 := true }
    (step s).2.iff2 = false ∧ (Isa.step (seen s) (abs s)).iff2 = true := by decide +kernel
/-- RETI clears IFF1 (it copies IFF2, and clears that). -/
theorem c86_false_reti : let s := { demo (prog [0xed, 0x4d]) with iff1 := true }
    (step s).2.iff1 = false ∧ (Isa.step (seen s) (abs s)).iff1 = true := by decide +kernel
/-- CPI changes C. -/
theorem c86_false_cpi : let s := { demo (also 0x4010 0xff (prog [0xed, 0xa1])) with f := 0 }
    (abs (step s).2).f.cy = true ∧ (Isa.step (seen s) (abs s)).f.cy = false := by decide +kernel
/-- CPIR clears H. -/
theorem c86_false_cpir : let s := demo (also 0x4010 0xff (prog [0xed, 0xb1]))
    (abs (step s).2).f.h = false ∧ (Isa.step (seen s) (abs s)).f.h = true := by decide +kernel
/-- CPD goes upwards. -/
theorem c86_false_cpd : let s := demo (prog [0xed, 0xa9])
    (step s).2.l = 0x11 ∧ (Isa.step (seen s) (abs s)).l = 0x0f := by decide +kernel
/-- CPDR does not count when it has found the byte. -/
theorem c86_false_cpdr : let s := { demo (prog [0xed, 0xb9]) with a := 0 }
    (step s).2.l = 0x10 ∧ (Isa.step (seen s) (abs s)).l = 0x0f := by decide +kernel
/-- OUTI sends to port B, not to port C. -/
theorem c86_false_outi : let s := demo (also 0x4010 0x99 (prog [0xed, 0xa3]))
    (step s).2.out 0x34 = 0 ∧ (step s).2.out 0 = 0x99 ∧ (Isa.step (seen s) (abs s)).out 0x34 = 0x99 := by decide +kernel
/-- INI leaves N clear. -/
theorem c86_false_ini : let s := demo (prog [0xed, 0xa2])
    (abs (step s).2).f.n = false ∧ (Isa.step (seen s) (abs s)).f.n = true := by decide +kernel
/-- CALL whose pushed return address is written over its own operand goes there. -/
theorem c86_false_call : let s := { demo (prog [0xcd, 0x00, 0x20]) with sp := 0x103 }
    (step s).2.pc = 0x0103 ∧ (Isa.step (seen s) (abs s)).pc = 0x2000 := by decide +kernel
/-- JR 0x10 beyond the end of the memory: the machine fetches a byte from nowhere, not from address 1. -/
theorem c86_false_jr : let s := { demo (also 0xffef 0x18 (also 0xfff0 0x10 (also 1 0x3e (also 2 0x77 (prog []))))) with pc := 0xffef }
    (step s).2.pc = 0x10001 ∧ (steps 2 s).a = 0x12 ∧ (Isa.run [seen s, seen (steps 1 s)] (abs s)).a = 0x77 := by decide +kernel
/-- JR back over the beginning of the memory. -/
theorem c86_false_jr_back : let s := { demo (also 0 0x18 (also 1 0xfd (prog []))) with pc := 0 }
    (step s).2.pc = 0xffffffff ∧ (Isa.step (seen s) (abs s)).pc = 0xffff := by decide +kernel

end Ucsim.Z80
