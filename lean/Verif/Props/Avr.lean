import Verif.Proof.AvrExec3
/-
C117: AVR programs run as in the instruction set manual.  The code differs from the manual for
many instructions (`Differs`, `accepted`), hence _partial; `c117_false` are programs that show it.
-/
namespace Ucsim.Avr

open Isa (Ins Mach reg pair)

/-- The word at PC. -/
def word (s : St) : Nat := (s.rom (BitVec.ofNat 16 s.pc)).toNat

/-- One instruction. -/
theorem c117_step_partial (s : St) (hp : s.pc < 0x10000) (ha : s.sleep = false) (i : Ins) (hi : Isa.decode (word s) = some i)
    (hd : ¬ Differs i (Isa.fetch (abs s)).2) :
    (step s).1 = true ∧ Isa.step (abs s) = some (abs (step s).2) ∧ (step s).2.pc < 0x10000 := by
  obtain ⟨s', h1, h2, h3⟩ := step_ok s hp i hi hd
  rw [h1]
  refine ⟨rfl, ?_, h3⟩
  unfold Isa.step
  rw [show (abs s).asleep = false from ha]
  simp only [Bool.false_eq_true, if_false]
  rw [show ((abs s).prog (abs s).pc).toNat = word s from rfl, hi, h2]
  rfl

/-- A word that is no instruction (and not one of the `accepted`) stops the simulation: the answer
is "invalid instruction", the machine is as before. -/
theorem c117_invalid_partial (s : St) (hp : s.pc < 0x10000) (hi : Isa.decode (word s) = none) (ha : accepted (word s) = false) :
    (step s).1 = false ∧ abs (step s).2 = abs s ∧ (step s).2.pc = s.pc := by
  rw [step_invalid s hp hi ha]
  exact ⟨rfl, rfl, rfl⟩

/-- The run of `n` instructions of the manual from `m` meets only instructions, none of which the
simulator executes otherwise. -/
def Same : Nat → Mach → Prop
  | 0, _ => True
  | n + 1, m => m.asleep = false ∧ ∃ i, Isa.decode (m.prog m.pc).toNat = some i ∧ ¬ Differs i (Isa.fetch m).2 ∧ Same n (Isa.exec i (Isa.fetch m).2)

/-- Programs of any length. -/
theorem c117_program_partial (n : Nat) : ∀ (s : St), s.pc < 0x10000 → Same n (abs s) →
    (run n s).1 = true ∧ Isa.run n (abs s) = some (abs (run n s).2) ∧ (run n s).2.pc < 0x10000 := by
  induction n with
  | zero => intro s hp _; exact ⟨rfl, rfl, hp⟩
  | succ n ih =>
    intro s hp h
    obtain ⟨ha, i, hi, hd, hn⟩ := h
    obtain ⟨s', h1, h2, h3⟩ := step_ok s hp i hi hd
    have hst := c117_step_partial s hp ha i hi hd
    have hr : run (n + 1) s = run n s' := by
      change (match step s with | (true, s) => run n s | r => r) = _
      rw [h1]
    rw [← h2] at hn
    have := ih s' h3 hn
    rw [hr]
    refine ⟨this.1, ?_, this.2.2⟩
    unfold Isa.run
    rw [hst.2.1, h1, Option.bind_some]
    exact this.2.1

/-! ### Examples -/

/-- A state: the program at 0, values of cells. -/
def mkSt (p : List Nat) (m : List (Nat × Nat)) : St :=
  { rom := fun a => BitVec.ofNat 16 (p.getD a.toNat 0), romDummy := 0, mem := fun a => BitVec.ofNat 8 ((m.lookup a).getD 0),
    und := 0, dummy := 0, rnd := fun _ => 0, pc := 0, sleep := false, ticks := 0 }

/-- `Same`, for evaluation. -/
def sameB : Nat → Mach → Bool
  | 0, _ => true
  | n + 1, m => !m.asleep && match Isa.decode (m.prog m.pc).toNat with
    | some i => decide (¬ Differs i (Isa.fetch m).2) && sameB n (Isa.exec i (Isa.fetch m).2)
    | none => false

theorem sameB_spec (n : Nat) : ∀ m, sameB n m = true → Same n m := by
  induction n with
  | zero => intro m _; trivial
  | succ n ih =>
    intro m h
    unfold sameB at h
    rw [Bool.and_eq_true] at h
    obtain ⟨h1, h2⟩ := h
    refine ⟨by simpa using h1, ?_⟩
    cases hi : Isa.decode (m.prog m.pc).toNat with
    | none => rw [hi] at h2; cases h2
    | some i =>
      rw [hi] at h2
      simp only [Bool.and_eq_true, decide_eq_true_eq] at h2
      exact ⟨i, rfl, h2.1, ih _ h2.2⟩

/-- LDI R30,0x60; LDI R31,0; LDI R16,0x7f; ADD R16,R30; ST Z+,R16; BRCS 1; DEC R16; ADC R17,R16; LDD R2,Z+3; CPSE R3,R4; JMP. -/
def exProg : St := mkSt [0xe6e0, 0xe0f0, 0xe70f, 0x0f0e, 0x9301, 0xf008, 0x950a, 0x1f10, 0x8023, 0x1034, 0x940c, 0x0005, 0x9508] []

example : Same 10 (abs exProg) ∧ rd (run 10 exProg).2 16 = 0xde#8 ∧ (run 10 exProg).2.pc = 12 :=
  ⟨sameB_spec 10 _ (by decide +kernel), by decide +kernel, by decide +kernel⟩

example : (step (mkSt [0x9404] [])).1 = false := (c117_invalid_partial (mkSt [0x9404] []) (by decide) (by decide +kernel) (by decide +kernel)).1

/-! ### Where it is false -/

/-- A step of the simulator that does not end in the machine of the manual. -/
def wrong (s : St) : Bool := match Isa.step (abs s) with
  | none => false
  | some m => m.pc != (abs (step s).2).pc || m.asleep != (step s).2.sleep || (List.range 0x100).any (fun k => reg m k != rd (step s).2 k)

theorem wrong_spec (s : St) (h : wrong s = true) : ∃ m, Isa.step (abs s) = some m ∧ abs (step s).2 ≠ m := by
  unfold wrong at h
  cases hm : Isa.step (abs s) with
  | none => rw [hm] at h; cases h
  | some m =>
    rw [hm] at h
    refine ⟨m, rfl, ?_⟩
    intro e
    subst e
    simp only [bne_self_eq_false, Bool.false_or, Bool.or_eq_true, List.any_eq_true, bne_iff_ne, ne_eq, List.mem_range] at h
    rcases h with h | ⟨k, hk, h⟩
    · exact h rfl
    · exact h (reg_abs _ k (by omega))

/-- One program for each of the deviations. -/
def wrongs : List St := [
  -- CPI R16,0x10 and SUBI R16,0x10 of 0x10: 1 is compared, subtracted
  mkSt [0x3100] [(16, 0x10)], mkSt [0x5100] [(16, 0x10)],
  -- SBCI R16,2 of 5, SBC R0,R1, CPC R0,R1: the result is 1
  mkSt [0x4002] [(16, 5)], mkSt [0x0801] [(0, 5), (1, 2)], mkSt [0x0401] [(0, 0x80)],
  -- ADC R0,R1 of 0x0f, 0, carry: H
  mkSt [0x1c01] [(0, 0x0f), (0x5f, 1)],
  -- ORI R16,1 of 2, ANDI R16,3 of 2: R0 is taken
  mkSt [0x6001] [(16, 2)], mkSt [0x7003] [(16, 2)],
  -- NEG R8 of 1: H
  mkSt [0x9481] [(8, 1)],
  -- ROR R0 of 2
  mkSt [0x9407] [(0, 2)],
  -- MUL R0,R1 of 2, 3 with Z set
  mkSt [0x9c01] [(0, 2), (1, 3), (0x5f, 2)],
  -- ADIW R24,1 of 0x8000: V
  mkSt [0x9601] [(25, 0x80)],
  -- SBIW R24,32 of 0x100
  mkSt [0x9780] [(25, 1)],
  -- MOVW R2,R4; MULS R16,R17; MULSU; FMUL; FMULS; FMULSU: nothing
  mkSt [0x0112] [(4, 1)], mkSt [0x0201] [(16, 2), (17, 3)], mkSt [0x0301] [(16, 2), (17, 3)], mkSt [0x0309] [(16, 2), (17, 3)],
  mkSt [0x0381] [(16, 2), (17, 3)], mkSt [0x0389] [(16, 2), (17, 3)],
  -- LPM of byte 2 takes word 2; LPM R5,Z; LPM R5,Z+: nothing
  mkSt [0x95c8, 0x1234, 0x5678] [(30, 2)], mkSt [0x9054] [], mkSt [0x9055] [],
  -- BREAK is SLEEP
  mkSt [0x9598] [],
  -- PUSH R0, RCALL 0, ICALL, CALL 4, STS 0x80,R0, ST X,R0, ST Z+,R0, ST -Z,R0, STD Z+1,R0 outside of the 0x80 bytes
  mkSt [0x920f] [(0, 1), (0x5d, 0x80)], mkSt [0xd000] [(0x5d, 0x90)], mkSt [0x9509] [(0x5d, 0x90)], mkSt [0x940e, 4] [(0x5d, 0x90)],
  mkSt [0x9200, 0x80] [(0, 1)], mkSt [0x920c] [(0, 1), (26, 0x80)], mkSt [0x9201] [(0, 1), (30, 0x80)], mkSt [0x9202] [(0, 1), (30, 0x81)],
  mkSt [0x8201] [(0, 1), (30, 0x7f)],
  -- CPSE R0,R1 over MOVW, SBRC R0,0 over MOVW, SBRS R0,0 over MOVW: invalid
  mkSt [0x1001, 0x0112] [], mkSt [0xfc00, 0x0112] [], mkSt [0xfe00, 0x0112] [(0, 1)],
  -- SBIC 0,0 and SBIS 0,0 over JMP: the length of the instruction at 0x940c
  mkSt [0x9900, 0x940c, 0] [], mkSt [0x9b00, 0x940c, 0] [(0x20, 1)]]

theorem c117_false : ∀ s ∈ wrongs, s.pc < 0x10000 ∧ ∃ m, Isa.step (abs s) = some m ∧ abs (step s).2 ≠ m := by
  have h : wrongs.all (fun s => decide (s.pc < 0x10000) && wrong s) = true := by decide +kernel
  intro s hs
  have := List.all_eq_true.mp h s hs
  rw [Bool.and_eq_true] at this
  exact ⟨of_decide_eq_true this.1, wrong_spec s this.2⟩

/-- Words that are no instructions but executed: 0x9409 with other bits, IJMP. -/
theorem c117_false_invalid : Isa.decode 0x9419 = none ∧ (step (mkSt [0x9419] [])).1 = true ∧ Isa.decode 0xfc08 = none ∧ (step (mkSt [0xfc08] [])).1 = true := by
  decide +kernel

/-- A jump can leave PC outside of the program memory: RJMP 0 at 0xffff. -/
theorem c117_false_end : ∃ s : St, s.pc = 0xffff ∧ Isa.decode (word s) = some ⟨.rjmp, 0, 0⟩ ∧ (step s).2.pc = 0 ∧
    ∃ t : St, t.pc = 0xfffe ∧ Isa.decode (word t) = some ⟨.rjmp, 1, 0⟩ ∧ (step t).1 = true ∧ (step t).2.pc = 0x10000 :=
  ⟨{ mkSt [] [] with rom := fun _ => 0xc000, pc := 0xffff }, rfl, by decide +kernel, by decide +kernel,
   { mkSt [] [] with rom := fun _ => 0xc001, pc := 0xfffe }, rfl, by decide +kernel, by decide +kernel, by decide +kernel⟩

/-- SLEEP is not obeyed: the next instruction is executed. -/
theorem c117_false_sleep : (run 2 (mkSt [0x9588, 0xe005] [])).1 = true ∧ rd (run 2 (mkSt [0x9588, 0xe005] [])).2 16 = 5#8 ∧
    (Isa.run 2 (abs (mkSt [0x9588, 0xe005] []))).map (fun m => reg m 16) = some 0#8 := by decide +kernel

end Ucsim.Avr
