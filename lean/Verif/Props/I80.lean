import Verif.Proof.I80NoAc

/-
C60: instructions of the 8080 and 8085 do what Intel's manual says.
C62: and take the number of clock states the manual gives.
-/
namespace Ucsim.I80
open Isa (Differs Wrong PopOther)

/-- A machine to try things on: registers and memory given, rest zero. -/
def demo (a f : Byte) (bc : Word) (mem : Word → Byte) : St :=
  { a := a, f := f, b := hi bc, c := lo bc, d := 0x12, e := 0x34, h := 0x40, l := 0x10, sp := 0x8000, pc := 0x100, mem := mem,
    dummy := 0x55, rnd := fun n => BitVec.ofNat 8 (7 * n + 3), ticks := 0, shift := false }

/-- Some bytes from 0x100. -/
def prog (l : List Byte) : Word → Byte := fun x => l.getD (x - 0x100#16).toNat 0

/-! ### C60 -/

/-- **C60**, one instruction: wherever `Differs` does not hold, the simulator does to
registers, condition bits, stack, memory and PC exactly what the manual says.  Bits 1, 3, 5
of the flag byte (undefined in the 8085 manual) are those of the simulator's. -/
theorem c60_step_partial (cpu : Cpu) (s : St) (hd : ¬ Differs (cpu == .i8085) (abs s) (Isa.decode (s.mem s.pc))) :
    abs (step cpu s).2 = Isa.step (cpu == .i8085) 0x2a#8 s.f (abs s) := step_ok cpu s hd

/-- **C60**, any number of instructions. -/
theorem c60_program_partial (cpu : Cpu) (n : Nat) (s : St)
    (hd : ∀ k, k < n → ¬ Differs (cpu == .i8085) (abs (steps cpu k s)) (Isa.decode ((steps cpu k s).mem (steps cpu k s).pc))) :
    ∃ xs : List Byte, xs.length = n ∧ abs (steps cpu n s) = Isa.run (cpu == .i8085) 0x2a#8 xs (abs s) := by
  induction n generalizing s with
  | zero => exact ⟨[], rfl, rfl⟩
  | succ n ih =>
    obtain ⟨xs, h1, h2⟩ := ih (step cpu s).2 (fun k hk => hd (k + 1) (by omega))
    refine ⟨s.f :: xs, by simp [h1], ?_⟩
    rw [show steps cpu (n + 1) s = steps cpu n (step cpu s).2 from rfl, h2, step_ok cpu s (hd 0 (by omega))]; rfl

/-! #### 8080: all bits of the flag byte -/

theorem flagOp80 : ∀ v : Byte, flagOp .i8080 v &&& 0x2a#8 = 0x02#8 := by decide +kernel

theorem wr_f (s : St) (n : Nat) (v : Byte) : (wr s n v).f = s.f := by unfold wr; split <;> rfl
theorem set8_f (s : St) (r : R8) (v : Byte) : (set8 s r v).f = s.f := by cases r <;> first | rfl | exact wr_f ..
theorem set16_f (s : St) (p : RP) (v : Word) : (set16 s p v).f = s.f := by cases p <;> rfl
theorem setF_f (v : Byte) (s : St) : (setF .i8080 v s).f &&& 0x2a#8 = 0x02#8 := flagOp80 v
theorem push2_f (v : Word) (s : St) : (push2 v s).f = s.f := by rw [push2_eq]

/-- The machine stops exactly at HLT. -/
theorem c60_halt (cpu : Cpu) (s : St) : (step cpu s).1 = .halt ↔ Isa.decode (s.mem s.pc) = .hlt := by
  have k : ∀ op : Byte, ((itab cpu op).map (fun i => decide (i = .hlt))).getD false = decide (Isa.decode op = .hlt) := by
    cases cpu <;> decide +kernel
  have k := k (s.mem s.pc)
  unfold step
  simp only [fetch_eq]
  cases e : itab cpu (s.mem s.pc) with
  | none => rw [e] at k; simp at k; simp [k]
  | some i =>
    rw [e] at k
    simp only [Option.map_some, Option.getD_some, decide_eq_decide] at k
    rw [← k]
    by_cases h : i = .hlt <;> simp [h]

/-- On the 8080 every instruction but POP PSW leaves bit 1 set and bits 3, 5 clear. -/
theorem fixed80 (code : Byte) (i : Inst) (s : St) (h : s.f &&& 0x2a#8 = 0x02#8)
    (hp : i = .popPsw → lo (pop2 s).1 &&& 0x2a#8 = 0x02#8)
    (hi : i ≠ .rstv ∧ i ≠ .jnx5 ∧ i ≠ .jx5) : (exec .i8080 code i s).f &&& 0x2a#8 = 0x02#8 := by
  have hf : ∀ (s : St), (fetch s).2.f = s.f := fun _ => rfl
  have hf16 : ∀ (s : St), (fetch16 s).2.f = s.f := fun _ => rfl
  cases i
  case popPsw => exact hp rfl
  case rstv => exact absurd rfl hi.1
  case jnx5 => exact absurd rfl hi.2.1
  case jx5 => exact absurd rfl hi.2.2
  case mov d r => simp only [exec, set8_f]; exact h
  case mvi d => simp only [exec, set8_f]; exact h
  case lxi p => simp only [exec, set16_f]; exact h
  case lhld => simp only [exec, set16_f]; exact h
  case shld => simp only [exec, wr_f]; exact h
  case sta => simp only [exec, wr_f]; exact h
  case stax p => simp only [exec, wr_f]; exact h
  case push p => simp only [exec, push2_f]; exact h
  case pushPsw => simp only [exec, push2_f]; exact h
  case pop p => simp only [exec, set16_f]; exact h
  case xthl => simp only [exec, set16_f, wr_f]; exact h
  case add8 o c => exact setF_f _ _
  case sub8 o c k => exact setF_f _ _
  case dad p => exact setF_f _ _
  case inr r => exact setF_f _ _
  case dcr r => exact setF_f _ _
  case inx p => simp only [exec, inx, set16_f]; exact h
  case dcx p => simp only [exec, dcx, set16_f]; exact h
  case ana o => exact setF_f _ _
  case ora o => exact setF_f _ _
  case xra o => exact setF_f _ _
  case rlc => exact setF_f _ _
  case rrc => exact setF_f _ _
  case ral => exact setF_f _ _
  case rar => exact setF_f _ _
  case daa =>
    simp only [exec, daa]
    split
    · exact setF_f _ _
    · exact h
  case cmc => exact setF_f _ _
  case stc => exact setF_f _ _
  case jmpIf g v => simp only [exec, jmpIf]; split <;> exact h
  case call => simp only [exec, call, push2_f]; exact h
  case callIf g v =>
    simp only [exec, callIf]
    split
    · simp only [push2_f]; exact h
    · exact h
  case retIf g v => simp only [exec, retIf]; split <;> exact h
  case rst => simp only [exec, rst, push2_f]; exact h
  case arhl => exact setF_f _ _
  case rdel => exact setF_f _ _
  case dsub => exact setF_f _ _
  case ldhi => simp only [exec, set16_f]; exact h
  case ldsi => simp only [exec, set16_f]; exact h
  case lhlx => simp only [exec, set16_f]; exact h
  case shlx => simp only [exec, wr_f]; exact h
  all_goals exact h

theorem itab80 : ∀ op : Byte, ∀ i, itab .i8080 op = some i → i ≠ .rstv ∧ i ≠ .jnx5 ∧ i ≠ .jx5 := by
  intro op i hi
  have : ∀ op : Byte, itab .i8080 op ≠ some .rstv ∧ itab .i8080 op ≠ some .jnx5 ∧ itab .i8080 op ≠ some .jx5 := by decide +kernel
  obtain ⟨h1, h2, h3⟩ := this op
  exact ⟨fun e => h1 (e ▸ hi), fun e => h2 (e ▸ hi), fun e => h3 (e ▸ hi)⟩

theorem popPsw_dec : ∀ op : Byte, itab .i8080 op = some .popPsw → Isa.decode op = .popPsw := by decide +kernel

theorem psw_x (m : Isa.Mach) (x y : Byte) (h : x &&& 0x2a#8 = y &&& 0x2a#8) : m.psw 0x2a#8 x = m.psw 0x2a#8 y := by
  unfold Isa.Mach.psw; rw [h]

theorem exec_x (b : Bool) (i : Isa.Ins) (m : Isa.Mach) (x y : Byte) (h : x &&& 0x2a#8 = y &&& 0x2a#8) :
    Isa.exec b 0x2a#8 x i m = Isa.exec b 0x2a#8 y i m := by
  cases i
  case pushPsw => simp only [Isa.exec, psw_x m x y h]
  all_goals rfl

/-- **C60** for the 8080, any number of instructions, with the flag byte as the manual
gives it (bit 1 set, bits 3 and 5 clear): a machine that starts so (`init80`), and pops
only such bytes to PSW, is the manual's machine. -/
theorem c60_8080_partial (n : Nat) (s : St) (hf : s.f &&& 0x2a#8 = 0x02#8)
    (hd : ∀ k, k < n → ¬ Differs false (abs (steps .i8080 k s)) (Isa.decode ((steps .i8080 k s).mem (steps .i8080 k s).pc)) ∧
      ¬ PopOther (abs (steps .i8080 k s)) (Isa.decode ((steps .i8080 k s).mem (steps .i8080 k s).pc))) :
    abs (steps .i8080 n s) = Isa.run80 n (abs s) := by
  induction n generalizing s with
  | zero => rfl
  | succ n ih =>
    have h0 := hd 0 (by omega)
    have hs : abs (step .i8080 s).2 = Isa.step80 (abs s) := by
      rw [step_ok .i8080 s h0.1]
      exact exec_x _ _ _ _ _ (by rw [hf]; rfl)
    have hf' : (step .i8080 s).2.f &&& 0x2a#8 = 0x02#8 := by
      obtain ⟨i, hi⟩ := Option.isSome_iff_exists.mp (itab_total .i8080 (s.mem s.pc))
      have k : (step .i8080 s).2.f = (exec .i8080 (s.mem s.pc) i (fetched s (s.ticks + 1))).f := by
        unfold step
        simp only [fetch_eq, hi]; rfl
      rw [k]
      refine fixed80 _ i _ hf ?_ (itab80 _ i hi)
      intro e
      subst e
      have h2 : ¬ PopOther (abs s) (Isa.decode (s.mem s.pc)) := h0.2
      unfold PopOther at h2
      rw [popPsw_dec _ hi] at h2
      rw [pop2_eq, lo_eq]
      exact Classical.byContradiction fun hne => h2 ⟨rfl, hne⟩
    rw [show steps .i8080 (n + 1) s = steps .i8080 n (step .i8080 s).2 from rfl,
      ih (step .i8080 s).2 hf' (fun k hk => hd (k + 1) (by omega)), hs]
    rfl

/-- The registers are filled with random values when the simulator starts: i8080.cc 92, the
flags through the operator. -/
theorem init80 (r : Byte) : flagOp .i8080 r &&& 0x2a#8 = 0x02#8 := flagOp80 r

/-- **C60**, AC left out: any number of instructions on either processor; the exceptions
that remain are those of `Wrong`. -/
theorem c60_noac_partial (cpu : Cpu) (n : Nat) (s : St)
    (hd : ∀ k, k < n → ¬ Wrong (abs (steps cpu k s)) (Isa.decode ((steps cpu k s).mem (steps cpu k s).pc))) :
    ∃ xs : List Byte, xs.length = n ∧
      (abs (steps cpu n s)).noAc = (Isa.run (cpu == .i8085) 0x3a#8 xs (abs s)).noAc := by
  suffices h : ∀ (n : Nat) (s : St) (m : Isa.Mach), m.noAc = (abs s).noAc →
      (∀ k, k < n → ¬ Wrong (abs (steps cpu k s)) (Isa.decode ((steps cpu k s).mem (steps cpu k s).pc))) →
      ∃ xs : List Byte, xs.length = n ∧ (abs (steps cpu n s)).noAc = (Isa.run (cpu == .i8085) 0x3a#8 xs m).noAc from
    h n s _ rfl hd
  clear hd s n
  intro n
  induction n with
  | zero => intro s m e _; exact ⟨[], rfl, e.symm⟩
  | succ n ih =>
    intro s m e hd
    have h0 : ¬ Wrong (abs s) (Isa.decode (s.mem s.pc)) := hd 0 (by omega)
    have hs := step_na cpu s h0
    have hdaa : Isa.decode ((abs s).mem (abs s).pc) ≠ .daa := fun e => h0 (by rw [show Isa.decode (s.mem s.pc) = .daa from e]; trivial)
    have hm := step_ac (cpu == .i8085) s.f m (abs s) e hdaa
    obtain ⟨xs, h1, h2⟩ := ih (step cpu s).2 (Isa.step (cpu == .i8085) 0x3a#8 s.f m) (hm.trans hs.symm) (fun k hk => hd (k + 1) (by omega))
    exact ⟨s.f :: xs, by simp [h1], h2⟩

/-! #### The hypotheses can be met -/

/-- LXI H,4020; MVI M,7; INR M; ADD M; CALL 0110; ... RLC; PUSH PSW; RET -/
def demoProg : Word → Byte := prog [0x21, 0x20, 0x40, 0x36, 0x07, 0x34, 0x86, 0xcd, 0x10, 0x01, 0x76, 0, 0, 0, 0, 0, 0x07, 0xf5, 0xf1, 0xc9]

instance (is85 : Bool) (m : Isa.Mach) (o : BitVec 3) (v : Byte) : Decidable (Isa.aluDiffers is85 m o v) := by
  unfold Isa.aluDiffers; split <;> infer_instance
instance (m : Isa.Mach) (o : BitVec 3) (v : Byte) : Decidable (Isa.aluWrong m o v) := by
  unfold Isa.aluWrong; split <;> infer_instance

/-- `Differs`, where it can be computed (DAA left out). -/
def differsB (is85 : Bool) (m : Isa.Mach) : Isa.Ins → Bool
  | .daa => true
  | .inp | .out | .other => true
  | .alu o s => decide (Isa.aluDiffers is85 m o (m.reg s))
  | .alui o => decide (Isa.aluDiffers is85 m o m.imm8)
  | .rst n => n.getLsbD 1
  | .lhld | .shld => decide (m.imm16 = 0xffff#16)
  | .xthl => decide (m.sp = 0xffff#16)
  | _ => false

theorem differsB_ok (is85 : Bool) (m : Isa.Mach) (i : Isa.Ins) (h : differsB is85 m i = false) : ¬ Differs is85 m i := by
  cases i <;> simp_all [differsB, Differs]

example : ∀ k, k < 9 → ¬ Differs false (abs (steps .i8080 k (demo 0x3c 0x02 0x1234 demoProg)))
      (Isa.decode ((steps .i8080 k (demo 0x3c 0x02 0x1234 demoProg)).mem (steps .i8080 k (demo 0x3c 0x02 0x1234 demoProg)).pc)) ∧
      ¬ PopOther (abs (steps .i8080 k (demo 0x3c 0x02 0x1234 demoProg)))
        (Isa.decode ((steps .i8080 k (demo 0x3c 0x02 0x1234 demoProg)).mem (steps .i8080 k (demo 0x3c 0x02 0x1234 demoProg)).pc)) := by
  intro k hk
  refine ⟨differsB_ok _ _ _ ?_, ?_⟩
  · have : ∀ k, k < 9 → differsB false (abs (steps .i8080 k (demo 0x3c 0x02 0x1234 demoProg)))
      (Isa.decode ((steps .i8080 k (demo 0x3c 0x02 0x1234 demoProg)).mem (steps .i8080 k (demo 0x3c 0x02 0x1234 demoProg)).pc)) = false := by
      decide +kernel
    exact this k hk
  · unfold PopOther
    have : ∀ k, k < 9 → ¬ (Isa.decode ((steps .i8080 k (demo 0x3c 0x02 0x1234 demoProg)).mem (steps .i8080 k (demo 0x3c 0x02 0x1234 demoProg)).pc) = .popPsw ∧
        Isa.loByte (abs (steps .i8080 k (demo 0x3c 0x02 0x1234 demoProg))).top &&& 0x2a#8 ≠ 0x02#8) := by decide +kernel
    exact this k hk

example : (steps .i8080 9 (demo 0x3c 0x02 0x1234 demoProg)).pc = 0x10a#16 ∧ (steps .i8080 9 (demo 0x3c 0x02 0x1234 demoProg)).a = 0x88#8 ∧
    (steps .i8080 9 (demo 0x3c 0x02 0x1234 demoProg)).mem 0x4020 = 8 := by decide +kernel

/-! #### Where it goes wrong -/

/-- RST 2, 3, 6, 7 go to the addresses of RST 0, 1, 4, 5: the mask is 0x28, not 0x38. -/
theorem c60_false_rst (cpu : Cpu) (s : St) (h : s.mem s.pc = 0xd7#8) :
    (step cpu s).2.pc = 0#16 ∧ (Isa.step (cpu == .i8085) 0x2a#8 s.f (abs s)).pc = 0x10#16 := by
  refine ⟨?_, ?_⟩
  · have hi : itab cpu 0xd7#8 = some .rst := by cases cpu <;> decide +kernel
    unfold step
    simp only [fetch_eq, h, hi]; rfl
  · unfold Isa.step
    rw [show (abs s).mem (abs s).pc = 0xd7#8 from h]; rfl

/-- ADC of 0xFF with carry set loses the carry (here ACI; 3 + 255 + 1 = 259). -/
theorem c60_false_adc (cpu : Cpu) :
    (step cpu (demo 3 0x03 0 (prog [0xce, 0xff]))).2.a = 3 ∧ (abs (step cpu (demo 3 0x03 0 (prog [0xce, 0xff]))).2).cy = false ∧
    (Isa.step (cpu == .i8085) 0x2a#8 0x03 (abs (demo 3 0x03 0 (prog [0xce, 0xff])))).cy = true := by
  cases cpu <;> decide +kernel

/-- SBB of the accumulator's own value with borrow set: the borrow is lost (5 - 5 - 1). -/
theorem c60_false_sbb (cpu : Cpu) :
    (step cpu (demo 5 0x03 0 (prog [0xde, 5]))).2.a = 0xff ∧ (abs (step cpu (demo 5 0x03 0 (prog [0xde, 5]))).2).cy = false ∧
    (Isa.step (cpu == .i8085) 0x2a#8 0x03 (abs (demo 5 0x03 0 (prog [0xde, 5])))).cy = true := by
  cases cpu <;> decide +kernel

/-- SBB A with carry set, used to make a byte of the carry: A gets 0xFF but carry is cleared. -/
theorem c60_false_sbba (cpu : Cpu) (s : St) (h : s.mem s.pc = 0x9f#8) (hc : (abs s).cy = true) :
    (step cpu s).2.a = 0xff#8 ∧ (abs (step cpu s).2).cy = false ∧ (Isa.step (cpu == .i8085) 0x2a#8 s.f (abs s)).cy = true := by
  have hc : s.f.getLsbD 0 = true := hc
  have hi : itab cpu 0x9f#8 = some (.sub8 (.reg .a) true false) := by cases cpu <;> decide +kernel
  have k : (step cpu s).2.a = (sub8 cpu s.a true false (fetched s (s.ticks + 1))).a ∧
      abs (step cpu s).2 = abs (sub8 cpu s.a true false (fetched s (s.ticks + 1))) := by
    unfold step
    simp only [fetch_eq, h, hi, abs_ticks]; exact ⟨rfl, rfl⟩
  have ha := s.a.isLt
  refine ⟨?_, ?_, ?_⟩
  · rw [k.1]
    have e : ∀ a : Byte, (BitVec.ofNat 8 (a.toNat + (~~~(a + 1) + 1).toNat) : Byte) = 0xff#8 := by decide +kernel
    unfold sub8
    simp only [Bool.true_and, fetched, (flag_ne s.f).1, hc, if_true, Bool.false_eq_true, if_false, setF]
    exact e s.a
  · rw [k.2]
    unfold sub8
    simp only [abs_setF, orIf_bit, maskAll, fbits]
    simp [fetched]
  · unfold Isa.step
    rw [show (abs s).mem (abs s).pc = 0x9f#8 from h]
    show decide (s.a.toNat < s.a.toNat + (s.f.getLsbD 0).toNat) = true
    rw [hc]; simp

/-- SUB and CMP: AC is wrong when the operand's low digit is 0 (here SUI 0). -/
theorem c60_false_ac (cpu : Cpu) :
    (abs (step cpu (demo 0x21 0x02 0 (prog [0xd6, 0]))).2).ac = false ∧
    (Isa.step (cpu == .i8085) 0x2a#8 0x02 (abs (demo 0x21 0x02 0 (prog [0xd6, 0])))).ac = true := by
  cases cpu <;> decide +kernel

/-- ANA on the 8080 sets AC whatever the operands are (as the 8085 does). -/
theorem c60_false_ana : (abs (step .i8080 (demo 0x21 0x02 0 (prog [0xe6, 0x77]))).2).ac = true ∧
    (Isa.step false 0x2a#8 0x02 (abs (demo 0x21 0x02 0 (prog [0xe6, 0x77])))).ac = false := by
  decide +kernel

/-- SHLD 0FFFFH writes H nowhere (the manual's machine: to address 0); LHLD 0FFFFH loads H
with what happens to be in the dummy cell. -/
theorem c60_false_wrap (cpu : Cpu) :
    (step cpu (demo 0 0x02 0 (prog [0x22, 0xff, 0xff]))).2.mem 0 = 0 ∧
    (Isa.step (cpu == .i8085) 0x2a#8 0x02 (abs (demo 0 0x02 0 (prog [0x22, 0xff, 0xff])))).mem 0 = 0x40 ∧
    (step cpu (demo 0 0x02 0 (prog [0x2a, 0xff, 0xff]))).2.h = 0x55 := by
  cases cpu <;> decide +kernel

/-- POP PSW on the 8080 keeps the bits that are fixed on the processor. -/
theorem c60_false_pop : (steps .i8080 1 { demo 0 0x02 0 (fun x => if x = 0x100 then 0xf1 else 0xff) with sp := 0x200 }).f = 0xff := by
  decide +kernel

/-! ### C62: clock states -/

theorem wr_t (s : St) (n : Nat) (v : Byte) : (wr s n v).ticks = s.ticks ∧ (wr s n v).shift = s.shift := by unfold wr; split <;> exact ⟨rfl, rfl⟩
theorem set8_t (s : St) (r : R8) (v : Byte) : (set8 s r v).ticks = s.ticks ∧ (set8 s r v).shift = s.shift := by
  cases r <;> first | exact ⟨rfl, rfl⟩ | exact wr_t ..
theorem set16_t (s : St) (p : RP) (v : Word) : (set16 s p v).ticks = s.ticks ∧ (set16 s p v).shift = s.shift := by cases p <;> exact ⟨rfl, rfl⟩
theorem push2_t (v : Word) (s : St) : (push2 v s).ticks = s.ticks ∧ (push2 v s).shift = s.shift := by rw [push2_eq]; exact ⟨rfl, rfl⟩
theorem setF_t (cpu : Cpu) (v : Byte) (s : St) : (setF cpu v s).ticks = s.ticks ∧ (setF cpu v s).shift = s.shift := ⟨rfl, rfl⟩

/-- Whether the condition of a conditional instruction is met. -/
def taken (m : Isa.Mach) : Isa.Ins → Bool
  | .jcc c | .ccc c | .rcc c => m.cond c
  | _ => false

/-- Conditional instructions. -/
def isCond : Isa.Ins → Bool
  | .jcc _ | .ccc _ | .rcc _ => true
  | _ => false

theorem taken_cond (m : Isa.Mach) (i : Isa.Ins) (h : taken m i = true) : isCond i = true := by
  cases i <;> first | rfl | exact h

/-- Bodies count nothing; taken conditional ones ask for the second number of the table. -/
theorem exec_t (cpu : Cpu) (op : Byte) (i : Inst) (ins : Isa.Ins) (s : St) (t : Int) (h : conv op i = some ins) :
    (exec cpu op i (fetched s t)).ticks = t ∧ (exec cpu op i (fetched s t)).shift = taken (abs s) ins := by
  have T : (fetched s t).ticks = t ∧ (fetched s t).shift = false := ⟨rfl, rfl⟩
  cases i <;> simp only [conv, Option.some.injEq, reduceCtorEq] at h
  case mov d r => subst h; simp only [exec, set8_t, T]; exact ⟨trivial, rfl⟩
  case mvi d => subst h; simp only [exec, set8_t, fetch_fetched, T]; exact ⟨trivial, rfl⟩
  case lxi p => subst h; simp only [exec, set16_t, fetch16_fetched, T]; exact ⟨trivial, rfl⟩
  case sta => subst h; simp only [exec, wr_t, fetch16_fetched, T]; exact ⟨trivial, rfl⟩
  case lhld => subst h; simp only [exec, set16_t, fetch16_fetched, T]; exact ⟨trivial, rfl⟩
  case shld => subst h; simp only [exec, wr_t, fetch16_fetched, T]; exact ⟨trivial, rfl⟩
  case stax p => subst h; simp only [exec, wr_t, T]; exact ⟨trivial, rfl⟩
  case push p => subst h; simp only [exec, push2_t, T]; exact ⟨trivial, rfl⟩
  case pushPsw => subst h; simp only [exec, push2_t, T]; exact ⟨trivial, rfl⟩
  case pop p => subst h; simp only [exec, set16_t, pop2_eq, T]; exact ⟨trivial, rfl⟩
  case xthl => subst h; simp only [exec, set16_t, wr_t, T]; exact ⟨trivial, rfl⟩
  case add8 o c => cases o <;> simp only [conv, Option.some.injEq] at h <;> subst h <;> exact ⟨rfl, rfl⟩
  case sub8 o c k =>
    cases o <;> cases c <;> cases k <;> simp only [conv, Option.some.injEq, reduceCtorEq] at h <;> subst h <;> exact ⟨rfl, rfl⟩
  case dad p => subst h; simp only [exec, dad, setF_t, set16_t, T]; exact ⟨trivial, rfl⟩
  case inr r => subst h; simp only [exec, inr, setF_t, set8_t, T]; exact ⟨trivial, rfl⟩
  case dcr r => subst h; simp only [exec, dcr, setF_t, set8_t, T]; exact ⟨trivial, rfl⟩
  case inx p => subst h; cases cpu <;> simp only [exec, inx, setF_t, set16_t, T] <;> exact ⟨trivial, rfl⟩
  case dcx p => subst h; cases cpu <;> simp only [exec, dcx, setF_t, set16_t, T] <;> exact ⟨trivial, rfl⟩
  case ana o => cases o <;> simp only [conv, Option.some.injEq] at h <;> subst h <;> exact ⟨rfl, rfl⟩
  case ora o => cases o <;> simp only [conv, Option.some.injEq] at h <;> subst h <;> exact ⟨rfl, rfl⟩
  case xra o => cases o <;> simp only [conv, Option.some.injEq] at h <;> subst h <;> exact ⟨rfl, rfl⟩
  case daa => subst h; simp only [exec, daa]; split <;> exact ⟨rfl, rfl⟩
  case jmpIf g v =>
    obtain ⟨c, hc, rfl⟩ := Option.map_eq_some_iff.mp h
    have e : cond (fetched s t) g v = (abs s).cond c := cond_eq (fetched s t) g v c hc
    simp only [exec, jmpIf, fetch16_fetched, e, taken]
    cases (abs s).cond c <;> exact ⟨rfl, rfl⟩
  case call => subst h; simp only [exec, call, push2_t, fetch16_fetched, T]; exact ⟨trivial, rfl⟩
  case callIf g v =>
    obtain ⟨c, hc, rfl⟩ := Option.map_eq_some_iff.mp h
    have e : cond (fetched s t) g v = (abs s).cond c := cond_eq (fetched s t) g v c hc
    simp only [exec, callIf, fetch16_fetched, e, taken]
    cases (abs s).cond c
    · exact ⟨rfl, rfl⟩
    · simp only [if_true, push2_t, T]; exact ⟨trivial, trivial⟩
  case retIf g v =>
    obtain ⟨c, hc, rfl⟩ := Option.map_eq_some_iff.mp h
    have e : cond (fetched s t) g v = (abs s).cond c := cond_eq (fetched s t) g v c hc
    simp only [exec, retIf, ret, pop2_eq, e, taken]
    cases (abs s).cond c <;> exact ⟨rfl, rfl⟩
  case rst => subst h; simp only [exec, rst, push2_t, T]; exact ⟨trivial, rfl⟩
  all_goals subst h; exact ⟨rfl, rfl⟩

/-- What is counted: the number in the table, at the opcode that is in memory after the
instruction. -/
theorem ticks_ok (cpu : Cpu) (s : St) (hne : Isa.decode (s.mem s.pc) ≠ .other) :
    (step cpu s).2.ticks = s.ticks +
      ((if taken (abs s) (Isa.decode (s.mem s.pc)) then (tickTab cpu).getD ((step cpu s).2.mem s.pc).toNat 0 / 256
        else (tickTab cpu).getD ((step cpu s).2.mem s.pc).toNat 0) % 256 : Nat) := by
  have hi := (itab_ok cpu (s.mem s.pc)).resolve_left hne
  obtain ⟨i, h1, h2⟩ := Option.bind_eq_some_iff.mp hi
  obtain ⟨k1, k2⟩ := exec_t cpu _ i _ s (s.ticks + 1) h2
  unfold step
  simp only [fetch_eq, h1, rd_word]
  rw [show ({ s with shift := false, pc := s.pc + 1, ticks := s.ticks + 1 } : St) = fetched s (s.ticks + 1) from rfl]
  rw [k1, k2]
  omega

theorem tick85_ok : ∀ op : Byte, op ≠ 0x7c#8 → Isa.decode op ≠ .other →
    tick85.getD op.toNat 0 % 256 = Isa.states85 false (Isa.decode op) ∧
    (isCond (Isa.decode op) = true → tick85.getD op.toNat 0 / 256 % 256 = Isa.states85 true (Isa.decode op)) := by decide +kernel

theorem tick80_ok : ∀ op : Byte, op ≠ 0xeb#8 → Isa.decode op ≠ .other →
    tick80.getD op.toNat 0 % 256 = Isa.states80 false (Isa.decode op) ∧
    (isCond (Isa.decode op) = true → (∀ c, Isa.decode op ≠ .jcc c) →
      tick80.getD op.toNat 0 / 256 % 256 = Isa.states80 true (Isa.decode op)) := by decide +kernel

/-- **C62** for the 8085: every documented instruction counts the states of the manual, the
conditional ones by whether the condition is met; except MOV A,H (0x7C), and instructions
that overwrite their own opcode. -/
theorem c62_8085_partial (s : St) (hne : Isa.decode (s.mem s.pc) ≠ .other) (h7c : s.mem s.pc ≠ 0x7c#8)
    (hself : (step .i8085 s).2.mem s.pc = s.mem s.pc) :
    (step .i8085 s).2.ticks = s.ticks + Isa.states85 (taken (abs s) (Isa.decode (s.mem s.pc))) (Isa.decode (s.mem s.pc)) := by
  rw [ticks_ok .i8085 s hne, hself]
  obtain ⟨h1, h2⟩ := tick85_ok _ h7c hne
  simp only [tickTab]
  cases ht : taken (abs s) (Isa.decode (s.mem s.pc))
  · simp only [Bool.false_eq_true, if_false, h1]
  · simp only [if_true]
    rw [h2 (taken_cond _ _ ht)]

/-- **C62** for the 8080: as above; except XCHG, and conditional jumps that are taken. -/
theorem c62_8080_partial (s : St) (hne : Isa.decode (s.mem s.pc) ≠ .other) (heb : s.mem s.pc ≠ 0xeb#8)
    (hj : ∀ c, Isa.decode (s.mem s.pc) = .jcc c → (abs s).cond c = false)
    (hself : (step .i8080 s).2.mem s.pc = s.mem s.pc) :
    (step .i8080 s).2.ticks = s.ticks + Isa.states80 (taken (abs s) (Isa.decode (s.mem s.pc))) (Isa.decode (s.mem s.pc)) := by
  rw [ticks_ok .i8080 s hne, hself]
  obtain ⟨h1, h2⟩ := tick80_ok _ heb hne
  simp only [tickTab]
  cases ht : taken (abs s) (Isa.decode (s.mem s.pc))
  · simp only [Bool.false_eq_true, if_false, h1]
  · simp only [if_true]
    rw [h2 (taken_cond _ _ ht)]
    intro c e
    rw [e] at ht
    have h3 := hj c e
    rw [show (abs s).cond c = true from ht] at h3
    exact absurd h3 (by decide)

/-- A conditional jump that is taken counts no clock on the 8080 (10 states in the manual):
a loop that ends so runs without time passing. -/
theorem c62_false_jcc (s : St) (c : BitVec 3) (h : Isa.decode (s.mem s.pc) = .jcc c) (hc : (abs s).cond c = true) :
    (step .i8080 s).2.ticks = s.ticks ∧ Isa.states80 true (.jcc c) = 10 := by
  refine ⟨?_, rfl⟩
  have hm : (step .i8080 s).2.mem s.pc = s.mem s.pc := by
    have k := step_ok .i8080 s (by rw [h]; exact fun h => h)
    have : (abs (step .i8080 s).2).mem = (abs s).mem := by
      rw [k]; unfold Isa.step
      rw [show Isa.decode ((abs s).mem (abs s).pc) = .jcc c from h]
      simp only [Isa.exec]; split <;> rfl
    exact congrFun this s.pc
  rw [ticks_ok .i8080 s (by rw [h]; simp), hm, h]
  have e : ∀ op : Byte, ∀ c, Isa.decode op = .jcc c → tick80.getD op.toNat 0 / 256 = 0 := by decide +kernel
  simp only [taken, hc, if_true, tickTab, e _ c h]
  simp

/-- MOV A,H counts 5 states on the 8085, every other register 4; XCHG 5 on the 8080. -/
theorem c62_false_mov : (step .i8085 (demo 0 0 0 (prog [0x7c]))).2.ticks = 5 ∧ (step .i8085 (demo 0 0 0 (prog [0x7d]))).2.ticks = 4 ∧
    Isa.states85 false (Isa.decode 0x7c) = 4 ∧
    (step .i8080 (demo 0 2 0 (prog [0xeb]))).2.ticks = 5 ∧ Isa.states80 false (Isa.decode 0xeb) = 4 := by
  decide +kernel

/-- The states are looked up by the byte the instruction left in memory: MOV M,A over itself
counts those of the new byte. -/
theorem c62_false_self : (step .i8080 { demo 0xcd 2 0 (prog [0x77]) with h := 1, l := 0 }).2.ticks = 17 := by decide +kernel

/-- The hypotheses of `c62_8085_partial`, `c62_8080_partial` are met, e.g. by CNZ with Z clear. -/
example : (step .i8085 (demo 0 0 0 (prog [0xc4, 0x34, 0x12]))).2.mem 0x100 = 0xc4 ∧ Isa.decode 0xc4 = .ccc 0 ∧
    (step .i8085 (demo 0 0 0 (prog [0xc4, 0x34, 0x12]))).2.ticks = 18 ∧ (step .i8080 (demo 0 0x42 0 (prog [0xc4, 0x34, 0x12]))).2.ticks = 11 := by
  decide +kernel

end Ucsim.I80
