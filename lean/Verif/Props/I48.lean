import Verif.Proof.I48Main
/-
C108: the MCS-48 executes programs as the manual says.
C109: subroutines return to where they were called.
C110: timer/counter.
C111: interrupts.
C112: machine cycles.
-/
namespace Ucsim.I48

open Isa (next inPage)

/-! ### C108 -/

/-- **C108**, one instruction.  Left open, as in the manual: the low half of port 2 after using the
expander, and the BUS latch while external memory is used. -/
theorem c108_inst_partial (s : St) (i : Isa.Ins) (hw : Wf s) (hp : Pins s) (hi : Isa.decode (romRd s s.pc) = some i)
    (hd : ¬ Differs (abs s) i) :
    (execInst s).1 = .go ∧ ∃ m, (abs s).step = some m ∧
      (abs (execInst s).2).blur i.expander ((abs s).usesBus s.inner i) = m.blur i.expander ((abs s).usesBus s.inner i) :=
  inst_ok s i hw hp hi hd

theorem blur_none (m : Isa.Mach) : m.blur false false = m := rfl

/-- Nothing is left open for a program in the chip that does not use the expander. -/
def Plain (s : St) : Prop :=
  ∃ i, Isa.decode (romRd s s.pc) = some i ∧ i.expander = false ∧ (abs s).usesBus s.inner i = false ∧ ¬ Differs (abs s) i

/-- `n` instructions, the timer and the interrupts left out. -/
def insts : Nat → St → St
  | 0, s => s
  | n + 1, s => insts n (execInst s).2

/-- `n` instructions of the manual's machine. -/
def _root_.Ucsim.I48.Isa.run : Nat → Isa.Mach → Option Isa.Mach
  | 0, m => some m
  | n + 1, m => m.step.bind (Isa.run n)

theorem pins_exec (s : St) (f : Fn) : (exec f s).xpin = s.xpin := by
  have hr : ∀ s p v, (ramWr s p v).xpin = s.xpin := by intro s p v; unfold ramWr; split <;> rfl
  have hj : ∀ c s, (jif c s).xpin = s.xpin := by intro c s; rw [jif_eq]; cases c <;> rfl
  have hm : ∀ a s, (movpAt a s).xpin = s.xpin := by intro a s; unfold movpAt; simp only; split <;> rfl
  have hal : ∀ o v s, (aluOp o v s).xpin = s.xpin := by intro o v s; cases o <;> rfl
  have hpu : ∀ s, (push s).xpin = s.xpin := by intro s; unfold push setPsw; simp only [hr]
  cases f with
  | alu o k =>
    cases k with
    | imm => show (let (v, s) := fetch s; aluOp o v s).xpin = _; rw [fetch_eq]; exact hal _ _ _
    | ir r => exact hal _ _ _
    | r n => exact hal _ _ _
  | jmp p => show (let (a, s) := target p s; ({ s with pc := a } : St)).xpin = _; rw [target_eq]; rfl
  | call p => show (let (a, s) := target p s; ({ push s with pc := a } : St)).xpin = _; rw [target_eq]; exact hpu _
  | daa => obtain ⟨p, _, e⟩ := daa_parts s; show (daa s).xpin = _; rw [e]; rfl
  | outlP t => cases t <;> rfl
  | orlP t => show (let (v, s) := fetch s; outPort t (odr t s ||| v) s).xpin = _; rw [fetch_eq]; cases t <;> rfl
  | anlP t => show (let (v, s) := fetch s; outPort t (odr t s &&& v) s).xpin = _; rw [fetch_eq]; cases t <;> rfl
  | orlBus => show (let (v, s) := fetch s; latch (s.bus ||| v) s).xpin = _; rw [fetch_eq]; rfl
  | anlBus => show (let (v, s) := fetch s; latch (s.bus &&& v) s).xpin = _; rw [fetch_eq]; rfl
  | incIr r => exact hr _ _ _
  | xchIr r => exact hr _ _ _
  | xchdIr r => exact hr _ _ _
  | movIrA r => exact hr _ _ _
  | movIrI r => show (let (v, s) := fetch s; ramWr s (ptr s r) v).xpin = _; rw [fetch_eq]; exact hr _ _ _
  | movRI n => show (let (v, s) := fetch s; regWr s n v).xpin = _; rw [fetch_eq]; rfl
  | movp => exact hm _ _
  | movp3 => exact hm _ _
  | jb b => exact hj _ _
  | jif k => exact hj _ _
  | jtf => exact hj _ _
  | djnz p => show (djnz p s).xpin = _; unfold djnz; rw [fetch_eq]; rfl
  | _ => rfl

theorem pins_execInst (s : St) : (execInst s).2.xpin = s.xpin := by
  rw [execInst_eq]
  split
  · rfl
  · rfl
  · exact pins_exec _ _

/-- **C108**, programs of any length. -/
theorem c108_run_partial (n : Nat) (s : St) (hw : Wf s) (hp : Pins s) (h : ∀ k, k < n → Plain (insts k s)) :
    Isa.run n (abs s) = some (abs (insts n s)) := by
  induction n generalizing s with
  | zero => rfl
  | succ n ih =>
    obtain ⟨i, h1, h2, h3, h4⟩ := h 0 (by omega)
    obtain ⟨_, m, hm, e⟩ := c108_inst_partial s i hw hp h1 h4
    have h3' : (abs s).usesBus s.inner i = false := h3
    rw [h2, h3', blur_none, blur_none] at e
    show (abs s).step.bind (Isa.run n) = _
    rw [hm]
    show Isa.run n m = _
    rw [← e]
    exact ih _ (wf_execInst hw) (by unfold Pins; rw [pins_execInst]; exact hp) (fun k hk => h (k + 1) (by omega))

/-- The timer stopped (or counting T1) and no interrupt enabled: a step of the simulation is the
instruction. -/
theorem c108_step (s : St) (hm : (execInst s).2.mode ≠ .timer) (h1 : (execInst s).2.ene = false) (h2 : (execInst s).2.ien = false) :
    (step s).1 = (execInst s).1 ∧ abs (step s).2 = abs (execInst s).2 := by
  obtain ⟨p, q, e⟩ := tickHw_stopped ((execInst s).2.ticks - s.ticks) hm
  refine ⟨rfl, ?_⟩
  have hi : interrupt { (execInst s).2 with pre16 := p, pre := q } = { (execInst s).2 with pre16 := p, pre := q } := by
    unfold interrupt
    simp only [h1, h2]
    split
    · rfl
    · simp
  show abs (if (execInst s).1 = .inv then tickHw _ _ else interrupt (tickHw _ _)) = _
  rw [e, hi]
  split <;> rfl

/-- Not an instruction: the simulator says so; nothing but BUS may have changed. -/
theorem c108_undefined (s : St) (h : Isa.decode (romRd s s.pc) = none) :
    (execInst s).1 = .inv ∧ (abs (execInst s).2).blur false true = (abs s).blur false true ∧ (execInst s).2.pc = s.pc ∧
    (execInst s).2.ticks = s.ticks := by
  have hs : ∀ c : Byte, Isa.decode c = none → select c = .inv := by decide +kernel
  have e := hs _ h
  have hc : cyclesOf (romRd s s.pc) = 0 := by unfold cyclesOf; rw [e]
  rw [execInst_eq, e, hc]
  exact ⟨rfl, rfl, rfl, rfl⟩

/-- What C108 assumes of the state holds after reset ... -/
theorem c108_reset (s : St) (hr : 64 ≤ s.ramSize) (hx : ∀ n, (s.x n).toNat < 16) : Wf (reset s) :=
  ⟨(by decide : (0#8 ||| 0x08#8 : Byte).getLsbD 3 = true), hr, hx⟩

/-- ... and in every later state. -/
theorem c108_wf (s : St) (n : Nat) (hw : Wf s) : Wf (steps n s) := wf_steps hw n

/-- After reset the machine is as the manual says: PC, SP, banks, flags, ports, timer, interrupts. -/
theorem c108_reset_state (s : St) :
    let m := abs (reset s)
    m.pc = 0 ∧ m.sp = 0 ∧ m.bs = false ∧ m.dbf = false ∧ m.f0 = false ∧ m.f1 = false ∧ m.p1 = 0xff ∧ m.p2 = 0xff ∧
    m.mode = .stop ∧ m.tf = false ∧ m.eni = false ∧ m.entcnti = false ∧ m.isr = false ∧
    m.prog = (abs s).prog ∧ m.ram = (abs s).ram ∧ m.ext = (abs s).ext := by
  have hp : (reset s).psw = 8#8 := rfl
  refine ⟨rfl, ?_, ?_, rfl, ?_, rfl, rfl, rfl, rfl, rfl, rfl, rfl, rfl, rfl, rfl, rfl⟩
  · show (reset s).psw.extractLsb' 0 3 = 0; rw [hp]; decide
  · show (reset s).psw.getLsbD 4 = false; rw [hp]; decide
  · show (reset s).psw.getLsbD 5 = false; rw [hp]; decide

/-- An 8048 with 1K of rom and 64 bytes of ram. -/
def demo (m : Nat → Option Byte) : St where
  romSize := 1024
  ramSize := 64
  inner := 1024
  rom := fun w => (m w.toNat).getD 0
  iram := fun _ => 0
  und := 0
  xram := fun _ => 0
  a := 0
  psw := 8
  mb := false
  f1 := false
  inIsr := false
  pc := 0
  p1 := 0xff
  p2 := 0xff
  p1pin := 0xff
  p2pin := 0xff
  x := fun _ => 0
  xpin := fun _ => 0
  bus := 0
  busIn := 0
  t0 := true
  t1 := true
  int := true
  ene := false
  pre16 := 0
  pre := 0
  tmr := 0
  mode := .stop
  tflag := false
  ovf := false
  ien := false
  ireq := false
  ticks := 0

def bytes (at_ : Nat) (l : List Byte) (rest : Nat → Option Byte := fun _ => none) : Nat → Option Byte :=
  fun n => if at_ ≤ n ∧ n < at_ + l.length then l[n - at_]? else rest n

theorem demo_wf (m : Nat → Option Byte) : Wf (demo m) ∧ Pins (demo m) := ⟨⟨(by decide : (8#8 : Byte).getLsbD 3 = true), Nat.le_refl _, fun _ => Nat.zero_lt_succ _⟩, fun _ => Nat.zero_lt_succ _⟩

instance (m : Isa.Mach) (i : Isa.Ins) : Decidable (Differs m i) := by
  unfold Differs; split <;> infer_instance

/-- MOV A,#0x28; ADD A,#0x19; DA A; MOV R0,#0x20; MOV @R0,A; CALL 0x110; at 0x110: RL A; RET -/
def prog1 : St := demo (bytes 0 [0x23, 0x28, 0x03, 0x19, 0x57, 0xb8, 0x20, 0xa0, 0x34, 0x10] (bytes 0x110 [0xe7, 0x83]))

def plainB (s : St) : Bool :=
  match Isa.decode (romRd s s.pc) with
  | none => false
  | some i => i.expander == false && (abs s).usesBus s.inner i == false && decide (¬ Differs (abs s) i)

theorem plainB_sound {s : St} (h : plainB s = true) : Plain s := by
  unfold plainB at h
  split at h
  · cases h
  · rename_i i hi
    simp only [Bool.and_eq_true, beq_iff_eq, decide_eq_true_eq] at h
    exact ⟨i, hi, h.1.1, h.1.2, h.2⟩

/-- The hypotheses of c108_run_partial are met by that program, and it does what it should. -/
example : (∀ k, k < 8 → Plain (insts k prog1)) ∧ (insts 8 prog1).a = 0x8e#8 ∧ (insts 8 prog1).iram 0x20#8 = 0x47#8 ∧ (insts 8 prog1).pc = 0x00a#12 := by
  refine ⟨?_, by decide +kernel, by decide +kernel, by decide +kernel⟩
  have h : ∀ k, k < 8 → plainB (insts k prog1) = true := by decide +kernel
  exact fun k hk => plainB_sound (h k hk)

example : (execInst (demo (bytes 0 [0x01]))).1 = .inv := by decide +kernel

/-! The known differences are real. -/

/-- ADDC A,@R0 is never carried out: PC stays, for ever. -/
theorem c108_false_addc (s : St) (h : romRd s s.pc = 0x70#8 ∨ romRd s s.pc = 0x71#8) :
    (execInst s).1 = .notDone ∧ (execInst s).2.pc = s.pc ∧ (execInst s).2.a = s.a ∧
    ∃ r, Isa.decode (romRd s s.pc) = some (.alu .adc (.ir r)) := by
  have e : select (romRd s s.pc) = .missing := by rcases h with h | h <;> rw [h] <;> rfl
  refine ⟨?_, ?_, ?_, ?_⟩
  · rw [execInst_eq, e]
  · rw [execInst_eq, e]
  · rw [execInst_eq, e]; rfl
  · rcases h with h | h <;> rw [h]
    · exact ⟨false, by decide +kernel⟩
    · exact ⟨true, by decide +kernel⟩

/-- DJNZ Rn: R7 is decremented whatever n is, and the jump is taken whatever the register holds. -/
theorem c108_false_djnz (s : St) (n : Fin 8) (h : Isa.decode (romRd s s.pc) = some (.djnz n)) :
    (execInst s).1 = .go ∧ (abs (execInst s).2).reg 7 = (abs s).reg 7 - 1 ∧
    (∀ k, k ≠ 7 → (abs (execInst s).2).reg k = (abs s).reg k) ∧
    (execInst s).2.pc = inPage (next (next s.pc)) (romRd s (next s.pc)) := by
  have hs : ∀ c : Byte, ∀ n, Isa.decode c = some (.djnz n) → select c = .djnz 7#3 := by
    have : ∀ n : Fin 8, ∀ c : Byte, Isa.decode c = some (.djnz n) → select c = .djnz 7#3 := by decide +kernel
    exact fun c n => this n c
  have e := hs _ n h
  rw [execInst_go s (by rw [e]; decide) (by rw [e]; decide), e]
  show _ ∧ (abs (djnz 7#3 _)).reg 7 = _ ∧ (∀ k, k ≠ 7 → (abs (djnz 7#3 _)).reg k = _) ∧ (djnz 7#3 _).pc = _
  have ed : ∀ s, djnz 7#3 s = { regWr (adv s) 7 (regRd s 7 - 1#8) with pc := inPage (next s.pc) (romRd s s.pc) } := by
    intro s
    unfold djnz
    rw [fetch_eq]
    simp only
    rw [page_add]; rfl
  rw [ed]
  refine ⟨rfl, ?_, ?_, rfl⟩
  · rw [abs_pc, regWr_eq, regRd_eq]
    show (if (abs s).regAt 7 = (abs s).regAt 7 then (abs s).reg 7 - 1#8 else _) = _
    rw [if_pos rfl]; rfl
  · intro k hk
    rw [abs_pc, regWr_eq]
    show (if (abs s).regAt k = (abs s).regAt 7 then _ else _) = _
    rw [if_neg]
    · rfl
    · intro h
      apply hk
      have : ∀ (b : Bool) (k : Fin 8), BitVec.ofNat 8 ((if b then 24 else 0) + k.val) = BitVec.ofNat 8 ((if b then 24 else 0) + 7) → k = 7 := by decide +kernel
      exact this _ k h

/-- So a delay loop on R0 never ends: DJNZ R0,$ is at address 0 again after any number of rounds. -/
theorem c108_false_loop (n : Nat) : (insts n (demo (bytes 0 [0xe8, 0x00]))).pc = 0#12 := by
  suffices h : ∀ (s : St), s.rom = (demo (bytes 0 [0xe8, 0x00])).rom → s.romSize = 1024 → s.pc = 0#12 → (insts n s).pc = 0#12 from h _ rfl rfl rfl
  induction n with
  | zero => intro s _ _ h; exact h
  | succ n ih =>
    intro s h1 h2 h3
    have hr : ∀ a : Addr, a.toNat < 1024 → romRd s a = (demo (bytes 0 [0xe8, 0x00])).rom a := by
      intro a ha; unfold romRd; rw [h1, h2, if_pos ha]
    have e0 : romRd s s.pc = 0xe8#8 := by rw [h3, hr _ (by decide)]; decide +kernel
    have e1 : romRd s (next s.pc) = 0x00#8 := by rw [h3, hr _ (by decide)]; decide +kernel
    obtain ⟨_, _, _, hpc⟩ := c108_false_djnz s 0 (by rw [e0]; decide +kernel)
    apply ih
    · rw [← h1]
      have : ∀ c, c = 0xe8#8 → select c = .djnz 7#3 := by intro c h; rw [h]; decide +kernel
      rw [execInst_go s (by rw [this _ e0]; decide) (by rw [this _ e0]; decide), this _ e0]
      show (djnz 7#3 _).rom = _
      unfold djnz; rw [fetch_eq]; rfl
    · rw [← h2]
      have : ∀ c, c = 0xe8#8 → select c = .djnz 7#3 := by intro c h; rw [h]; decide +kernel
      rw [execInst_go s (by rw [this _ e0]; decide) (by rw [this _ e0]; decide), this _ e0]
      show (djnz 7#3 _).romSize = _
      unfold djnz; rw [fetch_eq]; rfl
    · rw [hpc, e1, h3]; decide +kernel

/-- JZ at 0x0fe, target 0x80: the manual's machine goes to 0x080, the simulator to 0x180. -/
theorem c108_false_page :
    let s := { demo (bytes 0xfe [0xc6, 0x80]) with pc := 0xfe#12 }
    (execInst s).2.pc = 0x180#12 ∧ ((abs s).step.map (·.pc)) = some 0x080#12 := by decide +kernel

/-- JMP 0x010 in an interrupt service routine after SEL MB1: to 0x810. -/
theorem c108_false_isr :
    let s := { demo (bytes 0 [0x04, 0x10]) with mb := true, inIsr := true }
    (execInst s).2.pc = 0x810#12 ∧ ((abs s).step.map (·.pc)) = some 0x010#12 := by decide +kernel

/-- MOVP3 A,@A in the upper 2K reads page 11. -/
theorem c108_false_movp3 :
    let s := { demo (bytes 0x305 [0x33] (bytes 0xb05 [0xbb] (bytes 0x800 [0xe3]))) with romSize := 4096, inner := 4096, pc := 0x800#12, a := 5#8 }
    (execInst s).2.a = 0xbb#8 ∧ ((abs s).step.map (·.a)) = some 0x33#8 := by decide +kernel

/-- MOVD P4,A clears the upper half of port 2. -/
theorem c108_false_movd :
    let s := { demo (bytes 0 [0x3c]) with a := 5#8 }
    (execInst s).2.p2 = 0x05#8 ∧ ((abs s).step.map (·.p2)) = some 0xff#8 := by decide +kernel

/-- MOV @R0,A with R0 = 0x50 on a chip with 64 bytes: nothing is stored in the data memory, but
program memory above the rom changes. -/
theorem c108_false_ram :
    let s := { demo (bytes 0 [0xa0]) with a := 5#8, iram := fun b => if b = 0#8 then 0x50#8 else 0#8 }
    (execInst s).2.iram 0x10#8 = 0#8 ∧ ((abs s).step.map (fun m => m.ram 0x10#8)) = some 5#8 ∧
    romRd s 0x400#12 = 0#8 ∧ romRd (execInst s).2 0x400#12 = 5#8 := by decide +kernel

/-- MOVD A,P4 after `set expander pin 0xa5`: eight bits reach A. -/
theorem c108_false_pins :
    let s := { demo (bytes 0 [0x0c]) with p2 := 0#8, xpin := fun _ => 0xa5#8 }
    (execInst s).2.a = 0xa5#8 ∧ ((abs s).step.map (·.a)) = some 0x05#8 := by decide +kernel

end Ucsim.I48
