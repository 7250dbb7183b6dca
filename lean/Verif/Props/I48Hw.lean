import Verif.Props.I48Stack
/-
C110: timer/counter.  C111: interrupts.  C112: machine cycles.  C113: decimal addition.
C114: ports.  C115: register banks.
-/
namespace Ucsim.I48

open Isa (next inPage stackLow stackHigh)

/-! ### C112: time -/

/-- The entries of decode.h with another number of machine cycles than the manual. -/
def oddCycles (c : Byte) : Bool := c == 0x53#8 || c == 0x75#8 || c == 0xa0#8 || c == 0xa1#8

theorem cycles_table : ∀ c : Byte, ∀ i, Isa.decode c = some i → (cyclesOf c = i.cycles ↔ oddCycles c = false) := by
  have h : ∀ c : Byte, (match Isa.decode c with | none => true | some i => (cyclesOf c == i.cycles) == !oddCycles c) = true := by decide +kernel
  intro c i hi
  have := h c
  rw [hi] at this
  simp only [beq_iff_eq] at this
  cases ho : oddCycles c
  · rw [ho] at this; simpa using this
  · rw [ho] at this; simpa using this

theorem ticks_exec (s : St) (f : Fn) : (exec f s).ticks = s.ticks := by
  have hr : ∀ s p v, (ramWr s p v).ticks = s.ticks := by intro s p v; unfold ramWr; split <;> rfl
  have hj : ∀ c s, (jif c s).ticks = s.ticks := by intro c s; rw [jif_eq]; cases c <;> rfl
  have hm : ∀ a s, (movpAt a s).ticks = s.ticks := by intro a s; unfold movpAt; simp only; split <;> rfl
  have hal : ∀ o v s, (aluOp o v s).ticks = s.ticks := by intro o v s; cases o <;> rfl
  have hpu : ∀ s, (push s).ticks = s.ticks := by intro s; unfold push setPsw; simp only [hr]
  cases f with
  | alu o k =>
    cases k with
    | imm => show (let (v, s) := fetch s; aluOp o v s).ticks = _; rw [fetch_eq]; exact hal _ _ _
    | ir r => exact hal _ _ _
    | r n => exact hal _ _ _
  | jmp p => show (let (a, s) := target p s; ({ s with pc := a } : St)).ticks = _; rw [target_eq]; rfl
  | call p => show (let (a, s) := target p s; ({ push s with pc := a } : St)).ticks = _; rw [target_eq]; exact hpu _
  | daa => obtain ⟨p, _, e⟩ := daa_parts s; show (daa s).ticks = _; rw [e]; rfl
  | outlP t => cases t <;> rfl
  | orlP t => show (let (v, s) := fetch s; outPort t (odr t s ||| v) s).ticks = _; rw [fetch_eq]; cases t <;> rfl
  | anlP t => show (let (v, s) := fetch s; outPort t (odr t s &&& v) s).ticks = _; rw [fetch_eq]; cases t <;> rfl
  | orlBus => show (let (v, s) := fetch s; latch (s.bus ||| v) s).ticks = _; rw [fetch_eq]; rfl
  | anlBus => show (let (v, s) := fetch s; latch (s.bus &&& v) s).ticks = _; rw [fetch_eq]; rfl
  | incIr r => exact hr _ _ _
  | xchIr r => exact hr _ _ _
  | xchdIr r => exact hr _ _ _
  | movIrA r => exact hr _ _ _
  | movIrI r => show (let (v, s) := fetch s; ramWr s (ptr s r) v).ticks = _; rw [fetch_eq]; exact hr _ _ _
  | movRI n => show (let (v, s) := fetch s; regWr s n v).ticks = _; rw [fetch_eq]; rfl
  | movp => exact hm _ _
  | movp3 => exact hm _ _
  | jb b => exact hj _ _
  | jif k => exact hj _ _
  | jtf => exact hj _ _
  | djnz p => show (djnz p s).ticks = _; unfold djnz; rw [fetch_eq]; rfl
  | _ => rfl

theorem ticks_inst (s : St) : (execInst s).2.ticks = s.ticks + cyclesOf (romRd s s.pc) * 5 := by
  rw [execInst_eq]
  split
  · rfl
  · rfl
  · exact ticks_exec _ _

/-- **C112**: an instruction takes the machine cycles of the manual (five clocks each), but for
ANL A,#, ENT0 CLK and MOV @Rr,A. -/
theorem c112_cycles_partial (s : St) (i : Isa.Ins) (h : here s = some i) (ho : oddCycles (romRd s s.pc) = false) :
    (execInst s).2.ticks = s.ticks + i.cycles * 5 := by
  rw [ticks_inst, (cycles_table _ i h).2 ho]

/-- Those are wrong in every state. -/
theorem c112_false (s : St) (i : Isa.Ins) (h : here s = some i) (ho : oddCycles (romRd s s.pc) = true) :
    (execInst s).2.ticks ≠ s.ticks + i.cycles * 5 := by
  rw [ticks_inst]
  intro e
  have : cyclesOf (romRd s s.pc) = i.cycles := by omega
  rw [(cycles_table _ i h).1 this] at ho
  cases ho

example : here prog1 = some (.alu .mov .imm) ∧ oddCycles (romRd prog1 prog1.pc) = false ∧ (execInst prog1).2.ticks = 10 := by decide +kernel
example : (execInst (demo (bytes 0 [0x53, 0x0f]))).2.ticks = 5 ∧ (execInst (demo (bytes 0 [0xa0]))).2.ticks = 10 ∧
    (execInst (demo (bytes 0 [0x75]))).2.ticks = 10 := by decide +kernel

/-- The whole step: the interrupt takes no time. -/
theorem ticks_step (s : St) : (step s).2.ticks = s.ticks + cyclesOf (romRd s s.pc) * 5 := by
  have hr : ∀ s p v, (ramWr s p v).ticks = s.ticks := by intro s p v; unfold ramWr; split <;> rfl
  have ha : ∀ s v, (accept v s).ticks = s.ticks := by intro s v; unfold accept push setPsw; simp only [hr]
  have ht : ∀ n s, (tickHw n s).ticks = s.ticks := by
    intro n s; obtain ⟨_, _, _, _, _, e⟩ := tickHw_eq n s; rw [e]
  have hi : ∀ s, (interrupt s).ticks = s.ticks := by
    intro s; unfold interrupt; split
    · rfl
    · split
      · exact ha _ _
      · split
        · exact ha _ _
        · rfl
  rw [← ticks_inst]
  unfold step
  simp only
  split
  · exact ht _ _
  · rw [hi, ht]

/-! ### C110: timer/counter -/

/-- The prescalers are in range after reset and stay so. -/
theorem c110_pre (s : St) (n : Nat) (h : Pre s) : Pre (tickHw n s) := by
  induction n generalizing s with
  | zero => exact h
  | succ n ih => exact ih _ (pre_hwTick h)

theorem c110_reset (s : St) : Pre (reset s) ∧ (reset s).mode = .stop ∧ (reset s).tmr = 0#8 ∧ (reset s).tflag = false :=
  ⟨⟨Nat.zero_lt_succ _, Nat.zero_lt_succ _⟩, rfl, rfl, rfl⟩

theorem aux_timer (t p q n t' p' q' : Nat) (h : t' * 512 + p' * 16 + q' = (t * 512 + p * 16 + q + n) % 131072) (hp : p' < 32) (hq : q' < 16) :
    t' = (t + (p * 16 + q + n) / 512) % 256 := by
  have hx : ∃ x, p * 16 + q + n = x := ⟨_, rfl⟩
  obtain ⟨x, hx⟩ := hx
  rw [hx]
  have e : t * 512 + p * 16 + q + n = t * 512 + x := by rw [← hx, Nat.add_assoc, Nat.add_assoc, Nat.add_assoc]
  rw [e] at h
  have e2 : t + x / 512 = (t * 512 + x) / 512 := by clear h; omega
  rw [e2]
  have e3 : t' = (t' * 512 + p' * 16 + q') / 512 := by clear h; omega
  rw [e3, h]
  clear h e3 e2 e
  generalize t * 512 + x = y
  rw [show (131072 : Nat) = 512 * 256 from rfl, Nat.mod_mul_right_div_self]

/-- **C110**, timer mode: T counts, modulo 256, and the timer flag is set exactly when T passes from
0xff to 0.  What is wrong: one count takes 512 clocks (102.4 machine cycles) instead of 160 (32
machine cycles). -/
theorem c110_timer_partial (s : St) (n : Nat) (h : Pre s) (hm : s.mode = .timer) :
    (tickHw n s).tmr.toNat = (s.tmr.toNat + (s.pre * 16 + s.pre16 + n) / 512) % 256 ∧
    (tickHw n s).tflag = (s.tflag || decide (256 ≤ s.tmr.toNat + (s.pre * 16 + s.pre16 + n) / 512)) := by
  obtain ⟨h1, h2, _, h4⟩ := tickHw_timer n h hm
  have ht := (tickHw n s).tmr.isLt
  have ht0 := s.tmr.isLt
  obtain ⟨h4a, h4b⟩ := h4
  constructor
  · unfold count at h1
    exact aux_timer _ _ _ _ _ _ _ h1 h4b h4a
  · rw [h2]
    congr 1
    unfold count
    have : (131072 ≤ s.tmr.toNat * 512 + s.pre * 16 + s.pre16 + n) ↔ (256 ≤ s.tmr.toNat + (s.pre * 16 + s.pre16 + n) / 512) := by
      constructor <;> intro h <;> omega
    exact decide_eq_decide.mpr this

/-- Stopped, or counting T1: time changes neither T nor the flag. -/
theorem c110_stopped (s : St) (n : Nat) (hm : s.mode ≠ .timer) :
    (tickHw n s).tmr = s.tmr ∧ (tickHw n s).tflag = s.tflag ∧ (tickHw n s).ovf = s.ovf := by
  obtain ⟨p, q, e⟩ := tickHw_stopped n hm
  rw [e]; exact ⟨rfl, rfl, rfl⟩

/-- STRT T clears the prescaler; STRT CNT, STRT T and STOP TCNT leave T alone. -/
theorem c110_start (s : St) (m : TMode) : (setMode m s).tmr = s.tmr ∧ (setMode m s).mode = m ∧ (setMode m s).tflag = s.tflag ∧
    (m = .timer → (setMode m s).pre = 0) := by
  refine ⟨rfl, rfl, rfl, ?_⟩
  intro h
  show (if m = .stop then s.pre else 0) = 0
  rw [if_neg (by rw [h]; decide)]

/-- STRT T and 33 NOPs: by the manual T is 1 after 32 machine cycles, here it is 0 ... -/
theorem c110_false_rate : (steps 34 (demo (bytes 0 [0x55]))).mode = .timer ∧ (steps 34 (demo (bytes 0 [0x55]))).tmr = 0#8 := by decide +kernel

/-- ... and still 0 after 101. -/
theorem c110_false_rate2 : (steps 102 (demo (bytes 0 [0x55]))).tmr = 0#8 ∧ (steps 104 (demo (bytes 0 [0x55]))).tmr = 1#8 := by decide +kernel

/-- Counter mode: the level of T1 may fall any number of times, T does not change. -/
theorem c110_false_counter (s : St) (levels : List Nat) : (levels.foldl (fun s v => setT1 v s) s).tmr = s.tmr := by
  have h : ∀ v s, (setT1 v s).tmr = s.tmr := by
    intro v s
    unfold setT1
    simp only
    by_cases hv : v = 0
    · subst hv; simp
    · simp [hv]
  induction levels generalizing s with
  | nil => rfl
  | cons v l ih => rw [List.foldl_cons, ih, h]

/-- JTF jumps when the flag is set, and clears it. -/
theorem c110_jtf (s : St) (hw : Wf s) (hp : Pins s) (h : here s = some (.jcc .tf)) (hd : s.pc.extractLsb' 0 8 ≠ 0xfe#8) :
    (execInst s).1 = .go ∧ (execInst s).2.pc = (if s.tflag then inPage (next s.pc) (romRd s (next s.pc)) else next (next s.pc)) ∧
    (execInst s).2.tflag = false := by
  have hdif : ¬ Differs (abs s) (.jcc .tf) := fun h => hd h.1
  obtain ⟨h1, m, h2, h3⟩ := c108_inst_partial s _ hw hp h hdif
  have hs : (abs s).step = some { ({ abs s with pc := next (next s.pc) } : Isa.Mach).jump (next s.pc) s.tflag with tf := false } := by
    unfold Isa.Mach.step
    rw [show Isa.decode ((abs s).prog (abs s).pc) = some (.jcc .tf) from h]
    rfl
  rw [hs] at h2
  have h2 := Option.some.inj h2
  subst h2
  refine ⟨h1, ?_, ?_⟩
  · have := congrArg (·.pc) h3
    have e : (execInst s).2.pc = (({ abs s with pc := next (next s.pc) } : Isa.Mach).jump (next s.pc) s.tflag).pc := this
    rw [e]
    cases s.tflag <;> rfl
  · have := congrArg (·.tf) h3
    exact this

example : Pre (demo (bytes 0 [0x55])) ∧ (tickHw 131072 { demo (bytes 0 [0x55]) with mode := .timer }).tflag = true := by
  refine ⟨⟨by decide, by decide⟩, ?_⟩
  have hp : Pre { demo (bytes 0 [0x55]) with mode := .timer } := ⟨Nat.zero_lt_succ _, Nat.zero_lt_succ _⟩
  rw [(c110_timer_partial _ 131072 hp rfl).2]
  decide

/-! ### C111: interrupts -/

/-- The external interrupt (INT low, enabled, no interrupt in service): PC and status are saved, PC
is 3. -/
theorem c111_external (s : St) (hw : Wf s) (h1 : s.ene = true) (h2 : s.int = false) (h3 : s.inIsr = false) :
    abs (interrupt s) = (abs s).accept 3 := by
  unfold interrupt
  rw [h1, h2, h3]
  simp only [Bool.false_eq_true, if_false, Bool.not_false, and_self, if_true]
  show abs { push { s with inIsr := true } with pc := 3#12 } = _
  rw [abs_pc, push_ok (⟨hw.one, hw.ram, hw.x⟩ : Wf { s with inIsr := true })]
  rfl

/-- No interrupt while one is in service, or when neither is enabled and asked for. -/
theorem c111_none (s : St) (h : s.inIsr = true ∨ ((s.ene = false ∨ s.int = true) ∧ (s.ien = false ∨ s.ireq = false))) : interrupt s = s := by
  unfold interrupt
  rcases h with h | ⟨h1, h2⟩
  · rw [h]; rfl
  · split
    · rfl
    · rw [if_neg (by rcases h1 with h | h <;> simp [h]), if_neg (by rcases h2 with h | h <;> simp [h])]

/-- An interrupt is only taken between instructions; the interrupted program goes on where it was
(c109_irq). -/
theorem c111_resume (s u : St) (hw : Wf s) (h1 : s.ene = true) (h2 : s.int = false) (h3 : s.inIsr = false)
    (hb : Bal 7 (interrupt s) u) (hr : here u = some .retr) :
    (execInst u).2.pc = s.pc ∧ (abs (execInst u).2).sp = (abs s).sp ∧ (abs (execInst u).2).c = (abs s).c ∧
    (abs (execInst u).2).ac = (abs s).ac ∧ (abs (execInst u).2).f0 = (abs s).f0 ∧ (abs (execInst u).2).bs = (abs s).bs ∧
    (execInst u).2.inIsr = false := by
  have e : interrupt s = accept 3 s := by
    unfold interrupt
    rw [h1, h2, h3]
    simp only [Bool.false_eq_true, if_false, Bool.not_false, and_self, if_true]
    rfl
  rw [e] at hb
  exact (c109_irq s u 3 hw hb hr).2

theorem ireq_exec (s : St) (f : Fn) (h : s.ireq = false) : (exec f s).ireq = false := by
  have hr : ∀ s p v, (ramWr s p v).ireq = s.ireq := by intro s p v; unfold ramWr; split <;> rfl
  have hj : ∀ c s, (jif c s).ireq = s.ireq := by intro c s; rw [jif_eq]; cases c <;> rfl
  have hm : ∀ a s, (movpAt a s).ireq = s.ireq := by intro a s; unfold movpAt; simp only; split <;> rfl
  have hal : ∀ o v s, (aluOp o v s).ireq = s.ireq := by intro o v s; cases o <;> rfl
  have hpu : ∀ s, (push s).ireq = s.ireq := by intro s; unfold push setPsw; simp only [hr]
  cases f with
  | alu o k =>
    cases k with
    | imm => show (let (v, s) := fetch s; aluOp o v s).ireq = _; rw [fetch_eq]; exact (hal _ _ _).trans h
    | ir r => exact (hal _ _ _).trans h
    | r n => exact (hal _ _ _).trans h
  | jmp p => show (let (a, s) := target p s; ({ s with pc := a } : St)).ireq = _; rw [target_eq]; exact h
  | call p => show (let (a, s) := target p s; ({ push s with pc := a } : St)).ireq = _; rw [target_eq]; exact (hpu _).trans h
  | daa => obtain ⟨p, _, e⟩ := daa_parts s; show (daa s).ireq = _; rw [e]; exact h
  | outlP t => cases t <;> exact h
  | orlP t => show (let (v, s) := fetch s; outPort t (odr t s ||| v) s).ireq = _; rw [fetch_eq]; cases t <;> exact h
  | anlP t => show (let (v, s) := fetch s; outPort t (odr t s &&& v) s).ireq = _; rw [fetch_eq]; cases t <;> exact h
  | orlBus => show (let (v, s) := fetch s; latch (s.bus ||| v) s).ireq = _; rw [fetch_eq]; exact h
  | anlBus => show (let (v, s) := fetch s; latch (s.bus &&& v) s).ireq = _; rw [fetch_eq]; exact h
  | incIr r => exact (hr _ _ _).trans h
  | xchIr r => exact (hr _ _ _).trans h
  | xchdIr r => exact (hr _ _ _).trans h
  | movIrA r => exact (hr _ _ _).trans h
  | movIrI r => show (let (v, s) := fetch s; ramWr s (ptr s r) v).ireq = _; rw [fetch_eq]; exact (hr _ _ _).trans h
  | movRI n => show (let (v, s) := fetch s; regWr s n v).ireq = _; rw [fetch_eq]; exact h
  | movp => exact (hm _ _).trans h
  | movp3 => exact (hm _ _).trans h
  | jb b => exact (hj _ _).trans h
  | jif k => exact (hj _ _).trans h
  | jtf => exact (hj _ _).trans h
  | djnz p => show (djnz p s).ireq = _; unfold djnz; rw [fetch_eq]; exact h
  | distcnti => rfl
  | _ => exact h

theorem ireq_step (s : St) (h : s.ireq = false) : (step s).2.ireq = false := by
  have hr : ∀ s p v, (ramWr s p v).ireq = s.ireq := by intro s p v; unfold ramWr; split <;> rfl
  have ha : ∀ s v, (accept v s).ireq = s.ireq := by intro s v; unfold accept push setPsw; simp only [hr]
  have ht : ∀ n s, (tickHw n s).ireq = s.ireq := by
    intro n s; obtain ⟨_, _, _, _, _, e⟩ := tickHw_eq n s; rw [e]
  have hi : ∀ s, s.ireq = false → (interrupt s).ireq = false := by
    intro s h; unfold interrupt; split
    · exact h
    · split
      · exact (ha _ _).trans h
      · split
        · exact ha _ _
        · exact h
  have he : (execInst s).2.ireq = false := by
    rw [execInst_eq]
    split
    · exact h
    · exact h
    · exact ireq_exec _ _ h
  unfold step
  simp only
  split
  · exact (ht _ _).trans he
  · exact hi _ ((ht _ _).trans he)

/-- The timer interrupt never happens: after reset, whatever the program is and for however long it
runs, the request which the interrupt logic looks at stays off, so that vector 7 is never used. -/
theorem c111_false_timer (s : St) (n : Nat) : (steps n (reset s)).ireq = false ∧
    ∀ t, t.ireq = false → interrupt t = t ∨ interrupt t = accept 3#12 t := by
  constructor
  · suffices h : ∀ (s : St), s.ireq = false → (steps n s).ireq = false from h _ rfl
    induction n with
    | zero => intro s h; exact h
    | succ n ih => intro s h; exact ih _ (ireq_step s h)
  · intro t h
    unfold interrupt
    split
    · exact .inl rfl
    · split
      · exact .inr rfl
      · rw [if_neg (by simp [h])]; exact .inl rfl

/-- EN TCNTI, T = 0xff, STRT T and time for one count: the flag is set, no interrupt. -/
theorem c111_false_timer_case :
    let s := { demo (bytes 0 [0x25, 0x55]) with tmr := 0xff#8 }
    (steps 105 s).tflag = true ∧ (steps 105 s).ien = true ∧ (steps 105 s).inIsr = false ∧ (steps 105 s).pc = 105#12 := by decide +kernel

example : ∃ s : St, Wf s ∧ s.ene = true ∧ s.int = false ∧ s.inIsr = false ∧ (interrupt s).pc = 3#12 :=
  ⟨{ demo (bytes 0 []) with ene := true, int := false }, ⟨(by decide : (8#8 : Byte).getLsbD 3 = true), Nat.le_refl _, fun _ => Nat.zero_lt_succ _⟩,
    rfl, rfl, rfl, by decide +kernel⟩

/-! ### C113: decimal addition -/

/-- Two decimal digits in a byte. -/
def Bcd (b : Byte) : Prop := b.toNat % 16 ≤ 9 ∧ b.toNat / 16 ≤ 9
def dec (b : Byte) : Nat := b.toNat / 16 * 10 + b.toNat % 16

instance (b : Byte) : Decidable (Bcd b) := by unfold Bcd; infer_instance

/-- ADD or ADDC of two decimal numbers and then DA A. -/
theorem bcd_sum : ∀ a b : Byte, Bcd a → Bcd b → ∀ ci : Bool,
    let r := a.toNat + b.toNat + ci.toNat
    let lo := decide (9 < r % 256 % 16) || decide (16 ≤ a.toNat % 16 + b.toNat % 16 + ci.toNat)
    let hi := decide (0x99 < r % 256) || decide (256 ≤ r)
    let x := (r % 256 + (if lo then 6 else 0) + (if hi then 0x60 else 0)) % 256
    x % 16 ≤ 9 ∧ x / 16 ≤ 9 ∧ x / 16 * 10 + x % 16 + 100 * hi.toNat = dec a + dec b + ci.toNat := by
  intro a b ha hb ci
  obtain ⟨h1, h2⟩ := ha
  obtain ⟨h3, h4⟩ := hb
  unfold dec
  have hda : a.toNat = a.toNat / 16 * 16 + a.toNat % 16 := by omega
  have hdb : b.toNat = b.toNat / 16 * 16 + b.toNat % 16 := by omega
  generalize a.toNat / 16 = ah at *
  generalize a.toNat % 16 = al at *
  generalize b.toNat / 16 = bh at *
  generalize b.toNat % 16 = bl at *
  have key : ∀ ah al bh bl : Fin 10, ∀ ci : Bool,
    let r := (ah.val * 16 + al.val) + (bh.val * 16 + bl.val) + ci.toNat
    let lo := decide (9 < r % 256 % 16) || decide (16 ≤ al.val + bl.val + ci.toNat)
    let hi := decide (0x99 < r % 256) || decide (256 ≤ r)
    let x := (r % 256 + (if lo then 6 else 0) + (if hi then 0x60 else 0)) % 256
    x % 16 ≤ 9 ∧ x / 16 ≤ 9 ∧ x / 16 * 10 + x % 16 + 100 * hi.toNat = ah.val * 10 + al.val + (bh.val * 10 + bl.val) + ci.toNat := by decide +kernel
  rw [hda, hdb]
  exact key ⟨ah, by omega⟩ ⟨al, by omega⟩ ⟨bh, by omega⟩ ⟨bl, by omega⟩ ci

/-- **C113**: ADD A,v (or ADDC with the carry `ci`) and DA A on decimal operands: A holds the two low
digits of the sum and C is the hundred. -/
theorem c113_bcd (s : St) (v : Byte) (withC : Bool) (h1 : Bcd s.a) (h2 : Bcd v) :
    let t := abs (daa (add v withC s))
    Bcd t.a ∧ dec t.a + 100 * t.c.toNat = dec s.a + dec v + (withC && (abs s).c).toNat := by
  intro t
  have e : t = ((abs s).add v (withC && (abs s).c)).da := by
    show abs (daa _) = _
    rw [daa_ok, add_ok]
  have hb := bcd_sum s.a v h1 h2 (withC && (abs s).c)
  generalize (withC && (abs s).c) = ci at *
  have hsum : ((abs s).add v ci).a.toNat = (s.a.toNat + v.toNat + ci.toNat) % 256 := by
    show (s.a + v + (BitVec.ofBool ci).zeroExtend 8).toNat = _
    rw [← add_val]
    exact BitVec.toNat_ofNat _ _
  have ha : t.a.toNat = (((s.a.toNat + v.toNat + ci.toNat) % 256) +
      (if decide (9 < (s.a.toNat + v.toNat + ci.toNat) % 256 % 16) || decide (16 ≤ s.a.toNat % 16 + v.toNat % 16 + ci.toNat) then 6 else 0) +
      (if decide (0x99 < (s.a.toNat + v.toNat + ci.toNat) % 256) || decide (256 ≤ s.a.toNat + v.toNat + ci.toNat) then 0x60 else 0)) % 256 := by
    rw [e]
    unfold Isa.Mach.da
    simp only
    rw [hsum]
    have hac : ((abs s).add v ci).ac = decide (16 ≤ s.a.toNat % 16 + v.toNat % 16 + ci.toNat) := rfl
    have hc : ((abs s).add v ci).c = decide (256 ≤ s.a.toNat + v.toNat + ci.toNat) := rfl
    rw [hac, hc]
    generalize hlo : (decide (9 < (s.a.toNat + v.toNat + ci.toNat) % 256 % 16) || decide (16 ≤ s.a.toNat % 16 + v.toNat % 16 + ci.toNat)) = lo
    generalize hhi : (decide (0x99 < (s.a.toNat + v.toNat + ci.toNat) % 256) || decide (256 ≤ s.a.toNat + v.toNat + ci.toNat)) = hi
    rw [BitVec.toNat_add, BitVec.toNat_add, hsum]
    cases lo <;> cases hi <;> simp <;> omega
  have hc : t.c = (decide (0x99 < (s.a.toNat + v.toNat + ci.toNat) % 256) || decide (256 ≤ s.a.toNat + v.toNat + ci.toNat)) := by
    rw [e]
    unfold Isa.Mach.da
    simp only
    rw [hsum]; rfl
  simp only at hb
  rw [← ha, ← hc] at hb
  exact ⟨⟨hb.1, hb.2.1⟩, hb.2.2⟩

example : Bcd 0x47#8 ∧ Bcd 0x85#8 ∧ (daa (add 0x85#8 false { demo (bytes 0 []) with a := 0x47#8 })).a = 0x32#8 := by decide +kernel

/-! ### C114: ports -/

/-- What IN A,P reads: a pin is 1 only when the program wrote 1 and nothing outside pulls it down. -/
theorem c114_in (s : St) (two : Bool) (b : Nat) :
    (exec (.inP two) s).a.getLsbD b = ((if two then s.p2 else s.p1).getLsbD b && (if two then s.p2pin else s.p1pin).getLsbD b) := by
  cases two <;> exact BitVec.getLsbD_and

/-- ORL P,#v and ANL P,#v work on what the program wrote, not on the pins. -/
theorem c114_rmw (s : St) (two : Bool) :
    (if two then (exec (.orlP two) s).p2 else (exec (.orlP two) s).p1) = (if two then s.p2 else s.p1) ||| romRd s s.pc ∧
    (if two then (exec (.anlP two) s).p2 else (exec (.anlP two) s).p1) = (if two then s.p2 else s.p1) &&& romRd s s.pc := by
  have e1 : exec (.orlP two) s = outPort two (odr two (adv s) ||| romRd s s.pc) (adv s) := by
    show (let (v, s) := fetch s; outPort two (odr two s ||| v) s) = _
    rw [fetch_eq]
  have e2 : exec (.anlP two) s = outPort two (odr two (adv s) &&& romRd s s.pc) (adv s) := by
    show (let (v, s) := fetch s; outPort two (odr two s &&& v) s) = _
    rw [fetch_eq]
  rw [e1, e2]
  cases two <;> exact ⟨rfl, rfl⟩

/-- OUTL, ORL and ANL on one port leave the other alone. -/
theorem c114_other (s : St) (two : Bool) (f : Fn) (hf : f = .outlP two ∨ f = .orlP two ∨ f = .anlP two) :
    (if two then (exec f s).p1 else (exec f s).p2) = (if two then s.p1 else s.p2) := by
  have e1 : exec (.orlP two) s = outPort two (odr two (adv s) ||| romRd s s.pc) (adv s) := by
    show (let (v, s) := fetch s; outPort two (odr two s ||| v) s) = _
    rw [fetch_eq]
  have e2 : exec (.anlP two) s = outPort two (odr two (adv s) &&& romRd s s.pc) (adv s) := by
    show (let (v, s) := fetch s; outPort two (odr two s &&& v) s) = _
    rw [fetch_eq]
  rcases hf with rfl | rfl | rfl
  · cases two <;> rfl
  · rw [e1]; cases two <;> rfl
  · rw [e2]; cases two <;> rfl

/-- Every MOVD, ORLD or ANLD drops the upper half of port 2. -/
theorem c114_false_expander (s : St) (n : Fin 4) (f : Fn) (hf : f = .movdA n ∨ f = .movdP n ∨ f = .orld n ∨ f = .anld n) :
    (exec f s).p2 &&& 0xf0#8 = 0#8 := by
  rcases hf with rfl | rfl | rfl | rfl
  · exact and_f0 _
  · exact and_f0 _
  · exact and_f0 _
  · exact and_f0 _

/-- The expander's own ports hold what was written, and the other three are left alone. -/
theorem c114_expander (s : St) (n k : Fin 4) :
    ((abs (exec (.movdP n) s)).x k = if k = n then s.a.extractLsb' 0 4 else (abs s).x k) ∧
    ((abs (exec (.orld n) s)).x k = if k = n then (abs s).x n ||| s.a.extractLsb' 0 4 else (abs s).x k) ∧
    ((abs (exec (.anld n) s)).x k = if k = n then (abs s).x n &&& s.a.extractLsb' 0 4 else (abs s).x k) := by
  refine ⟨?_, ?_, ?_⟩
  · show (abs (setLow s.a (setX n s.a s))).x k = _
    rw [setX_abs]; rfl
  · show (abs (setLow ((s.a &&& 0xf#8) ||| s.x n) (setX n ((s.a &&& 0xf#8) ||| s.x n) s))).x k = _
    rw [setX_abs, or_low]; rfl
  · show (abs (setLow ((s.a &&& 0xf#8) &&& s.x n) (setX n ((s.a &&& 0xf#8) &&& s.x n) s))).x k = _
    rw [setX_abs, and_low]; rfl

example : (exec (.inP false) { demo (bytes 0 []) with p1 := 0xf0#8, p1pin := 0x3c#8 }).a = 0x30#8 := by decide +kernel

/-! ### C115: register banks -/

/-- The registers of a bank. -/
def bankReg (b : Bool) (n : Fin 8) (s : St) : Byte := s.iram (BitVec.ofNat 8 ((if b then 24 else 0) + n.val))

/-- The instructions that write register `n`. -/
def WritesReg (n : Fin 8) (f : Fn) : Prop := f = .incR n ∨ f = .decR n ∨ f = .xchR n ∨ f = .movRA n ∨ f = .movRI n

theorem bank_apart : ∀ (b : Bool) (n k : Fin 8), BitVec.ofNat 8 ((if b then 24 else 0) + n.val) ≠ BitVec.ofNat 8 ((if !b then 24 else 0) + k.val) := by
  decide +kernel
theorem reg_apart : ∀ (b : Bool) (n k : Fin 8), n ≠ k → BitVec.ofNat 8 ((if b then 24 else 0) + n.val) ≠ BitVec.ofNat 8 ((if b then 24 else 0) + k.val) := by
  decide +kernel

/-- SEL RB selects the bank, and changes no register. -/
theorem c115_select (s : St) (b : Bool) : (abs (exec (.selrb b) s)).bs = b ∧ (exec (.selrb b) s).iram = s.iram ∧
    (∀ n, regRd (exec (.selrb b) s) n = bankReg b n s) ∧ (abs (exec (.selrb b) s)).c = (abs s).c ∧ (abs (exec (.selrb b) s)).sp = (abs s).sp := by
  have e : abs (exec (.selrb b) s) = { abs s with bs := b } := bs_psw b s
  refine ⟨by rw [e], rfl, ?_, by rw [e], by rw [e]⟩
  intro n
  rw [regRd_eq, e]
  rfl

/-- A write to a register of the selected bank changes that register only: none of the other bank, no
other of its own. -/
theorem c115_write (s : St) (n : Fin 8) (f : Fn) (hf : WritesReg n f) :
    (∀ k, bankReg (!(abs s).bs) k (exec f s) = bankReg (!(abs s).bs) k s) ∧
    (∀ k, k ≠ n → bankReg (abs s).bs k (exec f s) = bankReg (abs s).bs k s) ∧
    (∀ a : Byte, (∀ (k : Fin 8) (b : Bool), a ≠ BitVec.ofNat 8 ((if b then 24 else 0) + k.val)) → (exec f s).iram a = s.iram a) := by
  have key : ∃ v, (exec f s).iram = fun b => if b = (abs s).regAt n then v else s.iram b := by
    rcases hf with rfl | rfl | rfl | rfl | rfl
    · exact ⟨_, by show (regWr s n _).iram = _; unfold regWr; simp only [regAddr_eq]; rfl⟩
    · exact ⟨_, by show (regWr s n _).iram = _; unfold regWr; simp only [regAddr_eq]; rfl⟩
    · exact ⟨_, by show (regWr { s with a := regRd s n } n _).iram = _; unfold regWr; simp only [regAddr_eq]; rfl⟩
    · exact ⟨_, by show (regWr s n _).iram = _; unfold regWr; simp only [regAddr_eq]; rfl⟩
    · refine ⟨romRd s s.pc, ?_⟩
      show (let (v, s) := fetch s; regWr s n v).iram = _
      rw [fetch_eq]
      unfold regWr; simp only [regAddr_eq]; rfl
  obtain ⟨v, e⟩ := key
  refine ⟨?_, ?_, ?_⟩
  · intro k
    unfold bankReg
    rw [e]
    exact if_neg (fun h => bank_apart (abs s).bs n k h.symm)
  · intro k hk
    unfold bankReg
    rw [e]
    exact if_neg (fun h => reg_apart (abs s).bs n k (fun h' => hk h'.symm) h.symm)
  · intro a ha
    rw [e]
    exact if_neg (ha n _)

example : WritesReg 3 (.incR 3) ∧ bankReg true 3 (exec (.incR 3) (exec (.selrb true) (demo (bytes 0 [])))) = 1#8 ∧
    bankReg false 3 (exec (.incR 3) (exec (.selrb true) (demo (bytes 0 [])))) = 0#8 := ⟨.inl rfl, by decide +kernel, by decide +kernel⟩

end Ucsim.I48
