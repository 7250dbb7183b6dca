import Verif.Proof.M65Step

/-
C66: the 6502 executes programs as the manual says.
C67: decimal arithmetic.
C68: clocks.
-/
namespace Ucsim.M65

/-! ### C66 -/

/-- The instruction at PC. -/
def here (s : St) : Isa.Ins := Isa.decode ((abs s).mem (abs s).pc)

/-- The instruction at PC is documented, does not meet one of the known differences, and BRK is
not executed inside a BRK handler. -/
def Fine (s : St) : Prop := ¬ Isa.Differs (abs s) (here s) ∧ (here s = .brk → level s < 4)

/-- **C66**, one instruction, no interrupt requested. -/
theorem c66_step_partial (s : St) (hpc : s.pc < 0x10000) (hq : Quiet s) (hf : Fine s) :
    (step s).1 = .go ∧ ∃ u, abs (step s).2 = Isa.step u (abs s) := by
  obtain ⟨h1, h2⟩ := step_ok s hpc hq hf.1 hf.2
  exact ⟨h1, _, h2⟩

/-- **C66**, programs of any length. -/
theorem c66_run_partial (n : Nat) (s : St) (hpc : s.pc < 0x10000) (hq : Quiet s) (hf : ∀ k, k < n → Fine (steps k s)) :
    ∃ us : List Isa.Undef, us.length = n ∧ abs (steps n s) = Isa.run us (abs s) := by
  induction n generalizing s with
  | zero => exact ⟨[], rfl, rfl⟩
  | succ n ih =>
    have h0 := hf 0 (by omega)
    obtain ⟨_, u, h2⟩ := c66_step_partial s hpc hq h0
    obtain ⟨k1, k2, _⟩ := step_keeps s hpc hq h0.1 h0.2
    obtain ⟨us, g1, g2⟩ := ih (step s).2 k1 k2 (fun k hk => hf (k + 1) (by omega))
    refine ⟨u :: us, by simp [g1], ?_⟩
    show abs (steps n (step s).2) = Isa.run us (Isa.step u (abs s))
    rw [← h2]; exact g2

/-- Outside decimal mode nothing is left open. -/
theorem c66_binary_partial (s : St) (hpc : s.pc < 0x10000) (hq : Quiet s) (hf : Fine s) (hd : (abs s).d = false) (u : Isa.Undef) :
    abs (step s).2 = Isa.step u (abs s) := by
  obtain ⟨_, u', h⟩ := c66_step_partial s hpc hq hf
  rw [h]
  unfold Isa.step
  split <;> try rfl
  have e : ∀ i, Isa.exec u' (abs s) i = Isa.exec u (abs s) i := by
    intro i
    cases i <;> first | rfl | simp only [Isa.exec, Isa.Mach.adc, Isa.Mach.sbc, hd, Bool.false_eq_true, if_false]
  rw [e]

/-- An undefined opcode stops the simulation; nothing but the clock changes. -/
theorem c66_undefined (s : St) (hpc : s.pc < 0x10000) (h : here s = .other) :
    (step s).1 = .inv ∧ abs (step s).2 = abs s ∧ (step s).2.pc = s.pc := by
  have hn : table.getD (s.mem (abs s).pc).toNat none = none := by
    cases k : table.getD (s.mem (abs s).pc).toNat none with
    | none => rfl
    | some i =>
      have := (decode_ok _ _ k).1
      have e : insOf i ≠ .other := by
        cases i <;> (try rename_i o m; cases o <;> simp [insOf, rmwIns]) <;> (try rename_i o; cases o <;> simp [insOf, rmwIns]) <;> simp [insOf]
      exact absurd (this.symm.trans h) e
  unfold step
  rw [execInst_fr s hpc, hn]
  exact ⟨rfl, rfl, rfl⟩

/-- Reset: PC from the vector, I set, decimal mode off; memory and A, X, Y are kept. -/
theorem c66_reset (s : St) : abs (reset s) = { abs s with
    pc := (abs s).vec 0xfffc, s := 0xfd, n := false, v := false, d := false, i := true, z := false, c := false } ∧
    (reset s).ticks = 7 ∧ (reset s).levels = [] := by
  refine ⟨?_, rfl, rfl⟩
  have h := vec_ok s 0xfffc#16 (by decide)
  have e : ∀ t : St, t.mem = s.mem → readAddr t 0xfffc = readAddr s 0xfffc := by
    intro t ht
    unfold readAddr
    rw [rd_lt _ _ (by decide), rd_lt _ _ (by decide), rd_lt _ _ (by decide), rd_lt _ _ (by decide), ht]
  show Isa.Mach.mk .. = _
  unfold reset tick
  simp only
  rw [e { s with levels := [], ticks := 0, p := flagI } rfl, show (0xfffc : Nat) = (0xfffc#16 : Word).toNat from rfl, h, toNat_pc]
  rfl

/-! Examples -/

/-- A machine with a program at 0x200 and some bytes elsewhere. -/
def demo (a x y p : Byte) (m : Nat → Option Byte) : St where
  a := a
  x := x
  y := y
  sp := 0xff
  p := p
  i8d := 0
  pc := 0x200
  mem := fun w => (m w.toNat).getD 0
  dummy := 0
  rnd := fun _ => 0
  ticks := 0
  setB := false
  irq := false
  nmi := false
  brk := false
  levels := []

def bytes (at_ : Nat) (l : List Byte) (rest : Nat → Option Byte := fun _ => none) : Nat → Option Byte :=
  fun n => if at_ ≤ n ∧ n < at_ + l.length then l[n - at_]? else rest n

def lst (s : St) : List Nat := [s.a.toNat, s.x.toNat, s.y.toNat, s.sp.toNat, s.p.toNat, s.pc, s.ticks]

/-- LDX #3; loop: CLC; ADC #7; DEX; BNE loop; STA 40 : 3*7. -/
def mul : St := demo 0 0 0 0 (bytes 0x200 [0xa2, 3, 0x18, 0x69, 7, 0xca, 0xd0, 0xfa, 0x85, 0x40])

example : lst (steps 14 mul) = [21, 0, 0, 255, 2, 0x20a, 2 + 3 * 6 + 2 * 3 + 2 + 3] ∧ (steps 14 mul).mem 0x40 = 21 := by
  decide +kernel

instance (m : Isa.Mach) (k : Isa.Mode) : Decidable (k.Differs m) := by
  cases k <;> unfold Isa.Mode.Differs <;> infer_instance
instance (m : Isa.Mach) (v : Byte) : Decidable (m.decimal v) := inferInstanceAs (Decidable (_ → _))
instance (m : Isa.Mach) (i : Isa.Ins) : Decidable (Isa.Differs m i) := by
  cases i <;> unfold Isa.Differs <;> infer_instance
instance (s : St) : Decidable (Fine s) := inferInstanceAs (Decidable (_ ∧ _))

example : ∀ k, k < 14 → Fine (steps k mul) := by decide +kernel

/-- LDA ($FF),Y takes the high byte of the pointer from $0100, not $0000. -/
theorem c66_false_pointer : ∃ s : St, s.pc < 0x10000 ∧ Quiet s ∧ here s = .ld .a .indy ∧
    (step s).2.a = 0x11 ∧ ∀ u, (Isa.step u (abs s)).a = 0x22 := by
  refine ⟨demo 0 0 1 0 (bytes 0x200 [0xb1, 0xff] (bytes 0xff [0x00, 0x31] (bytes 0x3101 [0x11] (bytes 0 [0x42] (bytes 0x4201 [0x22]))))),
    by decide, ⟨rfl, rfl, rfl⟩, by decide +kernel, by decide +kernel, fun ⟨n, v, z⟩ => by revert n v z; decide +kernel⟩

/-- JMP ($10FF) takes the high byte from $1100, not $1000. -/
theorem c66_false_jmp : ∃ s : St, s.pc < 0x10000 ∧ Quiet s ∧ here s = .jmpInd ∧
    (step s).2.pc = 0x3344 ∧ ∀ u, (Isa.step u (abs s)).pc = 0x2244 := by
  refine ⟨demo 0 0 0 0 (bytes 0x200 [0x6c, 0xff, 0x10] (bytes 0x1000 [0x22] (bytes 0x10ff [0x44, 0x33]))),
    by decide, ⟨rfl, rfl, rfl⟩, by decide +kernel, by decide +kernel, fun ⟨n, v, z⟩ => by revert n v z; decide +kernel⟩

/-- RTS to the address pushed as $FFFF should go on at $0000; the simulated PC is $10000 and
the next opcode comes from outside of the memory. -/
theorem c66_false_rts : ∃ s : St, s.pc < 0x10000 ∧ Quiet s ∧ here s = .rts ∧ (step s).2.pc = 0x10000 ∧
    (step (step s).2).1 = .go ∧ (step s).2.mem 0 = 0x02 ∧ Isa.decode 0x02 = .other := by
  refine ⟨{ demo 0 0 0 0 (bytes 0x200 [0x60] (bytes 0x1fe [0xff, 0xff] (bytes 0 [0x02]))) with sp := 0xfd },
    by decide, ⟨rfl, rfl, rfl⟩, by decide +kernel, by decide +kernel, by decide +kernel, by decide +kernel, by decide⟩

/-! ### C67: decimal arithmetic -/

/-- **C67**: ADC in decimal mode on decimal bytes. -/
theorem c67_adc (s : St) (b : Byte) (hd : (abs s).d = true) (ha : Isa.isBcd s.a) (hb : Isa.isBcd b) :
    Isa.isBcd (adc b s).a ∧ Isa.bcd (adc b s).a + 100 * (abs (adc b s)).c.toNat = Isa.bcd s.a + Isa.bcd b + (abs s).c.toNat ∧
    (abs (adc b s)).d = true ∧ (adc b s).mem = s.mem := by
  have h := abs_adc b s (fun _ => ⟨ha, hb⟩)
  unfold Isa.Mach.adc at h
  rw [if_pos hd] at h
  have e1 : (adc b s).a = Isa.toBcd ((Isa.bcd s.a + Isa.bcd b + (abs s).c.toNat) % 100) := congrArg Isa.Mach.a h
  have e2 : (abs (adc b s)).c = decide (100 ≤ Isa.bcd s.a + Isa.bcd b + (abs s).c.toNat) := congrArg Isa.Mach.c h
  have e3 : (abs (adc b s)).d = (abs s).d := (congrArg Isa.Mach.d h).trans rfl
  have g1 := bcd_lt _ ha
  have g2 := bcd_lt _ hb
  have hc : (abs s).c.toNat ≤ 1 := by cases (abs s).c <;> decide
  have k : ∀ n, n < 100 → Isa.isBcd (Isa.toBcd n) ∧ Isa.bcd (Isa.toBcd n) = n := by decide
  obtain ⟨k1, k2⟩ := k _ (Nat.mod_lt (Isa.bcd s.a + Isa.bcd b + (abs s).c.toNat) (by decide : 0 < 100))
  refine ⟨e1 ▸ k1, ?_, e3.trans hd, by rw [keep_adc]⟩
  rw [e1, e2, k2]
  by_cases hx : 100 ≤ Isa.bcd s.a + Isa.bcd b + (abs s).c.toNat
  · simp only [hx, decide_true, Bool.toNat_true]; omega
  · simp only [hx, decide_false, Bool.toNat_false]; omega

/-- **C67**: SBC in decimal mode on decimal bytes; carry clear is a borrow. -/
theorem c67_sbc (s : St) (b : Byte) (hd : (abs s).d = true) (ha : Isa.isBcd s.a) (hb : Isa.isBcd b) :
    Isa.isBcd (sbc b s).a ∧
    (Isa.bcd (sbc b s).a : Int) - 100 * (!(abs (sbc b s)).c).toNat = Isa.bcd s.a - Isa.bcd b - (!(abs s).c).toNat ∧
    (abs (sbc b s)).d = true ∧ (sbc b s).mem = s.mem := by
  have h := abs_sbc b s (fun _ => ⟨ha, hb⟩)
  unfold Isa.Mach.sbc at h
  rw [if_pos hd] at h
  have e1 : (sbc b s).a = Isa.toBcd (((Isa.bcd s.a : Int) - Isa.bcd b - (!(abs s).c).toNat) % 100).toNat := congrArg Isa.Mach.a h
  have e2 : (abs (sbc b s)).c = decide (0 ≤ (Isa.bcd s.a : Int) - Isa.bcd b - (!(abs s).c).toNat) := congrArg Isa.Mach.c h
  have e3 : (abs (sbc b s)).d = (abs s).d := (congrArg Isa.Mach.d h).trans rfl
  have g1 := bcd_lt _ ha
  have g2 := bcd_lt _ hb
  have hc : (!(abs s).c).toNat ≤ 1 := by cases (abs s).c <;> decide
  have k : ∀ n, n < 100 → Isa.isBcd (Isa.toBcd n) ∧ Isa.bcd (Isa.toBcd n) = n := by decide
  obtain ⟨k1, k2⟩ := k (((Isa.bcd s.a : Int) - Isa.bcd b - (!(abs s).c).toNat) % 100).toNat (by omega)
  refine ⟨e1 ▸ k1, ?_, e3.trans hd, by rw [keep_sbc]⟩
  rw [e1, e2, k2]
  by_cases hx : 0 ≤ (Isa.bcd s.a : Int) - Isa.bcd b - (!(abs s).c).toNat
  · simp only [hx, decide_true, Bool.not_true, Bool.toNat_false]; omega
  · simp only [hx, decide_false, Bool.not_false, Bool.toNat_true]; omega

/-- Value of a decimal number stored low byte first. -/
def number : List Byte → Nat
  | [] => 0
  | b :: l => Isa.bcd b + 100 * number l

/-- Adding byte by byte: LDA x; ADC y; STA, the carry passed on. -/
def addAll : List (Byte × Byte) → St → List Byte × St
  | [], s => ([], s)
  | (x, y) :: l, s => let s := adc y { s with a := x }; let r := addAll l s; (s.a :: r.1, r.2)
def subAll : List (Byte × Byte) → St → List Byte × St
  | [], s => ([], s)
  | (x, y) :: l, s => let s := sbc y { s with a := x }; let r := subAll l s; (s.a :: r.1, r.2)

/-- **C67**: decimal numbers of any length are added. -/
theorem c67_addAll (l : List (Byte × Byte)) (s : St) (hd : (abs s).d = true) (hb : ∀ p ∈ l, Isa.isBcd p.1 ∧ Isa.isBcd p.2) :
    (∀ b ∈ (addAll l s).1, Isa.isBcd b) ∧
    number (addAll l s).1 + 100 ^ l.length * (abs (addAll l s).2).c.toNat =
      number (l.map (·.1)) + number (l.map (·.2)) + (abs s).c.toNat := by
  induction l generalizing s with
  | nil => simp [addAll, number]
  | cons p l ih =>
    obtain ⟨x, y⟩ := p
    obtain ⟨hx, hy⟩ := hb (x, y) (by simp)
    obtain ⟨h1, h2, h3, _⟩ := c67_adc { s with a := x } y hd hx hy
    obtain ⟨g1, g2⟩ := ih (adc y { s with a := x }) h3 (fun p hp => hb p (by simp [hp]))
    refine ⟨?_, ?_⟩
    · intro b hb'
      rcases List.mem_cons.mp hb' with e | e
      · rw [e]; exact h1
      · exact g1 b e
    · simp only [addAll, number, List.map, List.length_cons, Nat.pow_succ]
      have h2 : Isa.bcd (adc y { s with a := x }).a + 100 * (abs (adc y { s with a := x })).c.toNat = Isa.bcd x + Isa.bcd y + (abs s).c.toNat := h2
      have e : 100 ^ l.length * 100 * (abs (addAll l (adc y { s with a := x })).2).c.toNat =
        100 * (100 ^ l.length * (abs (addAll l (adc y { s with a := x })).2).c.toNat) := by
        rw [Nat.mul_comm (100 ^ l.length) 100, Nat.mul_assoc]
      rw [e]; omega

/-- **C67**: and subtracted; a clear carry at the end is a borrow. -/
theorem c67_subAll (l : List (Byte × Byte)) (s : St) (hd : (abs s).d = true) (hb : ∀ p ∈ l, Isa.isBcd p.1 ∧ Isa.isBcd p.2) :
    (∀ b ∈ (subAll l s).1, Isa.isBcd b) ∧
    number (subAll l s).1 + number (l.map (·.2)) + (!(abs s).c).toNat =
      number (l.map (·.1)) + 100 ^ l.length * (!(abs (subAll l s).2).c).toNat := by
  induction l generalizing s with
  | nil => simp [subAll, number]
  | cons p l ih =>
    obtain ⟨x, y⟩ := p
    obtain ⟨hx, hy⟩ := hb (x, y) (by simp)
    obtain ⟨h1, h2, h3, _⟩ := c67_sbc { s with a := x } y hd hx hy
    obtain ⟨g1, g2⟩ := ih (sbc y { s with a := x }) h3 (fun p hp => hb p (by simp [hp]))
    refine ⟨?_, ?_⟩
    · intro b hb'
      rcases List.mem_cons.mp hb' with e | e
      · rw [e]; exact h1
      · exact g1 b e
    · simp only [subAll, number, List.map, List.length_cons, Nat.pow_succ]
      have h2 : (Isa.bcd (sbc y { s with a := x }).a : Int) - 100 * (!(abs (sbc y { s with a := x })).c).toNat =
        Isa.bcd x - Isa.bcd y - (!(abs s).c).toNat := h2
      have e : 100 ^ l.length * 100 * (!(abs (subAll l (sbc y { s with a := x })).2).c).toNat =
        100 * (100 ^ l.length * (!(abs (subAll l (sbc y { s with a := x })).2).c).toNat) := by
        rw [Nat.mul_comm (100 ^ l.length) 100, Nat.mul_assoc]
      rw [e]; omega

/-- 9876 + 4567 = 14443, 1234 - 5678 = -4444. -/
example : ((addAll [(0x76, 0x67), (0x98, 0x45)] (demo 0 0 0 0x08 fun _ => none)).1, carry (addAll [(0x76, 0x67), (0x98, 0x45)] (demo 0 0 0 0x08 fun _ => none)).2) =
    ([0x43, 0x44], true) ∧
  ((subAll [(0x34, 0x78), (0x12, 0x56)] (demo 0 0 0 0x09 fun _ => none)).1, carry (subAll [(0x34, 0x78), (0x12, 0x56)] (demo 0 0 0 0x09 fun _ => none)).2) =
    ([0x56, 0x55], false) := by decide +kernel

/-! ### C68: clocks -/

/-- **C68**: the clocks of an instruction, outside of the known differences. -/
theorem c68_clocks_partial (s : St) (hpc : s.pc < 0x10000) (hq : Quiet s) (hd : ¬ Isa.Differs (abs s) (here s))
    (hc : ¬ Isa.ClkDiffers (abs s) (here s)) : (step s).2.ticks = s.ticks + Isa.clocks (abs s) (here s) :=
  step_ticks s hpc hq hd hc

example : Isa.clocks (abs mul) (here mul) = 2 ∧ ¬ Isa.ClkDiffers (abs mul) (here mul) := ⟨by decide +kernel, id⟩

theorem tab_of (s : St) (op : Byte) (i : Inst) (h : s.mem (abs s).pc = op) (ht : table.getD op.toNat none = some i) :
    table.getD (s.mem (abs s).pc).toNat none = some i := by rw [h, ht]

/-- NOP takes one clock instead of two. -/
theorem c68_false_nop (s : St) (hpc : s.pc < 0x10000) (hq : Quiet s) (h : s.mem (abs s).pc = 0xea#8) :
    (step s).2.ticks = s.ticks + 1 ∧ Isa.clocks (abs s) (here s) = 2 := by
  rw [step_of s hpc .nop (tab_of s _ _ h (by decide +kernel))]
  refine ⟨?_, ?_⟩
  · rw [quiet_none _ (show Quiet (exec .nop (fr s 1 (s.ticks + 1) s.i8d)) from hq)]; rfl
  · unfold here; rw [show (abs s).mem (abs s).pc = 0xea#8 from h]; rfl

/-- JSR takes three instead of six. -/
theorem c68_false_jsr (s : St) (hpc : s.pc < 0x10000) (hq : Quiet s) (h : s.mem (abs s).pc = 0x20#8) :
    (step s).2.ticks = s.ticks + 3 ∧ Isa.clocks (abs s) (here s) = 6 := by
  rw [step_of s hpc .jsr (tab_of s _ _ h (by decide +kernel))]
  refine ⟨?_, ?_⟩
  · have k := exec_side .jsr (by decide) (by decide) (fr s 1 (s.ticks + 1) s.i8d)
    simp only [side, Prod.mk.injEq] at k
    have q : Quiet (exec .jsr (fr s 1 (s.ticks + 1) s.i8d)) := ⟨k.1.trans hq.1, k.2.1.trans hq.2.1, k.2.2.1.trans hq.2.2⟩
    simp only [quiet_none _ q]
    simp only [exec]
    rw [(side_pushAddr _ _).2.2.2]; rfl
  · unfold here; rw [show (abs s).mem (abs s).pc = 0x20#8 from h]; rfl

/-- BRK takes eight instead of seven. -/
theorem c68_false_brk (s : St) (hpc : s.pc < 0x10000) (hl : level s < 4) (h : s.mem (abs s).pc = 0x00#8) :
    (step s).2.ticks = s.ticks + 8 ∧ Isa.clocks (abs s) (here s) = 7 := by
  rw [step_of s hpc .brk (tab_of s _ _ h (by decide +kernel))]
  refine ⟨?_, ?_⟩
  · simp only [brk_accept (exec .brk (fr s 1 (s.ticks + 1) s.i8d)) rfl hl, accept_ticks]; rfl
  · unfold here; rw [show (abs s).mem (abs s).pc = 0x00#8 from h]; rfl

/-- STA abs,Y and STA (zp),Y take one clock less than they should when no page is crossed; STA
abs,X, and INC abs,X like the other read-modify-write instructions, take one more when one is. -/
theorem c68_false_indexed :
    (let s := demo 0 0 1 0 (bytes 0x200 [0x99, 0x00, 0x30]); (step s).2.ticks = 4 ∧ Isa.clocks (abs s) (here s) = 5) ∧
    (let s := demo 0 0 1 0 (bytes 0x200 [0x91, 0x10]); (step s).2.ticks = 5 ∧ Isa.clocks (abs s) (here s) = 6) ∧
    (let s := demo 0 1 0 0 (bytes 0x200 [0x9d, 0xff, 0x30]); (step s).2.ticks = 6 ∧ Isa.clocks (abs s) (here s) = 5) ∧
    (let s := demo 0 1 0 0 (bytes 0x200 [0xfe, 0xff, 0x30]); (step s).2.ticks = 8 ∧ Isa.clocks (abs s) (here s) = 7) := by
  decide +kernel

end Ucsim.M65
