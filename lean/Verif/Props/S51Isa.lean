import Verif.Proof.S51IsaJmp
import Verif.Proof.S51IsaMask
import Verif.Props.S51Par

/- The instruction set: C50, C51. -/
namespace Ucsim.S51
open Isa (Cpu)
open Spec (code Ok)

variable {H : Type} (P : Hw H)

/-- C50.  The instruction at PC does to memories and registers what the manual says
(the parity flag apart: C38), whatever the machine state; the devices stay as they are.
`touched` locations must act like memory (internal memory, CPU registers, or device
registers without side effects), pointers must stay within internal memory.
Left out: the reserved opcode, PUSH SP, MOVC from above 64K (see the `_false` theorems),
and a relative jump to 0x10000, which leaves PC = 0x10000 instead of 0. -/
theorem c50_inst_partial (s : St H) (h : Ok P s) (hb : CoreBits P)
    (hd : ∀ a ∈ (toCpu s).touched, Tame P a.toNat) (hi : ∀ a ∈ (toCpu s).reached, a.toNat < P.iramSize)
    (ht : ∀ a ∈ (toCpu s).table, a < 0x10000) (hu : (toCpu s).code 0 ≠ 0xa5#8)
    (hp : (toCpu s).code 0 = 0xc0#8 → (toCpu s).code 1 ≠ 0x81#8) :
    let t := (execInst P s).2
    Isa.Same { toCpu t with pc := t.pc % 0x10000 } (toCpu s).step ∧ t.pc ≤ 0x10000 ∧ t.hw = s.hw ∧ t.state = s.state := by
  have r := isa_step ⟨h, hb, hd, hi⟩ hu ht hp
  exact ⟨⟨r.pc, r.iram, r.xram, r.rom, r.sfr, r.psw⟩, r.le, r.hw, r.state⟩

/-! ### Programs -/

/-- The simulator and the manual's machine between two instructions. -/
structure Sync (s0 t : St H) (c : Cpu) : Prop where
  pc : t.pc = c.pc
  lt : c.pc < 0x10000
  iram : t.iram = c.iram
  xram : t.xram = c.xram
  rom : t.rom = c.rom
  core : ∀ a, isCore a = true → t.sfr a = c.sfr a
  bank : t.bank = c.bank
  par : ParOk t
  state : t.state = .go
  ie : t.sfr IE = s0.sfr IE
  pcon : t.sfr PCON = s0.sfr PCON

theorem protect_core (f g : Nat → Byte) (a : Nat) (h : isCore a = true) : protect f g a = f a := by
  unfold protect; rw [if_pos h]
theorem protect_other (f g : Nat → Byte) (a : Nat) (h : isCore a = false) : protect f g a = g a := by
  unfold protect; rw [h]; rfl

variable {P}

theorem tickHw_sync (hl : LeavesIE P) {s0 : St H} {c : Cpu} (n : Nat) (t : St H) (h : Sync s0 t c) : Sync s0 (tickHw P n t).2 c := by
  induction n generalizing t with
  | zero => exact h
  | succ n ih =>
    show Sync s0 (tickHw P n { t with hw := (P.tick t.hw t.sfr).1, sfr := protect t.sfr (P.tick t.hw t.sfr).2 }).2 c
    refine ih _ ⟨h.pc, h.lt, h.iram, h.xram, h.rom, fun a ha => ?_, h.bank, ?_, h.state, ?_, ?_⟩
    · exact (protect_core _ _ a ha).trans (h.core a ha)
    · exact h.par.same (protect_core t.sfr (P.tick t.hw t.sfr).2 ACC (by decide)) (by
        show (protect t.sfr (P.tick t.hw t.sfr).2 PSW).getLsbD 0 = _
        rw [protect_core _ _ PSW (by decide)])
    · exact ((protect_other t.sfr _ IE (by decide)).trans (hl t.hw t.sfr).1).trans h.ie
    · exact ((protect_other t.sfr _ PCON (by decide)).trans (hl t.hw t.sfr).2).trans h.pcon

theorem Sync.mask {s0 t : St H} {c : Cpu} (h : Sync s0 t c) : toCpu t = mask t.sfr c := by
  refine Isa.Cpu.ext h.pc h.iram ?_ h.xram h.rom
  funext a
  show t.sfr a = if isCore a = true then c.sfr a else t.sfr a
  split
  · next e => exact h.core a e
  · rfl

theorem ones_eq (v : Byte) : Spec.oddOnes v = (Cpu.ones v % 2 == 1) := rfl

/-- One instruction. -/
theorem Sync.exec {s0 t : St H} {c : Cpu} (hs : 0x80 ≤ P.iramSize) (hb : CoreBits P) (h : Sync s0 t c) (ho : Own P c)
    (hpc : c.stepP.pc ≠ 0) : Sync s0 (execInst P t).2 c.stepP := by
  have hm := h.mask
  have hok : Ok P t := by
    refine ⟨by rw [h.pc]; exact h.lt, ?_, hs⟩
    rw [h.bank]
    show c.bank = 2 * ((t.sfr 0xd0).getLsbD 4).toNat + ((t.sfr 0xd0).getLsbD 3).toNat
    rw [h.core 0xd0 (by decide)]; rfl
  have h1 : ∀ a ∈ (toCpu t).touched, Tame P a.toNat := by
    rw [hm]; intro a ha
    rcases ho.own a ha with h | h
    · exact .inl h
    · exact .inr (.inl h)
  have r := isa_step (s := t) ⟨hok, hb, h1, by rw [hm]; exact ho.ind⟩ (by
      show (toCpu t).code 0 ≠ _; rw [hm]; exact ho.known) (by rw [hm]; exact ho.tab) (by
      show (toCpu t).code 0 = _ → (toCpu t).code 1 ≠ _; rw [hm]; exact ho.pushSp)
  rw [hm, mask_step t.sfr c ho.own] at r
  have hn : Spec.namesPsw t = false := by
    show (toCpu t).writesPsw = false
    rw [hm]; exact ho.psw
  have hpar := execInst_pr P t hok.pc h.par hn
  generalize (execInst P t).2 = u at r hpar
  have hA : u.sfr 0xe0 = c.step.A := r.sfr 0xe0 (by decide)
  have hpsw : u.sfr 0xd0 = Cpu.withBit c.step.psw 0 (Cpu.ones c.step.A % 2 == 1) := by
    apply BitVec.eq_of_getLsbD_eq
    intro i hi
    have e := withBit_get c.step.psw 0 (Cpu.ones c.step.A % 2 == 1) ⟨i, hi⟩
    rw [show Cpu.withBit c.step.psw 0 (Cpu.ones c.step.A % 2 == 1) = Cpu.withBit c.step.psw ((0 : Fin 8) : Nat) (Cpu.ones c.step.A % 2 == 1) from rfl, e]
    by_cases h0 : i = 0
    · subst h0
      rw [if_pos (show (⟨0, hi⟩ : Fin 8) = 0 from rfl), ← ones_eq, ← hA]
      exact hpar
    · rw [if_neg (fun e => h0 (congrArg Fin.val e))]
      exact r.psw i (by omega)
  have hpc' : u.pc = c.stepP.pc := by
    have e1 : u.pc % 0x10000 = c.stepP.pc := r.pc
    have := r.le
    omega
  refine ⟨hpc', ?_, r.iram, r.xram, r.rom, ?_, ?_, hpar, r.state.trans h.state, ?_, ?_⟩
  · have e1 : u.pc % 0x10000 = c.stepP.pc := r.pc
    omega
  · intro a ha
    by_cases hd : a = 0xd0
    · subst hd; exact hpsw
    · have e := r.sfr a hd
      rw [e]
      show (if isCore a = true then c.step.sfr a else t.sfr a) = Isa.put c.step.sfr 0xd0 _ a
      rw [if_pos ha]
      unfold Isa.put
      rw [if_neg hd]
  · rw [r.bank]
    have key : ∀ (p : Byte) (b : Bool), (Cpu.withBit p 0 b).getLsbD 4 = p.getLsbD 4 ∧ (Cpu.withBit p 0 b).getLsbD 3 = p.getLsbD 3 := by decide +kernel
    show c.step.bank = 2 * ((Cpu.withBit c.step.psw 0 _).getLsbD 4).toNat + ((Cpu.withBit c.step.psw 0 _).getLsbD 3).toNat
    rw [(key _ _).1, (key _ _).2]; rfl
  · rw [r.sfr IE (by decide)]
    exact h.ie
  · rw [r.sfr PCON (by decide)]
    exact h.pcon

theorem Sync.start {s0 t : St H} {c : Cpu} (h : Sync s0 t c) : Sync s0 { t with wasReti := false, cyc := 0 } c :=
  ⟨h.pc, h.lt, h.iram, h.xram, h.rom, h.core, h.bank, h.par, h.state, h.ie, h.pcon⟩

theorem Sync.doInst {s0 t : St H} {c : Cpu} (hs : 0x80 ≤ P.iramSize) (hb : CoreBits P) (hl : LeavesIE P)
    (hie : s0.sfr IE &&& 0x80#8 = 0#8) (hpd : s0.sfr PCON &&& 3#8 = 0#8)
    (h : Sync s0 t c) (ho : Own P c) (hpc : c.stepP.pc ≠ 0) : Sync s0 (doInst P t).2 c.stepP := by
  have r1 : Sync s0 (runPart P t).2 c.stepP := by
    unfold runPart
    rw [if_pos h.state]
    exact tickHw_sync hl _ _ (h.start.exec hs hb ho hpc)
  unfold S51.doInst
  simp only
  generalize (runPart P t).2 = u at r1
  have r2 : ∀ u' : St H, Sync s0 u' c.stepP → Sync s0 (idlePd P u').2 c.stepP := by
    intro u' h'
    unfold idlePd
    split
    · have p1 : ∀ p : Byte, p &&& 3#8 = 0#8 → (p &&& 1#8 != 0#8) = false ∧ (p &&& 2#8 != 0#8) = false := by decide +kernel
      have p2 := p1 (u'.sfr PCON) (by rw [h'.pcon]; exact hpd)
      simp only [p2.1, p2.2, Bool.false_eq_true, if_false]
      exact ⟨h'.pc, h'.lt, h'.iram, h'.xram, h'.rom, h'.core, h'.bank, h'.par, h'.state, h'.ie, h'.pcon⟩
    · exact h'
  split
  · exact r1
  · have e : doInterrupt P u = (.go, if u.wasReti then { u with wasReti := false } else u) := by
      unfold doInterrupt
      have hz : (u.sfr IE &&& 0x80#8 == 0#8) = true := by rw [r1.ie, hie]; rfl
      simp only [hz, if_true]
      split <;> rfl
    rw [e]
    simp only [if_true]
    apply r2
    split
    · exact ⟨r1.pc, r1.lt, r1.iram, r1.xram, r1.rom, r1.core, r1.bank, r1.par, r1.state, r1.ie, r1.pcon⟩
    · exact r1

/-- C51.  A program that uses only memories and CPU registers runs on the simulator as on
the manual's machine, for any number of instructions and whatever the devices do
meanwhile (interrupts disabled, no power saving): same PC, memories and CPU registers,
parity flag included. -/
theorem c51_program_partial (s : St H) (h : Ok P s) (hb : CoreBits P) (hl : LeavesIE P) (hgo : s.state = .go)
    (hpar : Spec.Pf s = (Cpu.ones (Spec.A s) % 2 == 1))
    (hie : s.sfr 0xa8 &&& 0x80#8 = 0#8) (hpd : s.sfr 0x87 &&& 3#8 = 0#8) (n : Nat)
    (ho : ∀ k, k < n → Own P (Cpu.run k (toCpu s)) ∧ (Cpu.run (k + 1) (toCpu s)).pc ≠ 0) :
    let t := steps P n s
    let c := Cpu.run n (toCpu s)
    t.pc = c.pc ∧ t.iram = c.iram ∧ t.xram = c.xram ∧ t.rom = c.rom ∧ (∀ a, isCore a = true → t.sfr a = c.sfr a) := by
  suffices ∀ m, m ≤ n → Sync s (steps P m s) (Cpu.run m (toCpu s)) by
    have r := this n (Nat.le_refl n)
    exact ⟨r.pc, r.iram, r.xram, r.rom, r.core⟩
  intro m hm
  induction m with
  | zero => exact ⟨rfl, h.pc, rfl, rfl, rfl, fun _ _ => rfl, h.bank, hpar, hgo, rfl, rfl⟩
  | succ m ih =>
    have := ho m (by omega)
    exact (ih (by omega)).doInst h.size hb hl hie hpd this.1 this.2

/-! ### Where the simulator differs from the manual -/

/-- PUSH SP: the manual increments the stack pointer first and pushes the new value. -/
theorem c50_false_push_sp : let s := Demo.st [0xc0#8, 0x81#8] 0#8 0#8 0#8 7#8
    (toCpu s).step.iram 8 = 8#8 ∧ (execInst Demo.hw s).2.iram 8 = 7#8 := by decide +kernel

/-- MOVC A,@A+DPTR with DPTR = 0xffff and A = 1 reads code address 0 on the chip. -/
theorem c50_false_movc : let s0 := Demo.st [0x93#8] 1#8 0#8 0#8 7#8
    let s := { s0 with sfr := upd (upd s0.sfr DPH 0xff#8) DPL 0xff#8 }
    (toCpu s).step.A = 0x93#8 ∧ (execInst Demo.hw s).2.sfr ACC = 0#8 := by decide +kernel

/-- SJMP from 0xfff0 over 0x0e bytes goes to address 0 on the chip; here PC becomes 0x10000
and the next instruction is not the one at 0. -/
theorem c50_false_wrap : let s0 := Demo.st [0x04#8] 5#8 0#8 0#8 7#8
    let s := { s0 with pc := 0xfff0, rom := upd (upd s0.rom 0xfff0 0x80#8) 0xfff1 0x0e#8 }
    let t := (execInst Demo.hw s).2
    (toCpu s).step.pc = 0 ∧ t.pc = 0x10000 ∧ (Cpu.run 2 (toCpu s)).A = 6#8 ∧ (execInst Demo.hw t).2.sfr ACC = 5#8 := by decide +kernel

/-! ### The hypotheses can be met -/

/-- All registers of the demo machine are plain. -/
theorem demo_plain (a : Nat) : PlainSfr Demo.hw a := ⟨fun _ _ _ => rfl, fun _ _ _ => rfl, fun _ _ _ => rfl, fun _ _ _ _ _ => rfl⟩
theorem demo_bits : CoreBits Demo.hw := fun _ _ _ _ _ => rfl
theorem demo_leaves : LeavesIE Demo.hw := fun _ _ => ⟨rfl, rfl⟩

/-- MOV 0xa8,R1 writes a device register. -/
example : let s := Demo.st [0x89#8, 0xa8#8] 0#8 0#8 0#8 7#8
    Ok Demo.hw s ∧ CoreBits Demo.hw ∧ (∀ a ∈ (toCpu s).touched, Tame Demo.hw a.toNat) ∧ (toCpu s).touched = [0xa8#8] ∧
    (∀ a ∈ (toCpu s).reached, a.toNat < Demo.hw.iramSize) ∧ (∀ a ∈ (toCpu s).table, a < 0x10000) ∧ (toCpu s).code 0 ≠ 0xa5#8 ∧
    (toCpu s).step.sfr 0xa8 = 10#8 :=
  ⟨Demo.ok _ _ _ _ _, demo_bits, fun a _ => .inr (.inr (demo_plain _)), by decide +kernel, by decide +kernel, by decide +kernel, by decide, by decide +kernel⟩

/-- ADD A,0x30; LCALL 6; NOP; (6:) PUSH ACC; DJNZ R2,6. -/
example : let s := Demo.st [0x25#8, 0x30#8, 0x12#8, 0x00#8, 0x06#8, 0x00#8, 0xc0#8, 0xe0#8, 0xda#8, 0xfc#8] 6#8 0#8 0#8 7#8
    Spec.Pf s = (Cpu.ones (Spec.A s) % 2 == 1) ∧ s.sfr 0xa8 &&& 0x80#8 = 0#8 ∧ s.sfr 0x87 &&& 3#8 = 0#8 ∧
    (∀ k, k < 5 → Own Demo.hw (Cpu.run k (toCpu s)) ∧ (Cpu.run (k + 1) (toCpu s)).pc ≠ 0) ∧
    (Cpu.run 5 (toCpu s)).pc = 8 ∧ (Cpu.run 5 (toCpu s)).SP = 11#8 := by
  have key : ∀ k : Fin 5, let s := Demo.st [0x25#8, 0x30#8, 0x12#8, 0x00#8, 0x06#8, 0x00#8, 0xc0#8, 0xe0#8, 0xda#8, 0xfc#8] 6#8 0#8 0#8 7#8
      let c := Cpu.run k.val (toCpu s)
      (∀ a ∈ c.touched, a.toNat < 0x80 ∨ isCore a.toNat = true) ∧ (∀ a ∈ c.reached, a.toNat < Demo.hw.iramSize) ∧
      (∀ a ∈ c.table, a < 0x10000) ∧ c.code 0 ≠ 0xa5#8 ∧ (c.code 0 = 0xc0#8 → c.code 1 ≠ 0x81#8) ∧ c.writesPsw = false ∧
      (Cpu.run (k.val + 1) (toCpu s)).pc ≠ 0 := by decide +kernel
  refine ⟨by decide, by decide, by decide, fun k hk => ?_, by decide +kernel, by decide +kernel⟩
  obtain ⟨a, b, c, d, e, f, g⟩ := key ⟨k, hk⟩
  exact ⟨⟨a, b, c, d, e, f⟩, g⟩

end Ucsim.S51
