import Verif.Props.S51Int
import Verif.Props.S51Timer

/-
C59: Idle and PowerDown modes of the 8051.
-/
namespace Ucsim.S51
open Spec

variable {H : Type} (P : Hw H)

/-- The CPU sleeps: Idle (and PowerDown not requested) or PowerDown. -/
def Sleeps (s : St H) : Prop :=
  (s.state = .idle ∧ (s.sfr 0x87).getLsbD 1 = false) ∨ (s.state = .pd ∧ (s.sfr 0x87).getLsbD 0 = false) ∨
  (s.state = .pd ∧ (s.sfr 0x87).getLsbD 1 = true)

/-- Nothing but time has passed. -/
structure OnlyTime (n : Nat) (s s' : St H) : Prop where
  pc : s'.pc = s.pc
  iram : s'.iram = s.iram
  sfr : s'.sfr = s.sfr
  xram : s'.xram = s.xram
  rom : s'.rom = s.rom
  bank : s'.bank = s.bank
  state : s'.state = s.state
  levels : s'.levels = s.levels
  hw : s'.hw = s.hw
  total : s'.total = s.total + n

theorem pc1 : ∀ v : Byte, (v &&& 1#8 != 0#8) = v.getLsbD 0 := by decide +kernel
theorem pc2 : ∀ v : Byte, (v &&& 2#8 != 0#8) = v.getLsbD 1 := by decide +kernel

theorem idlePd_sleep (s : St H) (h : Sleeps s) : (idlePd P s).2 = s := by
  unfold idlePd
  split
  · have e0 : (s.sfr PCON &&& 1#8 != 0#8) = (s.sfr 0x87).getLsbD 0 := pc1 _
    have e1 : (s.sfr PCON &&& 2#8 != 0#8) = (s.sfr 0x87).getLsbD 1 := pc2 _
    simp only [e0, e1]
    have : (if (s.sfr 0x87).getLsbD 1 = true then CpuState.pd else if (s.sfr 0x87).getLsbD 0 = true then CpuState.idle else s.state) = s.state := by
      rcases h with ⟨h1, h2⟩ | ⟨h1, h2⟩ | ⟨h1, h2⟩
      · rw [h2, h1]; simp
      · rw [h2, h1]; simp
      · rw [h2, h1]; simp
    rw [this]
  · rfl

theorem step_sleep (s : St H) (h : Sleeps s) (hn : ∀ i ∈ P.sources s.hw, ¬ MayInterrupt s i) : OnlyTime 1 s (doInst P s).2 := by
  have hng : s.state ≠ .go := by rcases h with ⟨h, _⟩ | ⟨h, _⟩ | ⟨h, _⟩ <;> rw [h] <;> decide
  have hr : (runPart P s).2 = { s with cyc := s.cyc + 1, total := s.total + 1 } := by unfold runPart; rw [if_neg hng]; rfl
  unfold doInst
  rw [hr]
  dsimp only
  split
  · exact ⟨rfl, rfl, rfl, rfl, rfl, rfl, rfl, rfl, rfl, rfl⟩
  · generalize hm : ({ s with cyc := s.cyc + 1, total := s.total + 1 } : St H) = m
    have mh : Sleeps m := by rw [← hm]; exact h
    have mt : OnlyTime 1 s m := by rw [← hm]; exact ⟨rfl, rfl, rfl, rfl, rfl, rfl, rfl, rfl, rfl, rfl⟩
    have key : (doInterrupt P m).1 = .go ∧ ∃ b, (doInterrupt P m).2 = { m with wasReti := b } := by
      unfold doInterrupt
      split
      · exact ⟨rfl, false, rfl⟩
      · split
        · exact ⟨rfl, m.wasReti, rfl⟩
        · rename_i hea
          have ea : (m.sfr 0xa8).getLsbD 7 = true := by rw [ea_iff] at hea; simp only [IE] at hea; simpa using hea
          have : (P.sources m.hw).find? (acceptable m) = none := by
            rw [List.find?_eq_none]
            intro i hi ha
            have := (acceptable_iff m i ea).mp ha
            rw [mt.hw] at hi
            exact hn i hi ⟨this.active, by rw [← mt.sfr]; exact this.ea, by rw [← mt.sfr]; exact this.enabled,
              by rw [← mt.sfr]; exact this.pending, by have := this.prio; unfold current at this ⊢; rw [mt.levels, mt.sfr] at this; exact this⟩
          rw [this]
          exact ⟨rfl, m.wasReti, rfl⟩
    obtain ⟨k1, b, k2⟩ := key
    rw [if_pos k1, k2, idlePd_sleep P _ (show Sleeps { m with wasReti := b } from mh)]
    exact ⟨mt.pc, mt.iram, mt.sfr, mt.xram, mt.rom, mt.bank, mt.state, mt.levels, mt.hw, mt.total⟩

/-- C59: a sleeping CPU executes nothing and keeps everything for as long as no interrupt
request is let through: memories, registers, program counter. -/
theorem c59_sleep (s : St H) (h : Sleeps s) (hn : ∀ i ∈ P.sources s.hw, ¬ MayInterrupt s i) (n : Nat) :
    OnlyTime n s (steps P n s) := by
  induction n with
  | zero => exact ⟨rfl, rfl, rfl, rfl, rfl, rfl, rfl, rfl, rfl, rfl⟩
  | succ n ih =>
    have k := step_sleep P (steps P n s) (by unfold Sleeps at h ⊢; rw [ih.state, ih.sfr]; exact h) (by
      intro i hi hm
      rw [ih.hw] at hi
      refine hn i hi ⟨hm.active, by rw [← ih.sfr]; exact hm.ea, by rw [← ih.sfr]; exact hm.enabled,
        by rw [← ih.sfr]; exact hm.pending, ?_⟩
      have := hm.prio; unfold current at this ⊢; rw [ih.levels, ih.sfr] at this; exact this)
    exact ⟨k.pc.trans ih.pc, k.iram.trans ih.iram, k.sfr.trans ih.sfr, k.xram.trans ih.xram, k.rom.trans ih.rom, k.bank.trans ih.bank,
      k.state.trans ih.state, k.levels.trans ih.levels, k.hw.trans ih.hw, by
        show (doInst P (steps P n s)).2.total = _
        rw [k.total, ih.total]; omega⟩

/-- C59: an interrupt request that is let through ends Idle: the CPU runs again, at the
instruction after the one that stopped it (`_partial`: the handler should be entered now). -/
theorem c59_wake_partial (s : St H) (hi : s.state = .idle) (hpd : (s.sfr 0x87).getLsbD 1 = false) (hw : s.wasReti = false)
    (hj : P.stopSelfjump = false) (i : ItSrc) (hs : i ∈ P.sources s.hw) (hm : MayInterrupt s i) :
    let s' := (doInst P s).2
    s'.state = .go ∧ s'.pc = s.pc ∧ (s'.sfr 0x87).getLsbD 0 = false ∧ (∀ a, a ≠ 0x87 → s'.sfr a = s.sfr a) ∧ s'.hw = s.hw ∧ s'.levels = s.levels := by
  intro s'
  have hr : (runPart P s).2 = { s with cyc := s.cyc + 1, total := s.total + 1 } := by
    unfold runPart; rw [if_neg (by rw [hi]; decide)]; rfl
  generalize hmm : ({ s with cyc := s.cyc + 1, total := s.total + 1 } : St H) = m at hr
  have mi : m.state = .idle := by rw [← hmm]; exact hi
  have msfr : m.sfr = s.sfr := by rw [← hmm]
  have mm : MayInterrupt m i := by rw [← hmm]; exact ⟨hm.active, hm.ea, hm.enabled, hm.pending, hm.prio⟩
  have hd : doInterrupt P m = (.go, { (wake m).2 with wasReti := true }) := by
    unfold doInterrupt
    rw [if_neg (by rw [← hmm]; simp [hw])]
    have hea : ¬ (m.sfr IE &&& 0x80#8 == 0#8) = true := by rw [ea_iff]; have := mm.ea; simp only [IE]; simp [this]
    rw [if_neg hea]
    have hacc : acceptable m i = true := (acceptable_iff m i mm.ea).mpr mm
    cases hf : (P.sources m.hw).find? (acceptable m) with
    | none => exact absurd hacc (by simpa using (List.find?_eq_none.mp hf) i (by rw [← hmm]; exact hs))
    | some j => simp only [takeIt, if_pos mi]
  have e : s' = (idlePd P { (wake m).2 with wasReti := true }).2 := by
    show (doInst P s).2 = _
    unfold doInst
    rw [hr]
    dsimp only
    rw [if_neg (by rw [hj]; simp), hd]
    simp only [if_true]
  have kb : ∀ v : Byte, (v &&& ~~~(1#8)).getLsbD 0 = false ∧ (v &&& ~~~(1#8)).getLsbD 1 = v.getLsbD 1 := by decide +kernel
  have ws : (wake m).2.sfr PCON = s.sfr PCON &&& ~~~(1#8) := by rw [← msfr]; exact upd_same m.sfr PCON _
  have es : s' = { (wake m).2 with wasReti := true } := by
    rw [e]
    unfold idlePd
    split
    · have p0 : ((wake m).2.sfr PCON &&& 1#8 != 0#8) = false := by rw [ws, pc1]; exact (kb _).1
      have p1 : ((wake m).2.sfr PCON &&& 2#8 != 0#8) = false := by rw [ws, pc2, (kb _).2]; exact hpd
      simp only [p0, p1, Bool.false_eq_true, if_false]
    · rfl
  rw [es]
  refine ⟨rfl, by rw [← hmm]; rfl, ?_, ?_, by rw [← hmm]; rfl, by rw [← hmm]; rfl⟩
  · exact (congrArg (fun v : Byte => v.getLsbD 0) ws).trans (kb _).1
  · intro a ha
    show upd m.sfr PCON _ a = _
    rw [upd_ne (a := PCON) (b := a) _ _ ha, msfr]

/-! ### What is false -/

namespace IDemo

/-- Timer 0 is running in mode 2 and about to overflow, its interrupt is enabled, and the
CPU has just gone to Idle. -/
def s0 : St (Dev Unit) where
  pc := 0x100
  instPC := 0x0fe
  iram := fun _ => 0#8
  sfr := fun a => if a = 0x87 then 1#8 else if a = 0x88 then 0x10#8 else if a = 0x89 then 2#8 else if a = 0x8a then 0xff#8
    else if a = 0xa8 then 0x82#8 else if a = 0x81 then 7#8 else 0#8
  xram := fun _ => 0#8
  rom := fun _ => 0#8
  bank := 0
  wasReti := false
  state := .idle
  levels := [⟨-1, 0, 0⟩]
  cyc := 0
  total := 0
  hw := ⟨⟨2, false, false, true, true, 0, 0⟩, ⟨0, false, false, false, true, 0, 0⟩, 0xff#8, ()⟩

def q : Hw Unit :=
  { Demo.hw with sources := fun _ => [⟨0x02#8, 0x88, 0x20#8, 0x0b, true, true⟩, ⟨0x08#8, 0x88, 0x80#8, 0x1b, true, true⟩] }

theorem sleeps : Sleeps s0 := Or.inl ⟨rfl, by decide⟩
theorem quiet : ∀ i ∈ (timers q).sources s0.hw, ¬ MayInterrupt s0 i := by
  intro i hi h
  have hp := h.pending
  have : i = ⟨0x02#8, 0x88, 0x20#8, 0x0b, true, true⟩ ∨ i = ⟨0x08#8, 0x88, 0x80#8, 0x1b, true, true⟩ := by
    simpa [timers, q] using hi
  rcases this with rfl | rfl <;> revert hp <;> decide

/-- The request is there when the CPU goes to sleep. -/
def s1 : St (Dev Unit) := { s0 with sfr := upd s0.sfr 0x88 0x30#8, rom := fun _ => 0x04#8 }
example : MayInterrupt s1 ⟨0x02#8, 0x88, 0x20#8, 0x0b, true, true⟩ :=
  ⟨rfl, by decide, by decide, by decide, by decide⟩

end IDemo

/-- C59, false part: "in Idle the timers keep running, and their interrupts end Idle".
The running timer, one cycle before its overflow, stands still: Idle lasts forever. -/
theorem c59_false_timer : ∀ n, (steps (timers IDemo.q) n IDemo.s0).state = .idle ∧
    tl (steps (timers IDemo.q) n IDemo.s0) false = 0xff ∧ (steps (timers IDemo.q) n IDemo.s0).total = n := by
  intro n
  have k := c59_sleep (timers IDemo.q) IDemo.s0 IDemo.sleeps IDemo.quiet n
  refine ⟨k.state, ?_, by rw [k.total]; simp [IDemo.s0]⟩
  unfold tl; rw [k.sfr]; decide

/-- C59, false part: "the interrupt that ends Idle is served at once".  One instruction
(here INC A) of the interrupted program is executed before the handler is entered. -/
theorem c59_false_wake :
    let t := (doInst (timers IDemo.q) IDemo.s1).2
    let u := (doInst (timers IDemo.q) t).2
    t.state = .go ∧ t.pc = 0x100 ∧ u.pc = 0x0b ∧ A IDemo.s1 = 0#8 ∧ A u = 1#8 := by decide +kernel

/-- C59, false part: "PowerDown is ended by reset only".  A pending interrupt ends it. -/
theorem c59_false_pd :
    let s := { IDemo.s1 with state := .pd, sfr := upd IDemo.s1.sfr 0x87 2#8 }
    let t := (doInst (timers IDemo.q) s).2
    Sleeps s ∧ t.state = .go ∧ t.pc = 0x0b := by
  refine ⟨Or.inr (Or.inl ⟨rfl, by decide⟩), by decide +kernel, by decide +kernel⟩

/-- C59, false part: with the option that stops on jumps to self, Idle is never left. -/
theorem c59_false_selfjump :
    let Q : Hw Unit := { IDemo.q with stopSelfjump := true }
    (doInst (timers Q) IDemo.s1).1 = .selfjump ∧ (doInst (timers Q) IDemo.s1).2.state = .idle := by decide +kernel

end Ucsim.S51
