import Verif.S51.Reset
import Verif.Props.S51Timer
import Verif.Props.S51Xint

/-
C58: reset of the 8051/8052, from any state whatsoever.
-/
namespace Ucsim.S51
open Spec

section
variable {H : Type} (P : Hw H)

/-- Memories, PC, interrupt levels: not touched by writes of SFRs. -/
structure Kept (s s' : St H) : Prop where
  iram : s'.iram = s.iram
  xram : s'.xram = s.xram
  rom : s'.rom = s.rom
  pc : s'.pc = s.pc
  instPC : s'.instPC = s.instPC
  levels : s'.levels = s.levels
  state : s'.state = s.state
  total : s'.total = s.total
  cyc : s'.cyc = s.cyc

theorem Kept.refl (s : St H) : Kept s s := ⟨rfl, rfl, rfl, rfl, rfl, rfl, rfl, rfl, rfl⟩
theorem Kept.trans {a b c : St H} (h : Kept a b) (k : Kept b c) : Kept a c :=
  ⟨k.iram.trans h.iram, k.xram.trans h.xram, k.rom.trans h.rom, k.pc.trans h.pc, k.instPC.trans h.instPC, k.levels.trans h.levels, k.state.trans h.state,
   k.total.trans h.total, k.cyc.trans h.cyc⟩

theorem sfrWrite_kept (a : Nat) (v : Byte) (s : St H) : Kept s (sfrWrite P a v s).2 := by
  unfold sfrWrite
  split
  · exact ⟨rfl, rfl, rfl, rfl, rfl, rfl, rfl, rfl, rfl⟩
  · split
    · exact ⟨rfl, rfl, rfl, rfl, rfl, rfl, rfl, rfl, rfl⟩
    · split <;> exact ⟨rfl, rfl, rfl, rfl, rfl, rfl, rfl, rfl, rfl⟩

theorem sfrRead_kept (a : Nat) (l : Bool) (s : St H) : Kept s (sfrRead P a l s).2 := by
  unfold sfrRead; split <;> exact ⟨rfl, rfl, rfl, rfl, rfl, rfl, rfl, rfl, rfl⟩

theorem writeAll_kept (l : List (Nat × Byte)) (s : St H) : Kept s (writeAll P l s).2 := by
  induction l generalizing s with
  | nil => exact Kept.refl s
  | cons p l ih => exact (sfrWrite_kept P _ _ s).trans (ih _)

theorem clearSfr_kept (t2 : Bool) (s : St H) : Kept s (clearSfr P t2 s).2 := by
  unfold clearSfr
  simp only [bind_def]
  refine Kept.trans (b := (zeroSfr s).2) ⟨rfl, rfl, rfl, rfl, rfl, rfl, rfl, rfl, rfl⟩ ?_
  refine (writeAll_kept P resetPorts _).trans ?_
  refine (sfrRead_kept P 0x90 false _).trans ?_
  refine (sfrRead_kept P 0xb0 false _).trans ?_
  refine (writeAll_kept P resetRegs _).trans ?_
  cases t2
  · exact Kept.refl _
  · exact writeAll_kept P _ _

/-- The CPU registers as far as SFR writes are concerned. -/
structure CoreV where
  acc : Byte
  b : Byte
  psw : Byte
  sp : Byte
  dpl : Byte
  dph : Byte
  bank : Nat

def coreV (s : St H) : CoreV := ⟨s.sfr 0xe0, s.sfr 0xf0, s.sfr 0xd0, s.sfr 0x81, s.sfr 0x82, s.sfr 0x83, s.bank⟩

def wrCore (c : CoreV) (p : Nat × Byte) : CoreV :=
  if p.1 = 0xe0 then { c with acc := p.2, psw := (c.psw &&& ~~~(1#8)) ||| parityMask p.2 }
  else if p.1 = 0xd0 then { c with psw := p.2, bank := ((p.2 &&& 0x18#8) >>> 3).toNat }
  else if p.1 = 0xf0 then { c with b := p.2 }
  else if p.1 = 0x81 then { c with sp := p.2 }
  else if p.1 = 0x82 then { c with dpl := p.2 }
  else if p.1 = 0x83 then { c with dph := p.2 }
  else c

theorem sfrWrite_coreV (p : Nat × Byte) (s : St H) : coreV (sfrWrite P p.1 p.2 s).2 = wrCore (coreV s) p := by
  obtain ⟨a, v⟩ := p
  unfold sfrWrite wrCore
  dsimp only
  by_cases h1 : a = 0xe0
  · rw [if_pos (show a = ACC from h1), if_pos h1]; simp [coreV, accWrite, upd, ACC, PSW]
  · rw [if_neg (show ¬ a = ACC from h1), if_neg h1]
    by_cases h2 : a = 0xd0
    · rw [if_pos (show a = PSW from h2), if_pos h2]; simp [coreV, pswWrite, upd, PSW]
    · rw [if_neg (show ¬ a = PSW from h2), if_neg h2]
      by_cases h3 : a = 0xf0
      · subst h3; simp [coreV, isCore, upd]
      · by_cases h4 : a = 0x81
        · subst h4; simp [coreV, isCore, upd]
        · by_cases h5 : a = 0x82
          · subst h5; simp [coreV, isCore, upd]
          · by_cases h6 : a = 0x83
            · subst h6; simp [coreV, isCore, upd]
            · have : isCore a = false := by simp [isCore, h1, h2, h3, h4, h5, h6]
              rw [this]
              simp only [Bool.false_eq_true, if_false, if_neg h3, if_neg h4, if_neg h5, if_neg h6]
              simp [coreV, upd, protect, isCore, Ne.symm h1, Ne.symm h2, Ne.symm h3, Ne.symm h4, Ne.symm h5, Ne.symm h6]

theorem sfrRead_sfr (a : Nat) (l : Bool) (s : St H) : (sfrRead P a l s).2.sfr = s.sfr ∧ (sfrRead P a l s).2.bank = s.bank := by
  unfold sfrRead; split <;> exact ⟨rfl, rfl⟩

theorem writeAll_coreV (l : List (Nat × Byte)) (s : St H) : coreV (writeAll P l s).2 = l.foldl wrCore (coreV s) := by
  induction l generalizing s with
  | nil => rfl
  | cons p l ih =>
    show coreV (writeAll P l (sfrWrite P p.1 p.2 s).2).2 = _
    rw [ih, sfrWrite_coreV]; rfl

theorem wrCore_52 (c : CoreV) : resetRegs52.foldl wrCore c = c := by
  simp [resetRegs52, wrCore]

theorem clearSfr_coreV (t2 : Bool) (s : St H) : coreV (clearSfr P t2 s).2 = ⟨0#8, 0#8, 0#8, 7#8, 0#8, 0#8, 0⟩ := by
  unfold clearSfr
  simp only [bind_def]
  have rd : ∀ (a : Nat) (l : Bool) (u : St H), coreV (sfrRead P a l u).2 = coreV u := by
    intro a l u; obtain ⟨h1, h2⟩ := sfrRead_sfr P a l u; simp only [coreV, h1, h2]
  have key : ∀ u : St H, coreV (writeAll P resetRegs u).2 = ⟨0#8, 0#8, 0#8, 7#8, 0#8, 0#8, 0⟩ := by
    intro u
    rw [writeAll_coreV]
    simp [resetRegs, wrCore]
  cases t2
  · exact key _
  · show coreV (writeAll P resetRegs52 _).2 = _
    rw [writeAll_coreV, wrCore_52]; exact key _

/-- C58: reset, in any state and with any devices: the CPU starts at address 0 with its
registers at the documented values, the first register bank, the main program's priority;
the clock is 0; the memories keep their contents. -/
theorem c58_core (r : H → H) (t2 : Bool) (s : St H) :
    let s' := (reset P r t2 s).2
    s'.pc = 0 ∧ s'.state = .go ∧ A s' = 0#8 ∧ B s' = 0#8 ∧ psw s' = 0#8 ∧ sp s' = 7 ∧ dptr s' = 0 ∧ s'.bank = 0 ∧
    s'.total = 0 ∧ s'.iram = s.iram ∧ s'.xram = s.xram ∧ s'.rom = s.rom ∧ s'.levels = s.levels.dropWhile (fun l => decide (0 ≤ l.level)) ∧
    current s' < 0 := by
  intro s'
  have hk : Kept (resetUc r s).2 s' := clearSfr_kept P t2 (resetUc r s).2
  have hc : coreV s' = _ := clearSfr_coreV P t2 (resetUc r s).2
  have lv : s'.levels = s.levels.dropWhile (fun l => decide (0 ≤ l.level)) := hk.levels
  refine ⟨hk.pc, hk.state, congrArg CoreV.acc hc, congrArg CoreV.b hc, congrArg CoreV.psw hc, ?_, ?_, congrArg CoreV.bank hc, hk.total,
    hk.iram, hk.xram, hk.rom, lv, ?_⟩
  · exact congrArg (fun c : CoreV => c.sp.toNat) hc
  · exact congrArg (fun c : CoreV => 256 * c.dph.toNat + c.dpl.toNat) hc
  · unfold current
    rw [lv]
    have : ∀ l : List ItLevel, (match l.dropWhile (fun l => decide (0 ≤ l.level)) with | l :: _ => l.level | [] => -1) < 0 := by
      intro l
      induction l with
      | nil => decide
      | cons x l ih =>
        rw [List.dropWhile_cons]
        by_cases h : 0 ≤ x.level
        · simp only [h, decide_true, if_true]; exact ih
        · simp only [h, decide_false, Bool.false_eq_true, if_false]; omega
    exact this _

end

section
variable {D : Type} (Q : Hw D)

/-- What concerns the timers. -/
structure TmrV where
  t0 : Tmr
  t1 : Tmr
  pins : Byte
  tmod : Byte
  tcon : Byte
  p3 : Byte
  tl0 : Byte
  tl1 : Byte
  th0 : Byte
  th1 : Byte

def tmrV (s : St (Dev D)) : TmrV :=
  ⟨s.hw.t0, s.hw.t1, s.hw.pins, s.sfr TMOD, s.sfr TCON &&& 0xf0#8, s.sfr P3, s.sfr TL0, s.sfr TL1, s.sfr TH0, s.sfr TH1⟩

def wrTmr (c : TmrV) (p : Nat × Byte) : TmrV :=
  if p.1 = TMOD then { c with t0 := c.t0.wrTmod cfg0 p.2, t1 := c.t1.wrTmod cfg1 p.2, tmod := p.2 }
  else if p.1 = TCON then { c with t0 := c.t0.wrTcon cfg0 p.2, t1 := c.t1.wrTcon cfg1 p.2, tcon := p.2 &&& 0xf0#8 }
  else if p.1 = TL0 then { c with tl0 := p.2 }
  else if p.1 = TL1 then { c with tl1 := p.2 }
  else if p.1 = TH0 then { c with th0 := p.2 }
  else if p.1 = TH1 then { c with th1 := p.2 }
  else if p.1 = P3 then
    if c.p3 = p.2 then c
    else { c with t0 := c.t0.port cfg0 (c.pins &&& c.p3) (c.pins &&& p.2), t1 := c.t1.port cfg1 (c.pins &&& c.p3) (c.pins &&& p.2), p3 := p.2 }
  else c

theorem guard_tcon (f r : Nat → Byte) : guard f r TCON &&& 0xf0#8 = f TCON &&& 0xf0#8 := by
  have e : guard f r TCON = (f TCON &&& 0xf0#8) ||| (r TCON &&& 0x0f#8) := by simp [guard, TCON, TMOD, TL0, TL1, TH0, TH1, P3]
  rw [e, and_or, BitVec.and_assoc, BitVec.and_assoc, show 0x0f#8 &&& 0xf0#8 = 0#8 by decide, BitVec.and_zero, BitVec.or_zero, BitVec.and_self]

theorem sfrWrite_tmrV (p : Nat × Byte) (s : St (Dev D)) : tmrV (sfrWrite (timers Q) p.1 p.2 s).2 = wrTmr (tmrV s) p := by
  obtain ⟨a, v⟩ := p
  cases hc : isCore a with
  | true =>
    have e : tmrV (sfrWrite (timers Q) a v s).2 = tmrV s := by
      have : (sfrWrite (timers Q) a v s).2.hw = s.hw ∧ ∀ b, isCore b = false → (sfrWrite (timers Q) a v s).2.sfr b = s.sfr b := by
        unfold sfrWrite
        split
        · refine ⟨rfl, fun b hb => ?_⟩
          have n1 : b ≠ ACC := by intro h; rw [h] at hb; revert hb; decide
          have n2 : b ≠ PSW := by intro h; rw [h] at hb; revert hb; decide
          simp [accWrite, upd, n1, n2]
        · split
          · refine ⟨rfl, fun b hb => ?_⟩
            have n2 : b ≠ PSW := by intro h; rw [h] at hb; revert hb; decide
            simp [pswWrite, upd, n2]
          · refine ⟨rfl, fun b hb => ?_⟩
            have n2 : b ≠ a := by intro h; rw [h, hc] at hb; cases hb
            simp [upd, n2]
      obtain ⟨h1, h2⟩ := this
      unfold tmrV
      rw [h1, h2 TMOD (by decide), h2 TCON (by decide), h2 P3 (by decide), h2 TL0 (by decide), h2 TL1 (by decide), h2 TH0 (by decide), h2 TH1 (by decide)]
    rw [e]
    have n : ∀ b, isCore b = false → ¬ a = b := by intro b hb h; rw [h, hb] at hc; cases hc
    simp only [wrTmr, if_neg (n TMOD (by decide)), if_neg (n TCON (by decide)), if_neg (n TL0 (by decide)), if_neg (n TL1 (by decide)),
      if_neg (n TH0 (by decide)), if_neg (n TH1 (by decide)), if_neg (n P3 (by decide))]
  | false =>
    have n1 : ¬ a = ACC := by intro h; rw [h] at hc; revert hc; decide
    have n2 : ¬ a = PSW := by intro h; rw [h] at hc; revert hc; decide
    have e : (sfrWrite (timers Q) a v s).2 = { s with
        sfr := upd (protect s.sfr ((timers Q).sfrWr s.hw s.sfr a v).2.2) a ((timers Q).sfrWr s.hw s.sfr a v).1
        hw := ((timers Q).sfrWr s.hw s.sfr a v).2.1, wasReti := s.wasReti || a == IE } := by
      unfold sfrWrite; rw [if_neg n1, if_neg n2, if_neg (by rw [hc]; simp)]
    rw [e]
    have gd : ∀ b r, isCore b = false → (b = TMOD ∨ b = TL0 ∨ b = TL1 ∨ b = TH0 ∨ b = TH1 ∨ b = P3) → protect s.sfr (guard s.sfr r) b = s.sfr b := by
      intro b r hb h
      rw [protect_ne hb]; simp only [guard, if_pos h]
    have gt : ∀ r, protect s.sfr (guard s.sfr r) TCON &&& 0xf0#8 = s.sfr TCON &&& 0xf0#8 := by
      intro r; rw [protect_ne (by decide), guard_tcon]
    have er : ((timers Q).sfrWr s.hw s.sfr a v).2.2 = guard s.sfr (Q.sfrWr s.hw.rest s.sfr a v).2.2 := by
      simp only [timers]; repeat (first | rfl | split)
    rw [er]
    have sv : (a = TMOD ∨ a = TCON ∨ a = TL0 ∨ a = TL1 ∨ a = TH0 ∨ a = TH1 ∨ a = P3) → ((timers Q).sfrWr s.hw s.sfr a v).1 = v := by
      intro h
      rcases h with h | h | h | h | h | h | h <;> subst h <;> simp [timers, TMOD, TCON, TL0, TL1, TH0, TH1, P3]
    by_cases h : a = TMOD ∨ a = TCON ∨ a = TL0 ∨ a = TL1 ∨ a = TH0 ∨ a = TH1 ∨ a = P3
    · rw [sv h]
      rcases h with h | h | h | h | h | h | h <;> subst h <;> unfold tmrV wrTmr <;> dsimp only
      all_goals simp only [upd_same, upd_ne _ _ (show TMOD ≠ TCON by decide), upd_ne _ _ (show TMOD ≠ TL0 by decide), upd_ne _ _ (show TMOD ≠ TL1 by decide),
          upd_ne _ _ (show TMOD ≠ TH0 by decide), upd_ne _ _ (show TMOD ≠ TH1 by decide), upd_ne _ _ (show TMOD ≠ P3 by decide),
          upd_ne _ _ (show TCON ≠ TMOD by decide), upd_ne _ _ (show TCON ≠ TL0 by decide), upd_ne _ _ (show TCON ≠ TL1 by decide),
          upd_ne _ _ (show TCON ≠ TH0 by decide), upd_ne _ _ (show TCON ≠ TH1 by decide), upd_ne _ _ (show TCON ≠ P3 by decide),
          upd_ne _ _ (show TL0 ≠ TMOD by decide), upd_ne _ _ (show TL0 ≠ TCON by decide), upd_ne _ _ (show TL0 ≠ TL1 by decide),
          upd_ne _ _ (show TL0 ≠ TH0 by decide), upd_ne _ _ (show TL0 ≠ TH1 by decide), upd_ne _ _ (show TL0 ≠ P3 by decide),
          upd_ne _ _ (show TL1 ≠ TMOD by decide), upd_ne _ _ (show TL1 ≠ TCON by decide), upd_ne _ _ (show TL1 ≠ TL0 by decide),
          upd_ne _ _ (show TL1 ≠ TH0 by decide), upd_ne _ _ (show TL1 ≠ TH1 by decide), upd_ne _ _ (show TL1 ≠ P3 by decide),
          upd_ne _ _ (show TH0 ≠ TMOD by decide), upd_ne _ _ (show TH0 ≠ TCON by decide), upd_ne _ _ (show TH0 ≠ TL0 by decide),
          upd_ne _ _ (show TH0 ≠ TL1 by decide), upd_ne _ _ (show TH0 ≠ TH1 by decide), upd_ne _ _ (show TH0 ≠ P3 by decide),
          upd_ne _ _ (show TH1 ≠ TMOD by decide), upd_ne _ _ (show TH1 ≠ TCON by decide), upd_ne _ _ (show TH1 ≠ TL0 by decide),
          upd_ne _ _ (show TH1 ≠ TL1 by decide), upd_ne _ _ (show TH1 ≠ TH0 by decide), upd_ne _ _ (show TH1 ≠ P3 by decide),
          upd_ne _ _ (show P3 ≠ TMOD by decide), upd_ne _ _ (show P3 ≠ TCON by decide), upd_ne _ _ (show P3 ≠ TL0 by decide),
          upd_ne _ _ (show P3 ≠ TL1 by decide), upd_ne _ _ (show P3 ≠ TH0 by decide), upd_ne _ _ (show P3 ≠ TH1 by decide),
          gt, gd TMOD _ (by decide) (by decide), gd P3 _ (by decide) (by decide), gd TL0 _ (by decide) (by decide), gd TL1 _ (by decide) (by decide), gd TH0 _ (by decide) (by decide), gd TH1 _ (by decide) (by decide)]
      · simp [timers, TMOD, TCON, TL0, TL1, TH0, TH1, P3]
      · simp [timers, TMOD, TCON, TL0, TL1, TH0, TH1, P3]
      · simp [timers, TMOD, TCON, TL0, TL1, TH0, TH1, P3]
      · simp [timers, TMOD, TCON, TL0, TL1, TH0, TH1, P3]
      · simp [timers, TMOD, TCON, TL0, TL1, TH0, TH1, P3]
      · simp [timers, TMOD, TCON, TL0, TL1, TH0, TH1, P3]
      · by_cases hv : s.sfr 176 = v
        · simp [timers, TMOD, TCON, TL0, TL1, TH0, TH1, P3, hv]
        · simp [timers, TMOD, TCON, TL0, TL1, TH0, TH1, P3, hv, Dev.port]
    · simp only [not_or] at h
      obtain ⟨k1, k2, k3, k4, k5, k6, k7⟩ := h
      unfold tmrV wrTmr
      dsimp only
      rw [if_neg k1, if_neg k2, if_neg k3, if_neg k4, if_neg k5, if_neg k6, if_neg k7]
      simp only [upd_ne _ _ (Ne.symm k1), upd_ne _ _ (Ne.symm k2), upd_ne _ _ (Ne.symm k3), upd_ne _ _ (Ne.symm k4), upd_ne _ _ (Ne.symm k5),
        upd_ne _ _ (Ne.symm k6), upd_ne _ _ (Ne.symm k7), gt, gd TMOD _ (by decide) (by decide), gd P3 _ (by decide) (by decide), gd TL0 _ (by decide) (by decide),
        gd TL1 _ (by decide) (by decide), gd TH0 _ (by decide) (by decide), gd TH1 _ (by decide) (by decide)]
      have hh : ((timers Q).sfrWr s.hw s.sfr a v).2.1 = { s.hw with rest := (Q.sfrWr s.hw.rest s.sfr a v).2.1 } := by
        have k : ¬ (a = TL0 ∨ a = TL1 ∨ a = TH0 ∨ a = TH1) := by rintro (h | h | h | h) <;> contradiction
        simp only [timers, if_neg k1, if_neg k2, if_neg k, if_neg k7]
      rw [hh]

theorem writeAll_tmrV (l : List (Nat × Byte)) (s : St (Dev D)) : tmrV (writeAll (timers Q) l s).2 = l.foldl wrTmr (tmrV s) := by
  induction l generalizing s with
  | nil => rfl
  | cons p l ih =>
    show tmrV (writeAll (timers Q) l (sfrWrite (timers Q) p.1 p.2 s).2).2 = _
    rw [ih, sfrWrite_tmrV]; rfl

theorem sfrRead_tmrV (a : Nat) (l : Bool) (s : St (Dev D)) : tmrV (sfrRead (timers Q) a l s).2 = tmrV s := by
  unfold sfrRead; split <;> rfl

/-- A timer after reset: everything off. -/
def offTmr (c : TCfg) (pins : Byte) (ovf : Nat) : Tmr := ⟨0, false, false, false, pins &&& 0xff#8 &&& c.mINT != 0#8, 0, ovf⟩

theorem clearSfr_tmrV (t2 : Bool) (s : St (Dev D)) : tmrV (clearSfr (timers Q) t2 s).2 =
    ⟨offTmr cfg0 s.hw.pins s.hw.t0.ovf, offTmr cfg1 s.hw.pins s.hw.t1.ovf, s.hw.pins, 0#8, 0#8, 0xff#8, 0#8, 0#8, 0#8, 0#8⟩ := by
  have key : tmrV (writeAll (timers Q) resetRegs (sfrRead (timers Q) 0xb0 false (sfrRead (timers Q) 0x90 false
      (writeAll (timers Q) resetPorts (zeroSfr s).2).2).2).2).2 =
    ⟨offTmr cfg0 s.hw.pins s.hw.t0.ovf, offTmr cfg1 s.hw.pins s.hw.t1.ovf, s.hw.pins, 0#8, 0#8, 0xff#8, 0#8, 0#8, 0#8, 0#8⟩ := by
    rw [writeAll_tmrV, sfrRead_tmrV, sfrRead_tmrV, writeAll_tmrV]
    simp [resetRegs, resetPorts, wrTmr, tmrV, zeroSfr, TMOD, TCON, TL0, TL1, TH0, TH1, P3, Tmr.wrTmod, Tmr.wrTcon, Tmr.port, offTmr, cfg0, cfg1]
  unfold clearSfr
  simp only [bind_def]
  cases t2
  · exact key
  · show tmrV (writeAll (timers Q) resetRegs52 _).2 = _
    rw [writeAll_tmrV, key]
    simp [resetRegs52, wrTmr, TMOD, TCON, TL0, TL1, TH0, TH1, P3]

/-- C58: after reset, whatever the timers did before (even if they did not follow their
registers), they follow their registers: mode 0, timer function, not gated, stopped,
counts and flags 0, no edges pending; the latch of port 3 is all ones. -/
theorem c58_timers (r : Dev D → Dev D) (hr : ∀ h, (r h).pins = h.pins) (t2 : Bool) (s : St (Dev D)) (x : Bool) :
    let s' := (reset (timers Q) r t2 s).2
    Coherent s' ∧ tmode s' x = 0 ∧ isCounter s' x = false ∧ gated s' x = false ∧ runBit s' x = false ∧ flag s' x = false ∧
    tl s' x = 0 ∧ th s' x = 0 ∧ uncounted s' x = 0 ∧ s'.sfr 0xb0 = 0xff#8 ∧ s'.hw.pins = s.hw.pins := by
  intro s'
  have hv : tmrV s' = _ := clearSfr_tmrV Q t2 (resetUc r s).2
  have e0 : s'.hw.t0 = offTmr cfg0 (r s.hw).pins _ := congrArg TmrV.t0 hv
  have e1 : s'.hw.t1 = offTmr cfg1 (r s.hw).pins _ := congrArg TmrV.t1 hv
  have ep : s'.hw.pins = (r s.hw).pins := congrArg TmrV.pins hv
  have em : s'.sfr 0x89 = 0#8 := congrArg TmrV.tmod hv
  have ec : s'.sfr 0x88 &&& 0xf0#8 = 0#8 := congrArg TmrV.tcon hv
  have e3 : s'.sfr 0xb0 = 0xff#8 := congrArg TmrV.p3 hv
  have el0 : s'.sfr 0x8a = 0#8 := congrArg TmrV.tl0 hv
  have el1 : s'.sfr 0x8b = 0#8 := congrArg TmrV.tl1 hv
  have eh0 : s'.sfr 0x8c = 0#8 := congrArg TmrV.th0 hv
  have eh1 : s'.sfr 0x8d = 0#8 := congrArg TmrV.th1 hv
  have bit : ∀ v : Byte, v &&& 0xf0#8 = 0#8 → v.getLsbD 4 = false ∧ v.getLsbD 5 = false ∧ v.getLsbD 6 = false ∧ v.getLsbD 7 = false := by
    decide +kernel
  obtain ⟨c4, c5, c6, c7⟩ := bit _ ec
  have hh : ∀ x, half s' x = 0 := by intro x; unfold half; rw [em]; cases x <;> rfl
  have p3e : port3 s' = s'.hw.pins := by
    unfold port3; rw [e3]
    apply BitVec.eq_of_getLsbD_eq; intro i hi
    rw [BitVec.getLsbD_and, show (0xff#8 : Byte) = BitVec.allOnes 8 by decide, BitVec.getLsbD_allOnes]; simp [hi]
  have ones : ∀ v : Byte, v &&& 0xff#8 = v := by decide +kernel
  have k2 : ∀ v : Byte, (v &&& 0x04#8 != 0#8) = v.getLsbD 2 := b2
  have k3 : ∀ v : Byte, (v &&& 0x08#8 != 0#8) = v.getLsbD 3 := b3
  refine ⟨⟨⟨?_, ?_, ?_, ?_, ?_⟩, ⟨?_, ?_, ?_, ?_, ?_⟩⟩, by unfold tmode; rw [hh], by unfold isCounter; rw [hh]; rfl, by unfold gated; rw [hh]; rfl, ?_, ?_, ?_, ?_, ?_, e3, by rw [ep, hr]⟩
  · rw [e0]; unfold tmode; rw [hh]; rfl
  · rw [e0]; unfold isCounter; rw [hh]; rfl
  · rw [e0]; unfold gated; rw [hh]; rfl
  · rw [e0]; exact c4.symm
  · rw [p3e, ep, e0]
    show ((r s.hw).pins &&& 0xff#8 &&& 0x04#8 != 0#8) = _
    rw [ones, k2]; rfl
  · rw [e1]; unfold tmode; rw [hh]; rfl
  · rw [e1]; unfold isCounter; rw [hh]; rfl
  · rw [e1]; unfold gated; rw [hh]; rfl
  · rw [e1]; exact c6.symm
  · rw [p3e, ep, e1]
    show ((r s.hw).pins &&& 0xff#8 &&& 0x08#8 != 0#8) = _
    rw [ones, k3]; rfl
  · cases x
    · exact c4
    · exact c6
  · cases x
    · exact c5
    · exact c7
  · unfold tl; cases x
    · show (s'.sfr 0x8a).toNat = 0; rw [el0]; rfl
    · show (s'.sfr 0x8b).toNat = 0; rw [el1]; rfl
  · unfold th; cases x
    · show (s'.sfr 0x8c).toNat = 0; rw [eh0]; rfl
    · show (s'.sfr 0x8d).toNat = 0; rw [eh1]; rfl
  · unfold uncounted; cases x
    · show s'.hw.t0.edge = 0; rw [e0]; rfl
    · show s'.hw.t1.edge = 0; rw [e1]; rfl

/-! ### External interrupts -/

structure XV where
  it0 : Bool
  it1 : Bool
  int0 : Bool
  int1 : Bool
  pins : Byte
  p3 : Byte
  tcon : Byte

def xV (s : St (XDev D)) : XV := ⟨s.hw.it0, s.hw.it1, s.hw.int0, s.hw.int1, s.hw.pins, s.sfr P3, s.sfr TCON &&& 0x0f#8⟩

/-- Without requests by edges: the pins do not fall. -/
def wrX (c : XV) (p : Nat × Byte) : XV :=
  if p.1 = TCON then { c with it0 := p.2 &&& 0x01#8 != 0#8, it1 := p.2 &&& 0x04#8 != 0#8, tcon := p.2 &&& 0x0f#8 }
  else if p.1 = P3 then
    if c.p3 = p.2 then c
    else { c with int0 := c.pins &&& p.2 &&& 0x04#8 != 0#8, int1 := c.pins &&& p.2 &&& 0x08#8 != 0#8, p3 := p.2 }
  else c

theorem edge_zero (h : XDev D) (n t : Byte) : h.edge 0#8 n t = t := by
  unfold XDev.edge
  simp

theorem sfrWrite_xV (p : Nat × Byte) (s : St (XDev D)) (hp : p.1 = P3 → s.sfr P3 = 0#8) :
    xV (sfrWrite (xint Q) p.1 p.2 s).2 = wrX (xV s) p := by
  obtain ⟨a, v⟩ := p
  cases hc : isCore a with
  | true =>
    have e : xV (sfrWrite (xint Q) a v s).2 = xV s := by
      have : (sfrWrite (xint Q) a v s).2.hw = s.hw ∧ ∀ b, isCore b = false → (sfrWrite (xint Q) a v s).2.sfr b = s.sfr b := by
        unfold sfrWrite
        split
        · refine ⟨rfl, fun b hb => ?_⟩
          have n1 : b ≠ ACC := by intro h; rw [h] at hb; revert hb; decide
          have n2 : b ≠ PSW := by intro h; rw [h] at hb; revert hb; decide
          simp [accWrite, upd, n1, n2]
        · split
          · refine ⟨rfl, fun b hb => ?_⟩
            have n2 : b ≠ PSW := by intro h; rw [h] at hb; revert hb; decide
            simp [pswWrite, upd, n2]
          · refine ⟨rfl, fun b hb => ?_⟩
            have n2 : b ≠ a := by intro h; rw [h, hc] at hb; cases hb
            simp [upd, n2]
      obtain ⟨h1, h2⟩ := this
      unfold xV
      rw [h1, h2 TCON (by decide), h2 P3 (by decide)]
    rw [e]
    have n : ∀ b, isCore b = false → ¬ a = b := by intro b hb h; rw [h, hb] at hc; cases hc
    simp only [wrX, if_neg (n TCON (by decide)), if_neg (n P3 (by decide))]
  | false =>
    have n1 : ¬ a = ACC := by intro h; rw [h] at hc; revert hc; decide
    have n2 : ¬ a = PSW := by intro h; rw [h] at hc; revert hc; decide
    have e : (sfrWrite (xint Q) a v s).2 = { s with
        sfr := upd (protect s.sfr ((xint Q).sfrWr s.hw s.sfr a v).2.2) a ((xint Q).sfrWr s.hw s.sfr a v).1
        hw := ((xint Q).sfrWr s.hw s.sfr a v).2.1, wasReti := s.wasReti || a == IE } := by
      unfold sfrWrite; rw [if_neg n1, if_neg n2, if_neg (by rw [hc]; simp)]
    rw [e]
    have gp : ∀ r, guardX s.sfr r P3 = s.sfr P3 := fun r => (sameX_guard _ _).p3
    by_cases h1 : a = TCON
    · subst h1
      unfold xV wrX
      dsimp only
      rw [upd_same, upd_ne _ _ (show P3 ≠ TCON by decide), protect_ne (by decide)]
      simp only [xint, ↓reduceIte, XDev.wrTcon, gp]
    · by_cases h2 : a = P3
      · subst h2
        unfold xV wrX
        dsimp only
        rw [upd_same, upd_ne _ _ (show TCON ≠ P3 by decide), protect_ne (by decide)]
        simp only [xint, if_neg h1, ↓reduceIte, XDev.latch, gp, hp rfl]
        by_cases hv : 0#8 = v
        · simp only [if_pos hv]; rw [← hv, guardX_tcon]
        · simp only [if_neg hv, BitVec.and_zero, edge_zero, upd_same, guardX_tcon]; rfl
      · unfold xV wrX
        dsimp only
        rw [upd_ne _ _ (Ne.symm h1), upd_ne _ _ (Ne.symm h2), protect_ne (by decide), protect_ne (by decide), if_neg h1, if_neg h2]
        simp only [xint, if_neg h1, if_neg h2, gp, guardX_tcon]

theorem writeAll_xV (l : List (Nat × Byte)) (s : St (XDev D)) (hl : ∀ p ∈ l, p.1 ≠ P3) : xV (writeAll (xint Q) l s).2 = l.foldl wrX (xV s) := by
  induction l generalizing s with
  | nil => rfl
  | cons p l ih =>
    show xV (writeAll (xint Q) l (sfrWrite (xint Q) p.1 p.2 s).2).2 = _
    rw [ih _ (fun q hq => hl q (List.mem_cons_of_mem _ hq)), sfrWrite_xV Q p s (fun e => absurd e (hl p List.mem_cons_self))]; rfl

theorem sfrRead_xV (a : Nat) (l : Bool) (s : St (XDev D)) : xV (sfrRead (xint Q) a l s).2 = xV s := by
  unfold sfrRead; split <;> rfl

theorem clearSfr_xV (t2 : Bool) (s : St (XDev D)) : xV (clearSfr (xint Q) t2 s).2 =
    ⟨false, false, s.hw.pins &&& 0xff#8 &&& 0x04#8 != 0#8, s.hw.pins &&& 0xff#8 &&& 0x08#8 != 0#8, s.hw.pins, 0xff#8, 0#8⟩ := by
  have kp : ∀ u : St (XDev D), u.sfr P3 = 0#8 → u.hw.pins = s.hw.pins → let w := xV (writeAll (xint Q) resetPorts u).2
      w.int0 = (s.hw.pins &&& 0xff#8 &&& 0x04#8 != 0#8) ∧ w.int1 = (s.hw.pins &&& 0xff#8 &&& 0x08#8 != 0#8) ∧ w.pins = s.hw.pins ∧ w.p3 = 0xff#8 := by
    intro u hu hpin w
    have h3 := writeAll_xV Q [(0x80, 0xff#8), (0x90, 0xff#8), (0xa0, 0xff#8)] u (by decide)
    have ew : w = xV (sfrWrite (xint Q) 0xb0 0xff#8 (writeAll (xint Q) [(0x80, 0xff#8), (0x90, 0xff#8), (0xa0, 0xff#8)] u).2).2 := rfl
    generalize (writeAll (xint Q) [(0x80, 0xff#8), (0x90, 0xff#8), (0xa0, 0xff#8)] u).2 = u3 at h3 ew
    have e3 : xV u3 = xV u := by rw [h3]; simp [wrX, TCON, P3]
    have p3 : u3.sfr P3 = 0#8 := (congrArg XV.p3 e3).trans hu
    have pn : (xV u3).pins = s.hw.pins := (congrArg XV.pins e3).trans hpin
    have pz : (xV u3).p3 = 0#8 := p3
    rw [ew, sfrWrite_xV Q (0xb0, 0xff#8) u3 (fun _ => p3)]
    simp only [wrX, show ¬ (0xb0 = TCON) by decide, show ¬ (P3 = TCON) by decide, show (0xb0 = P3) from rfl, if_true, if_false, pz, pn, show ¬ ((0#8 : Byte) = 0xff#8) by decide,
      and_self]
  have key : xV (writeAll (xint Q) resetRegs (sfrRead (xint Q) 0xb0 false (sfrRead (xint Q) 0x90 false
      (writeAll (xint Q) resetPorts (zeroSfr s).2).2).2).2).2 =
    ⟨false, false, s.hw.pins &&& 0xff#8 &&& 0x04#8 != 0#8, s.hw.pins &&& 0xff#8 &&& 0x08#8 != 0#8, s.hw.pins, 0xff#8, 0#8⟩ := by
    rw [writeAll_xV Q resetRegs _ (by decide), sfrRead_xV, sfrRead_xV]
    obtain ⟨k1, k2, k3, k4⟩ := kp (zeroSfr s).2 rfl rfl
    generalize xV (writeAll (xint Q) resetPorts (zeroSfr s).2).2 = w at *
    obtain ⟨a1, a2, a3, a4, a5, a6, a7⟩ := w
    dsimp only at k1 k2 k3 k4
    subst k1; subst k2; subst k3; subst k4
    simp [resetRegs, wrX, TCON, P3]
  unfold clearSfr
  simp only [bind_def]
  cases t2
  · exact key
  · show xV (writeAll (xint Q) resetRegs52 _).2 = _
    rw [writeAll_xV Q resetRegs52 _ (by decide), key]
    simp [resetRegs52, wrX, TCON, P3]

/-- C58: after reset, whatever happened before, the external interrupts are level
activated, not requested, and know the level of their pins. -/
theorem c58_xint (r : XDev D → XDev D) (hr : ∀ h, (r h).pins = h.pins) (t2 : Bool) (s : St (XDev D)) (x : Bool) :
    let s' := (reset (xint Q) r t2 s).2
    XCoherent s' ∧ edgeMode s' x = false ∧ request s' x = false ∧ xport s' = s.hw.pins := by
  intro s'
  have hv : xV s' = _ := clearSfr_xV Q t2 (resetUc r s).2
  have ep : s'.hw.pins = (r s.hw).pins := congrArg XV.pins hv
  have e3 : s'.sfr P3 = 0xff#8 := congrArg XV.p3 hv
  have ec : s'.sfr TCON &&& 0x0f#8 = 0#8 := congrArg XV.tcon hv
  have bit : ∀ v : Byte, v &&& 0x0f#8 = 0#8 → v &&& 0x01#8 = 0#8 ∧ v &&& 0x04#8 = 0#8 ∧ v.getLsbD 0 = false ∧ v.getLsbD 1 = false ∧ v.getLsbD 2 = false ∧ v.getLsbD 3 = false := by
    decide +kernel
  obtain ⟨m0, m2, c0, c1, c2, c3⟩ := bit _ ec
  refine ⟨?_, ?_, ?_, ?_⟩
  · rw [xcoherent_iff]
    refine ⟨?_, ?_, ?_, ?_⟩
    · rw [m0]; exact congrArg XV.it0 hv
    · rw [m2]; exact congrArg XV.it1 hv
    · rw [e3, ep]; exact congrArg XV.int0 hv
    · rw [e3, ep]; exact congrArg XV.int1 hv
  · cases x
    · exact c0
    · exact c2
  · cases x
    · exact c1
    · exact c3
  · have ones : ∀ v : Byte, v &&& 0xff#8 = v := by decide +kernel
    show s'.hw.pins &&& s'.sfr P3 = _
    rw [e3, ones, ep, hr]

end

/-! ### Nothing survives -/

/-- A machine whose only devices are the timers and the external interrupts. -/
def bare (size : Nat) (cmos : Bool) : Hw Unit where
  iramSize := size
  sfrRd := fun _ f a _ => f a
  sfrRdEff := fun h _ _ _ => h
  sfrWr := fun h f _ v => (v, h, f)
  bitWr := fun h f _ _ => (h, f)
  tick := fun h f => (h, f)
  dummyRd := fun _ => 0#8
  dummyWr := fun h => h
  romDummy := fun _ => 0#8
  sources := fun _ => [⟨0x02#8, 0x88, 0x20#8, 0x0b, true, true⟩, ⟨0x08#8, 0x88, 0x80#8, 0x1b, true, true⟩]
  stopSelfjump := false
  cmos := cmos

section
variable (size : Nat) (cm : Bool)

/-- The bare machine. -/
def bareX : Hw (XDev (Dev Unit)) := xint (timers (bare size cm))

def wrS (f : Nat → Byte) (p : Nat × Byte) : Nat → Byte :=
  if p.1 = ACC then upd (upd f PSW ((f PSW &&& ~~~(1#8)) ||| parityMask p.2)) ACC p.2 else upd f p.1 p.2
def wrB (b : Nat) (p : Nat × Byte) : Nat := if p.1 = PSW then ((p.2 &&& 0x18#8) >>> 3).toNat else b
def wrH (h : XDev (Dev Unit)) (p : Nat × Byte) : XDev (Dev Unit) :=
  if p.1 = TMOD then { h with rest := { h.rest with t0 := h.rest.t0.wrTmod cfg0 p.2, t1 := h.rest.t1.wrTmod cfg1 p.2 } }
  else if p.1 = TCON then { h with it0 := p.2 &&& 0x01#8 != 0#8, it1 := p.2 &&& 0x04#8 != 0#8, rest := { h.rest with t0 := h.rest.t0.wrTcon cfg0 p.2, t1 := h.rest.t1.wrTcon cfg1 p.2 } }
  else if p.1 = P3 then
    if p.2 = 0#8 then h
    else { h with
      int0 := h.pins &&& p.2 &&& 0x04#8 != 0#8, int1 := h.pins &&& p.2 &&& 0x08#8 != 0#8
      rest := { h.rest with t0 := h.rest.t0.port cfg0 0#8 (h.rest.pins &&& p.2), t1 := h.rest.t1.port cfg1 0#8 (h.rest.pins &&& p.2) } }
  else h

theorem halves (x : Byte) : (x &&& 0xf0#8) ||| (x &&& 0x0f#8) = x := by revert x; decide +kernel

theorem guard_self (f : Nat → Byte) : guard f f = f := by
  funext a; unfold guard
  split
  · rfl
  · split
    · rename_i h; exact halves _
    · rfl
theorem guardX_self (f : Nat → Byte) : guardX f f = f := by
  funext a; unfold guardX
  split
  · rfl
  · split
    · exact halves _
    · rfl
theorem protect_self (f : Nat → Byte) : protect f f = f := by funext a; unfold protect; split <;> rfl

theorem sfrWrite_bare (p : Nat × Byte) (s : St (XDev (Dev Unit))) (hp : p.1 = P3 → s.sfr P3 = 0#8) :
    (sfrWrite (bareX size cm) p.1 p.2 s).2 =
      { s with sfr := wrS s.sfr p, bank := wrB s.bank p, hw := wrH s.hw p, wasReti := s.wasReti || p.1 == IE } := by
  obtain ⟨a, v⟩ := p
  unfold sfrWrite wrS wrB
  dsimp only
  by_cases h1 : a = ACC
  · subst h1; simp [accWrite, wrH, ACC, PSW, TMOD, TCON, P3, IE]
  · rw [if_neg h1, if_neg h1]
    by_cases h2 : a = PSW
    · subst h2; simp [pswWrite, wrH, PSW, TMOD, TCON, P3, IE]
    · rw [if_neg h2, if_neg h2]
      cases hc : isCore a with
      | true =>
        have n : ∀ b, isCore b = false → ¬ a = b := by intro b hb h; rw [h, hb] at hc; cases hc
        have e : (a == IE) = false := by simpa using n IE (by decide)
        simp only [if_true, wrH, if_neg (n TMOD (by decide)), if_neg (n TCON (by decide)), if_neg (n P3 (by decide)), e, Bool.or_false]
      | false =>
        simp only [Bool.false_eq_true, if_false]
        by_cases k1 : a = TMOD
        · subst k1
          simp [bareX, xint, timers, bare, wrH, guard_self, guardX_self, protect_self, TMOD, TCON, P3, TL0, TL1, TH0, TH1]
        · by_cases k2 : a = TCON
          · subst k2
            simp [bareX, xint, timers, bare, wrH, guard_self, guardX_self, protect_self, TMOD, TCON, P3, TL0, TL1, TH0, TH1, XDev.wrTcon]
          · by_cases k3 : a = P3
            · subst k3
              have hz := hp rfl
              simp only [wrH, if_neg k1, if_neg k2, if_true]
              by_cases hv : v = 0#8
              · subst hv
                have k4 : ¬ (P3 = TL0 ∨ P3 = TL1 ∨ P3 = TH0 ∨ P3 = TH1) := by decide
                simp only [bareX, xint, timers, bare, if_neg k1, if_neg k2, if_neg k4, if_true, hz, guard_self, guardX_self, XDev.latch, protect_self]
              · have hv' : ¬ (0#8 = v) := fun e => hv e.symm
                have k4 : ¬ (P3 = TL0 ∨ P3 = TL1 ∨ P3 = TH0 ∨ P3 = TH1) := by decide
                have ut : upd s.sfr TCON (s.sfr TCON) = s.sfr := by funext a; unfold upd; split <;> simp_all
                simp only [bareX, xint, timers, bare, if_neg k1, if_neg k2, if_neg k4, if_true, hz, guard_self, guardX_self, XDev.latch, protect_self, if_neg hv, if_neg hv',
                  BitVec.and_zero, edge_zero, ut, XDev.port, Dev.port]
            · simp only [wrH, if_neg k1, if_neg k2, if_neg k3]
              by_cases k4 : a = TL0 ∨ a = TL1 ∨ a = TH0 ∨ a = TH1
              · simp only [bareX, xint, timers, bare, if_neg k1, if_neg k2, if_neg k3, if_pos k4, guard_self, guardX_self, protect_self]
              · simp only [bareX, xint, timers, bare, if_neg k1, if_neg k2, if_neg k3, if_neg k4, guard_self, guardX_self, protect_self]

def setAll (s : St (XDev (Dev Unit))) (l : List (Nat × Byte)) : St (XDev (Dev Unit)) :=
  { s with sfr := l.foldl wrS s.sfr, bank := l.foldl wrB s.bank, hw := l.foldl wrH s.hw, wasReti := s.wasReti || l.any (fun p => p.1 == IE) }

theorem writeAll_bare (l : List (Nat × Byte)) (s : St (XDev (Dev Unit))) (hl : ∀ p ∈ l, p.1 ≠ P3) :
    (writeAll (bareX size cm) l s).2 = setAll s l := by
  induction l generalizing s with
  | nil => simp [writeAll, pure_def, setAll]
  | cons p l ih =>
    show (writeAll (bareX size cm) l (sfrWrite (bareX size cm) p.1 p.2 s).2).2 = _
    rw [ih _ (fun q hq => hl q (List.mem_cons_of_mem _ hq)), sfrWrite_bare size cm p s (fun e => absurd e (hl p List.mem_cons_self))]
    simp [setAll, List.any_cons, Bool.or_assoc]

theorem ports_bare (s : St (XDev (Dev Unit))) (hz : s.sfr P3 = 0#8) :
    (writeAll (bareX size cm) resetPorts s).2 = setAll s resetPorts := by
  let l3 : List (Nat × Byte) := [(0x80, 0xff#8), (0x90, 0xff#8), (0xa0, 0xff#8)]
  have h3 : (writeAll (bareX size cm) l3 s).2 = setAll s l3 := writeAll_bare size cm l3 s (by decide)
  show (sfrWrite (bareX size cm) 0xb0 0xff#8 (writeAll (bareX size cm) l3 s).2).2 = _
  rw [h3, sfrWrite_bare size cm (0xb0, 0xff#8) _ (fun _ => by
    show l3.foldl wrS s.sfr P3 = _
    simp [l3, wrS, upd, P3, ACC]; exact hz)]
  simp [setAll, resetPorts, l3, IE]

theorem reads_bare (a : Nat) (s : St (XDev (Dev Unit))) : (sfrRead (bareX size cm) a false s).2 = s := by
  unfold sfrRead; split <;> rfl

/-- Reset of the bare machine, written out. -/
theorem clearSfr_bare (t2 : Bool) (s : St (XDev (Dev Unit))) :
    (clearSfr (bareX size cm) t2 s).2 =
      setAll (zeroSfr s).2 (resetPorts ++ resetRegs ++ if t2 then resetRegs52 else []) := by
  have sa : ∀ (u : St (XDev (Dev Unit))) (l k : List (Nat × Byte)), setAll (setAll u l) k = setAll u (l ++ k) := by
    intro u l k; simp [setAll, List.foldl_append, List.any_append, Bool.or_assoc]
  unfold clearSfr
  simp only [bind_def]
  rw [ports_bare size cm (zeroSfr s).2 rfl, reads_bare, reads_bare, writeAll_bare size cm resetRegs _ (by decide), sa]
  cases t2
  · simp [pure_def]
  · simp only [if_true]
    rw [writeAll_bare size cm resetRegs52 _ (by decide), sa]

/-- Everything outside the CPU and what is not touched by reset by design: memories, the
levels of the pins, counts of overflows, the cycles of the current instruction. -/
structure SameOutside (s u : St (XDev (Dev Unit))) : Prop where
  iram : s.iram = u.iram
  xram : s.xram = u.xram
  rom : s.rom = u.rom
  pins : s.hw.pins = u.hw.pins
  pins' : s.hw.rest.pins = u.hw.rest.pins
  ovf0 : s.hw.rest.t0.ovf = u.hw.rest.t0.ovf
  ovf1 : s.hw.rest.t1.ovf = u.hw.rest.t1.ovf
  cyc : s.cyc = u.cyc
  /-- The entry of the main program at the bottom of the levels. -/
  base : s.levels.dropWhile (fun l => decide (0 ≤ l.level)) = u.levels.dropWhile (fun l => decide (0 ≤ l.level))
  /-- There are no SFRs at other addresses. -/
  space : ∀ a, ¬ (0x80 ≤ a ∧ a ≤ 0xff) → s.sfr a = u.sfr a

/-- C58: reset forgets: two machines with the same memories and pins are in the same
state after reset, whatever they did before; so every later execution is the same. -/
theorem c58_forgets (t2 : Bool) (s u : St (XDev (Dev Unit))) (h : SameOutside s u) :
    (reset (bareX size cm) id t2 s).2 = (reset (bareX size cm) id t2 u).2 := by
  show (clearSfr (bareX size cm) t2 (resetUc id s).2).2 = (clearSfr (bareX size cm) t2 (resetUc id u).2).2
  rw [clearSfr_bare, clearSfr_bare]
  have es : (zeroSfr (resetUc id s).2).2.sfr = (zeroSfr (resetUc id u).2).2.sfr := by
    funext a
    show (if 0x80 ≤ a ∧ a ≤ 0xff then 0#8 else s.sfr a) = (if 0x80 ≤ a ∧ a ≤ 0xff then 0#8 else u.sfr a)
    split
    · rfl
    · exact h.space a (by assumption)
  have eb : ∀ (b : Nat) (t2 : Bool), (resetPorts ++ resetRegs ++ if t2 then resetRegs52 else []).foldl wrB b = 0 := by
    intro b t2; cases t2 <;> simp [resetPorts, resetRegs, resetRegs52, wrB, PSW]
  have eh : ∀ (g : XDev (Dev Unit)) (t2 : Bool), (resetPorts ++ resetRegs ++ if t2 then resetRegs52 else []).foldl wrH g =
      ⟨false, false, g.pins &&& 0xff#8 &&& 0x04#8 != 0#8, g.pins &&& 0xff#8 &&& 0x08#8 != 0#8, g.pins,
        ⟨offTmr cfg0 g.rest.pins g.rest.t0.ovf, offTmr cfg1 g.rest.pins g.rest.t1.ovf, g.rest.pins, ()⟩⟩ := by
    intro g t2
    cases t2 <;>
    simp [resetPorts, resetRegs, resetRegs52, wrH, TMOD, TCON, P3, Tmr.wrTmod, Tmr.wrTcon, Tmr.port, offTmr, cfg0, cfg1]
  unfold setAll
  rw [es, eb, eb, eh, eh]
  have e1 : (zeroSfr (resetUc id s).2).2.hw = s.hw := rfl
  have e2 : (zeroSfr (resetUc id u).2).2.hw = u.hw := rfl
  rw [e1, e2, h.pins, h.pins', h.ovf0, h.ovf1]
  have a1 := h.iram
  have a2 := h.xram
  have a3 := h.rom
  have a4 := h.cyc
  have a5 := h.base
  simp only [zeroSfr, resetUc, a1, a2, a3, a4, a5]

/-- C58: so the future after reset does not depend on the past. -/
theorem c58_future (t2 : Bool) (s u : St (XDev (Dev Unit))) (h : SameOutside s u) (l : List (XEv (Dev Unit))) :
    xevs (timers (bare size cm)) (reset (bareX size cm) id t2 s).2 l = xevs (timers (bare size cm)) (reset (bareX size cm) id t2 u).2 l := by
  rw [c58_forgets size cm t2 s u h]

end

/-! ### Concrete cases -/

namespace RDemo

/-- A machine in the middle of something: in an interrupt handler, Idle, timers counting
edges, INT0 transition activated, register bank 3. -/
def busy : St (XDev (Dev Unit)) where
  pc := 0x1234
  instPC := 0x1230
  iram := fun x => BitVec.ofNat 8 x
  sfr := fun x => if 0x80 ≤ x ∧ x ≤ 0xff then 0x5d#8 else 0#8
  xram := fun _ => 1#8
  rom := fun _ => 0#8
  bank := 3
  wasReti := true
  state := .idle
  levels := [⟨1, 0x0b, 0x100⟩, ⟨0, 3, 0x200⟩, ⟨-1, 0, 0⟩]
  cyc := 2
  total := 1000
  hw := ⟨true, true, false, false, 0xf7#8, ⟨⟨2, true, true, true, false, 9, 4⟩, ⟨1, false, true, true, false, 1, 2⟩, 0xf7#8, ()⟩⟩

/-- The same memories and pins, otherwise fresh. -/
def fresh : St (XDev (Dev Unit)) :=
  { busy with
    pc := 0, instPC := 0, sfr := fun _ => 0#8, bank := 0, wasReti := false, state := .go, levels := [⟨-1, 0, 0⟩], total := 0
    hw := ⟨false, false, true, true, 0xf7#8, ⟨⟨0, false, false, false, true, 0, 4⟩, ⟨0, false, false, false, true, 0, 2⟩, 0xf7#8, ()⟩⟩ }

theorem same : SameOutside busy fresh :=
  ⟨rfl, rfl, rfl, rfl, rfl, rfl, rfl, rfl, by decide, fun a h => by simp [busy, fresh, h]⟩

example : (reset (bareX 0x80 true) id false busy).2 = (reset (bareX 0x80 true) id false fresh).2 := c58_forgets _ _ _ _ _ same
example : ¬ XCoherent busy := fun h => by have := h.int0; revert this; decide
example : (reset (bareX 0x80 true) id true busy).2.hw.int1 = false := by decide +kernel

end RDemo
end Ucsim.S51
