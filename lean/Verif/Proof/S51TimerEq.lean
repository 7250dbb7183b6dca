import Verif.Proof.S51Timer
import Verif.Proof.S51Cost
import Verif.Proof.S51Keep

/- What the timers do depends on their registers only. -/
namespace Ucsim.S51
open Spec

/-- SFRs that agree as far as timers can see. -/
structure FEq (f g : Nat → Byte) : Prop where
  tl0 : f TL0 = g TL0
  tl1 : f TL1 = g TL1
  th0 : f TH0 = g TH0
  th1 : f TH1 = g TH1
  tmod : f TMOD = g TMOD
  p3 : f P3 = g P3
  tcon : f TCON &&& 0xf0#8 = g TCON &&& 0xf0#8

theorem FEq.refl (f : Nat → Byte) : FEq f f := ⟨rfl, rfl, rfl, rfl, rfl, rfl, rfl⟩
theorem FEq.symm {f g : Nat → Byte} (h : FEq f g) : FEq g f :=
  ⟨h.tl0.symm, h.tl1.symm, h.th0.symm, h.th1.symm, h.tmod.symm, h.p3.symm, h.tcon.symm⟩
theorem FEq.trans {f g k : Nat → Byte} (h : FEq f g) (h' : FEq g k) : FEq f k :=
  ⟨h.tl0.trans h'.tl0, h.tl1.trans h'.tl1, h.th0.trans h'.th0, h.th1.trans h'.th1, h.tmod.trans h'.tmod, h.p3.trans h'.p3,
    h.tcon.trans h'.tcon⟩

theorem FEq.upd {f g : Nat → Byte} (h : FEq f g) (a : Nat) (v : Byte) : FEq (upd f a v) (upd g a v) := by
  refine ⟨?_, ?_, ?_, ?_, ?_, ?_, ?_⟩ <;> simp only [Ucsim.S51.upd] <;> split <;>
    first | rfl | exact h.tl0 | exact h.tl1 | exact h.th0 | exact h.th1 | exact h.tmod | exact h.p3 | exact h.tcon

theorem FEq.or {f g : Nat → Byte} (h : FEq f g) (m : Byte) :
    FEq (Ucsim.S51.upd f TCON (f TCON ||| m)) (Ucsim.S51.upd g TCON (g TCON ||| m)) := by
  refine ⟨?_, ?_, ?_, ?_, ?_, ?_, ?_⟩
  · rw [upd_ne _ _ (by decide), upd_ne _ _ (by decide)]; exact h.tl0
  · rw [upd_ne _ _ (by decide), upd_ne _ _ (by decide)]; exact h.tl1
  · rw [upd_ne _ _ (by decide), upd_ne _ _ (by decide)]; exact h.th0
  · rw [upd_ne _ _ (by decide), upd_ne _ _ (by decide)]; exact h.th1
  · rw [upd_ne _ _ (by decide), upd_ne _ _ (by decide)]; exact h.tmod
  · rw [upd_ne _ _ (by decide), upd_ne _ _ (by decide)]; exact h.p3
  · rw [upd_same, upd_same, and_or, and_or, h.tcon]

def TEq (x y : TS) : Prop := x.1 = y.1 ∧ FEq x.2 y.2

structure CfgIn (c : TCfg) : Prop where
  tl : ∀ f g, FEq f g → f c.tl = g c.tl
  th : ∀ f g, FEq f g → f c.th = g c.th
theorem in_0 : CfgIn cfg0 := ⟨fun _ _ h => h.tl0, fun _ _ h => h.th0⟩
theorem in_1 : CfgIn cfg1 := ⟨fun _ _ h => h.tl1, fun _ _ h => h.th1⟩

section
variable {c : TCfg} (K : CfgIn c)
include K

theorem ovf_eq {x y : TS} (h : TEq x y) : TEq (overflowed c x) (overflowed c y) :=
  ⟨by show ({ x.1 with ovf := x.1.ovf + 1 } : Tmr) = { y.1 with ovf := y.1.ovf + 1 }; rw [h.1], h.2.or _⟩

theorem incTl {f g : Nat → Byte} (h : FEq f g) : FEq (upd f c.tl (f c.tl + 1#8)) (upd g c.tl (g c.tl + 1#8)) := by
  rw [K.tl _ _ h]; exact h.upd _ _
theorem incTh {f g : Nat → Byte} (h : FEq f g) : FEq (upd f c.th (f c.th + 1#8)) (upd g c.th (g c.th + 1#8)) := by
  rw [K.th _ _ h]; exact h.upd _ _

theorem count0_eq {x y : TS} (h : TEq x y) : TEq (count0 c x) (count0 c y) := by
  obtain ⟨h1, h2⟩ := h
  have k := incTl K h2
  have k2 := incTh K (k.upd c.tl 0#8)
  unfold count0
  simp only []
  rw [K.tl _ _ k, K.th _ _ k2]
  repeat' split
  · exact ovf_eq K ⟨h1, k2⟩
  · exact ⟨h1, k2⟩
  · exact ⟨h1, k⟩

theorem count1_eq {x y : TS} (h : TEq x y) : TEq (count1 c x) (count1 c y) := by
  obtain ⟨h1, h2⟩ := h
  have k := incTl K h2
  have k2 := incTh K k
  unfold count1
  simp only []
  rw [K.tl _ _ k, K.th _ _ k2]
  repeat' split
  · exact ovf_eq K ⟨h1, k2⟩
  · exact ⟨h1, k2⟩
  · exact ⟨h1, k⟩

theorem count2_eq {x y : TS} (h : TEq x y) : TEq (count2 c x) (count2 c y) := by
  obtain ⟨h1, h2⟩ := h
  have k := incTl K h2
  unfold count2
  simp only []
  rw [K.tl _ _ k, K.th _ _ k]
  repeat' split
  · exact ovf_eq K ⟨h1, k.upd _ _⟩
  · exact ⟨h1, k⟩

theorem count3_eq {x y : TS} (h : TEq x y) : TEq (count3 c x) (count3 c y) := by
  obtain ⟨h1, h2⟩ := h
  have k := incTl K h2
  unfold count3
  simp only []
  rw [K.tl _ _ k]
  repeat' split
  · exact ovf_eq K ⟨h1, k⟩
  · exact ⟨h1, k⟩

theorem countTh_eq {x y : TS} (h : TEq x y) : TEq (countTh c x) (countTh c y) := by
  obtain ⟨h1, h2⟩ := h
  have k := incTh K h2
  unfold countTh
  simp only []
  rw [K.th _ _ k]
  repeat' split
  · exact ⟨h1, k.or _⟩
  · exact ⟨h1, k⟩
end

theorem loop_eq {k : TS → TS} (hk : ∀ x y, TEq x y → TEq (k x) (k y)) (n : Nat) {x y : TS} (h : TEq x y) :
    TEq (loop k n x) (loop k n y) := by
  induction n generalizing x y with
  | zero => exact h
  | succ n ih => exact ih (hk _ _ h)

theorem counting_eq {k : TS → TS} (hk : ∀ x y, TEq x y → TEq (k x) (k y)) (n : Nat) {x y : TS} (h : TEq x y) :
    TEq (counting k n x) (counting k n y) := by
  unfold counting
  rw [h.1]
  repeat' split
  · exact h
  · exact h
  · exact loop_eq hk _ ⟨rfl, h.2⟩
  · exact loop_eq hk _ h

theorem and40 {f g : Nat → Byte} (h : FEq f g) : f TCON &&& 0x40#8 = g TCON &&& 0x40#8 := by
  have := congrArg (· &&& 0x40#8) h.tcon
  simpa only [BitVec.and_assoc, show 0xf0#8 &&& 0x40#8 = 0x40#8 by decide] using this

theorem tick_eq {c : TCfg} (K : CfgIn c) (n : Nat) {x y : TS} (h : TEq x y) : TEq (Tmr.tick c n x) (Tmr.tick c n y) := by
  unfold Tmr.tick
  rw [h.1]
  have k3 := counting_eq (fun _ _ h => count3_eq K h) n h
  split
  · exact counting_eq (fun _ _ h => count0_eq K h) n h
  · split
    · exact counting_eq (fun _ _ h => count1_eq K h) n h
    · split
      · exact counting_eq (fun _ _ h => count2_eq K h) n h
      · split
        · simp only []
          rw [and40 k3.2]
          split
          · exact loop_eq (fun _ _ h => countTh_eq K h) n k3
          · exact k3
        · exact h

variable {D E : Type}

/-- Machines whose timers cannot be told from each other. -/
structure VEq (s : St (Dev D)) (u : St (Dev E)) : Prop where
  t0 : s.hw.t0 = u.hw.t0
  t1 : s.hw.t1 = u.hw.t1
  pins : s.hw.pins = u.hw.pins
  f : FEq s.sfr u.sfr

theorem feq_guard (f r : Nat → Byte) : FEq (protect f (guard f r)) f := by
  refine ⟨?_, ?_, ?_, ?_, ?_, ?_, ?_⟩
  all_goals try (simp [protect, guard, isCore, TL0, TL1, TH0, TH1, TMOD, P3]; done)
  have e : protect f (guard f r) TCON = (f TCON &&& 0xf0#8) ||| (r TCON &&& 0x0f#8) := by
    simp [protect, guard, isCore, TCON, TMOD, TL0, TL1, TH0, TH1, P3]
  rw [e, and_or, BitVec.and_assoc, BitVec.and_assoc, BitVec.and_self, show 0x0f#8 &&& 0xf0#8 = 0#8 by decide, BitVec.and_zero,
    BitVec.or_zero]

theorem feq_protect (f r : Nat → Byte) : FEq (protect f r) r := by
  refine ⟨?_, ?_, ?_, ?_, ?_, ?_, ?_⟩ <;> simp [protect, isCore, TL0, TL1, TH0, TH1, TMOD, P3, TCON]

theorem feq_guard' (f r : Nat → Byte) : FEq (guard f r) f := (feq_protect f _).symm.trans (feq_guard f r)

theorem cycle_veq (Q : Hw D) (R : Hw E) {s : St (Dev D)} {u : St (Dev E)} (h : VEq s u) : VEq (cycles Q 1 s) (cycles R 1 u) := by
  have a0 : TEq (Tmr.tick cfg0 1 (s.hw.t0, s.sfr)) (Tmr.tick cfg0 1 (u.hw.t0, u.sfr)) := tick_eq in_0 1 ⟨h.t0, h.f⟩
  have a1 : TEq (Tmr.tick cfg1 1 (s.hw.t1, (Tmr.tick cfg0 1 (s.hw.t0, s.sfr)).2))
      (Tmr.tick cfg1 1 (u.hw.t1, (Tmr.tick cfg0 1 (u.hw.t0, u.sfr)).2)) := tick_eq in_1 1 ⟨h.t1, a0.2⟩
  refine ⟨a0.1, a1.1, h.pins, ?_⟩
  exact ((feq_protect _ _).trans (feq_guard' _ _)).trans (a1.2.trans ((feq_guard' _ _).symm.trans (feq_protect _ _).symm))

theorem cycles_veq (Q : Hw D) (R : Hw E) (n : Nat) {s : St (Dev D)} {u : St (Dev E)} (h : VEq s u) : VEq (cycles Q n s) (cycles R n u) := by
  induction n generalizing s u with
  | zero => exact h
  | succ n ih => exact ih (cycle_veq Q R h)

theorem cycles_plus (Q : Hw D) (a b : Nat) (s : St (Dev D)) : cycles Q (a + b) s = cycles Q b (cycles Q a s) := by
  induction a generalizing s with
  | zero => rw [Nat.zero_add]; rfl
  | succ a ih => rw [show a + 1 + b = (a + b) + 1 by omega]; exact ih _

theorem VEq.trans {F : Type} {s : St (Dev D)} {u : St (Dev E)} {w : St (Dev F)} (h : VEq s u) (h' : VEq u w) : VEq s w :=
  ⟨h.t0.trans h'.t0, h.t1.trans h'.t1, h.pins.trans h'.pins, h.f.trans h'.f⟩

theorem hiBit {x y : Byte} (h : x &&& 0xf0#8 = y &&& 0xf0#8) (i : Nat) (hi : (0xf0#8).getLsbD i = true) : x.getLsbD i = y.getLsbD i := by
  have g := congrArg (fun z : Byte => z.getLsbD i) h
  simpa only [BitVec.getLsbD_and, hi, Bool.and_true] using g

theorem VEq.same {s : St (Dev D)} {u : St (Dev E)} (h : VEq s u) : SameTimers s u := by
  refine ⟨fun x => ⟨?_, ?_⟩, fun x => ?_, fun x => ?_, fun x => ?_⟩
  · unfold half; rw [show (0x89:Nat) = TMOD from rfl, h.f.tmod]
  · cases x
    · exact hiBit h.f.tcon 4 (by decide)
    · exact hiBit h.f.tcon 6 (by decide)
  · cases x
    · exact ⟨congrArg BitVec.toNat h.f.tl0, congrArg BitVec.toNat h.f.th0⟩
    · exact ⟨congrArg BitVec.toNat h.f.tl1, congrArg BitVec.toNat h.f.th1⟩
  · cases x
    · exact hiBit h.f.tcon 5 (by decide)
    · exact hiBit h.f.tcon 7 (by decide)
  · cases x
    · exact congrArg Tmr.ovf h.t0
    · exact congrArg Tmr.ovf h.t1

/-! ### Programs -/

theorem tickHw_total {H : Type} (P : Hw H) (n : Nat) (s : St H) : (tickHw P n s).2.total = s.total := by
  induction n generalizing s with
  | zero => rfl
  | succ n ih => exact ih _

theorem exec_state {H : Type} (P : Hw H) (o : Op) (c : Byte) (s : St H) : (exec P o c s).2.state = s.state := by
  by_cases h : o = .reti
  · subst h
    have e : (retBody P s).2.state = s.state := congrArg (fun x => x.2.1) (retBody_kp P s)
    have p : ∀ u : St H, (popLevel u).2.state = u.state := by
      intro u; unfold popLevel; split
      · split <;> rfl
      · rfl
    show (popLevel (setReti (retBody P s).2).2).2.state = _
    rw [p]; exact e
  · exact congrArg (fun x => x.2.1) (exec_kp P o c h s)

theorem execInst_state {H : Type} (P : Hw H) (s : St H) : (execInst P s).2.state = s.state := exec_state P _ _ _

/-- With no interrupt accepted and not idle, only the flag of RETI and the power state
may change. -/
theorem doInst_go {H : Type} (P : Hw H) (s : St H) (hn : (doInst P s).1 ≠ .interrupt) (hg : (runPart P s).2.state = .go) :
    ∃ w st, (doInst P s).2 = { (runPart P s).2 with wasReti := w, state := st } := by
  revert hn
  simp only [doInst]
  split
  · intro _; exact ⟨_, _, rfl⟩
  · have hd : (doInterrupt P (runPart P s).2).1 ≠ .interrupt → ∃ w st, (doInterrupt P (runPart P s).2).2 =
        { (runPart P s).2 with wasReti := w, state := st } := by
      unfold doInterrupt
      split
      · intro _; exact ⟨_, _, rfl⟩
      · split
        · intro _; exact ⟨_, _, rfl⟩
        · split
          · intro _; exact ⟨_, _, rfl⟩
          · unfold takeIt
            rw [if_neg (by rw [hg]; decide)]
            intro h; exact absurd rfl h
    split
    · rename_i hgo
      intro _
      obtain ⟨w, st, e⟩ := hd (by rw [hgo]; decide)
      rw [e]
      unfold idlePd
      split
      · exact ⟨_, _, rfl⟩
      · exact ⟨_, _, rfl⟩
    · intro hn
      exact hd hn

/-- One step that leaves the timers alone. -/
theorem step_leaves (Q : Hw D) (s : St (Dev D)) (h : LeavesTimers Q s) :
    ∃ k, (doInst (timers Q) s).2.total = s.total + k ∧ VEq (doInst (timers Q) s).2 (cycles Q k s) := by
  let e := (execInst (timers Q) { s with wasReti := false, cyc := 0 }).2
  have he : VEq e s := ⟨h.t0, h.t1, h.pins, ⟨h.regs _ (by decide), h.regs _ (by decide), h.regs _ (by decide), h.regs _ (by decide),
    h.regs _ (by decide), h.regs _ (by decide), congrArg (· &&& 0xf0#8) (h.regs TCON (by decide))⟩⟩
  have hc := execInst_cyc (timers Q) { s with wasReti := false, cyc := 0 }
  have hr : (runPart (timers Q) s).2 = cycles Q e.cyc e := by
    unfold runPart; rw [if_pos h.go]; rfl
  have hst : (runPart (timers Q) s).2.state = .go := by
    have a : (cycles Q e.cyc e).state = e.state := congrArg (fun x => x.2.1) (tickHw_kp (timers Q) e.cyc e)
    have b : e.state = s.state := by
      show (execInst (timers Q) { s with wasReti := false, cyc := 0 }).2.state = _
      have := execInst_state (timers Q) ({ s with wasReti := false, cyc := 0 } : St (Dev D))
      exact this
    rw [hr, a, b, h.go]
  obtain ⟨w, st, hd⟩ := doInst_go (timers Q) s h.noInt hst
  rw [hd]
  refine ⟨e.cyc, ?_, ?_⟩
  · show (runPart (timers Q) s).2.total = _
    rw [hr]
    have a : (cycles Q e.cyc e).total = e.total := tickHw_total _ _ _
    rw [a]
    have c1 : e.cyc = 0 + 1 + _ := hc.1
    have c2 : e.total = s.total + 1 + _ := hc.2
    omega
  · have := cycles_veq Q Q e.cyc he
    rw [← hr] at this
    exact ⟨this.t0, this.t1, this.pins, this.f⟩

/-- A program that leaves the timers alone. -/
theorem steps_leave (Q : Hw D) (s : St (Dev D)) (n : Nat) (h : ∀ k, k < n → LeavesTimers Q (steps (timers Q) k s)) :
    ∃ k, (steps (timers Q) n s).total = s.total + k ∧ VEq (steps (timers Q) n s) (cycles Q k s) := by
  induction n with
  | zero => exact ⟨0, rfl, ⟨rfl, rfl, rfl, FEq.refl _⟩⟩
  | succ n ih =>
    obtain ⟨k, h1, h2⟩ := ih (fun j hj => h j (by omega))
    obtain ⟨j, h3, h4⟩ := step_leaves Q _ (h n (by omega))
    refine ⟨k + j, ?_, ?_⟩
    · show (doInst (timers Q) (steps (timers Q) n s)).2.total = _
      rw [h3, h1]; omega
    · rw [cycles_plus]
      exact h4.trans (cycles_veq Q Q j h2)

end Ucsim.S51
