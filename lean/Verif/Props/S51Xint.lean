import Verif.Proof.S51Xint
import Verif.Props.S51Int

/-
C57: external interrupts of the 8051, with arbitrary other devices `Q`.  Vocabulary:
Spec/S51Xint.
-/
namespace Ucsim.S51
open Spec

variable {D : Type} (Q : Hw D)

theorem b0 : ∀ v : Byte, (v &&& 0x01#8 != 0#8) = v.getLsbD 0 := by decide +kernel
theorem b2 : ∀ v : Byte, (v &&& 0x04#8 != 0#8) = v.getLsbD 2 := by decide +kernel
theorem b3 : ∀ v : Byte, (v &&& 0x08#8 != 0#8) = v.getLsbD 3 := by decide +kernel

theorem xcoherent_iff (s : St (XDev D)) : XCoherent s ↔ XI s.hw s.sfr := by
  constructor
  · intro h
    exact ⟨h.it0.trans (b0 _).symm, h.it1.trans (b2 _).symm,
      by rw [b2, h.int0]; simp [pinLow, xport, P3], by rw [b3, h.int1]; simp [pinLow, xport, P3]⟩
  · intro h
    exact ⟨h.it0.trans (b0 _), h.it1.trans (b2 _),
      by rw [h.int0, b2]; simp [pinLow, xport, P3], by rw [h.int1, b3]; simp [pinLow, xport, P3]⟩

theorem xi_pins (h : XDev D) (f : Nat → Byte) (v : Byte) (hc : XI h f) : XI (h.setPins f v).1 (h.setPins f v).2 := by
  unfold XDev.setPins
  split
  · exact hc
  · obtain ⟨e1, e4⟩ := itMask (edge_it h (h.pins &&& f P3) (v &&& f P3) (f TCON))
    refine ⟨?_, ?_, ?_, ?_⟩ <;> dsimp only
    · rw [upd_same, e1]; exact hc.it0
    · rw [upd_same, e4]; exact hc.it1
    · rw [upd_ne _ _ (by decide)]; rfl
    · rw [upd_ne _ _ (by decide)]; rfl

/-- C57: after every history of instructions, interrupts, writes from outside and pin
changes the interrupt logic works in the mode TCON tells and knows the level of its pins. -/
theorem c57_coherent (s : St (XDev D)) (h : XCoherent s) (l : List (XEv D)) : XCoherent (xevs Q s l) := by
  rw [xcoherent_iff] at *
  unfold xevs
  induction l generalizing s with
  | nil => exact h
  | cons e l ih =>
    refine ih _ ?_
    cases e with
    | act a => exact act_hw (xInv Q) a s h
    | pins v o =>
      exact (xi_pins s.hw s.sfr v h).same (sameX_protect (sameX_guard _ _)) _

/-! ### Request flags -/

/-- The bits of TCON after an event at port 3. -/
theorem edge_bit (h : XDev D) (o n t : Byte) :
    (h.edge o n t).getLsbD 1 = (t.getLsbD 1 || (h.it0 && o.getLsbD 2 && !n.getLsbD 2)) ∧
    (h.edge o n t).getLsbD 3 = (t.getLsbD 3 || (h.it1 && o.getLsbD 3 && !n.getLsbD 3)) := by
  have k2 : ∀ v : Byte, (v &&& 0x04#8 = 0#8) ↔ v.getLsbD 2 = false := by decide +kernel
  have k3 : ∀ v : Byte, (v &&& 0x08#8 = 0#8) ↔ v.getLsbD 3 = false := by decide +kernel
  unfold XDev.edge
  dsimp only
  simp only [ne_eq, k2, k3, Bool.not_eq_false]
  have q : ∀ (a : Byte) (c d : Prop) [Decidable c] [Decidable d],
      ((if d then (if c then a ||| 0x02#8 else a) ||| 0x08#8 else (if c then a ||| 0x02#8 else a)).getLsbD 1 = (a.getLsbD 1 || decide c)) ∧
      ((if d then (if c then a ||| 0x02#8 else a) ||| 0x08#8 else (if c then a ||| 0x02#8 else a)).getLsbD 3 = (a.getLsbD 3 || decide d)) := by
    intro a c d _ _
    by_cases hc : c <;> by_cases hd : d <;> simp [hc, hd, BitVec.getLsbD_or]
  obtain ⟨q1, q2⟩ := q t (h.it0 = true ∧ n.getLsbD 2 = false ∧ o.getLsbD 2 = true) (h.it1 = true ∧ n.getLsbD 3 = false ∧ o.getLsbD 3 = true)
  refine ⟨q1.trans ?_, q2.trans ?_⟩
  · cases h.it0 <;> cases n.getLsbD 2 <;> cases o.getLsbD 2 <;> simp
  · cases h.it1 <;> cases n.getLsbD 3 <;> cases o.getLsbD 3 <;> simp

theorem level_bit (h : XDev D) (t : Byte) :
    (h.level t).getLsbD 1 = (t.getLsbD 1 || (!h.it0 && !h.int0)) ∧ (h.level t).getLsbD 3 = (t.getLsbD 3 || (!h.it1 && !h.int1)) := by
  unfold XDev.level
  dsimp only
  cases h.it0 <;> cases h.it1 <;> cases h.int0 <;> cases h.int1 <;> simp [BitVec.getLsbD_or]

theorem lowHalf (x y : Byte) (h : x &&& 0x0f#8 = y &&& 0x0f#8) (i : Nat) (hi : i < 4) : x.getLsbD i = y.getLsbD i := by
  have k := congrArg (fun z : Byte => z.getLsbD i) h
  simp only [BitVec.getLsbD_and] at k
  have : (0x0f#8 : Byte).getLsbD i = true := by
    match i, hi with
    | 0, _ => decide
    | 1, _ => decide
    | 2, _ => decide
    | 3, _ => decide
  simpa [this] using k

theorem guardX_tcon (f r : Nat → Byte) : guardX f r TCON &&& 0x0f#8 = f TCON &&& 0x0f#8 := by
  have e : guardX f r TCON = (r TCON &&& 0xf0#8) ||| (f TCON &&& 0x0f#8) := by simp [guardX, TCON, P3]
  rw [e, and_or, BitVec.and_assoc, BitVec.and_assoc, show 0xf0#8 &&& 0x0f#8 = 0#8 by decide, BitVec.and_zero, BitVec.zero_or,
    BitVec.and_self]

theorem guardX_bit (f r : Nat → Byte) (i : Nat) (hi : i < 4) : (guardX f r TCON).getLsbD i = (f TCON).getLsbD i :=
  lowHalf _ _ (guardX_tcon f r) i hi

theorem setPins_p3 (h : XDev D) (f : Nat → Byte) (v : Byte) : (h.setPins f v).2 P3 = f P3 := by
  unfold XDev.setPins; split
  · rfl
  · dsimp only; exact upd_ne _ _ (by decide)
theorem setPins_tcon (h : XDev D) (f : Nat → Byte) (v : Byte) (hv : ¬ h.pins = v) :
    (h.setPins f v).2 TCON = h.edge (h.pins &&& f P3) (v &&& f P3) (f TCON) := by
  unfold XDev.setPins; rw [if_neg hv]; dsimp only; exact upd_same _ _ _

theorem xev_sfr (s : St (XDev D)) (v : Byte) (o : D → (Nat → Byte) → D × (Nat → Byte)) :
    (xev Q s (.pins v o)).sfr P3 = s.sfr P3 ∧
    ∀ i, i < 4 → ((xev Q s (.pins v o)).sfr TCON).getLsbD i = ((s.hw.setPins s.sfr v).2 TCON).getLsbD i := by
  let r := s.hw.setPins s.sfr v
  let q := o r.1.rest r.2
  have e : (xev Q s (.pins v o)).sfr = protect r.2 (guardX r.2 q.2) := rfl
  rw [e]
  refine ⟨?_, fun i hi => ?_⟩
  · rw [protect_ne (by decide), (sameX_guard _ _).p3]; exact setPins_p3 _ _ _
  · rw [protect_ne (by decide), guardX_bit _ _ _ hi]

/-- C57: a change of the pins requests an interrupt exactly if it is transition activated
and the level of its pin falls. -/
theorem c57_pins (s : St (XDev D)) (h : XCoherent s) (v : Byte) (o : D → (Nat → Byte) → D × (Nat → Byte)) (x : Bool) :
    let s' := xev Q s (.pins v o)
    request s' x = (request s x || (edgeMode s x && !pinLow s x && pinLow s' x)) ∧ edgeMode s' x = edgeMode s x ∧
    xport s' = v &&& s.sfr 0xb0 := by
  intro s'
  have ep : s'.sfr P3 = s.sfr P3 := (xev_sfr Q s v o).1
  have epin : s'.hw.pins = v := by
    show (s.hw.setPins s.sfr v).1.pins = v
    unfold XDev.setPins; split
    · assumption
    · rfl
  have ex : xport s' = v &&& s.sfr 0xb0 := by unfold xport; rw [epin]; exact congrArg _ ep
  have bt : ∀ i, i < 4 → (s'.sfr TCON).getLsbD i = ((s.hw.setPins s.sfr v).2 TCON).getLsbD i := (xev_sfr Q s v o).2
  have em : edgeMode s' x = edgeMode s x := by
    unfold edgeMode
    have key : ∀ i, (i = 0 ∨ i = 2) → ((s.hw.setPins s.sfr v).2 TCON).getLsbD i = (s.sfr TCON).getLsbD i := by
      intro i hi
      have e5 : (s.hw.setPins s.sfr v).2 TCON &&& 0x05#8 = s.sfr TCON &&& 0x05#8 := by
        by_cases hv : s.hw.pins = v
        · unfold XDev.setPins; rw [if_pos hv]
        · rw [setPins_tcon _ _ _ hv, edge_it]
      have k := congrArg (fun z : Byte => z.getLsbD i) e5
      simp only [BitVec.getLsbD_and] at k
      rcases hi with rfl | rfl <;> simpa using k
    cases x
    · exact (bt 0 (by decide)).trans (key 0 (Or.inl rfl))
    · exact (bt 2 (by decide)).trans (key 2 (Or.inr rfl))
  refine ⟨?_, em, ex⟩
  by_cases hv : s.hw.pins = v
  · have e2 : (s.hw.setPins s.sfr v).2 = s.sfr := by unfold XDev.setPins; rw [if_pos hv]
    have el : pinLow s' x = pinLow s x := by
      unfold pinLow; rw [ex, ← hv]; rfl
    rw [el]
    have : request s' x = request s x := by
      unfold request
      cases x
      · exact (bt 1 (by decide)).trans (by rw [e2]; rfl)
      · exact (bt 3 (by decide)).trans (by rw [e2]; rfl)
    rw [this]; cases pinLow s x <;> simp
  · have e2 : (s.hw.setPins s.sfr v).2 TCON = s.hw.edge (s.hw.pins &&& s.sfr P3) (v &&& s.sfr P3) (s.sfr TCON) := setPins_tcon _ _ _ hv
    obtain ⟨q1, q3⟩ := edge_bit s.hw (s.hw.pins &&& s.sfr P3) (v &&& s.sfr P3) (s.sfr TCON)
    unfold pinLow
    rw [ex]
    cases x
    · refine (bt 1 (by decide)).trans ?_
      rw [e2, q1, h.it0]
      simp [request, xport, TCON, P3]
    · refine (bt 3 (by decide)).trans ?_
      rw [e2, q3, h.it1]
      simp [request, xport, TCON, P3]

/-- C57: so does a change of the output latch (open drain: the program pulls the pin low). -/
theorem c57_latch (s : St (XDev D)) (h : XCoherent s) (v : Byte) (x : Bool) :
    let s' := xev Q s (.act (.sfr 0xb0 v))
    request s' x = (request s x || (edgeMode s x && !pinLow s x && pinLow s' x)) ∧ s'.sfr 0xb0 = v ∧ s'.hw.pins = s.hw.pins := by
  intro s'
  let g := guardX s.sfr (Q.sfrWr s.hw.rest s.sfr P3 v).2.2
  let hh : XDev D := { s.hw with rest := (Q.sfrWr s.hw.rest s.sfr P3 v).2.1 }
  have e : s' = { s with sfr := upd (protect s.sfr (hh.latch g v).2) P3 v, hw := (hh.latch g v).1, wasReti := s.wasReti || P3 == IE } := rfl
  have gp : g P3 = s.sfr P3 := (sameX_guard _ _).p3
  have e3 : s'.sfr P3 = v := by rw [e]; dsimp only; exact upd_same _ _ _
  have ep : s'.hw.pins = s.hw.pins := by
    rw [e]; show (hh.latch g v).1.pins = _
    unfold XDev.latch; split <;> rfl
  have et : s'.sfr TCON = (hh.latch g v).2 TCON := by
    rw [e]; dsimp only
    rw [upd_ne _ _ (by decide), protect_ne (by decide)]
  refine ⟨?_, e3, ep⟩
  have ex : xport s' = s.hw.pins &&& v := by unfold xport; rw [ep]; exact congrArg _ e3
  by_cases hv : g P3 = v
  · have el : pinLow s' x = pinLow s x := by
      unfold pinLow; rw [ex, ← hv, gp]; rfl
    have et' : s'.sfr TCON = g TCON := by rw [et]; unfold XDev.latch; rw [if_pos hv]
    have : request s' x = request s x := by
      unfold request
      cases x
      · exact (congrArg (fun z : Byte => z.getLsbD 1) et').trans (guardX_bit _ _ 1 (by decide))
      · exact (congrArg (fun z : Byte => z.getLsbD 3) et').trans (guardX_bit _ _ 3 (by decide))
    rw [el, this]; cases pinLow s x <;> simp
  · have et' : s'.sfr TCON = hh.edge (s.hw.pins &&& s.sfr P3) (s.hw.pins &&& v) (g TCON) := by
      rw [et]; unfold XDev.latch; rw [if_neg hv]
      dsimp only
      rw [upd_same, gp]
    obtain ⟨q1, q3⟩ := edge_bit hh (s.hw.pins &&& s.sfr P3) (s.hw.pins &&& v) (g TCON)
    unfold pinLow
    rw [ex]
    cases x
    · refine (congrArg (fun z : Byte => z.getLsbD 1) et').trans ?_
      rw [q1, guardX_bit _ _ 1 (by decide), show hh.it0 = edgeMode s false from h.it0]
      simp [request, xport, TCON, P3]
    · refine (congrArg (fun z : Byte => z.getLsbD 3) et').trans ?_
      rw [q3, guardX_bit _ _ 3 (by decide), show hh.it1 = edgeMode s true from h.it1]
      simp [request, xport, TCON, P3]

theorem xcycle_one (s : St (XDev D)) (h : XCoherent s) (x : Bool) :
    let s' := xcycles Q 1 s
    request s' x = (request s x || (!edgeMode s x && pinLow s x)) ∧ edgeMode s' x = edgeMode s x ∧ xport s' = xport s ∧ XCoherent s' := by
  intro s'
  let g := guardX s.sfr (Q.tick s.hw.rest s.sfr).2
  have e : s' = { s with hw := { s.hw with rest := (Q.tick s.hw.rest s.sfr).1 }, sfr := protect s.sfr (upd g TCON (s.hw.level (g TCON))) } := rfl
  have et : s'.sfr TCON = s.hw.level (g TCON) := by
    rw [e]; dsimp only
    rw [protect_ne (by decide), upd_same]
  have e3 : s'.sfr P3 = s.sfr P3 := by
    rw [e]; dsimp only
    rw [protect_ne (by decide), upd_ne _ _ (by decide)]
    exact (sameX_guard _ _).p3
  obtain ⟨q1, q3⟩ := level_bit s.hw (g TCON)
  have hc : XCoherent s' := by
    rw [xcoherent_iff]; exact tickHw_hw (xInv Q) 1 s ((xcoherent_iff s).mp h)
  refine ⟨?_, ?_, ?_, hc⟩
  · cases x
    · refine (congrArg (fun z : Byte => z.getLsbD 1) et).trans ?_
      rw [q1, guardX_bit _ _ 1 (by decide), h.it0, h.int0, Bool.not_not]; rfl
    · refine (congrArg (fun z : Byte => z.getLsbD 3) et).trans ?_
      rw [q3, guardX_bit _ _ 3 (by decide), h.it1, h.int1, Bool.not_not]; rfl
  · have e5 := level_it s.hw (g TCON)
    rw [← et] at e5
    have e5 : s'.sfr TCON &&& 0x05#8 = s.sfr TCON &&& 0x05#8 := e5.trans (sameX_guard _ _).tcon
    have k := fun i => congrArg (fun z : Byte => z.getLsbD i) e5
    simp only [BitVec.getLsbD_and] at k
    unfold edgeMode
    cases x
    · simpa [TCON] using k 0
    · simpa [TCON] using k 2
  · show s.hw.pins &&& s'.sfr P3 = _
    rw [e3]; rfl

/-- C57: machine cycles request an interrupt exactly if it is level activated and its pin
is low. -/
theorem c57_cycles_partial (s : St (XDev D)) (h : XCoherent s) (n : Nat) (x : Bool) :
    let s' := xcycles Q n s
    request s' x = (request s x || (decide (0 < n) && !edgeMode s x && pinLow s x)) ∧ edgeMode s' x = edgeMode s x ∧
    xport s' = xport s := by
  induction n generalizing s with
  | zero => exact ⟨by show request s x = _; simp, rfl, rfl⟩
  | succ n ih =>
    obtain ⟨a1, a2, a3, a4⟩ := xcycle_one Q s h x
    obtain ⟨i1, i2, i3⟩ := ih (xcycles Q 1 s) a4
    have pl : pinLow (xcycles Q 1 s) x = pinLow s x := by unfold pinLow; rw [a3]
    refine ⟨?_, i2.trans a2, i3.trans a3⟩
    show request (xcycles Q n (xcycles Q 1 s)) x = _
    rw [i1, a1, a2, pl]
    cases request s x <;> cases edgeMode s x <;> cases pinLow s x <;> simp

/-- C57: transition activated: a sequence of pin changes makes a request exactly if the
level falls somewhere in it. -/
theorem c57_edges (s : St (XDev D)) (h : XCoherent s) (x : Bool) (he : edgeMode s x = true)
    (l : List (Byte × (D → (Nat → Byte) → D × (Nat → Byte)))) :
    request (xdrive Q s l) x = (request s x || falls (!pinLow s x) (l.map fun p => (p.1 &&& s.sfr 0xb0).getLsbD (if x then 3 else 2))) := by
  induction l generalizing s with
  | nil => simp [xdrive, xevs, falls]
  | cons p l ih =>
    obtain ⟨a1, a2, a3⟩ := c57_pins Q s h p.1 p.2 x
    have hc : XCoherent (xev Q s (.pins p.1 p.2)) := c57_coherent Q s h [.pins p.1 p.2]
    have e3 : (xev Q s (.pins p.1 p.2)).sfr 0xb0 = s.sfr 0xb0 := (xev_sfr Q s p.1 p.2).1
    have := ih (xev Q s (.pins p.1 p.2)) hc (a2.trans he)
    show request (xdrive Q (xev Q s (.pins p.1 p.2)) l) x = _
    rw [this, a1, he, e3]
    unfold pinLow
    rw [a3]
    simp only [List.map_cons, falls, Bool.not_not, Bool.true_and]
    rw [Bool.or_assoc]

/-! ### Acceptance -/

theorem pushByte_tcon (v : Byte) (c : St (XDev D)) : (pushByte (xint Q) v c).2.sfr TCON = c.sfr TCON := by
  unfold pushByte
  simp only [bind_def]
  rw [show ∀ (a : Nat) (w : Byte) (u : St (XDev D)), (iramWrite (xint Q) a w u).2.sfr = u.sfr by
    intro a w u; unfold iramWrite; split <;> rfl]
  have n1 : ¬ SP = ACC := by decide
  have n2 : ¬ SP = PSW := by decide
  have n3 : isCore SP = true := by decide
  simp only [sfrWrite, sfrRead, if_neg n1, if_neg n2, n3, if_true]
  exact upd_ne _ _ (by decide)

theorem acceptIt_tcon (l : ItLevel) (c : St (XDev D)) : (acceptIt (xint Q) l c).2.sfr TCON = c.sfr TCON := by
  unfold acceptIt lcallTo
  simp only [bind_def]
  show ((pushByte (xint Q) _ (pushByte (xint Q) _ _).2).2).sfr TCON = _
  rw [pushByte_tcon, pushByte_tcon]
  exact upd_ne (a := PCON) (b := TCON) c.sfr (c.sfr PCON &&& ~~~(1#8)) (by decide)

theorem takeIt_tcon (i : ItSrc) (s : St (XDev D)) (hst : s.state ≠ .idle) :
    (i.srcAddr = TCON → i.clrBit = true → (takeIt (xint Q) i s).2.sfr TCON = s.sfr TCON &&& ~~~i.srcMask) ∧
    (i.clrBit = false → (takeIt (xint Q) i s).2.sfr TCON = s.sfr TCON) := by
  have et : (takeIt (xint Q) i s).2.sfr TCON = (i.clear (xint Q) s).2.sfr TCON := by
    unfold takeIt; rw [if_neg hst]; exact acceptIt_tcon Q _ _
  constructor
  · intro h1 h2
    rw [et]
    unfold ItSrc.clear
    rw [if_pos h2]
    simp only [bind_def]
    show (sfrWrite (xint Q) i.srcAddr (s.sfr i.srcAddr &&& ~~~i.srcMask) s).2.sfr TCON = _
    rw [h1]
    have n1 : ¬ TCON = ACC := by decide
    have n2 : ¬ TCON = PSW := by decide
    have n3 : isCore TCON = false := by decide
    simp only [sfrWrite, if_neg n1, if_neg n2, n3, Bool.false_eq_true, if_false]
    rw [upd_same]
    simp only [xint, ↓reduceIte]
  · intro h1
    rw [et]
    unfold ItSrc.clear
    rw [if_neg (by rw [h1]; simp)]; rfl

theorem doInst_of (s : St (XDev D)) (i : ItSrc) (m : St (XDev D)) (em : m = (runPart (xint Q) s).2)
    (hf : ((xint Q).sources m.hw).find? (acceptable m) = some i)
    (ea : (m.sfr 0xa8).getLsbD 7 = true) (hw : m.wasReti = false) (hst : m.state ≠ .idle)
    (hj : ¬(m.pc = s.pc ∧ Q.stopSelfjump)) :
    doInst (xint Q) s = takeIt (xint Q) i m ∧ (takeIt (xint Q) i m).1 = .interrupt := by
  have e1 : (takeIt (xint Q) i m).1 = .interrupt := by unfold takeIt; rw [if_neg hst]
  refine ⟨?_, e1⟩
  have e2 : doInterrupt (xint Q) m = takeIt (xint Q) i m := by
    unfold doInterrupt; rw [if_neg (by simp [hw])]
    have hea : ¬ (m.sfr IE &&& 0x80#8 == 0#8) = true := by rw [ea_iff]; simp only [IE]; simp [ea]
    rw [if_neg hea, hf]
  have e : doInst (xint Q) s = if (doInterrupt (xint Q) m).1 = .go then
      (.go, (idlePd (xint Q) (doInterrupt (xint Q) m).2).2) else doInterrupt (xint Q) m := by
    rw [em]; unfold doInst; exact if_neg (by rw [← em]; exact hj)
  rw [e, if_neg (by rw [e2, e1]; simp), e2]

/-- C57: whenever an interrupt is accepted, the request flag in TCON (external
interrupts, timers) that caused it is cleared and TCON keeps everything else; sources
that leave their flag to the program leave it alone. -/
theorem c57_accept (s : St (XDev D)) (h : (doInst (xint Q) s).1 = .interrupt) :
    let m := (runPart (xint Q) s).2
    let s' := (doInst (xint Q) s).2
    ∃ i, i ∈ (xint Q).sources m.hw ∧ MayInterrupt m i ∧ s'.levels = ⟨prio m i, i.addr, m.pc⟩ :: m.levels ∧
      (i.srcAddr = 0x88 → i.clrBit = true → s'.sfr 0x88 = m.sfr 0x88 &&& ~~~i.srcMask) ∧
      (i.clrBit = false → s'.sfr 0x88 = m.sfr 0x88) := by
  intro m s'
  have hs : ¬(m.pc = s.pc ∧ (xint Q).stopSelfjump) := by
    intro hs
    have e : doInst (xint Q) s = (.selfjump, m) := by unfold doInst; exact if_pos hs
    rw [e] at h; cases h
  have e : doInst (xint Q) s = if (doInterrupt (xint Q) m).1 = .go then (.go, (idlePd (xint Q) (doInterrupt (xint Q) m).2).2) else doInterrupt (xint Q) m := by
    unfold doInst; exact if_neg hs
  rcases doInterrupt_cases (xint Q) m with ⟨h1, h2, h3⟩ | ⟨hw, hst, i, hi, hm, ht, h1, h2⟩
  · rw [e, if_pos h1] at h; cases h
  · have e2 : s' = (takeIt (xint Q) i m).2 := by
      show (doInst (xint Q) s).2 = _
      rw [e, if_neg (by rw [h1]; simp), ht]
    obtain ⟨t1, t2⟩ := takeIt_tcon Q i m hst
    exact ⟨i, hi, hm, by rw [e2, ← ht]; exact h2, by rw [e2]; exact t1, by rw [e2]; exact t2⟩

/-- An interrupt request of `x` that the enable bits, EA and the running priority let
through. -/
structure Serviceable (s : St (XDev D)) (x : Bool) : Prop where
  req : request s x = true
  ea : (s.sfr 0xa8).getLsbD 7 = true
  ex : (s.sfr 0xa8).getLsbD (if x then 2 else 0) = true
  prio : current s < if (s.sfr 0xb8).getLsbD (if x then 2 else 0) then 1 else 0

theorem serviceable_may (s : St (XDev D)) (x : Bool) (h : Serviceable s x) : MayInterrupt s (if x then ext1 else ext0) := by
  have k0 : ∀ v : Byte, v.getLsbD 0 = true → v &&& 0x01#8 = 0x01#8 := by decide +kernel
  have k1 : ∀ v : Byte, v.getLsbD 1 = true → v &&& 0x02#8 = 0x02#8 := by decide +kernel
  have k2 : ∀ v : Byte, v.getLsbD 2 = true → v &&& 0x04#8 = 0x04#8 := by decide +kernel
  have k3 : ∀ v : Byte, v.getLsbD 3 = true → v &&& 0x08#8 = 0x08#8 := by decide +kernel
  have p0 : ∀ v : Byte, (v &&& 0x01#8 = 0#8) ↔ v.getLsbD 0 = false := by decide +kernel
  have p2 : ∀ v : Byte, (v &&& 0x04#8 = 0#8) ↔ v.getLsbD 2 = false := by decide +kernel
  obtain ⟨r, ea, ex, pr⟩ := h
  cases x
  · refine ⟨rfl, ea, k0 _ ex, k1 _ r, ?_⟩
    simp only [Bool.false_eq_true, if_false, ext0] at pr ⊢
    cases hv : (s.sfr 0xb8).getLsbD 0 with
    | false => rw [if_pos ((p0 _).mpr hv)]; rw [hv] at pr; exact pr
    | true => rw [if_neg (fun e => by rw [(p0 _).mp e] at hv; cases hv)]; rw [hv] at pr; exact pr
  · refine ⟨rfl, ea, k2 _ ex, k3 _ r, ?_⟩
    simp only [if_true, ext1] at pr ⊢
    cases hv : (s.sfr 0xb8).getLsbD 2 with
    | false => rw [if_pos ((p2 _).mpr hv)]; rw [hv] at pr; exact pr
    | true => rw [if_neg (fun e => by rw [(p2 _).mp e] at hv; cases hv)]; rw [hv] at pr; exact pr

theorem takeIt_pc (i : ItSrc) (m : St (XDev D)) (hst : m.state ≠ .idle) : (takeIt (xint Q) i m).2.pc = i.addr := by
  unfold takeIt; rw [if_neg hst]; rfl

/-- C57: a request of INT0 that is enabled and not held up by the running priority is
served at once, before all others: the handler at 0x0003 is entered, the request flag is
cleared, the others of TCON are kept.  (Not directly after RETI or a write of IE, and not
while the CPU idles: C32.) -/
theorem c57_int0 (s : St (XDev D)) (m : St (XDev D)) (em : m = (runPart (xint Q) s).2) (h : Serviceable m false)
    (hw : m.wasReti = false) (hst : m.state ≠ .idle) (hj : ¬(m.pc = s.pc ∧ Q.stopSelfjump)) :
    let s' := (doInst (xint Q) s).2
    (doInst (xint Q) s).1 = .interrupt ∧ s'.pc = 0x0003 ∧ s'.sfr 0x88 = m.sfr 0x88 &&& 0xfd#8 ∧ request s' false = false := by
  intro s'
  have hm := serviceable_may m false h
  have hacc : acceptable m ext0 = true := (acceptable_iff m ext0 h.ea).mpr hm
  obtain ⟨e, e1⟩ := doInst_of Q s ext0 m em (by simp only [xint, List.find?_cons, hacc]) h.ea hw hst hj
  have et : s'.sfr 0x88 = m.sfr 0x88 &&& 0xfd#8 := by
    show (doInst (xint Q) s).2.sfr TCON = _
    rw [e, (takeIt_tcon Q ext0 m hst).1 rfl rfl]; rfl
  refine ⟨by rw [e]; exact e1, ?_, et, ?_⟩
  · show (doInst (xint Q) s).2.pc = _
    rw [e, takeIt_pc Q ext0 m hst]; rfl
  · unfold request; rw [et]; simp

/-- C57: INT1 is served at 0x0013 if neither INT0 nor timer 0 (the first of the other
sources) may interrupt. -/
theorem c57_int1 (s : St (XDev D)) (m : St (XDev D)) (em : m = (runPart (xint Q) s).2) (h : Serviceable m true)
    (hno : ∀ i ∈ ext0 :: (Q.sources m.hw.rest).take 1, ¬ MayInterrupt m i)
    (hw : m.wasReti = false) (hst : m.state ≠ .idle) (hj : ¬(m.pc = s.pc ∧ Q.stopSelfjump)) :
    let s' := (doInst (xint Q) s).2
    (doInst (xint Q) s).1 = .interrupt ∧ s'.pc = 0x0013 ∧ s'.sfr 0x88 = m.sfr 0x88 &&& 0xf7#8 ∧ request s' true = false := by
  intro s'
  have hm := serviceable_may m true h
  have hacc : acceptable m ext1 = true := (acceptable_iff m ext1 h.ea).mpr hm
  have hf : ((xint Q).sources m.hw).find? (acceptable m) = some ext1 := by
    have n : ∀ i ∈ ext0 :: (Q.sources m.hw.rest).take 1, acceptable m i = false := by
      intro i hi
      cases ha : acceptable m i with
      | false => rfl
      | true => exact absurd ((acceptable_iff m i h.ea).mp ha) (hno i hi)
    show (ext0 :: ((Q.sources m.hw.rest).take 1 ++ ext1 :: (Q.sources m.hw.rest).drop 1)).find? (acceptable m) = _
    rw [← List.cons_append, List.find?_append]
    have : (ext0 :: (Q.sources m.hw.rest).take 1).find? (acceptable m) = none := by
      rw [List.find?_eq_none]; intro i hi; rw [n i hi]; simp
    rw [this, Option.none_or, List.find?_cons, hacc]
  obtain ⟨e, e1⟩ := doInst_of Q s ext1 m em hf h.ea hw hst hj
  have et : s'.sfr 0x88 = m.sfr 0x88 &&& 0xf7#8 := by
    show (doInst (xint Q) s).2.sfr TCON = _
    rw [e, (takeIt_tcon Q ext1 m hst).1 rfl rfl]; rfl
  refine ⟨by rw [e]; exact e1, ?_, et, ?_⟩
  · show (doInst (xint Q) s).2.pc = _
    rw [e, takeIt_pc Q ext1 m hst]; rfl
  · unfold request; rw [et]; simp

/-! ### Concrete cases -/

namespace XDemo

/-- NOPs; INT0 transition, INT1 level activated; all enabled; pins high. -/
def s0 : St (XDev Unit) :=
  { Demo.st [] 0#8 0#8 0#8 7#8 with
    sfr := upd (upd (upd (Demo.st [] 0#8 0#8 0#8 7#8).sfr 0xb0 0xff#8) 0x88 0x01#8) 0xa8 0x85#8
    hw := ⟨true, false, true, true, 0xff#8, ()⟩ }

def none : Unit → (Nat → Byte) → Unit × (Nat → Byte) := fun u f => (u, f)

theorem coh : XCoherent s0 := ⟨by decide, by decide, by decide, by decide⟩

/-- INT0 falls: requested at once, served after the next instruction. -/
example : request (xev Demo.hw s0 (.pins 0xfb#8 none)) false = true := by decide +kernel
example : (doInst (xint Demo.hw) (xev Demo.hw s0 (.pins 0xfb#8 none))).2.pc = 3 := by decide +kernel
example : request (doInst (xint Demo.hw) (xev Demo.hw s0 (.pins 0xfb#8 none))).2 false = false := by decide +kernel
/-- INT1 is level activated: requested by the next machine cycle. -/
example : request (xev Demo.hw s0 (.pins 0xf7#8 none)) true = false := by decide +kernel
example : (doInst (xint Demo.hw) (xev Demo.hw s0 (.pins 0xf7#8 none))).2.pc = 0x13 := by decide +kernel
/-- The hypotheses of c57_int0 and c57_int1 can be met. -/
example : Serviceable (runPart (xint Demo.hw) (xev Demo.hw s0 (.pins 0xfb#8 none))).2 false :=
  ⟨by decide +kernel, by decide +kernel, by decide +kernel, by decide +kernel⟩
example : Serviceable (runPart (xint Demo.hw) (xev Demo.hw s0 (.pins 0xf7#8 none))).2 true :=
  ⟨by decide +kernel, by decide +kernel, by decide +kernel, by decide +kernel⟩
/-- Falling and rising. -/
example : request (xdrive Demo.hw s0 [(0xfb#8, none), (0xff#8, none)]) false = true := by decide +kernel

end XDemo

/-- C57, false part: "a level activated request lasts as long as the pin is low" (the
manual: the external source controls the request flag).  INT1 is low for one instruction
while interrupts are disabled, then high again: the request stays, and is served when
interrupts are enabled. -/
theorem c57_false_level :
    let s := { XDemo.s0 with sfr := upd XDemo.s0.sfr 0xa8 0x04#8 }
    let t := xevs Demo.hw s [.pins 0xf7#8 XDemo.none, .act .step, .pins 0xff#8 XDemo.none, .act .step, .act .step]
    let u := xevs Demo.hw t [.act (.sfr 0xa8 0x84#8), .act .step]
    XCoherent s ∧ edgeMode t true = false ∧ pinLow t true = false ∧ request t true = true ∧ u.pc = 0x0013 := by
  refine ⟨⟨by decide, by decide, by decide, by decide⟩, by decide +kernel, by decide +kernel, by decide +kernel, by decide +kernel⟩

end Ucsim.S51
