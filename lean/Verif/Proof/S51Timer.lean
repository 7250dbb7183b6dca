import Verif.Spec.S51Timer
import Verif.Proof.S51Hw

/- Timers: one machine cycle, frames, the invariant Coherent. -/
namespace Ucsim.S51
open Spec

theorem upd_same (f : Nat → Byte) (a : Nat) (v : Byte) : upd f a v a = v := by simp [upd]
theorem upd_ne (f : Nat → Byte) {a b : Nat} (v : Byte) (h : b ≠ a) : upd f a v b = f b := by simp [upd, h]

structure GoodCfg (c : TCfg) : Prop where
  lh : c.tl ≠ c.th
  lc : c.tl ≠ TCON
  hc : c.th ≠ TCON
theorem good0 : GoodCfg cfg0 := ⟨by decide, by decide, by decide⟩
theorem good1 : GoodCfg cfg1 := ⟨by decide, by decide, by decide⟩

/-- One count in mode `m`: low byte, high byte, overflow. -/
def next (m : Nat) (l h : Byte) : Byte × Byte × Bool :=
  if m = 0 then
    if (l + 1#8) &&& 0x1f#8 = 0#8 then (0#8, h + 1#8, h + 1#8 == 0#8) else (l + 1#8, h, false)
  else if m = 1 then
    if l + 1#8 = 0#8 then (0#8, h + 1#8, h + 1#8 == 0#8) else (l + 1#8, h, false)
  else if m = 2 then
    if l + 1#8 = 0#8 then (h, h, true) else (l + 1#8, h, false)
  else
    if l + 1#8 = 0#8 then (0#8, h, true) else (l + 1#8, h, false)

def countM (c : TCfg) (m : Nat) : TS → TS := if m = 0 then count0 c else if m = 1 then count1 c else if m = 2 then count2 c else count3 c

/-- What one count does. -/
theorem countM_spec (c : TCfg) (g : GoodCfg c) (m : Nat) (x : TS) :
    let n := next m (x.2 c.tl) (x.2 c.th)
    (countM c m x).1 = { x.1 with ovf := x.1.ovf + n.2.2.toNat } ∧ (countM c m x).2 c.tl = n.1 ∧
    (countM c m x).2 c.th = n.2.1 ∧
    (countM c m x).2 TCON = (if n.2.2 then x.2 TCON ||| c.mTF else x.2 TCON) ∧
    ∀ a, a ≠ c.tl → a ≠ c.th → a ≠ TCON → (countM c m x).2 a = x.2 a := by
  obtain ⟨t, f⟩ := x
  have lh := g.lh; have lc := g.lc; have hc := g.hc
  have ht : ({ t with ovf := t.ovf + 0 } : Tmr) = t := rfl
  intro n
  by_cases m0 : m = 0
  · subst m0
    simp only [n, next, countM, if_true, count0, upd_same]
    by_cases h1 : f c.tl + 1#8 &&& 0x1f#8 = 0#8
    · simp only [h1, if_true, upd_same, upd_ne _ _ lh.symm, upd_ne _ _ lh]
      by_cases h2 : f c.th + 1#8 = 0#8
      · simp only [h2, if_true, overflowed, BEq.rfl, Bool.toNat_true]
        refine ⟨trivial, ?_, ?_, ?_, ?_⟩
        · rw [upd_ne _ _ lc, upd_ne _ _ lh, upd_same]
        · rw [upd_ne _ _ hc, upd_same]
        · rw [upd_same, upd_ne _ _ hc.symm, upd_ne _ _ lc.symm, upd_ne _ _ lc.symm]
        · intro a h1 h2 h3
          rw [upd_ne _ _ h3, upd_ne _ _ h2, upd_ne _ _ h1, upd_ne _ _ h1]
      · have hb : (f c.th + 1#8 == 0#8) = false := by simpa using h2
        simp only [h2, hb, if_false, Bool.toNat_false, Bool.false_eq_true]
        refine ⟨rfl, ?_, ?_, ?_, ?_⟩
        · rw [upd_ne _ _ lh, upd_same]
        · rw [upd_same]
        · rw [upd_ne _ _ hc.symm, upd_ne _ _ lc.symm, upd_ne _ _ lc.symm]
        · intro a h1 h2 h3
          rw [upd_ne _ _ h2, upd_ne _ _ h1, upd_ne _ _ h1]
    · simp only [h1, if_false, Bool.toNat_false, Bool.false_eq_true]
      refine ⟨rfl, upd_same _ _ _, upd_ne _ _ lh.symm, upd_ne _ _ lc.symm, ?_⟩
      intro a h1 h2 h3; exact upd_ne _ _ h1
  · by_cases m1 : m = 1
    · subst m1
      simp only [n, next, countM, show (1:Nat) ≠ 0 by decide, if_true, if_false, count1, upd_same]
      by_cases h1 : f c.tl + 1#8 = 0#8
      · simp only [h1, if_true, upd_same, upd_ne _ _ lh.symm, upd_ne _ _ lh]
        by_cases h2 : f c.th + 1#8 = 0#8
        · simp only [h2, if_true, overflowed, BEq.rfl, Bool.toNat_true]
          refine ⟨trivial, ?_, ?_, ?_, ?_⟩
          · rw [upd_ne _ _ lc, upd_ne _ _ lh, upd_same]
          · rw [upd_ne _ _ hc, upd_same]
          · rw [upd_same, upd_ne _ _ hc.symm, upd_ne _ _ lc.symm]
          · intro a h1 h2 h3
            rw [upd_ne _ _ h3, upd_ne _ _ h2, upd_ne _ _ h1]
        · have hb : (f c.th + 1#8 == 0#8) = false := by simpa using h2
          simp only [h2, hb, if_false, Bool.toNat_false, Bool.false_eq_true]
          refine ⟨rfl, ?_, ?_, ?_, ?_⟩
          · rw [upd_ne _ _ lh, upd_same]
          · rw [upd_same]
          · rw [upd_ne _ _ hc.symm, upd_ne _ _ lc.symm]
          · intro a h1 h2 h3
            rw [upd_ne _ _ h2, upd_ne _ _ h1]
      · simp only [h1, if_false, Bool.toNat_false, Bool.false_eq_true]
        refine ⟨rfl, upd_same _ _ _, upd_ne _ _ lh.symm, upd_ne _ _ lc.symm, ?_⟩
        intro a h1 h2 h3; exact upd_ne _ _ h1
    · by_cases m2 : m = 2
      · subst m2
        simp only [n, next, countM, show (2:Nat) ≠ 0 by decide, show (2:Nat) ≠ 1 by decide, if_true, if_false, count2, upd_same]
        by_cases h1 : f c.tl + 1#8 = 0#8
        · simp only [h1, if_true, overflowed, Bool.toNat_true, upd_ne _ _ lh.symm]
          refine ⟨trivial, ?_, ?_, ?_, ?_⟩
          · rw [upd_ne _ _ lc, upd_same]
          · rw [upd_ne _ _ hc, upd_ne _ _ lh.symm, upd_ne _ _ lh.symm]
          · rw [upd_same, upd_ne _ _ lc.symm, upd_ne _ _ lc.symm]
          · intro a h1 h2 h3
            rw [upd_ne _ _ h3, upd_ne _ _ h1, upd_ne _ _ h1]
        · simp only [h1, if_false, Bool.toNat_false, Bool.false_eq_true]
          refine ⟨rfl, upd_same _ _ _, upd_ne _ _ lh.symm, upd_ne _ _ lc.symm, ?_⟩
          intro a h1 h2 h3; exact upd_ne _ _ h1
      · simp only [n, next, countM, m0, m1, m2, if_false, count3, upd_same]
        by_cases h1 : f c.tl + 1#8 = 0#8
        · simp only [h1, if_true, overflowed, Bool.toNat_true]
          refine ⟨trivial, ?_, ?_, ?_, ?_⟩
          · rw [upd_ne _ _ lc, upd_same]
          · rw [upd_ne _ _ hc, upd_ne _ _ lh.symm]
          · rw [upd_same, upd_ne _ _ lc.symm]
          · intro a h1 h2 h3
            rw [upd_ne _ _ h3, upd_ne _ _ h1]
        · simp only [h1, if_false, Bool.toNat_false, Bool.false_eq_true]
          refine ⟨rfl, upd_same _ _ _, upd_ne _ _ lh.symm, upd_ne _ _ lc.symm, ?_⟩
          intro a h1 h2 h3; exact upd_ne _ _ h1

/-- What counting leaves alone: the timer's settings, other registers, the bits of TCON
outside of `m`. -/
structure Fr (c : TCfg) (m : Byte) (x y : TS) : Prop where
  t : y.1 = { x.1 with ovf := y.1.ovf, edge := y.1.edge }
  f : ∀ a, a ≠ c.tl → a ≠ c.th → a ≠ TCON → y.2 a = x.2 a
  tcon : y.2 TCON &&& ~~~m = x.2 TCON &&& ~~~m

theorem Fr.refl (c : TCfg) (m : Byte) (x : TS) : Fr c m x x := ⟨rfl, fun _ _ _ _ => rfl, rfl⟩
theorem Fr.trans {c : TCfg} {m : Byte} {x y z : TS} (h1 : Fr c m x y) (h2 : Fr c m y z) : Fr c m x z :=
  ⟨by rw [h2.t, h1.t], fun a p q r => (h2.f a p q r).trans (h1.f a p q r), h2.tcon.trans h1.tcon⟩

theorem or_and_not : ∀ (a m b : Byte), m &&& ~~~b = 0#8 → (a ||| m) &&& ~~~b = a &&& ~~~b := by
  intro a m b h
  have : (a ||| m) &&& ~~~b = (a &&& ~~~b) ||| (m &&& ~~~b) := by
    ext i hi; simp only [BitVec.getElem_and, BitVec.getElem_or, BitVec.getElem_not]
    cases a[i] <;> cases m[i] <;> cases b[i] <;> rfl
  rw [this, h, BitVec.or_zero]

theorem countM_fr (c : TCfg) (g : GoodCfg c) (m : Nat) (w : Byte) (hw : c.mTF &&& ~~~w = 0#8) (x : TS) :
    Fr c w x (countM c m x) := by
  obtain ⟨h1, _, _, h4, h5⟩ := countM_spec c g m x
  refine ⟨by rw [h1], h5, ?_⟩
  rw [h4]; split
  · exact or_and_not _ _ _ hw
  · rfl

theorem countTh_fr (c : TCfg) (g : GoodCfg c) (w : Byte) (hw : 0x80#8 &&& ~~~w = 0#8) (x : TS) :
    Fr c w x (countTh c x) := by
  unfold countTh
  simp only [upd_same]
  split
  · refine ⟨rfl, ?_, ?_⟩
    · intro a h1 h2 h3; show upd _ _ _ a = _; rw [upd_ne _ _ h3, upd_ne _ _ h2]
    · show upd _ _ _ TCON &&& _ = _; rw [upd_same, or_and_not _ _ _ hw, upd_ne _ _ g.hc.symm]
  · refine ⟨rfl, ?_, ?_⟩
    · intro a h1 h2 h3; show upd _ _ _ a = _; rw [upd_ne _ _ h2]
    · show upd _ _ _ TCON &&& _ = _; rw [upd_ne _ _ g.hc.symm]

theorem loop_fr {c : TCfg} {w : Byte} {k : TS → TS} (hk : ∀ x, Fr c w x (k x)) (n : Nat) (x : TS) :
    Fr c w x (loop k n x) := by
  induction n generalizing x with
  | zero => exact Fr.refl _ _ _
  | succ n ih => exact (hk x).trans (ih _)

theorem counting_fr {c : TCfg} {w : Byte} {k : TS → TS} (hk : ∀ x, Fr c w x (k x)) (n : Nat) (x : TS) :
    Fr c w x (counting k n x) := by
  unfold counting
  split
  · exact Fr.refl _ _ _
  · split
    · exact Fr.refl _ _ _
    · split
      · exact Fr.trans (y := ({ x.1 with edge := 0 }, x.2)) ⟨rfl, fun _ _ _ _ => rfl, rfl⟩ (loop_fr hk _ _)
      · exact loop_fr hk _ _

/-- Mask of the flags a timer may set. -/
theorem tick_fr (c : TCfg) (g : GoodCfg c) (w : Byte) (hw : c.mTF &&& ~~~w = 0#8) (n : Nat) (x : TS)
    (h3 : c.first = true → x.1.mode = 0 ∨ x.1.mode = 1 ∨ x.1.mode = 2 ∨ 0x80#8 &&& ~~~w = 0#8) :
    Fr c w x (Tmr.tick c n x) := by
  unfold Tmr.tick
  split
  · exact counting_fr (fun y => countM_fr c g 0 w hw y) n x
  · split
    · exact counting_fr (fun y => countM_fr c g 1 w hw y) n x
    · split
      · exact counting_fr (fun y => countM_fr c g 2 w hw y) n x
      · split
        · rename_i a0 a1 a2 hf
          have h80 : 0x80#8 &&& ~~~w = 0#8 := by
            rcases h3 hf with h | h | h | h
            · exact absurd h a0
            · exact absurd h a1
            · exact absurd h a2
            · exact h
          have f1 := counting_fr (fun y => countM_fr c g 3 w hw y) n x
          simp only
          split
          · exact f1.trans (loop_fr (fun y => countTh_fr c g w h80 y) _ _)
          · exact f1
        · exact Fr.refl _ _ _

/-- One cycle of an enabled timer (not a counter) in mode 0, 1, 2. -/
theorem tick_run (c : TCfg) (x : TS) (hm : x.1.mode < 3) (htr : x.1.tr = true) (hg : x.1.gate = true → x.1.int = true)
    (hct : x.1.ct = false) : Tmr.tick c 1 x = countM c x.1.mode x := by
  have hc : ∀ k, counting k 1 x = k x := by
    intro k
    unfold counting
    rw [if_neg (by simp [htr]), if_neg (by intro h; rw [hg h.1] at h; cases h.2), if_neg (by simp [hct])]
    rfl
  unfold Tmr.tick countM
  split
  · exact hc _
  · split
    · exact hc _
    · split
      · exact hc _
      · omega

/-- A disabled timer. -/
theorem tick_stop (c : TCfg) (n : Nat) (x : TS) (hm : x.1.mode < 3 ∨ c.first = false)
    (h : x.1.tr = false ∨ (x.1.gate = true ∧ x.1.int = false)) : Tmr.tick c n x = x := by
  have hc : ∀ k, counting k n x = x := by
    intro k
    unfold counting
    by_cases htr : x.1.tr = false
    · rw [if_pos htr]
    · rcases h with h | h
      · exact absurd h htr
      · rw [if_neg htr, if_pos h]
  unfold Tmr.tick
  split
  · exact hc _
  · split
    · exact hc _
    · split
      · exact hc _
      · rcases hm with hm | hm
        · omega
        · rw [if_neg (by simp [hm])]

/-- Edges seen are counted by the next cycle. -/
theorem tick_count (c : TCfg) (n : Nat) (x : TS) (hm : x.1.mode < 3) (htr : x.1.tr = true)
    (hg : x.1.gate = true → x.1.int = true) (hct : x.1.ct = true) :
    Tmr.tick c n x = loop (countM c x.1.mode) x.1.edge ({ x.1 with edge := 0 }, x.2) := by
  have hc : ∀ k, counting k n x = loop k x.1.edge ({ x.1 with edge := 0 }, x.2) := by
    intro k
    unfold counting
    rw [if_neg (by simp [htr]), if_neg (by intro h; rw [hg h.1] at h; cases h.2), if_pos hct]
  unfold Tmr.tick countM
  split
  · exact hc _
  · split
    · exact hc _
    · split
      · exact hc _
      · omega

/-! ### The invariant -/

/-- What the settings of the timers depend on. -/
structure Same (f f' : Nat → Byte) : Prop where
  tmod : f' TMOD = f TMOD
  tcon : f' TCON &&& 0x50#8 = f TCON &&& 0x50#8
  p3 : f' P3 = f P3

theorem Same.refl (f : Nat → Byte) : Same f f := ⟨rfl, rfl, rfl⟩
theorem Same.trans {f g h : Nat → Byte} (a : Same f g) (b : Same g h) : Same f h :=
  ⟨b.tmod.trans a.tmod, b.tcon.trans a.tcon, b.p3.trans a.p3⟩

def modeOf (c : TCfg) (v : Byte) : Nat :=
  if v &&& (c.mM0 ||| c.mM1) = c.mM0 then 1 else if v &&& (c.mM0 ||| c.mM1) = c.mM1 then 2
  else if v &&& (c.mM0 ||| c.mM1) = (c.mM0 ||| c.mM1) then 3 else 0

structure FollC (c : TCfg) (t : Tmr) (pins : Byte) (f : Nat → Byte) : Prop where
  mode : t.mode = modeOf c (f TMOD)
  ct : t.ct = (f TMOD &&& c.mCT != 0#8)
  gate : t.gate = (f TMOD &&& c.mGATE != 0#8)
  tr : t.tr = (f TCON &&& c.mTR != 0#8)
  int : t.int = ((pins &&& f P3) &&& c.mINT != 0#8)

theorem trMask (c : TCfg) (hc : 0x50#8 &&& c.mTR = c.mTR) {x y : Byte} (h : x &&& 0x50#8 = y &&& 0x50#8) :
    x &&& c.mTR = y &&& c.mTR := by
  rw [← hc, ← BitVec.and_assoc, h, BitVec.and_assoc]

theorem FollC.same {c : TCfg} (hc : 0x50#8 &&& c.mTR = c.mTR) {t t' : Tmr} {pins : Byte} {f f' : Nat → Byte}
    (h : FollC c t pins f) (hs : Same f f') (ht : ∃ o e, t' = { t with ovf := o, edge := e }) : FollC c t' pins f' := by
  obtain ⟨o, e, rfl⟩ := ht
  exact ⟨by rw [hs.tmod]; exact h.mode, by rw [hs.tmod]; exact h.ct, by rw [hs.tmod]; exact h.gate,
    by rw [trMask c hc hs.tcon]; exact h.tr, by rw [hs.p3]; exact h.int⟩

def CohI {D : Type} (h : Dev D) (f : Nat → Byte) : Prop := FollC cfg0 h.t0 h.pins f ∧ FollC cfg1 h.t1 h.pins f

theorem tr0 : 0x50#8 &&& cfg0.mTR = cfg0.mTR := by decide
theorem tr1 : 0x50#8 &&& cfg1.mTR = cfg1.mTR := by decide

variable {D : Type}

theorem CohI.same {h : Dev D} {f f' : Nat → Byte} (hc : CohI h f) (hs : Same f f') (r : D) : CohI { h with rest := r } f' :=
  ⟨hc.1.same tr0 hs ⟨_, _, rfl⟩, hc.2.same tr1 hs ⟨_, _, rfl⟩⟩

theorem and_or (a b m : Byte) : (a ||| b) &&& m = (a &&& m) ||| (b &&& m) := by
  ext i hi; simp only [BitVec.getElem_and, BitVec.getElem_or]
  cases a[i] <;> cases b[i] <;> cases m[i] <;> rfl

theorem same_guard (f r : Nat → Byte) : Same f (guard f r) := by
  refine ⟨by simp [guard], ?_, by simp [guard]⟩
  have e : guard f r TCON = (f TCON &&& 0xf0#8) ||| (r TCON &&& 0x0f#8) := by simp [guard, TCON, TMOD, TL0, TL1, TH0, TH1, P3]
  rw [e, and_or, BitVec.and_assoc, BitVec.and_assoc,
    show 0xf0#8 &&& 0x50#8 = 0x50#8 by decide, show 0x0f#8 &&& 0x50#8 = 0#8 by decide, BitVec.and_zero, BitVec.or_zero]

theorem same_protect {f r : Nat → Byte} (h : Same f r) : Same f (protect f r) := by
  refine ⟨?_, ?_, ?_⟩
  · simp only [protect, show isCore TMOD = false by decide, Bool.false_eq_true, if_false]; exact h.tmod
  · simp only [protect, show isCore TCON = false by decide, Bool.false_eq_true, if_false]; exact h.tcon
  · simp only [protect, show isCore P3 = false by decide, Bool.false_eq_true, if_false]; exact h.p3

theorem same_upd (f : Nat → Byte) (a : Nat) (v : Byte) (h1 : a ≠ TMOD) (h2 : a ≠ TCON) (h3 : a ≠ P3) : Same f (upd f a v) :=
  ⟨upd_ne _ _ h1.symm, by rw [upd_ne _ _ h2.symm], upd_ne _ _ h3.symm⟩

theorem core_ne {a : Nat} (h : isCore a = true) : a ≠ TMOD ∧ a ≠ TCON ∧ a ≠ P3 := by
  refine ⟨?_, ?_, ?_⟩ <;> (intro e; rw [e] at h; revert h; decide)

theorem same_fr {c : TCfg} {x y : TS} (h : Fr c 0xa0#8 x y) (h1 : c.tl ≠ TMOD) (h2 : c.th ≠ TMOD) (h3 : c.tl ≠ P3) (h4 : c.th ≠ P3) :
    Same x.2 y.2 := by
  refine ⟨h.f _ h1.symm h2.symm (by decide), ?_, h.f _ h3.symm h4.symm (by decide)⟩
  have := congrArg (· &&& 0x50#8) h.tcon
  simp only [BitVec.and_assoc, show ~~~(0xa0#8) &&& 0x50#8 = 0x50#8 by decide] at this
  exact this

/-- One machine cycle of the devices. -/
theorem timers_tick (Q : Hw D) (h : Dev D) (f : Nat → Byte) :
    Fr cfg0 0xa0#8 (h.t0, f) (Tmr.tick cfg0 1 (h.t0, f)) ∧
    Fr cfg1 0xa0#8 (h.t1, (Tmr.tick cfg0 1 (h.t0, f)).2) (Tmr.tick cfg1 1 (h.t1, (Tmr.tick cfg0 1 (h.t0, f)).2)) :=
  ⟨tick_fr cfg0 good0 _ (by decide) 1 _ (fun _ => Or.inr (Or.inr (Or.inr (by decide)))),
   tick_fr cfg1 good1 _ (by decide) 1 _ (fun h => by cases h)⟩

theorem port_int {c : TCfg} {t : Tmr} {pins pins' : Byte} {f f' : Nat → Byte} (h : FollC c t pins f) (o : Byte)
    (h1 : f' TMOD = f TMOD) (h2 : f' TCON &&& c.mTR = f TCON &&& c.mTR) :
    FollC c (t.port c o (pins' &&& f' P3)) pins' f' :=
  ⟨by rw [h1]; exact h.mode, by rw [h1]; exact h.ct, by rw [h1]; exact h.gate, by rw [h2]; exact h.tr, rfl⟩

theorem put_mask (x m M : Byte) (v : Bool) : putBits x m v &&& M = putBits (x &&& M) m v &&& M := by
  cases v
  · simp only [putBits, Bool.false_eq_true, if_false]
    ext i hi; simp only [BitVec.getElem_and, BitVec.getElem_not]
    cases x[i] <;> cases m[i] <;> cases M[i] <;> rfl
  · simp only [putBits, if_true]
    ext i hi; simp only [BitVec.getElem_and, BitVec.getElem_or]
    cases x[i] <;> cases m[i] <;> cases M[i] <;> rfl

theorem coh_wr (Q : Hw D) (h : Dev D) (f : Nat → Byte) (a : Nat) (v : Byte) (hc : CohI h f) :
    CohI ((timers Q).sfrWr h f a v).2.1
      (upd (protect f ((timers Q).sfrWr h f a v).2.2) a ((timers Q).sfrWr h f a v).1) := by
  have sg : Same f (protect f (guard f (Q.sfrWr h.rest f a v).2.2)) := same_protect (same_guard _ _)
  by_cases h1 : a = TMOD
  · subst h1
    simp only [timers, ↓reduceIte]
    have e : ∀ c : TCfg, 0x50#8 &&& c.mTR = c.mTR → ∀ t : Tmr, FollC c t h.pins f →
        FollC c (t.wrTmod c v) h.pins (upd (protect f (guard f (Q.sfrWr h.rest f TMOD v).2.2)) TMOD v) := by
      intro c hm t ht
      refine ⟨?_, ?_, ?_, ?_, ?_⟩
      · rw [upd_same]; rfl
      · rw [upd_same]; rfl
      · rw [upd_same]; rfl
      · rw [upd_ne _ _ (by decide), trMask c hm sg.tcon]; exact ht.tr
      · rw [upd_ne _ _ (by decide), sg.p3]; exact ht.int
    exact ⟨e cfg0 tr0 _ hc.1, e cfg1 tr1 _ hc.2⟩
  · by_cases h2 : a = TCON
    · subst h2
      simp only [timers, show TCON ≠ TMOD by decide, ↓reduceIte]
      have e : ∀ c : TCfg, ∀ t : Tmr, FollC c t h.pins f →
          FollC c (t.wrTcon c v) h.pins (upd (protect f (guard f (Q.sfrWr h.rest f TCON v).2.2)) TCON v) := by
        intro c t ht
        refine ⟨?_, ?_, ?_, ?_, ?_⟩
        · rw [upd_ne _ _ (by decide), sg.tmod]; exact ht.mode
        · rw [upd_ne _ _ (by decide), sg.tmod]; exact ht.ct
        · rw [upd_ne _ _ (by decide), sg.tmod]; exact ht.gate
        · rw [upd_same]; rfl
        · rw [upd_ne _ _ (by decide), sg.p3]; exact ht.int
      exact ⟨e cfg0 _ hc.1, e cfg1 _ hc.2⟩
    · by_cases h3 : a = TL0 ∨ a = TL1 ∨ a = TH0 ∨ a = TH1
      · simp only [timers, if_neg h1, if_neg h2, if_pos h3]
        refine hc.same (sg.trans (same_upd _ _ _ h1 h2 ?_)) _
        rcases h3 with h | h | h | h <;> (subst h; decide)
      · by_cases h4 : a = P3
        · subst h4
          simp only [timers, show P3 ≠ TMOD by decide, show P3 ≠ TCON by decide, if_neg h3, ↓reduceIte]
          by_cases hv : f P3 = v
          · rw [if_pos hv]
            refine hc.same (sg.trans ⟨upd_ne _ _ (by decide), by rw [upd_ne _ _ (by decide)], ?_⟩) _
            rw [upd_same, sg.p3, hv]
          · rw [if_neg hv]
            have e : ∀ c : TCfg, 0x50#8 &&& c.mTR = c.mTR → ∀ t : Tmr, FollC c t h.pins f →
                FollC c (t.port c (h.pins &&& f P3) (h.pins &&& v)) h.pins
                  (upd (protect f (guard f (Q.sfrWr h.rest f P3 v).2.2)) P3 v) := by
              intro c hm t ht
              have := port_int (pins' := h.pins) (f' := upd (protect f (guard f (Q.sfrWr h.rest f P3 v).2.2)) P3 v) ht
                (h.pins &&& f P3) (by rw [upd_ne _ _ (by decide), sg.tmod])
                (by rw [upd_ne _ _ (by decide), trMask c hm sg.tcon])
              rw [upd_same] at this; exact this
            exact ⟨e cfg0 tr0 _ hc.1, e cfg1 tr1 _ hc.2⟩
        · simp only [timers, if_neg h1, if_neg h2, if_neg h3, if_neg h4]
          exact hc.same (sg.trans (same_upd _ _ _ h1 h2 h4)) _

theorem coh_tcon (h : Dev D) (f : Nat → Byte) (n : Byte) (r : D) (hc : CohI h f) (hn : n &&& 0x50#8 = f TCON &&& 0x50#8) :
    CohI { h with t0 := h.t0.wrTcon cfg0 n, t1 := h.t1.wrTcon cfg1 n, rest := r } f := by
  have e : ∀ c : TCfg, 0x50#8 &&& c.mTR = c.mTR → ∀ t : Tmr, FollC c t h.pins f → FollC c (t.wrTcon c n) h.pins f := by
    intro c hm t ht
    refine ⟨ht.mode, ht.ct, ht.gate, ?_, ht.int⟩
    show (n &&& c.mTR != 0#8) = _
    rw [trMask c hm hn]
  exact ⟨e cfg0 tr0 _ hc.1, e cfg1 tr1 _ hc.2⟩

theorem cohInv (Q : Hw D) : HwInv (timers Q) (CohI (D := D)) := by
  refine ⟨?_, ?_, ?_, ?_, ?_, ?_, ?_, ?_⟩
  · intro h f a v ha hc
    obtain ⟨n1, n2, n3⟩ := core_ne ha
    exact hc.same (same_upd f a v n1 n2 n3) h.rest
  · intro h f v hc
    exact hc.same (same_upd f PCON v (by decide) (by decide) (by decide)) h.rest
  · intro h f a l hc; exact hc.same (Same.refl f) _
  · intro h f hc; exact hc.same (Same.refl f) _
  · intro h f a v _ hc; exact coh_wr Q h f a v hc
  · intro h f b v hb hc
    obtain ⟨n1, n2, n3⟩ := core_ne hb
    have e1 : ¬ (TCON ≤ b.toNat ∧ b.toNat < TCON + 8) := by simp only [TCON] at n2 ⊢; omega
    have e2 : ¬ (P3 ≤ b.toNat ∧ b.toNat < P3 + 8) := by simp only [P3] at n3 ⊢; omega
    simp only [timers, if_neg e1, if_neg e2]
    exact hc.same (same_protect (same_guard _ _)) _
  · intro h f b v hb8 hb hc a w f1 k f2
    have nT : a ≠ TMOD := by simp only [a, TMOD]; omega
    have hcw : CohI w.2.1 f1 := coh_wr Q h f a _ hc
    have f1a : f1 a = w.1 := upd_same _ _ _
    by_cases h2 : a = TCON
    · have e1 : TCON ≤ b.toNat ∧ b.toNat < TCON + 8 := by simp only [a, TCON] at h2 ⊢; omega
      have em : 1#8 <<< (b.toNat - TCON) = bitMask b := by
        unfold bitMask; rw [show b.toNat - TCON = b.toNat % 8 by simp only [a, TCON] at h2 ⊢; omega]
      have ew : w.1 = putBits (f a) (bitMask b) v := by
        simp only [w, timers, h2, show TCON ≠ TMOD by decide, ↓reduceIte]
      have en : putBits (f1 TCON) (bitMask b) v = f1 TCON := by rw [← h2, f1a, ew, putIdem]
      have ek : k = (({ w.2.1 with t0 := (w.2.1.t0.wrTcon cfg0 (f1 TCON)), t1 := (w.2.1.t1.wrTcon cfg1 (f1 TCON)), rest := (Q.bitWr w.2.1.rest f1 b.toNat v).1 } : Dev D), guard f1 (Q.bitWr w.2.1.rest f1 b.toNat v).2) := by
        simp only [k, timers, if_pos e1, em, en]
      have hk : CohI k.1 f1 := by rw [ek]; exact coh_tcon _ _ _ _ hcw rfl
      have s2 : Same f1 f2 := by
        show Same f1 (protect f1 k.2)
        rw [ek]; exact same_protect (same_guard _ _)
      refine hk.same (s2.trans ?_) k.1.rest
      refine ⟨upd_ne _ _ nT.symm, ?_, upd_ne _ _ (by rw [h2]; decide)⟩
      rw [← h2, upd_same, put_mask, h2, s2.tcon, ← put_mask, en]
    · have e1 : ¬ (TCON ≤ b.toNat ∧ b.toNat < TCON + 8) := by simp only [a, TCON] at h2 ⊢; omega
      by_cases h3 : a = P3
      · have e2 : P3 ≤ b.toNat ∧ b.toNat < P3 + 8 := by simp only [a, P3] at h3 ⊢; omega
        have em : 1#8 <<< (b.toNat - P3) = bitMask b := by
          unfold bitMask; rw [show b.toNat - P3 = b.toNat % 8 by simp only [a, P3] at h3 ⊢; omega]
        have ew : w.1 = putBits (f a) (bitMask b) v := by
          have h4 : ¬ (P3 = TL0 ∨ P3 = TL1 ∨ P3 = TH0 ∨ P3 = TH1) := by decide
          simp only [w, timers, h3, show P3 ≠ TMOD by decide, show P3 ≠ TCON by decide, if_neg h4, ↓reduceIte]
        have en : putBits (f1 P3) (bitMask b) v = f1 P3 := by rw [← h3, f1a, ew, putIdem]
        have ek : k = ({ w.2.1 with rest := (Q.bitWr w.2.1.rest f1 b.toNat v).1 }, guard f1 (Q.bitWr w.2.1.rest f1 b.toNat v).2) := by
          simp only [k, timers, if_neg e1, if_pos e2, em, en, ↓reduceIte]
        have s2 : Same f1 f2 := by
          show Same f1 (protect f1 k.2)
          rw [ek]; exact same_protect (same_guard _ _)
        have hk : CohI k.1 f1 := by rw [ek]; exact hcw.same (Same.refl _) _
        refine hk.same (s2.trans ?_) k.1.rest
        refine ⟨upd_ne _ _ nT.symm, by rw [upd_ne _ _ (Ne.symm h2)], ?_⟩
        rw [← h3, upd_same, h3, s2.p3, en]
      · have e2 : ¬ (P3 ≤ b.toNat ∧ b.toNat < P3 + 8) := by simp only [a, P3] at h3 ⊢; omega
        have ek : k = ({ w.2.1 with rest := (Q.bitWr w.2.1.rest f1 b.toNat v).1 }, guard f1 (Q.bitWr w.2.1.rest f1 b.toNat v).2) := by
          simp only [k, timers, if_neg e1, if_neg e2]
        have s2 : Same f1 f2 := by
          show Same f1 (protect f1 k.2)
          rw [ek]; exact same_protect (same_guard _ _)
        have hk : CohI k.1 f1 := by rw [ek]; exact hcw.same (Same.refl _) _
        exact hk.same (s2.trans (same_upd _ _ _ nT h2 h3)) k.1.rest
  · intro h f hc
    obtain ⟨r0, r1⟩ := timers_tick Q h f
    have s0 : Same f (Tmr.tick cfg0 1 (h.t0, f)).2 := same_fr r0 (by decide) (by decide) (by decide) (by decide)
    have s1 := same_fr r1 (by decide) (by decide) (by decide) (by decide)
    have s2 := same_protect ((s0.trans s1).trans (same_guard _ (Q.tick h.rest (Tmr.tick cfg1 1 (h.t1, (Tmr.tick cfg0 1 (h.t0, f)).2)).2).2))
    exact ⟨hc.1.same tr0 s2 ⟨_, _, r0.t⟩, hc.2.same tr1 s2 ⟨_, _, r1.t⟩⟩

end Ucsim.S51
