import Verif.Proof.S51Timer
import Verif.Spec.S51Xint

/- The interrupt logic follows its registers. -/
namespace Ucsim.S51
open Spec

variable {D : Type}

/-- What the logic depends on is unchanged. -/
structure SameX (f f' : Nat → Byte) : Prop where
  tcon : f' TCON &&& 0x05#8 = f TCON &&& 0x05#8
  p3 : f' P3 = f P3

theorem SameX.refl (f : Nat → Byte) : SameX f f := ⟨rfl, rfl⟩
theorem SameX.trans {f g h : Nat → Byte} (a : SameX f g) (b : SameX g h) : SameX f h := ⟨b.tcon.trans a.tcon, b.p3.trans a.p3⟩

/-- As XCoherent, with masks. -/
structure XI (h : XDev D) (f : Nat → Byte) : Prop where
  it0 : h.it0 = (f TCON &&& 0x01#8 != 0#8)
  it1 : h.it1 = (f TCON &&& 0x04#8 != 0#8)
  int0 : h.int0 = (h.pins &&& f P3 &&& 0x04#8 != 0#8)
  int1 : h.int1 = (h.pins &&& f P3 &&& 0x08#8 != 0#8)

theorem itMask {x y : Byte} (h : x &&& 0x05#8 = y &&& 0x05#8) : (x &&& 0x01#8 = y &&& 0x01#8) ∧ (x &&& 0x04#8 = y &&& 0x04#8) := by
  have e1 : (0x01#8 : Byte) = 0x05#8 &&& 0x01#8 := by decide
  have e4 : (0x04#8 : Byte) = 0x05#8 &&& 0x04#8 := by decide
  constructor
  · rw [e1, ← BitVec.and_assoc, ← BitVec.and_assoc, h]
  · rw [e4, ← BitVec.and_assoc, ← BitVec.and_assoc, h]

theorem XI.same {h : XDev D} {f f' : Nat → Byte} (hc : XI h f) (hs : SameX f f') (r : D) : XI { h with rest := r } f' := by
  obtain ⟨e1, e4⟩ := itMask hs.tcon
  exact ⟨by rw [e1]; exact hc.it0, by rw [e4]; exact hc.it1, by rw [hs.p3]; exact hc.int0, by rw [hs.p3]; exact hc.int1⟩

theorem sameX_guard (f r : Nat → Byte) : SameX f (guardX f r) := by
  refine ⟨?_, by simp [guardX]⟩
  have e : guardX f r TCON = (r TCON &&& 0xf0#8) ||| (f TCON &&& 0x0f#8) := by simp [guardX, TCON, P3]
  rw [e, and_or, BitVec.and_assoc, BitVec.and_assoc, show 0xf0#8 &&& 0x05#8 = 0#8 by decide, BitVec.and_zero, BitVec.zero_or,
    show 0x0f#8 &&& 0x05#8 = 0x05#8 by decide]

theorem sameX_protect {f r : Nat → Byte} (h : SameX f r) : SameX f (protect f r) := by
  refine ⟨?_, ?_⟩
  · simpa [protect, isCore, TCON] using h.tcon
  · simpa [protect, isCore, P3] using h.p3

theorem sameX_upd (f : Nat → Byte) (a : Nat) (v : Byte) (h2 : a ≠ TCON) (h3 : a ≠ P3) : SameX f (upd f a v) :=
  ⟨by rw [upd_ne _ _ h2.symm], upd_ne _ _ h3.symm⟩

/-- Requests do not touch the mode bits. -/
theorem level_it (h : XDev D) (t : Byte) : h.level t &&& 0x05#8 = t &&& 0x05#8 := by
  have k : ∀ (a m : Byte), m &&& 0x05#8 = 0#8 → (a ||| m) &&& 0x05#8 = a &&& 0x05#8 := by
    intro a m hm; rw [and_or, hm, BitVec.or_zero]
  unfold XDev.level
  dsimp only
  split <;> split <;> (try rfl) <;> (repeat rw [k _ _ (by decide)])

theorem edge_it (h : XDev D) (o n t : Byte) : h.edge o n t &&& 0x05#8 = t &&& 0x05#8 := by
  have k : ∀ (a m : Byte), m &&& 0x05#8 = 0#8 → (a ||| m) &&& 0x05#8 = a &&& 0x05#8 := by
    intro a m hm; rw [and_or, hm, BitVec.or_zero]
  unfold XDev.edge
  dsimp only
  split <;> split <;> (try rfl) <;> (repeat rw [k _ _ (by decide)])

theorem xi_tcon (h : XDev D) (f : Nat → Byte) (v : Byte) (hc : XI h f) : XI (h.wrTcon v) (upd f TCON v) := by
  refine ⟨?_, ?_, ?_, ?_⟩
  · rw [upd_same]; rfl
  · rw [upd_same]; rfl
  · rw [upd_ne _ _ (by decide)]; exact hc.int0
  · rw [upd_ne _ _ (by decide)]; exact hc.int1

theorem xi_latch (h : XDev D) (f : Nat → Byte) (v : Byte) (hc : XI h f) :
    XI (h.latch f v).1 (upd (h.latch f v).2 P3 v) := by
  unfold XDev.latch
  split
  · rename_i hv
    have : upd f P3 v = f := by funext a; unfold upd; split <;> simp_all
    rw [this]; exact hc
  · have e : ∀ w, upd (upd f TCON w) P3 v TCON = w := by intro w; rw [upd_ne _ _ (by decide), upd_same]
    obtain ⟨e1, e4⟩ := itMask (edge_it h (h.pins &&& f P3) (h.pins &&& v) (f TCON))
    refine ⟨?_, ?_, ?_, ?_⟩
    · rw [e, e1]; exact hc.it0
    · rw [e, e4]; exact hc.it1
    · rw [upd_same]; rfl
    · rw [upd_same]; rfl

theorem latch_sfr (h : XDev D) (f : Nat → Byte) (v : Byte) (a : Nat) (ha : a ≠ TCON) : (h.latch f v).2 a = f a := by
  unfold XDev.latch; split
  · rfl
  · exact upd_ne _ _ ha
theorem latch_same (h : XDev D) (f : Nat → Byte) : h.latch f (f P3) = (h, f) := by unfold XDev.latch; rw [if_pos rfl]
theorem latch_it (h : XDev D) (f : Nat → Byte) (v : Byte) : (h.latch f v).2 TCON &&& 0x05#8 = f TCON &&& 0x05#8 := by
  unfold XDev.latch; split
  · rfl
  · show upd f TCON (h.edge (h.pins &&& f P3) (h.pins &&& v) (f TCON)) TCON &&& 0x05#8 = _
    rw [upd_same, edge_it]

theorem protect_ne {f r : Nat → Byte} {a : Nat} (h : isCore a = false) : protect f r a = r a := by simp [protect, h]

theorem xi_congr {h : XDev D} {f f' : Nat → Byte} (hc : XI h f) (h1 : f' TCON = f TCON) (h2 : f' P3 = f P3) : XI h f' :=
  hc.same ⟨by rw [h1], h2⟩ h.rest

theorem xi_wr (Q : Hw D) (h : XDev D) (f : Nat → Byte) (a : Nat) (v : Byte) (hc : XI h f) :
    XI ((xint Q).sfrWr h f a v).2.1 (upd (protect f ((xint Q).sfrWr h f a v).2.2) a ((xint Q).sfrWr h f a v).1) := by
  have hg := fun r => hc.same (sameX_guard f r) (Q.sfrWr h.rest f a v).2.1
  by_cases h1 : a = TCON
  · subst h1
    simp only [xint, ↓reduceIte]
    refine xi_congr (xi_tcon _ _ v (hg (Q.sfrWr h.rest f TCON v).2.2)) ?_ ?_
    · rw [upd_same, upd_same]
    · rw [upd_ne _ _ (by decide), upd_ne _ _ (by decide), protect_ne (by decide)]
  · by_cases h2 : a = P3
    · subst h2
      simp only [xint, ↓reduceIte, if_neg h1]
      refine xi_congr (xi_latch _ _ v (hg (Q.sfrWr h.rest f P3 v).2.2)) ?_ ?_
      · rw [upd_ne _ _ (by decide), upd_ne _ _ (by decide), protect_ne (by decide)]
      · rw [upd_same, upd_same]
    · simp only [xint, if_neg h1, if_neg h2]
      exact xi_congr (hg (Q.sfrWr h.rest f a v).2.2) (by rw [upd_ne _ _ (Ne.symm h1), protect_ne (by decide)])
          (by rw [upd_ne _ _ (Ne.symm h2), protect_ne (by decide)])

theorem coreX_ne {a : Nat} (h : isCore a = true) : a ≠ TCON ∧ a ≠ P3 := ⟨(core_ne h).2.1, (core_ne h).2.2⟩

/-- Hook of the bits of the interrupt logic, given that the SFR has been written. -/
theorem xi_bit (Q : Hw D) (h : XDev D) (f : Nat → Byte) (b : Byte) (v : Bool) (h8 : 0x80 ≤ b.toNat) (hc : XI h f)
    (hb : putBits (f (b.toNat / 8 * 8)) (bitMask b) v = f (b.toNat / 8 * 8)) :
    let k := (xint Q).bitWr h f b.toNat v
    let f2 := protect f k.2
    XI k.1 (upd f2 (b.toNat / 8 * 8) (putBits (f2 (b.toNat / 8 * 8)) (bitMask b) v)) := by
  intro k f2
  have put : ∀ (g : Nat → Byte), SameX f g → SameX f (upd g (b.toNat / 8 * 8) (putBits (g (b.toNat / 8 * 8)) (bitMask b) v)) := by
    intro g hg
    refine ⟨?_, ?_⟩
    · by_cases ht : b.toNat / 8 * 8 = TCON
      · rw [ht, upd_same, put_mask, hg.tcon, ← put_mask, ← ht, hb]
      · rw [upd_ne _ _ (Ne.symm ht)]; exact hg.tcon
    · by_cases ht : b.toNat / 8 * 8 = P3
      · rw [ht, upd_same, hg.p3, ← ht, hb]
      · rw [upd_ne _ _ (Ne.symm ht)]; exact hg.p3
  have sg := sameX_guard f (Q.bitWr h.rest f b.toNat v).2
  have bits : ∀ (w m : Byte) (v : Bool), m ≠ 0#8 → putBits w m v = w → (v = true → w &&& m = m) ∧ (v = false → w &&& m = 0#8) := by
    intro w m v _ e
    constructor
    · intro hv; rw [hv] at e; rw [← e]; unfold putBits
      simp only [if_true]
      rw [and_or, BitVec.and_self]
      apply BitVec.eq_of_getLsbD_eq; intro i hi; simp only [BitVec.getLsbD_or, BitVec.getLsbD_and]
      cases w.getLsbD i <;> cases m.getLsbD i <;> rfl
    · intro hv; rw [hv] at e; rw [← e]; unfold putBits
      simp only [Bool.false_eq_true, if_false]
      apply BitVec.eq_of_getLsbD_eq; intro i hi; simp only [BitVec.getLsbD_and, BitVec.getLsbD_not, BitVec.getLsbD_zero]
      simp only [hi, decide_true, Bool.true_and]
      cases w.getLsbD i <;> cases m.getLsbD i <;> rfl
  by_cases h1 : b.toNat = 0x88
  · have em : bitMask b = 0x01#8 := by unfold bitMask; rw [h1]; rfl
    have e : v = h.it0 := by
      rw [hc.it0, show f TCON = f (b.toNat / 8 * 8) by rw [h1]; rfl]
      obtain ⟨p, q⟩ := bits _ _ _ (by rw [em]; decide) hb
      rw [em] at p q
      cases v
      · rw [q rfl]; rfl
      · rw [p rfl]; rfl
    have ek : k = ({ h with rest := (Q.bitWr h.rest f b.toNat v).1 }, guardX f (Q.bitWr h.rest f b.toNat v).2) := by
      simp only [k, xint, if_pos h1]; rw [e]
    have := put f2 (by show SameX f (protect f k.2); rw [ek]; exact sameX_protect sg)
    rw [show k.1 = _ from congrArg Prod.fst ek]
    exact hc.same this _
  · by_cases h2 : b.toNat = 0x8a
    · have em : bitMask b = 0x04#8 := by unfold bitMask; rw [h2]; rfl
      have e : v = h.it1 := by
        rw [hc.it1, show f TCON = f (b.toNat / 8 * 8) by rw [h2]; rfl]
        obtain ⟨p, q⟩ := bits _ _ _ (by rw [em]; decide) hb
        rw [em] at p q
        cases v
        · rw [q rfl]; rfl
        · rw [p rfl]; rfl
      have ek : k = ({ h with rest := (Q.bitWr h.rest f b.toNat v).1 }, guardX f (Q.bitWr h.rest f b.toNat v).2) := by
        simp only [k, xint, if_neg h1, if_pos h2]; rw [e]
      have := put f2 (by show SameX f (protect f k.2); rw [ek]; exact sameX_protect sg)
      rw [show k.1 = _ from congrArg Prod.fst ek]
      exact hc.same this _
    · have ek : k = ({ h with rest := (Q.bitWr h.rest f b.toNat v).1 }, guardX f (Q.bitWr h.rest f b.toNat v).2) := by
        simp only [k, xint, if_neg h1, if_neg h2]
        split
        · rename_i h3
          have ea : b.toNat / 8 * 8 = P3 := by simp only [P3] at h3 ⊢; omega
          have em : 1#8 <<< (b.toNat - P3) = bitMask b := by
            unfold bitMask; rw [show b.toNat - P3 = b.toNat % 8 by simp only [P3] at h3 ⊢; omega]
          rw [em]
          have e3 : putBits (guardX f (Q.bitWr h.rest f b.toNat v).2 P3) (bitMask b) v = guardX f (Q.bitWr h.rest f b.toNat v).2 P3 := by
            rw [sg.p3, ← ea]; exact hb
          rw [e3, latch_same]
        · rfl
      have := put f2 (by show SameX f (protect f k.2); rw [ek]; exact sameX_protect sg)
      rw [show k.1 = _ from congrArg Prod.fst ek]
      exact hc.same this _

theorem xInv (Q : Hw D) : HwInv (xint Q) (XI (D := D)) := by
  refine ⟨?_, ?_, ?_, ?_, ?_, ?_, ?_, ?_⟩
  · intro h f a v ha hc
    obtain ⟨n2, n3⟩ := coreX_ne ha
    exact hc.same (sameX_upd f a v n2 n3) h.rest
  · intro h f v hc
    exact hc.same (sameX_upd f PCON v (by decide) (by decide)) h.rest
  · intro h f a l hc; exact hc.same (SameX.refl f) _
  · intro h f hc; exact hc.same (SameX.refl f) _
  · intro h f a v _ hc; exact xi_wr Q h f a v hc
  · intro h f b v hb hc
    obtain ⟨n2, n3⟩ := coreX_ne hb
    have e1 : ¬ b.toNat = 0x88 := by simp only [TCON] at n2; omega
    have e2 : ¬ b.toNat = 0x8a := by simp only [TCON] at n2; omega
    have e3 : ¬ (P3 ≤ b.toNat ∧ b.toNat < P3 + 8) := by simp only [P3] at n3 ⊢; omega
    simp only [xint, if_neg e1, if_neg e2, if_neg e3]
    exact hc.same (sameX_protect (sameX_guard _ _)) _
  · intro h f b v hb8 hb hc a w f1 k f2
    by_cases ha : a = TCON ∨ a = P3
    · refine xi_bit Q w.2.1 f1 b v hb8 (xi_wr Q h f a _ hc) ?_
      have f1a : f1 a = w.1 := upd_same _ _ _
      have ew : w.1 = putBits (f a) (bitMask b) v := by
        rcases ha with ha | ha
        · simp only [w, xint, ha, ↓reduceIte]
        · simp only [w, xint, ha, show P3 ≠ TCON by decide, ↓reduceIte]
      show putBits (f1 a) (bitMask b) v = f1 a
      rw [f1a, ew, putIdem]
    · have hcw : XI w.2.1 f1 := xi_wr Q h f a _ hc
      have n1 : a ≠ TCON := fun e => ha (Or.inl e)
      have n2 : a ≠ P3 := fun e => ha (Or.inr e)
      have e1 : ¬ b.toNat = 0x88 := by simp only [a, TCON] at n1; omega
      have e2 : ¬ b.toNat = 0x8a := by simp only [a, TCON] at n1; omega
      have e3 : ¬ (P3 ≤ b.toNat ∧ b.toNat < P3 + 8) := by simp only [a, P3] at n2 ⊢; omega
      have ek : k = ({ w.2.1 with rest := (Q.bitWr w.2.1.rest f1 b.toNat v).1 }, guardX f1 (Q.bitWr w.2.1.rest f1 b.toNat v).2) := by
        simp only [k, xint, if_neg e1, if_neg e2, if_neg e3]
      have s2 : SameX f1 f2 := by
        show SameX f1 (protect f1 k.2)
        rw [ek]; exact sameX_protect (sameX_guard _ _)
      rw [ek]
      exact hcw.same (s2.trans (sameX_upd _ _ _ n1 n2)) _
  · intro h f hc
    refine hc.same ?_ (Q.tick h.rest f).1
    refine sameX_protect ⟨?_, ?_⟩
    · show upd (guardX f (Q.tick h.rest f).2) TCON (h.level (guardX f (Q.tick h.rest f).2 TCON)) TCON &&& 0x05#8 = _
      rw [upd_same, level_it]; exact (sameX_guard _ _).tcon
    · show upd (guardX f (Q.tick h.rest f).2) TCON (h.level (guardX f (Q.tick h.rest f).2 TCON)) P3 = _
      rw [upd_ne _ _ (by decide)]; exact (sameX_guard _ _).p3

end Ucsim.S51
