import Verif.Props.S51Timer

/-
C48: timers as counters of external events; what the cycles of C41 are not; examples.
-/
namespace Ucsim.S51
open Spec

variable {D : Type} (Q : Hw D)

theorem next1 (l h : Byte) : let v := 256 * h.toNat + l.toNat
    256 * (next 1 l h).2.1.toNat + (next 1 l h).1.toNat = (v + 1) % 65536 ∧ (next 1 l h).2.2 = decide (v = 65535) := by
  intro v
  have l1 := l.isLt; have l2 := h.isLt
  unfold next
  simp only [show (1:Nat) ≠ 0 by decide, if_true, if_false]
  have z1 := inc_zero l; have z2 := inc_zero h
  by_cases c1 : l + 1#8 = 0#8
  · have := z1.mp c1
    rw [if_pos c1]; simp only [inc_toNat]
    refine ⟨?_, ?_⟩
    · simp only [v, BitVec.toNat_ofNat]; omega
    · by_cases c2 : h + 1#8 = 0#8
      · have := z2.mp c2; rw [c2]; simp only [v, BEq.rfl]; exact (decide_eq_true (by omega)).symm
      · have : ¬ h.toNat = 255 := fun q => c2 (z2.mpr q)
        rw [decide_eq_false (by simp only [v]; omega)]; simpa using c2
  · have : ¬ l.toNat = 255 := fun q => c1 (z1.mpr q)
    rw [if_neg c1]; simp only [inc_toNat]
    refine ⟨by simp only [v]; omega, ?_⟩
    rw [decide_eq_false (by simp only [v]; omega)]

/-- A 16 bit counter that counts `n` times. -/
theorem loop1 (c : TCfg) (g : GoodCfg c) (n : Nat) (x : TS) : let v := 256 * (x.2 c.th).toNat + (x.2 c.tl).toNat
    let y := loop (countM c 1) n x
    256 * (y.2 c.th).toNat + (y.2 c.tl).toNat = (v + n) % 65536 ∧ y.1 = { x.1 with ovf := x.1.ovf + (v + n) / 65536 } := by
  induction n generalizing x with
  | zero =>
    intro v y
    have l1 := (x.2 c.th).isLt; have l2 := (x.2 c.tl).isLt
    refine ⟨?_, ?_⟩
    · show v = (v + 0) % 65536; omega
    · rw [show (v + 0) / 65536 = 0 by omega]; rfl
  | succ n ih =>
    intro v y
    obtain ⟨c1, c2, c3, _, _⟩ := countM_spec c g 1 x
    obtain ⟨n1, n2⟩ := next1 (x.2 c.tl) (x.2 c.th)
    obtain ⟨i1, i2⟩ := ih (countM c 1 x)
    have ey : y = loop (countM c 1) n (countM c 1 x) := rfl
    rw [c2, c3, n1] at i1 i2
    have hv : v = 256 * (x.2 c.th).toNat + (x.2 c.tl).toNat := rfl
    rw [← hv] at i1 i2 n2
    rw [ey]
    have l1 := (x.2 c.th).isLt; have l2 := (x.2 c.tl).isLt
    refine ⟨by rw [i1]; omega, ?_⟩
    rw [i2, c1, n2]
    by_cases h : v = 65535
    · rw [decide_eq_true h, Bool.toNat_true, show x.1.ovf + 1 + ((v + 1) % 65536 + n) / 65536 = x.1.ovf + (v + (n + 1)) / 65536 by omega]
    · rw [decide_eq_false h, Bool.toNat_false, show (v + 1) % 65536 = v + 1 by omega, Nat.add_zero,
        show v + 1 + n = v + (n + 1) by omega]

/-- One cycle of an enabled 16 bit counter. -/
theorem cycle_count (s : St (Dev D)) (hc : Coherent s) (x : Bool) (hm : tmode s x = 1) (hen : enabled s x) (hct : isCounter s x = true) :
    256 * th (cycles Q 1 s) x + tl (cycles Q 1 s) x = (256 * th s x + tl s x + uncounted s x) % 65536 ∧
    uncounted (cycles Q 1 s) x = 0 ∧
    overflows (cycles Q 1 s) x = overflows s x + (256 * th s x + tl s x + uncounted s x) / 65536 := by
  cases x with
  | false =>
    have e : after0 s = loop (countM cfg0 1) s.hw.t0.edge ({ s.hw.t0 with edge := 0 }, s.sfr) := by
      have := tick_count cfg0 1 (s.hw.t0, s.sfr) (by show s.hw.t0.mode < 3; rw [hc.1.mode, hm]; decide) (hc.1.tr.trans hen.1)
        (by show s.hw.t0.gate = true → s.hw.t0.int = true; rw [hc.1.gate, hc.1.int]; exact hen.2) (hc.1.ct.trans hct)
      rw [show (s.hw.t0, s.sfr).1.mode = 1 from hc.1.mode.trans hm] at this; exact this
    obtain ⟨a, b⟩ := loop1 cfg0 good0 s.hw.t0.edge ({ s.hw.t0 with edge := 0 }, s.sfr)
    rw [← e] at a b
    have b1 : (cycles Q 1 s).sfr TL0 = (after0 s).2 TL0 := cycle_sfr0 Q s TL0 (Or.inl rfl)
    have b2 : (cycles Q 1 s).sfr TH0 = (after0 s).2 TH0 := cycle_sfr0 Q s TH0 (Or.inr rfl)
    refine ⟨?_, ?_, ?_⟩
    · show 256 * ((cycles Q 1 s).sfr TH0).toNat + ((cycles Q 1 s).sfr TL0).toNat = _
      rw [b1, b2]; exact a
    · show (after0 s).1.edge = 0; rw [b]
    · show (after0 s).1.ovf = _; rw [b]; rfl
  | true =>
    have q1 : (after0 s).2 TL1 = s.sfr TL1 := after0_sfr1 s _ (Or.inl rfl)
    have q2 : (after0 s).2 TH1 = s.sfr TH1 := after0_sfr1 s _ (Or.inr rfl)
    have e : after1 s = loop (countM cfg1 1) s.hw.t1.edge ({ s.hw.t1 with edge := 0 }, (after0 s).2) := by
      have := tick_count cfg1 1 (s.hw.t1, (after0 s).2) (by show s.hw.t1.mode < 3; rw [hc.2.mode, hm]; decide) (hc.2.tr.trans hen.1)
        (by show s.hw.t1.gate = true → s.hw.t1.int = true; rw [hc.2.gate, hc.2.int]; exact hen.2) (hc.2.ct.trans hct)
      rw [show (s.hw.t1, (after0 s).2).1.mode = 1 from hc.2.mode.trans hm] at this; exact this
    obtain ⟨a, b⟩ := loop1 cfg1 good1 s.hw.t1.edge ({ s.hw.t1 with edge := 0 }, (after0 s).2)
    rw [← e] at a b
    have a' : 256 * ((after1 s).2 TH1).toNat + ((after1 s).2 TL1).toNat =
        (256 * ((after0 s).2 TH1).toNat + ((after0 s).2 TL1).toNat + s.hw.t1.edge) % 65536 := a
    have b' : (after1 s).1 = { s.hw.t1 with edge := 0, ovf := s.hw.t1.ovf +
        (256 * ((after0 s).2 TH1).toNat + ((after0 s).2 TL1).toNat + s.hw.t1.edge) / 65536 } := b
    rw [q1, q2] at a' b'
    have b1 : (cycles Q 1 s).sfr TL1 = (after1 s).2 TL1 := cycle_sfr Q s TL1 (by simp)
    have b2 : (cycles Q 1 s).sfr TH1 = (after1 s).2 TH1 := cycle_sfr Q s TH1 (by simp)
    refine ⟨?_, ?_, ?_⟩
    · show 256 * ((cycles Q 1 s).sfr TH1).toNat + ((cycles Q 1 s).sfr TL1).toNat = _
      rw [b1, b2]; exact a'
    · show (after1 s).1.edge = 0; rw [b']
    · show (after1 s).1.ovf = _; rw [b']; rfl

theorem tbit : ∀ v : Byte, (v &&& cfg0.mT != 0#8) = v.getLsbD 4 ∧ (v &&& cfg1.mT != 0#8) = v.getLsbD 5 ∧
    (v &&& cfg0.mT = 0#8 ↔ v.getLsbD 4 = false) ∧ (v &&& cfg1.mT = 0#8 ↔ v.getLsbD 5 = false) := by decide +kernel

/-- What the outside does to the pins. -/
theorem drive_spec (s : St (Dev D)) (l : List Byte) (x : Bool) :
    uncounted (drive Q s l) x = uncounted s x + rising s x l ∧ (drive Q s l).sfr = s.sfr ∧
    overflows (drive Q s l) x = overflows s x := by
  induction l generalizing s with
  | nil => exact ⟨rfl, rfl, rfl⟩
  | cons v l ih =>
    have e : drive Q s (v :: l) = drive Q (ev Q s (.pins v)) l := rfl
    obtain ⟨i1, i2, i3⟩ := ih (ev Q s (.pins v))
    have f1 : (ev Q s (.pins v)).sfr = s.sfr := rfl
    have f2 : (ev Q s (.pins v)).hw.pins = v := by
      show (s.hw.setPins (s.sfr 0xb0) v).pins = v
      unfold Dev.setPins; split
      · assumption
      · rfl
    have f3 : uncounted (ev Q s (.pins v)) x = uncounted s x + (if pinT s x s.hw.pins = false ∧ pinT s x v = true then 1 else 0) := by
      cases x with
      | false =>
        show (s.hw.setPins (s.sfr 0xb0) v).t0.edge = s.hw.t0.edge + (if (s.hw.pins &&& s.sfr 0xb0).getLsbD 4 = false ∧ (v &&& s.sfr 0xb0).getLsbD 4 = true then 1 else 0)
        unfold Dev.setPins
        split
        · rename_i hv; rw [hv, if_neg (by intro h; rw [h.1] at h; cases h.2)]; rfl
        · show (if (v &&& s.sfr 0xb0) &&& cfg0.mT != 0#8 ∧ (s.hw.pins &&& s.sfr 0xb0) &&& cfg0.mT = 0#8 then s.hw.t0.edge + 1 else s.hw.t0.edge) = _
          have r1 := (tbit (v &&& s.sfr 0xb0)).1
          have r2 := (tbit (s.hw.pins &&& s.sfr 0xb0)).2.2.1
          by_cases hp : (v &&& s.sfr 0xb0).getLsbD 4 = true
          · by_cases hq : (s.hw.pins &&& s.sfr 0xb0).getLsbD 4 = false
            · rw [if_pos ⟨by rw [r1]; exact hp, r2.mpr hq⟩, if_pos ⟨hq, hp⟩]
            · rw [if_neg (fun h => hq (r2.mp h.2)), if_neg (fun h => hq h.1)]; rfl
          · rw [if_neg (fun h => hp (by rw [← r1]; exact h.1)), if_neg (fun h => hp h.2)]; rfl
      | true =>
        show (s.hw.setPins (s.sfr 0xb0) v).t1.edge = s.hw.t1.edge + (if (s.hw.pins &&& s.sfr 0xb0).getLsbD 5 = false ∧ (v &&& s.sfr 0xb0).getLsbD 5 = true then 1 else 0)
        unfold Dev.setPins
        split
        · rename_i hv; rw [hv, if_neg (by intro h; rw [h.1] at h; cases h.2)]; rfl
        · show (if (v &&& s.sfr 0xb0) &&& cfg1.mT != 0#8 ∧ (s.hw.pins &&& s.sfr 0xb0) &&& cfg1.mT = 0#8 then s.hw.t1.edge + 1 else s.hw.t1.edge) = _
          have r1 := (tbit (v &&& s.sfr 0xb0)).2.1
          have r2 := (tbit (s.hw.pins &&& s.sfr 0xb0)).2.2.2
          by_cases hp : (v &&& s.sfr 0xb0).getLsbD 5 = true
          · by_cases hq : (s.hw.pins &&& s.sfr 0xb0).getLsbD 5 = false
            · rw [if_pos ⟨by rw [r1]; exact hp, r2.mpr hq⟩, if_pos ⟨hq, hp⟩]
            · rw [if_neg (fun h => hq (r2.mp h.2)), if_neg (fun h => hq h.1)]; rfl
          · rw [if_neg (fun h => hp (by rw [← r1]; exact h.1)), if_neg (fun h => hp h.2)]; rfl
    have f4 : overflows (ev Q s (.pins v)) x = overflows s x := by
      have : (s.hw.setPins (s.sfr 0xb0) v).t0.ovf = s.hw.t0.ovf ∧ (s.hw.setPins (s.sfr 0xb0) v).t1.ovf = s.hw.t1.ovf := by
        unfold Dev.setPins; split <;> exact ⟨rfl, rfl⟩
      cases x
      · exact this.1
      · exact this.2
    rw [e, i1, i2, i3, f3, f1, f4]
    refine ⟨?_, rfl, rfl⟩
    have hp : ∀ w, pinT (ev Q s (.pins v)) x w = pinT s x w := fun w => rfl
    unfold rising
    rw [f2]
    simp only [List.map_cons, changes, hp]
    rw [show (List.map (pinT (ev Q s (.pins v)) x) l) = List.map (pinT s x) l from rfl]
    omega

/-- C48, the true part: a 16 bit counter that is enabled counts every rising edge that
came since the last cycle, exactly once, and nothing else. -/
theorem c48_rising_partial (s : St (Dev D)) (hc : Coherent s) (x : Bool) (hm : tmode s x = 1) (hct : isCounter s x = true)
    (h0 : uncounted s x = 0) (l : List Byte) (hen : enabled (drive Q s l) x) (n : Nat) :
    let s' := cycles Q (n + 1) (drive Q s l)
    256 * th s' x + tl s' x = (256 * th s x + tl s x + rising s x l) % 65536 ∧ uncounted s' x = 0 ∧
    overflows s' x = overflows s x + (256 * th s x + tl s x + rising s x l) / 65536 := by
  obtain ⟨d1, d2, d3⟩ := drive_spec Q s l x
  have hcd : Coherent (drive Q s l) := c47_coherent Q s hc _
  have eh : ∀ y, half (drive Q s l) y = half s y := by intro y; unfold half; rw [d2]
  have em : tmode (drive Q s l) x = 1 := by unfold tmode; rw [eh]; exact hm
  have ec : isCounter (drive Q s l) x = true := by unfold isCounter; rw [eh]; exact hct
  have el : tl (drive Q s l) x = tl s x := by unfold tl; rw [d2]
  have eh' : th (drive Q s l) x = th s x := by unfold th; rw [d2]
  induction n with
  | zero =>
    have := cycle_count Q (drive Q s l) hcd x em hen ec
    rw [d1, d3, el, eh', h0, Nat.zero_add] at this
    exact this
  | succ n ih =>
    intro s'
    obtain ⟨i1, i2, i3⟩ := ih
    -- the state before the last cycle
    have es : s' = cycles Q 1 (cycles Q (n + 1) (drive Q s l)) := by
      show cycles Q (n + 1 + 1) _ = _; rw [cycles_add]
    have inv : ∀ k, Coherent (cycles Q k (drive Q s l)) ∧ tmode (cycles Q k (drive Q s l)) x = 1 ∧
        isCounter (cycles Q k (drive Q s l)) x = true ∧ enabled (cycles Q k (drive Q s l)) x := by
      intro k
      induction k with
      | zero => exact ⟨hcd, em, ec, hen⟩
      | succ k ihk =>
        rw [cycles_add Q k 1]
        exact ⟨cycle_coherent Q _ ihk.1, (cycle_mode Q _ x).trans ihk.2.1, (cycle_counter Q _ x).trans ihk.2.2.1,
          (cycle_enabled Q _ x).mpr ihk.2.2.2⟩
    obtain ⟨v1, v2, v3, v4⟩ := inv (n + 1)
    have := cycle_count Q _ v1 x v2 v4 v3
    rw [i1, i2, i3] at this
    rw [es]
    obtain ⟨t1, t2, t3⟩ := this
    refine ⟨?_, t2, ?_⟩
    · rw [t1]; omega
    · rw [t3]; omega

/-! ### A machine with timers -/

namespace Demo

/-- Timer registers as given, pins high. -/
def tst (prog : List Byte) (tmod tcon tl0 th0 ie : Byte) : St (Dev Unit) where
  pc := 0
  instPC := 0
  iram := fun _ => 0#8
  sfr := fun x => if x = 0x89 then tmod else if x = 0x88 then tcon else if x = 0x8a then tl0 else if x = 0x8c then th0
    else if x = 0xb0 then 0xff#8 else if x = 0xa8 then ie else if x = 0x81 then 7#8 else 0#8
  xram := fun _ => 0#8
  rom := fun x => prog.getD x 0#8
  bank := 0
  wasReti := false
  state := .go
  levels := []
  cyc := 0
  total := 0
  hw := ⟨((⟨0, false, false, false, true, 0, 0⟩ : Tmr).wrTmod cfg0 tmod).wrTcon cfg0 tcon, ((⟨0, false, false, false, true, 0, 0⟩ : Tmr).wrTmod cfg1 tmod).wrTcon cfg1 tcon, 0xff#8, ()⟩

theorem tst_coherent (prog : List Byte) (tmod tcon tl0 th0 ie : Byte) : Coherent (tst prog tmod tcon tl0 th0 ie) := by
  rw [coherent_iff]
  exact ⟨⟨rfl, rfl, rfl, rfl, by show true = (0xff#8 &&& 0xff#8 &&& cfg0.mINT != 0#8); decide⟩, ⟨rfl, rfl, rfl, rfl, by show true = (0xff#8 &&& 0xff#8 &&& cfg1.mINT != 0#8); decide⟩⟩

end Demo

/-- Mode 1: from 0xffff in one cycle to 0, overflow. -/
example : Counts (Demo.tst [] 0x01#8 0x10#8 0xff#8 0xff#8 0#8) false 1 :=
  ⟨Demo.tst_coherent _ _ _ _ _ _, by decide, ⟨by decide, by decide⟩, by decide⟩
example : let s := cycles Demo.hw 1 (Demo.tst [] 0x01#8 0x10#8 0xff#8 0xff#8 0#8)
    tl s false = 0 ∧ th s false = 0 ∧ flag s false = true ∧ overflows s false = 1 := by
  refine ⟨?_, ?_, ?_, ?_⟩ <;> decide
/-- Mode 0 and 2, timer 1. -/
example : Counts (Demo.tst [] 0x20#8 0x40#8 0#8 0#8 0#8) true 2 :=
  ⟨Demo.tst_coherent _ _ _ _ _ _, by decide, ⟨by decide, by decide⟩, by decide⟩
example : Counts (Demo.tst [] 0x00#8 0x40#8 0#8 0#8 0#8) true 0 :=
  ⟨Demo.tst_coherent _ _ _ _ _ _, by decide, ⟨by decide, by decide⟩, by decide⟩
/-- Gated off: GATE is set, INT0 low. -/
example : let s := drive Demo.hw (Demo.tst [] 0x09#8 0x10#8 0#8 0#8 0#8) [0xfb#8]
    Coherent s ∧ ¬ enabled s false ∧ tmode s false ≠ 3 :=
  ⟨c47_coherent _ _ (Demo.tst_coherent _ _ _ _ _ _) _, fun h => absurd (h.2 (by decide)) (by decide), by decide⟩
/-- Mode 3. -/
example : let s := Demo.tst [] 0x33#8 0x50#8 0xff#8 0xfe#8 0#8
    tmode s false = 3 ∧ isCounter s false = false ∧ enabled s false ∧ runBit s true = true ∧ tmode s true = 3 :=
  ⟨by decide, by decide, ⟨by decide, by decide⟩, by decide, by decide⟩
/-- Counter: two rising edges. -/
example : let s := Demo.tst [] 0x05#8 0x10#8 0#8 0#8 0#8
    tmode s false = 1 ∧ isCounter s false = true ∧ uncounted s false = 0 ∧
    enabled (drive Demo.hw s [0xef#8, 0xff#8, 0x00#8, 0x10#8]) false ∧ rising s false [0xef#8, 0xff#8, 0x00#8, 0x10#8] = 2 :=
  ⟨by decide, by decide, by decide, ⟨by decide, by decide⟩, by decide⟩

/-- C48 is false: a falling edge on the pin of a running counter is not counted ... -/
theorem c48_falling_false : let s := Demo.tst [] 0x05#8 0x10#8 0#8 0#8 0#8
    enabled (drive Demo.hw s [0xef#8]) false ∧ isCounter s false = true ∧ falling s false [0xef#8] = 1 ∧
    ∀ n, 256 * th (cycles Demo.hw (n + 1) (drive Demo.hw s [0xef#8])) false + tl (cycles Demo.hw (n + 1) (drive Demo.hw s [0xef#8])) false = 0 := by
  refine ⟨⟨by decide, by decide⟩, by decide, by decide, fun n => ?_⟩
  have := (c48_rising_partial Demo.hw (Demo.tst [] 0x05#8 0x10#8 0#8 0#8 0#8) (Demo.tst_coherent _ _ _ _ _ _) false (by decide)
    (by decide) (by decide) [0xef#8] ⟨by decide, by decide⟩ n).1
  rw [this]; decide

/-- ... and edges that come while GATE keeps the counter stopped are counted when the
gate opens. -/
theorem c48_gate_false : let s := Demo.tst [] 0x0d#8 0x10#8 0#8 0#8 0#8
    let g := drive Demo.hw s [0xfb#8, 0xeb#8, 0xfb#8]
    ¬ enabled (drive Demo.hw s [0xfb#8]) false ∧ ¬ enabled (drive Demo.hw s [0xfb#8, 0xeb#8]) false ∧ ¬ enabled g false ∧
    tl (cycles Demo.hw 5 g) false = 0 ∧ tl (cycles Demo.hw 1 (drive Demo.hw (cycles Demo.hw 5 g) [0xff#8])) false = 1 := by
  refine ⟨fun h => absurd (h.2 (by decide)) (by decide), fun h => absurd (h.2 (by decide)) (by decide),
    fun h => absurd (h.2 (by decide)) (by decide), by decide +kernel, by decide +kernel⟩

theorem idle_step {H : Type} (P : Hw H) (s : St H) (h1 : s.state = .idle) (h2 : s.wasReti = false) (h3 : s.sfr IE = 0#8)
    (h4 : s.sfr PCON = 1#8) (h5 : P.stopSelfjump = false) :
    (doInst P s).2 = { s with cyc := s.cyc + 1, total := s.total + 1 } := by
  have e : (runPart P s).2 = { s with cyc := s.cyc + 1, total := s.total + 1 } := by
    unfold runPart; rw [if_neg (by rw [h1]; decide)]; rfl
  simp only [doInst, e, h5, Bool.false_eq_true, and_false, if_false]
  have d : doInterrupt P { s with cyc := s.cyc + 1, total := s.total + 1 } = (.go, { s with cyc := s.cyc + 1, total := s.total + 1 }) := by
    unfold doInterrupt
    rw [if_neg (by rw [h2]; simp), if_pos (by rw [h3]; decide)]
  rw [d]
  simp only [if_true, idlePd, h4]
  cases P.cmos
  · simp
  · simp only [if_true, show ((1#8 &&& 1#8 != 0#8) = true) by decide, show ((1#8 &&& 2#8 != 0#8) = false) by decide, Bool.false_eq_true,
      if_false]
    rw [← h1]

/-- C41 is false if cycles are what the simulator counts: after MOV PCON,#1 the processor
waits in Idle, cycles are counted, the timer does not run. -/
theorem c41_idle_false : let s := Demo.tst [0x75#8, 0x87#8, 0x01#8] 0x01#8 0x10#8 0#8 0#8 0#8
    ∀ n, (steps (timers Demo.hw) (n + 1) s).total = 2 + n ∧ tl (steps (timers Demo.hw) (n + 1) s) false = 2 ∧
      enabled (steps (timers Demo.hw) (n + 1) s) false := by
  intro s n
  have key : ∀ n, (steps (timers Demo.hw) (n + 1) s).total = 2 + n ∧ (steps (timers Demo.hw) (n + 1) s).state = .idle ∧
      (steps (timers Demo.hw) (n + 1) s).wasReti = false ∧
      (steps (timers Demo.hw) (n + 1) s).sfr = (steps (timers Demo.hw) 1 s).sfr ∧
      (steps (timers Demo.hw) (n + 1) s).hw = (steps (timers Demo.hw) 1 s).hw := by
    intro n
    induction n with
    | zero => exact ⟨by decide +kernel, by decide +kernel, by decide +kernel, rfl, rfl⟩
    | succ n ih =>
      obtain ⟨a, b, c, d, e⟩ := ih
      have := idle_step (timers Demo.hw) _ b c (by rw [d]; decide +kernel) (by rw [d]; decide +kernel) rfl
      have es : steps (timers Demo.hw) (n + 1 + 1) s = (doInst (timers Demo.hw) (steps (timers Demo.hw) (n + 1) s)).2 := rfl
      rw [es, this]
      exact ⟨by show (steps (timers Demo.hw) (n + 1) s).total + 1 = _; omega, b, c, d, e⟩
  obtain ⟨a, _, _, d, e⟩ := key n
  refine ⟨a, ?_, ?_⟩
  · unfold tl; rw [d]; decide +kernel
  · unfold enabled runBit gated half port3; rw [d, e]; exact ⟨by decide +kernel, by decide +kernel⟩

/-- Likewise the cycle that accepting an interrupt takes: EI'd timer 1 overflow pending,
one NOP executed, two cycles counted, the timer advanced by one. -/
theorem c41_accept_false : let s := Demo.tst [0#8] 0x01#8 0x90#8 0#8 0#8 0x88#8
    (doInst (timers Demo.hw) s).1 = .interrupt ∧ (doInst (timers Demo.hw) s).2.total = 2 ∧ tl (doInst (timers Demo.hw) s).2 false = 1 := by
  refine ⟨?_, ?_, ?_⟩ <;> decide +kernel

/-! A program that satisfies c41_program: SJMP $. -/

structure Loops (s : St (Dev Unit)) : Prop where
  pc : s.pc = 0
  r0 : s.rom 0 = 0x80#8
  r1 : s.rom 1 = 0xfe#8
  st : s.state = .go
  wr : s.wasReti = false
  ie : s.sfr IE = 0#8
  pcon : s.sfr PCON = 0#8

theorem loops_exec (s : St (Dev Unit)) (h : Loops s) : (execInst (timers Demo.hw) s).2 = { s with cyc := s.cyc + 1 + 1, total := s.total + 1 + 1 } := by
  have e1 : fetch (timers Demo.hw) s = (0x80#8, { s with pc := 1 }) := by
    simp [fetch, bind_def, getPC, romRead, setPC, pure_def, h.pc, h.r0]
  have e2 : ∀ c t, fetch (timers Demo.hw) { s with pc := 1, cyc := c, total := t } = (0xfe#8, { s with pc := 2, cyc := c, total := t }) := by
    intro c t; simp [fetch, bind_def, getPC, romRead, setPC, pure_def, h.r1]
  unfold execInst
  simp only [bind_def, e1, show decode 0x80#8 = .sjmp by decide, exec, tick, e2, relJump, getPC, setPC]
  have : validate ((2 : Nat) + (0xfe#8).toInt) = 0 := by decide
  rw [this, ← h.pc]

theorem cycles_ie (n : Nat) (s : St (Dev Unit)) (a : Nat) (ha : a = IE ∨ a = PCON) : (cycles Demo.hw n s).sfr a = s.sfr a := by
  induction n generalizing s with
  | zero => rfl
  | succ n ih =>
    rw [cycles_succ, ih]
    have g : (cycles Demo.hw 1 s).sfr a = (after1 s).2 a := by
      show protect s.sfr (guard (after1 s).2 (after1 s).2) a = _
      rcases ha with rfl | rfl <;> simp [protect, guard, isCore, IE, PCON, TMOD, TL0, TL1, TH0, TH1, P3, TCON]
    rw [g]
    rcases ha with rfl | rfl
    · exact ((fr1 s).f _ (by decide) (by decide) (by decide)).trans ((fr0 s).f _ (by decide) (by decide) (by decide))
    · exact ((fr1 s).f _ (by decide) (by decide) (by decide)).trans ((fr0 s).f _ (by decide) (by decide) (by decide))

theorem cycles_rest (n : Nat) (s : St (Dev Unit)) : ∃ f h, cycles Demo.hw n s = { s with sfr := f, hw := h } := by
  induction n generalizing s with
  | zero => exact ⟨s.sfr, s.hw, rfl⟩
  | succ n ih => obtain ⟨f, h, e⟩ := ih (cycles Demo.hw 1 s); exact ⟨f, h, e⟩

theorem loops_step (s : St (Dev Unit)) (h : Loops s) : LeavesTimers Demo.hw s ∧ Loops (doInst (timers Demo.hw) s).2 := by
  have h0 : Loops ({ s with wasReti := false, cyc := 0 } : St (Dev Unit)) := ⟨h.pc, h.r0, h.r1, h.st, rfl, h.ie, h.pcon⟩
  have e := loops_exec _ h0
  have hr : (runPart (timers Demo.hw) s).2 = cycles Demo.hw 2 { s with wasReti := false, cyc := 2, total := s.total + 1 + 1 } := by
    unfold runPart; rw [if_pos h.st]
    show (postInst _ _).2 = _
    rw [e]; rfl
  obtain ⟨f, d, ec⟩ := cycles_rest 2 ({ s with wasReti := false, cyc := 2, total := s.total + 1 + 1 } : St (Dev Unit))
  have f1 : f IE = 0#8 := by
    have := cycles_ie 2 ({ s with wasReti := false, cyc := 2, total := s.total + 1 + 1 } : St (Dev Unit)) IE (Or.inl rfl)
    rw [ec] at this; exact this.trans h.ie
  have f2 : f PCON = 0#8 := by
    have := cycles_ie 2 ({ s with wasReti := false, cyc := 2, total := s.total + 1 + 1 } : St (Dev Unit)) PCON (Or.inr rfl)
    rw [ec] at this; exact this.trans h.pcon
  have di : doInst (timers Demo.hw) s = (.go, { s with wasReti := false, cyc := 2, total := s.total + 1 + 1, sfr := f, hw := d }) := by
    simp only [doInst, hr, ec]
    rw [if_neg (by intro x; cases x.2)]
    have dd : doInterrupt (timers Demo.hw) { s with wasReti := false, cyc := 2, total := s.total + 1 + 1, sfr := f, hw := d } =
        (.go, { s with wasReti := false, cyc := 2, total := s.total + 1 + 1, sfr := f, hw := d }) := by
      unfold doInterrupt
      rw [if_neg (by simp), if_pos (by show (f IE &&& 0x80#8 == 0#8) = true; rw [f1]; decide)]
    rw [dd]
    simp only [if_true, idlePd, f2]
    rw [show (timers Demo.hw).cmos = true from rfl]
    simp
  refine ⟨⟨h.st, ?_, ?_, ?_, ?_, ?_⟩, ?_⟩
  · intro a _; rw [e]
  · rw [e]
  · rw [e]
  · rw [e]
  · rw [di]; exact fun h => by cases h
  · rw [di]; exact ⟨h.pc, h.r0, h.r1, h.st, rfl, f1, f2⟩

/-- SJMP $ with timer 0 running in mode 1: its count is the number of machine cycles
spent, for ever. -/
example (n : Nat) : let s := Demo.tst [0x80#8, 0xfe#8] 0x01#8 0x10#8 0#8 0#8 0#8
    let s' := steps (timers Demo.hw) n s
    256 * th s' false + tl s' false = s'.total % 65536 := by
  intro s s'
  have hl : ∀ k, Loops (steps (timers Demo.hw) k s) := by
    intro k
    induction k with
    | zero => exact ⟨rfl, rfl, rfl, rfl, rfl, by decide, by decide⟩
    | succ k ih => exact (loops_step _ ih).2
  obtain ⟨_, hs⟩ := c41_program Demo.hw s n (fun k _ => (loops_step _ (hl k)).1)
  have hm := c41_mode1 Demo.hw s false ⟨Demo.tst_coherent _ _ _ _ _ _, by decide, ⟨by decide, by decide⟩, by decide⟩ (s'.total - s.total)
  have v0 : 256 * th s false + tl s false = 0 := by decide
  have ht : s.total = 0 := rfl
  rw [(hs.counts false).1, (hs.counts false).2]
  have := hm.1
  rw [v0, Nat.zero_add] at this
  rw [this, ht, Nat.sub_zero]

end Ucsim.S51
