import Verif.Proof.S51TimerEq
import Verif.S51.Demo

/-
C41, C47, C48: the timers of the 8051, with arbitrary other devices `Q`.  Vocabulary:
Spec/S51Timer.
-/
namespace Ucsim.S51
open Spec

variable {D : Type} (Q : Hw D)

/-! ### C47: the timers follow their registers -/

theorem m0 : ∀ v : Byte, modeOf cfg0 v = v.toNat / 1 % 16 % 4 := by decide +kernel
theorem m1 : ∀ v : Byte, modeOf cfg1 v = v.toNat / 16 % 16 % 4 := by decide +kernel
theorem ct0 : ∀ v : Byte, (v &&& cfg0.mCT != 0#8) = (v.toNat / 1 % 16 / 4 % 2 == 1) := by decide +kernel
theorem ct1 : ∀ v : Byte, (v &&& cfg1.mCT != 0#8) = (v.toNat / 16 % 16 / 4 % 2 == 1) := by decide +kernel
theorem gt0 : ∀ v : Byte, (v &&& cfg0.mGATE != 0#8) = (v.toNat / 1 % 16 / 8 % 2 == 1) := by decide +kernel
theorem gt1 : ∀ v : Byte, (v &&& cfg1.mGATE != 0#8) = (v.toNat / 16 % 16 / 8 % 2 == 1) := by decide +kernel
theorem rb0 : ∀ v : Byte, (v &&& cfg0.mTR != 0#8) = v.getLsbD 4 := by decide +kernel
theorem rb1 : ∀ v : Byte, (v &&& cfg1.mTR != 0#8) = v.getLsbD 6 := by decide +kernel
theorem in0 : ∀ v : Byte, (v &&& cfg0.mINT != 0#8) = v.getLsbD 2 := by decide +kernel
theorem in1 : ∀ v : Byte, (v &&& cfg1.mINT != 0#8) = v.getLsbD 3 := by decide +kernel

theorem coherent_iff (s : St (Dev D)) : Coherent s ↔ CohI s.hw s.sfr := by
  have k0 : Follows s.hw.t0 s false ↔ FollC cfg0 s.hw.t0 s.hw.pins s.sfr :=
    ⟨fun h => ⟨h.mode.trans (m0 _).symm, h.ct.trans (ct0 _).symm, h.gate.trans (gt0 _).symm, h.tr.trans (rb0 _).symm,
        h.int.trans (in0 _).symm⟩,
     fun h => ⟨h.mode.trans (m0 _), h.ct.trans (ct0 _), h.gate.trans (gt0 _), h.tr.trans (rb0 _), h.int.trans (in0 _)⟩⟩
  have k1 : Follows s.hw.t1 s true ↔ FollC cfg1 s.hw.t1 s.hw.pins s.sfr :=
    ⟨fun h => ⟨h.mode.trans (m1 _).symm, h.ct.trans (ct1 _).symm, h.gate.trans (gt1 _).symm, h.tr.trans (rb1 _).symm,
        h.int.trans (in1 _).symm⟩,
     fun h => ⟨h.mode.trans (m1 _), h.ct.trans (ct1 _), h.gate.trans (gt1 _), h.tr.trans (rb1 _), h.int.trans (in1 _)⟩⟩
  unfold Coherent CohI
  rw [k0, k1]

/-- C47: after every history of instructions, interrupts, writes from outside and pin
changes both timers work as TMOD, TCON, P3 and the pins tell. -/
theorem c47_coherent (s : St (Dev D)) (h : Coherent s) (l : List Ev) : Coherent (evs Q s l) := by
  rw [coherent_iff] at *
  unfold evs
  induction l generalizing s with
  | nil => exact h
  | cons e l ih =>
    refine ih _ ?_
    cases e with
    | act a => exact act_hw (cohInv Q) a s h
    | pins v =>
      show CohI (s.hw.setPins (s.sfr P3) v) s.sfr
      unfold Dev.setPins
      split
      · exact h
      · exact ⟨port_int h.1 _ rfl rfl, port_int h.2 _ rfl rfl⟩

/-! ### One machine cycle -/

theorem cycles_succ (n : Nat) (s : St (Dev D)) : cycles Q (n + 1) s = cycles Q n (cycles Q 1 s) := rfl

theorem cycles_add (a b : Nat) (s : St (Dev D)) : cycles Q (a + b) s = cycles Q b (cycles Q a s) := by
  induction a generalizing s with
  | zero => rw [Nat.zero_add]; rfl
  | succ a ih => rw [Nat.succ_add_eq_add_succ a b |>.trans (by omega : a + (b + 1) = (a + b) + 1), cycles_succ, ih, ← cycles_succ]

/-- State of the devices in the middle of a cycle. -/
def after0 (s : St (Dev D)) : TS := Tmr.tick cfg0 1 (s.hw.t0, s.sfr)
def after1 (s : St (Dev D)) : TS := Tmr.tick cfg1 1 (s.hw.t1, (after0 s).2)

theorem cycle_t0 (s : St (Dev D)) : (cycles Q 1 s).hw.t0 = (after0 s).1 := rfl
theorem cycle_t1 (s : St (Dev D)) : (cycles Q 1 s).hw.t1 = (after1 s).1 := rfl
theorem cycle_pins (s : St (Dev D)) : (cycles Q 1 s).hw.pins = s.hw.pins := rfl

theorem cycle_sfr (s : St (Dev D)) (a : Nat) (h : a = TL0 ∨ a = TL1 ∨ a = TH0 ∨ a = TH1) :
    (cycles Q 1 s).sfr a = (after1 s).2 a := by
  show protect s.sfr (guard (after1 s).2 _) a = _
  rcases h with rfl | rfl | rfl | rfl <;>
    simp [protect, guard, isCore, TMOD, TL0, TL1, TH0, TH1]

theorem fr0 (s : St (Dev D)) : Fr cfg0 0xa0#8 (s.hw.t0, s.sfr) (after0 s) :=
  tick_fr cfg0 good0 _ (by decide) 1 _ (fun _ => Or.inr (Or.inr (Or.inr (by decide))))
theorem fr1 (s : St (Dev D)) : Fr cfg1 0x80#8 (s.hw.t1, (after0 s).2) (after1 s) :=
  tick_fr cfg1 good1 _ (by decide) 1 _ (fun h => by cases h)

theorem cycle_sfr0 (s : St (Dev D)) (a : Nat) (h : a = TL0 ∨ a = TH0) : (cycles Q 1 s).sfr a = (after0 s).2 a := by
  rw [cycle_sfr Q s a (by rcases h with h | h <;> simp [h])]
  rcases h with rfl | rfl
  · exact (fr1 s).f _ (by decide) (by decide) (by decide)
  · exact (fr1 s).f _ (by decide) (by decide) (by decide)

theorem after0_sfr1 (s : St (Dev D)) (a : Nat) (h : a = TL1 ∨ a = TH1) : (after0 s).2 a = s.sfr a := by
  rcases h with rfl | rfl
  · exact (fr0 s).f _ (by decide) (by decide) (by decide)
  · exact (fr0 s).f _ (by decide) (by decide) (by decide)

theorem same_cycle (s : St (Dev D)) : Same s.sfr (cycles Q 1 s).sfr := by
  obtain ⟨r0, r1⟩ := timers_tick Q s.hw s.sfr
  have s0 : Same s.sfr (after0 s).2 := same_fr r0 (by decide) (by decide) (by decide) (by decide)
  have r1' : Fr cfg1 0xa0#8 (s.hw.t1, (after0 s).2) (after1 s) := r1
  have s1 : Same (after0 s).2 (after1 s).2 := same_fr (x := (s.hw.t1, (after0 s).2)) (y := after1 s) r1' (by decide) (by decide) (by decide) (by decide)
  exact same_protect ((s0.trans s1).trans (same_guard _ _))

theorem hiBits : ∀ (x y : Byte), x &&& 0xf0#8 = y &&& 0xf0#8 → x.getLsbD 5 = y.getLsbD 5 ∧ x.getLsbD 7 = y.getLsbD 7 := by
  intro x y h
  have g := fun i => congrArg (fun z : Byte => z.getLsbD i) h
  have g5 := g 5; have g7 := g 7
  simp only [BitVec.getLsbD_and] at g5 g7
  simp only [show (0xf0#8).getLsbD 5 = true by decide, show (0xf0#8).getLsbD 7 = true by decide, Bool.and_true] at g5 g7
  exact ⟨g5, g7⟩

theorem cycle_tcon (s : St (Dev D)) : ((cycles Q 1 s).sfr TCON).getLsbD 5 = ((after1 s).2 TCON).getLsbD 5 ∧
    ((cycles Q 1 s).sfr TCON).getLsbD 7 = ((after1 s).2 TCON).getLsbD 7 := by
  apply hiBits
  have e : ∀ r : Nat → Byte, protect s.sfr (guard (after1 s).2 r) TCON = ((after1 s).2 TCON &&& 0xf0#8) ||| (r TCON &&& 0x0f#8) := by
    intro r; simp [protect, guard, isCore, TCON, TMOD, TL0, TL1, TH0, TH1, P3]
  show protect s.sfr (guard (after1 s).2 _) TCON &&& 0xf0#8 = _
  rw [e, and_or, BitVec.and_assoc, BitVec.and_assoc, BitVec.and_self, show 0x0f#8 &&& 0xf0#8 = 0#8 by decide, BitVec.and_zero,
    BitVec.or_zero]

/-- Nothing but the counts changes. -/
theorem cycle_settings (s : St (Dev D)) (x : Bool) : half (cycles Q 1 s) x = half s x ∧ runBit (cycles Q 1 s) x = runBit s x ∧
    port3 (cycles Q 1 s) = port3 s := by
  have h := same_cycle Q s
  refine ⟨?_, ?_, ?_⟩
  · unfold half
    rw [show (0x89 : Nat) = TMOD from rfl, h.tmod]
  · have e : ∀ (f g : Byte), f &&& 0x50#8 = g &&& 0x50#8 → f.getLsbD 4 = g.getLsbD 4 ∧ f.getLsbD 6 = g.getLsbD 6 := by
      intro f g h
      have k := fun i => congrArg (fun z : Byte => z.getLsbD i) h
      have g4 := k 4; have g6 := k 6
      simp only [BitVec.getLsbD_and] at g4 g6
      simp only [show (0x50#8).getLsbD 4 = true by decide, show (0x50#8).getLsbD 6 = true by decide, Bool.and_true] at g4 g6
      exact ⟨g4, g6⟩
    have := e _ _ h.tcon
    cases x
    · exact this.1
    · exact this.2
  · unfold port3
    rw [cycle_pins, show (0xb0 : Nat) = P3 from rfl, h.p3]

theorem cycle_mode (s : St (Dev D)) (x : Bool) : tmode (cycles Q 1 s) x = tmode s x := by
  unfold tmode; rw [(cycle_settings Q s x).1]
theorem cycle_counter (s : St (Dev D)) (x : Bool) : isCounter (cycles Q 1 s) x = isCounter s x := by
  unfold isCounter; rw [(cycle_settings Q s x).1]
theorem cycle_enabled (s : St (Dev D)) (x : Bool) : enabled (cycles Q 1 s) x ↔ enabled s x := by
  unfold enabled gated; rw [(cycle_settings Q s x).1, (cycle_settings Q s x).2.1, (cycle_settings Q s x).2.2]
theorem cycle_coherent (s : St (Dev D)) (h : Coherent s) : Coherent (cycles Q 1 s) := by
  rw [coherent_iff] at *; exact tickHw_hw (cohInv Q) 1 s h

/-- The registers of the timer, as bytes. -/
def bl (s : St (Dev D)) (x : Bool) : Byte := s.sfr (if x then TL1 else TL0)
def bh (s : St (Dev D)) (x : Bool) : Byte := s.sfr (if x then TH1 else TH0)
theorem tl_eq (s : St (Dev D)) (x : Bool) : tl s x = (bl s x).toNat := by cases x <;> rfl
theorem th_eq (s : St (Dev D)) (x : Bool) : th s x = (bh s x).toNat := by cases x <;> rfl

theorem or_bit (a m : Byte) (i : Nat) : (a ||| m).getLsbD i = (a.getLsbD i || m.getLsbD i) := BitVec.getLsbD_or ..

theorem bit5_of_not80 (a b : Byte) (h : a &&& ~~~(0x80#8) = b &&& ~~~(0x80#8)) : a.getLsbD 5 = b.getLsbD 5 := by
  have k := congrArg (fun z : Byte => z.getLsbD 5) h
  simp only [BitVec.getLsbD_and] at k
  simpa [show (~~~(0x80#8)).getLsbD 5 = true by decide] using k
theorem bit7_of_not20 (a b : Byte) (h : a &&& ~~~(0x20#8) = b &&& ~~~(0x20#8)) : a.getLsbD 7 = b.getLsbD 7 := by
  have k := congrArg (fun z : Byte => z.getLsbD 7) h
  simp only [BitVec.getLsbD_and] at k
  simpa [show (~~~(0x20#8)).getLsbD 7 = true by decide] using k

/-- One machine cycle of an enabled timer in mode 0, 1, 2. -/
theorem cycle_run (s : St (Dev D)) (hc : Coherent s) (x : Bool) (hm : tmode s x < 3) (hen : enabled s x)
    (hct : isCounter s x = false) :
    let n := next (tmode s x) (bl s x) (bh s x)
    bl (cycles Q 1 s) x = n.1 ∧ bh (cycles Q 1 s) x = n.2.1 ∧ overflows (cycles Q 1 s) x = overflows s x + n.2.2.toNat ∧
    ((x = true → tmode s false ≠ 3) → flag (cycles Q 1 s) x = (flag s x || n.2.2)) := by
  obtain ⟨h0, h1⟩ := hc
  cases x with
  | false =>
    intro n
    have e : after0 s = countM cfg0 (tmode s false) (s.hw.t0, s.sfr) := by
      have := tick_run cfg0 (s.hw.t0, s.sfr) (by rw [h0.mode]; exact hm) (by rw [h0.tr]; exact hen.1)
        (by rw [h0.gate, h0.int]; exact hen.2) (by rw [h0.ct]; exact hct)
      rw [show (s.hw.t0, s.sfr).1.mode = tmode s false from h0.mode] at this; exact this
    obtain ⟨c1, c2, c3, c4, _⟩ := countM_spec cfg0 good0 (tmode s false) (s.hw.t0, s.sfr)
    rw [← e] at c1 c2 c3 c4
    have en : next (tmode s false) ((s.hw.t0, s.sfr).2 cfg0.tl) ((s.hw.t0, s.sfr).2 cfg0.th) = n := rfl
    rw [en] at c1 c2 c3 c4
    refine ⟨(cycle_sfr0 Q s _ (Or.inl rfl)).trans c2, (cycle_sfr0 Q s _ (Or.inr rfl)).trans c3, ?_, fun _ => ?_⟩
    · show (after0 s).1.ovf = _
      rw [c1]; rfl
    · show ((cycles Q 1 s).sfr TCON).getLsbD 5 = _
      rw [(cycle_tcon Q s).1, bit5_of_not80 _ _ (fr1 s).tcon]
      show ((after0 s).2 TCON).getLsbD 5 = _
      rw [c4]
      show _ = ((s.sfr TCON).getLsbD 5 || n.2.2)
      cases hn : n.2.2 with
      | true => rw [if_pos rfl, or_bit]; rw [show cfg0.mTF.getLsbD 5 = true by decide]
      | false => rw [if_neg (by simp)]; simp
  | true =>
    intro n
    have b1 : (after0 s).2 TL1 = s.sfr TL1 := after0_sfr1 s _ (Or.inl rfl)
    have b2 : (after0 s).2 TH1 = s.sfr TH1 := after0_sfr1 s _ (Or.inr rfl)
    have e : after1 s = countM cfg1 (tmode s true) (s.hw.t1, (after0 s).2) := by
      have := tick_run cfg1 (s.hw.t1, (after0 s).2) (by rw [h1.mode]; exact hm) (by rw [h1.tr]; exact hen.1)
        (by rw [h1.gate, h1.int]; exact hen.2) (by rw [h1.ct]; exact hct)
      rw [show (s.hw.t1, (after0 s).2).1.mode = tmode s true from h1.mode] at this; exact this
    obtain ⟨c1, c2, c3, c4, _⟩ := countM_spec cfg1 good1 (tmode s true) (s.hw.t1, (after0 s).2)
    rw [← e] at c1 c2 c3 c4
    have en : next (tmode s true) ((s.hw.t1, (after0 s).2).2 cfg1.tl) ((s.hw.t1, (after0 s).2).2 cfg1.th) = n := by
      show next _ ((after0 s).2 TL1) ((after0 s).2 TH1) = _
      rw [b1, b2]; rfl
    rw [en] at c1 c2 c3 c4
    refine ⟨(cycle_sfr Q s TL1 (by simp)).trans c2, (cycle_sfr Q s TH1 (by simp)).trans c3, ?_, fun hq => ?_⟩
    · show (after1 s).1.ovf = _
      rw [c1]; rfl
    · show ((cycles Q 1 s).sfr TCON).getLsbD 7 = _
      rw [(cycle_tcon Q s).2, c4]
      have q : ((after0 s).2 TCON).getLsbD 7 = (s.sfr TCON).getLsbD 7 := by
        apply bit7_of_not20
        have hmode : tmode s false < 4 := Nat.mod_lt _ (by decide)
        have := hq rfl
        exact (tick_fr cfg0 good0 0x20#8 (by decide) 1 (s.hw.t0, s.sfr) (fun _ => by
          rw [show (s.hw.t0, s.sfr).1.mode = tmode s false from h0.mode]; omega)).tcon
      show _ = ((s.sfr TCON).getLsbD 7 || n.2.2)
      cases hn : n.2.2 with
      | true => rw [if_pos rfl, or_bit]; rw [show cfg1.mTF.getLsbD 7 = true by decide]; simp
      | false => rw [if_neg (by simp)]; simp only [Bool.or_false]; exact q

/-! ### C41 -/

/-- The timer counts machine cycles: both timers agree with their registers (C47), it is
enabled and not a counter. -/
structure Counts (s : St (Dev D)) (x : Bool) (m : Nat) : Prop where
  coh : Coherent s
  mode : tmode s x = m
  en : enabled s x
  ct : isCounter s x = false

theorem Counts.cycle {s : St (Dev D)} {x : Bool} {m : Nat} (h : Counts s x m) : Counts (cycles Q 1 s) x m :=
  ⟨cycle_coherent Q s h.coh, (cycle_mode Q s x).trans h.mode, (cycle_enabled Q s x).mpr h.en, (cycle_counter Q s x).trans h.ct⟩

theorem inc_toNat (b : Byte) : (b + 1#8).toNat = (b.toNat + 1) % 256 := by simp
theorem inc_zero (b : Byte) : (b + 1#8 = 0#8) ↔ b.toNat = 255 := by
  have := b.isLt
  rw [← BitVec.toNat_inj, inc_toNat]; simp only [BitVec.toNat_ofNat]; omega
theorem low5 : ∀ b : Byte, (b &&& 0x1f#8 = 0#8) ↔ b.toNat % 32 = 0 := by decide +kernel

/-- C41, mode 1: a 16 bit timer. -/
theorem c41_mode1 (s : St (Dev D)) (x : Bool) (h : Counts s x 1) (n : Nat) :
    let s' := cycles Q n s
    let v := 256 * th s x + tl s x
    256 * th s' x + tl s' x = (v + n) % 65536 ∧ overflows s' x = overflows s x + (v + n) / 65536 ∧
    ((x = true → tmode s false ≠ 3) → flag s' x = (flag s x || decide (65536 ≤ v + n))) := by
  induction n generalizing s with
  | zero =>
    intro s' v
    have e : s' = s := rfl
    have l1 : tl s x < 256 := by rw [tl_eq]; exact (bl s x).isLt
    have l2 : th s x < 256 := by rw [th_eq]; exact (bh s x).isLt
    rw [e]
    refine ⟨by omega, by omega, fun _ => ?_⟩
    rw [decide_eq_false (by omega)]; simp
  | succ n ih =>
    intro s' v
    obtain ⟨a, b, c, d⟩ := cycle_run Q s h.coh x (by rw [h.mode]; decide) h.en h.ct
    rw [h.mode] at a b c d
    obtain ⟨i1, i2, i3⟩ := ih (cycles Q 1 s) (h.cycle Q)
    rw [cycle_mode Q s false] at i3
    have es : s' = cycles Q n (cycles Q 1 s) := cycles_succ Q n s
    rw [es]
    have l1 : tl s x < 256 := by rw [tl_eq]; exact (bl s x).isLt
    have l2 : th s x < 256 := by rw [th_eq]; exact (bh s x).isLt
    have key : 256 * th (cycles Q 1 s) x + tl (cycles Q 1 s) x = (v + 1) % 65536 ∧
        (next 1 (bl s x) (bh s x)).2.2 = decide (v = 65535) := by
      rw [th_eq, tl_eq, a, b]
      unfold next
      simp only [show (1:Nat) ≠ 0 by decide, if_true, if_false]
      have z1 := inc_zero (bl s x); have z2 := inc_zero (bh s x)
      rw [← tl_eq] at z1; rw [← th_eq] at z2
      by_cases c1 : bl s x + 1#8 = 0#8
      · have := z1.mp c1
        rw [if_pos c1]; simp only [inc_toNat, ← th_eq]
        refine ⟨?_, ?_⟩
        · simp only [v, BitVec.toNat_ofNat]; omega
        · by_cases c2 : bh s x + 1#8 = 0#8
          · have := z2.mp c2; rw [c2]; simp only [v, BEq.rfl]; exact (decide_eq_true (by omega)).symm
          · have : ¬ th s x = 255 := fun q => c2 (z2.mpr q)
            rw [decide_eq_false (by simp only [v]; omega)]; simpa using c2
      · have : ¬ tl s x = 255 := fun q => c1 (z1.mpr q)
        rw [if_neg c1]; simp only [inc_toNat, ← tl_eq, ← th_eq]
        refine ⟨by simp only [v]; omega, ?_⟩
        rw [decide_eq_false (by simp only [v]; omega)]
    rw [key.1] at i1 i2 i3
    refine ⟨?_, ?_, fun hq => ?_⟩
    · rw [i1]; omega
    · rw [i2, c, key.2]
      by_cases hv : v = 65535
      · rw [decide_eq_true hv]; simp only [Bool.toNat_true]; omega
      · rw [decide_eq_false hv]; simp only [Bool.toNat_false]; omega
    · rw [i3 hq, d hq, key.2]
      by_cases hv : v = 65535
      · rw [decide_eq_true hv, decide_eq_true (show 65536 ≤ v + (n + 1) by omega)]; simp
      · rw [decide_eq_false hv, show (v + 1) % 65536 = v + 1 by omega, Bool.or_false,
          show v + 1 + n = v + (n + 1) by omega]

/-- C41, mode 0: 13 bits, the lower five in TL. -/
theorem c41_mode0 (s : St (Dev D)) (x : Bool) (h : Counts s x 0) (n : Nat) :
    let s' := cycles Q n s
    let v := 32 * th s x + tl s x % 32
    32 * th s' x + tl s' x % 32 = (v + n) % 8192 ∧ overflows s' x = overflows s x + (v + n) / 8192 ∧
    ((x = true → tmode s false ≠ 3) → flag s' x = (flag s x || decide (8192 ≤ v + n))) := by
  induction n generalizing s with
  | zero =>
    intro s' v
    have e : s' = s := rfl
    have l2 : th s x < 256 := by rw [th_eq]; exact (bh s x).isLt
    rw [e]
    refine ⟨by omega, by omega, fun _ => ?_⟩
    rw [decide_eq_false (by omega)]; simp
  | succ n ih =>
    intro s' v
    obtain ⟨a, b, c, d⟩ := cycle_run Q s h.coh x (by rw [h.mode]; decide) h.en h.ct
    rw [h.mode] at a b c d
    obtain ⟨i1, i2, i3⟩ := ih (cycles Q 1 s) (h.cycle Q)
    rw [cycle_mode Q s false] at i3
    have es : s' = cycles Q n (cycles Q 1 s) := cycles_succ Q n s
    rw [es]
    have l1 : tl s x < 256 := by rw [tl_eq]; exact (bl s x).isLt
    have l2 : th s x < 256 := by rw [th_eq]; exact (bh s x).isLt
    have key : 32 * th (cycles Q 1 s) x + tl (cycles Q 1 s) x % 32 = (v + 1) % 8192 ∧
        (next 0 (bl s x) (bh s x)).2.2 = decide (v = 8191) := by
      rw [th_eq, tl_eq, a, b]
      unfold next
      simp only [if_true]
      have z1 := low5 (bl s x + 1#8); have z2 := inc_zero (bh s x)
      rw [inc_toNat, ← tl_eq] at z1; rw [← th_eq] at z2
      by_cases c1 : bl s x + 1#8 &&& 0x1f#8 = 0#8
      · have := z1.mp c1
        rw [if_pos c1]; simp only [inc_toNat, ← th_eq]
        refine ⟨?_, ?_⟩
        · simp only [v, BitVec.toNat_ofNat]; omega
        · by_cases c2 : bh s x + 1#8 = 0#8
          · have := z2.mp c2; rw [c2]; simp only [v, BEq.rfl]; exact (decide_eq_true (by omega)).symm
          · have : ¬ th s x = 255 := fun q => c2 (z2.mpr q)
            rw [decide_eq_false (by simp only [v]; omega)]; simpa using c2
      · have : ¬ (tl s x + 1) % 256 % 32 = 0 := fun q => c1 (z1.mpr q)
        rw [if_neg c1]; simp only [inc_toNat, ← tl_eq, ← th_eq]
        refine ⟨by simp only [v]; omega, ?_⟩
        rw [decide_eq_false (by simp only [v]; omega)]
    rw [key.1] at i1 i2 i3
    refine ⟨?_, ?_, fun hq => ?_⟩
    · rw [i1]; omega
    · rw [i2, c, key.2]
      by_cases hv : v = 8191
      · rw [decide_eq_true hv]; simp only [Bool.toNat_true]; omega
      · rw [decide_eq_false hv]; simp only [Bool.toNat_false]; omega
    · rw [i3 hq, d hq, key.2]
      by_cases hv : v = 8191
      · rw [decide_eq_true hv, decide_eq_true (show 8192 ≤ v + (n + 1) by omega)]; simp
      · rw [decide_eq_false hv, show (v + 1) % 8192 = v + 1 by omega, Bool.or_false,
          show v + 1 + n = v + (n + 1) by omega]

/-- C41, mode 2: an 8 bit timer; from 255 it goes on at the value of TH: after the first
overflow it overflows every 256 - TH cycles. -/
theorem c41_mode2 (s : St (Dev D)) (x : Bool) (h : Counts s x 2) (n : Nat) :
    let s' := cycles Q n s
    let v := tl s x
    let p := 256 - th s x
    th s' x = th s x ∧
    tl s' x = (if v + n < 256 then v + n else th s x + (v + n - 256) % p) ∧
    overflows s' x = overflows s x + (if v + n < 256 then 0 else 1 + (v + n - 256) / p) ∧
    ((x = true → tmode s false ≠ 3) → flag s' x = (flag s x || decide (256 ≤ v + n))) := by
  induction n generalizing s with
  | zero =>
    intro s' v p
    have e : s' = s := rfl
    have l1 : v < 256 := by simp only [v]; rw [tl_eq]; exact (bl s x).isLt
    rw [e]
    refine ⟨rfl, ?_, ?_, fun _ => ?_⟩
    · rw [if_pos (by omega)]; rfl
    · rw [if_pos (by omega)]; rfl
    · rw [decide_eq_false (by omega)]; simp
  | succ n ih =>
    intro s' v p
    obtain ⟨a, b, c, d⟩ := cycle_run Q s h.coh x (by rw [h.mode]; decide) h.en h.ct
    rw [h.mode] at a b c d
    obtain ⟨i0, i1, i2, i3⟩ := ih (cycles Q 1 s) (h.cycle Q)
    rw [cycle_mode Q s false] at i3
    have es : s' = cycles Q n (cycles Q 1 s) := cycles_succ Q n s
    rw [es]
    have l1 : v < 256 := by simp only [v]; rw [tl_eq]; exact (bl s x).isLt
    have l2 : th s x < 256 := by rw [th_eq]; exact (bh s x).isLt
    have key : th (cycles Q 1 s) x = th s x ∧ tl (cycles Q 1 s) x = (if v = 255 then th s x else v + 1) ∧
        (next 2 (bl s x) (bh s x)).2.2 = decide (v = 255) := by
      rw [th_eq, tl_eq, a, b]
      unfold next
      simp only [show (2:Nat) ≠ 0 by decide, show (2:Nat) ≠ 1 by decide, if_true, if_false]
      have z1 := inc_zero (bl s x)
      rw [← tl_eq] at z1
      by_cases c1 : bl s x + 1#8 = 0#8
      · have hv : v = 255 := z1.mp c1
        rw [if_pos c1, if_pos hv, decide_eq_true hv]; simp only [← th_eq]; exact ⟨trivial, trivial, trivial⟩
      · have hv : ¬ v = 255 := fun q => c1 (z1.mpr q)
        rw [if_neg c1, if_neg hv, decide_eq_false hv]; simp only [inc_toNat, ← tl_eq, ← th_eq]
        exact ⟨trivial, by simp only [v] at *; omega, trivial⟩
    rw [key.1, key.2.1] at i1 i2
    rw [key.1] at i0
    rw [key.2.1] at i3
    rw [key.2.2] at c d
    have hp : 0 < p := by simp only [p]; omega
    by_cases hv : v = 255
    · simp only [hv, if_true] at i1 i2 i3 c d
      refine ⟨i0, ?_, ?_, fun hq => ?_⟩
      · rw [i1, if_neg (show ¬ v + (n + 1) < 256 by omega), show v + (n + 1) - 256 = n by omega]
        by_cases hn : th s x + n < 256
        · rw [if_pos hn, Nat.mod_eq_of_lt (by simp only [p]; omega)]
        · rw [if_neg hn]
          have : n = (th s x + n - 256) + p := by simp only [p]; omega
          have e1 : n % p = (th s x + n - 256) % p := by
            conv => lhs; rw [this]
            rw [Nat.add_mod_right]
          rw [e1]
      · rw [i2, c, if_neg (show ¬ v + (n + 1) < 256 by omega), show v + (n + 1) - 256 = n by omega]
        simp only [decide_true, Bool.toNat_true]
        by_cases hn : th s x + n < 256
        · rw [if_pos hn, Nat.div_eq_of_lt (by simp only [p]; omega)]
        · rw [if_neg hn]
          have : n = (th s x + n - 256) + p := by simp only [p]; omega
          have e2 : n / p = (th s x + n - 256) / p + 1 := by
            conv => lhs; rw [this]
            rw [Nat.add_div_right _ hp]
          rw [e2]; simp only [p]; omega
      · rw [i3 hq, d hq, decide_eq_true (show 256 ≤ v + (n + 1) by omega)]; simp
    · simp only [hv, if_false, decide_false, Bool.toNat_false, Bool.or_false, Nat.add_zero] at i1 i2 i3 c d
      rw [show v + 1 + n = v + (n + 1) by omega] at i1 i2 i3
      refine ⟨i0, i1, ?_, fun hq => ?_⟩
      · rw [i2, c]
      · rw [i3 hq, d hq]

/-! Mode 3 -/

theorem countTh_spec (c : TCfg) (g : GoodCfg c) (x : TS) :
    (countTh c x).1 = x.1 ∧ (countTh c x).2 c.tl = x.2 c.tl ∧ (countTh c x).2 c.th = x.2 c.th + 1#8 ∧
    (countTh c x).2 TCON = (if x.2 c.th + 1#8 = 0#8 then x.2 TCON ||| 0x80#8 else x.2 TCON) := by
  unfold countTh
  simp only [upd_same]
  split
  · refine ⟨rfl, ?_, ?_, ?_⟩
    · show upd _ _ _ c.tl = _; rw [upd_ne _ _ g.lc, upd_ne _ _ g.lh]
    · show upd _ _ _ c.th = _; rw [upd_ne _ _ g.hc, upd_same]
    · simp only [upd_same, upd_ne _ _ g.hc.symm]
  · refine ⟨rfl, ?_, ?_, ?_⟩
    · show upd _ _ _ c.tl = _; rw [upd_ne _ _ g.lh]
    · show upd _ _ _ c.th = _; rw [upd_same]
    · show upd _ _ _ TCON = _; rw [upd_ne _ _ g.hc.symm]

/-- Timer 0 in mode 3 during one cycle. -/
theorem tick3 (x : TS) (hm : x.1.mode = 3) :
    let en := x.1.tr = true ∧ (x.1.gate = true → x.1.int = true)
    let b := (x.2 TCON).getLsbD 6
    let y := Tmr.tick cfg0 1 x
    x.1.ct = false →
    (en → y.2 TL0 = x.2 TL0 + 1#8 ∧ y.1.ovf = x.1.ovf + (if x.2 TL0 + 1#8 = 0#8 then 1 else 0) ∧
      (y.2 TCON).getLsbD 5 = ((x.2 TCON).getLsbD 5 || decide (x.2 TL0 + 1#8 = 0#8))) ∧
    (¬ en → y.2 TL0 = x.2 TL0 ∧ y.1.ovf = x.1.ovf ∧ (y.2 TCON).getLsbD 5 = (x.2 TCON).getLsbD 5) ∧
    y.2 TH0 = (if b then x.2 TH0 + 1#8 else x.2 TH0) ∧
    (y.2 TCON).getLsbD 7 = ((x.2 TCON).getLsbD 7 || (b && decide (x.2 TH0 + 1#8 = 0#8))) := by
  intro en b y hct
  have hb : ∀ v : Byte, (v &&& 0x40#8 != 0#8) = v.getLsbD 6 := rb1
  have hy : y = (let z := counting (count3 cfg0) 1 x
      if z.2 TCON &&& 0x40#8 != 0#8 then countTh cfg0 z else z) := by
    show Tmr.tick cfg0 1 x = _
    unfold Tmr.tick
    rw [if_neg (by omega), if_neg (by omega), if_neg (by omega), if_pos (show cfg0.first = true from rfl)]
    rfl
  obtain ⟨z, hz⟩ : ∃ z, z = counting (count3 cfg0) 1 x := ⟨_, rfl⟩
  rw [← hz] at hy
  simp only [] at hy
  -- the low byte
  have zen : en → z = countM cfg0 3 x := by
    intro he
    rw [hz]; unfold counting
    rw [if_neg (by rw [he.1]; simp), if_neg (by intro h; rw [he.2 h.1] at h; cases h.2), if_neg (by simp [hct])]
    rfl
  have zne : ¬ en → z = x := by
    intro he
    rw [hz]; unfold counting
    by_cases htr : x.1.tr = false
    · rw [if_pos htr]
    · rw [if_neg htr, if_pos]
      by_cases hg : x.1.gate = true
      · refine ⟨hg, ?_⟩
        cases hi : x.1.int with
        | false => rfl
        | true => exact absurd ⟨by simpa using htr, fun _ => hi⟩ he
      · exact absurd ⟨by simpa using htr, fun h => absurd h hg⟩ he
  have frz : Fr cfg0 0x20#8 x z := by
    rw [hz]; exact counting_fr (fun y => countM_fr cfg0 good0 3 0x20#8 (by decide) y) 1 x
  have bitz : ∀ i, (~~~(0x20#8)).getLsbD i = true → (z.2 TCON).getLsbD i = (x.2 TCON).getLsbD i := by
    intro i hi
    have k := congrArg (fun v : Byte => v.getLsbD i) frz.tcon
    simpa only [BitVec.getLsbD_and, hi, Bool.and_true] using k
  have zth : z.2 TH0 = x.2 TH0 := by
    by_cases he : en
    · rw [zen he]
      have := (countM_spec cfg0 good0 3 x).2.2.1
      refine this.trans ?_
      unfold next; simp only [show (3:Nat) ≠ 0 by decide, show (3:Nat) ≠ 1 by decide, show (3:Nat) ≠ 2 by decide, if_false]
      split <;> rfl
    · rw [zne he]
  have z6 : (z.2 TCON &&& 0x40#8 != 0#8) = b := by rw [hb]; exact bitz 6 (by decide)
  rw [z6] at hy
  have yz : y.1 = z.1 ∧ y.2 TL0 = z.2 TL0 ∧ y.2 TH0 = (if b then z.2 TH0 + 1#8 else z.2 TH0) ∧
      (y.2 TCON).getLsbD 5 = (z.2 TCON).getLsbD 5 ∧
      (y.2 TCON).getLsbD 7 = ((z.2 TCON).getLsbD 7 || (b && decide (z.2 TH0 + 1#8 = 0#8))) := by
    obtain ⟨c1, c2, c3, c4⟩ := countTh_spec cfg0 good0 z
    cases hb1 : b with
    | false => rw [hb1] at hy; rw [if_neg (by simp)] at hy; rw [hy]; simp
    | true =>
      rw [hb1, if_pos rfl] at hy
      rw [hy]
      refine ⟨c1, c2, c3, ?_, ?_⟩
      · rw [c4]; split
        · rw [or_bit]; simp
        · rfl
      · rw [c4]
        show _ = (_ || (true && decide (z.2 cfg0.th + 1#8 = 0#8)))
        by_cases hq : z.2 cfg0.th + 1#8 = 0#8
        · rw [if_pos hq, decide_eq_true hq, or_bit]; simp
        · rw [if_neg hq, decide_eq_false hq]; simp
  rw [zth, bitz 7 (by decide)] at yz
  obtain ⟨y1, y2, y3, y4, y5⟩ := yz
  refine ⟨fun he => ?_, fun he => ?_, y3, y5⟩
  · obtain ⟨c1, c2, _, c4, _⟩ := countM_spec cfg0 good0 3 x
    rw [← zen he] at c1 c2 c4
    rw [y2, y1, y4]
    have e2 : z.2 TL0 = _ := c2
    rw [e2, c1, c4]
    unfold next
    simp only [show (3:Nat) ≠ 0 by decide, show (3:Nat) ≠ 1 by decide, show (3:Nat) ≠ 2 by decide, if_false]
    show _ ∧ _ ∧ _ = (_ || decide (x.2 cfg0.tl + 1#8 = 0#8))
    by_cases hq : x.2 cfg0.tl + 1#8 = 0#8
    · simp only [hq, if_true]
      refine ⟨hq.symm, ?_, ?_⟩
      · show _ = x.1.ovf + (if x.2 cfg0.tl + 1#8 = 0#8 then 1 else 0); rw [if_pos hq]; rfl
      · rw [or_bit]; simp only [decide_true, Bool.or_true]; rw [show cfg0.mTF.getLsbD 5 = true by decide]; simp
    · simp only [hq, if_false]
      refine ⟨rfl, ?_, by simp⟩
      show _ = x.1.ovf + (if x.2 cfg0.tl + 1#8 = 0#8 then 1 else 0); rw [if_neg hq]; rfl
  · rw [y2, y1, y4, zne he]; exact ⟨rfl, rfl, rfl⟩

/-- C41, mode 3 of timer 0: TL0 and TH0 are 8 bit timers, the first with TR0, GATE and
TF0, the other with TR1 and TF1 (timer 1 stopped: in mode 3). -/
theorem c41_mode3 (s : St (Dev D)) (hc : Coherent s) (hm : tmode s false = 3) (hct : isCounter s false = false) (n : Nat) :
    let s' := cycles Q n s
    (enabled s false → tl s' false = (tl s false + n) % 256 ∧ overflows s' false = overflows s false + (tl s false + n) / 256 ∧
      flag s' false = (flag s false || decide (256 ≤ tl s false + n))) ∧
    (¬ enabled s false → tl s' false = tl s false ∧ overflows s' false = overflows s false ∧ flag s' false = flag s false) ∧
    (th s' false = if runBit s true then (th s false + n) % 256 else th s false) ∧
    (tmode s true = 3 → flag s' true = (flag s true || (runBit s true && decide (256 ≤ th s false + n)))) := by
  induction n generalizing s with
  | zero =>
    intro s'
    have e : s' = s := rfl
    have l1 : tl s false < 256 := by rw [tl_eq]; exact (bl s false).isLt
    have l2 : th s false < 256 := by rw [th_eq]; exact (bh s false).isLt
    rw [e]
    refine ⟨fun _ => ⟨by omega, by omega, ?_⟩, fun _ => ⟨rfl, rfl, rfl⟩, ?_, fun _ => ?_⟩
    · rw [decide_eq_false (by omega)]; simp
    · split
      · omega
      · rfl
    · rw [decide_eq_false (by omega)]; simp
  | succ n ih =>
    intro s'
    have es : s' = cycles Q n (cycles Q 1 s) := cycles_succ Q n s
    obtain ⟨i1, i2, i3, i4⟩ := ih (cycles Q 1 s) (cycle_coherent Q s hc) ((cycle_mode Q s false).trans hm)
      ((cycle_counter Q s false).trans hct)
    rw [cycle_enabled Q s false] at i1 i2
    rw [(cycle_settings Q s true).2.1] at i3 i4
    rw [cycle_mode Q s true] at i4
    rw [es]
    have t3 := tick3 (s.hw.t0, s.sfr) (by rw [← hm]; exact hc.1.mode) (by rw [← hct]; exact hc.1.ct)
    obtain ⟨q1, q2, q3, q4⟩ := t3
    have een : enabled s false ↔ ((s.hw.t0, s.sfr).1.tr = true ∧ ((s.hw.t0, s.sfr).1.gate = true → (s.hw.t0, s.sfr).1.int = true)) := by
      show _ ↔ (s.hw.t0.tr = true ∧ (s.hw.t0.gate = true → s.hw.t0.int = true))
      rw [hc.1.tr, hc.1.gate, hc.1.int]; rfl
    rw [← een] at q1 q2
    -- from the devices to the registers
    have b1 : bl (cycles Q 1 s) false = (Tmr.tick cfg0 1 (s.hw.t0, s.sfr)).2 TL0 := cycle_sfr0 Q s TL0 (Or.inl rfl)
    have b2 : bh (cycles Q 1 s) false = (Tmr.tick cfg0 1 (s.hw.t0, s.sfr)).2 TH0 := cycle_sfr0 Q s TH0 (Or.inr rfl)
    have b3 : overflows (cycles Q 1 s) false = (Tmr.tick cfg0 1 (s.hw.t0, s.sfr)).1.ovf := rfl
    have b4 : flag (cycles Q 1 s) false = ((Tmr.tick cfg0 1 (s.hw.t0, s.sfr)).2 TCON).getLsbD 5 := by
      show ((cycles Q 1 s).sfr TCON).getLsbD 5 = _
      rw [(cycle_tcon Q s).1, bit5_of_not80 _ _ (fr1 s).tcon]; rfl
    have b5 : tmode s true = 3 → flag (cycles Q 1 s) true = ((Tmr.tick cfg0 1 (s.hw.t0, s.sfr)).2 TCON).getLsbD 7 := by
      intro h3
      show ((cycles Q 1 s).sfr TCON).getLsbD 7 = _
      rw [(cycle_tcon Q s).2]
      have : after1 s = (s.hw.t1, (after0 s).2) := by
        unfold after1 Tmr.tick
        have : s.hw.t1.mode = 3 := hc.2.mode.trans h3
        simp only [this]; rfl
      rw [this]; rfl
    have l1 : tl s false < 256 := by rw [tl_eq]; exact (bl s false).isLt
    have l2 : th s false < 256 := by rw [th_eq]; exact (bh s false).isLt
    have z1 : (s.sfr TL0 + 1#8 = 0#8) ↔ tl s false = 255 := inc_zero _
    have z2 : (s.sfr TH0 + 1#8 = 0#8) ↔ th s false = 255 := inc_zero _
    have v1 : (s.sfr TL0 + 1#8).toNat = (tl s false + 1) % 256 := inc_toNat _
    have v2 : (s.sfr TH0 + 1#8).toNat = (th s false + 1) % 256 := inc_toNat _
    refine ⟨fun he => ?_, fun he => ?_, ?_, fun h3 => ?_⟩
    · obtain ⟨j1, j2, j3⟩ := i1 he
      obtain ⟨p1, p2, p3⟩ := q1 he
      have a1 : tl (cycles Q 1 s) false = (tl s false + 1) % 256 := by
        rw [tl_eq, b1, p1]; exact v1
      rw [j1, j2, j3, a1, b3, p2, b4, p3]
      show _ ∧ (overflows s false + (if s.sfr TL0 + 1#8 = 0#8 then 1 else 0)) + _ = _ ∧
        ((flag s false || decide (s.sfr TL0 + 1#8 = 0#8)) || _) = _
      by_cases hv : tl s false = 255
      · rw [if_pos (z1.mpr hv), decide_eq_true (z1.mpr hv), decide_eq_true (show 256 ≤ tl s false + (n + 1) by omega)]
        refine ⟨by omega, by omega, by simp⟩
      · rw [if_neg (fun q => hv (z1.mp q)), decide_eq_false (fun q => hv (z1.mp q)), Bool.or_false,
          show (tl s false + 1) % 256 = tl s false + 1 by omega, show tl s false + 1 + n = tl s false + (n + 1) by omega]
        exact ⟨rfl, rfl, rfl⟩
    · obtain ⟨j1, j2, j3⟩ := i2 he
      obtain ⟨p1, p2, p3⟩ := q2 he
      rw [j1, j2, j3, tl_eq, b1, p1, b3, p2, b4, p3]; exact ⟨rfl, rfl, rfl⟩
    · rw [i3, th_eq, b2, q3]
      show (if runBit s true then ((if runBit s true then s.sfr TH0 + 1#8 else s.sfr TH0).toNat + n) % 256
        else (if runBit s true then s.sfr TH0 + 1#8 else s.sfr TH0).toNat) = _
      cases runBit s true with
      | true => simp only [if_true]; rw [v2]; omega
      | false => rfl
    · rw [i4 h3, b5 h3, q4, th_eq (cycles Q 1 s), b2, q3]
      show (((flag s true) || (runBit s true && decide (s.sfr TH0 + 1#8 = 0#8))) ||
        (runBit s true && decide (256 ≤ (if runBit s true then s.sfr TH0 + 1#8 else s.sfr TH0).toNat + n))) = _
      cases runBit s true with
      | false => simp
      | true =>
        simp only [if_true, Bool.true_and]
        rw [v2]
        by_cases hv : th s false = 255
        · rw [decide_eq_true (z2.mpr hv), decide_eq_true (show 256 ≤ th s false + (n + 1) by omega)]; simp
        · rw [decide_eq_false (fun q => hv (z2.mp q)), show (th s false + 1) % 256 = th s false + 1 by omega,
            show th s false + 1 + n = th s false + (n + 1) by omega]; simp

/-! Not counting -/

theorem not_enabled {s : St (Dev D)} {x : Bool} {t : Tmr} (hf : Follows t s x) (h : ¬ enabled s x) :
    t.tr = false ∨ (t.gate = true ∧ t.int = false) := by
  cases ht : t.tr with
  | false => exact Or.inl rfl
  | true =>
    right
    have h1 : runBit s x = true := by rw [← hf.tr, ht]
    cases hg : t.gate with
    | false => exact absurd ⟨h1, fun q => by rw [← hf.gate, hg] at q; cases q⟩ h
    | true =>
      refine ⟨rfl, ?_⟩
      cases hi : t.int with
      | false => rfl
      | true => exact absurd ⟨h1, fun _ => by rw [← hf.int, hi]⟩ h

/-- C41: a timer that is switched off (TR, or GATE with INT low) keeps its count; so does
timer 1 in mode 3. -/
theorem c41_stopped (s : St (Dev D)) (hc : Coherent s) (x : Bool) (h : ¬ enabled s x ∨ (x = true ∧ tmode s true = 3))
    (hm : tmode s false ≠ 3) (n : Nat) :
    let s' := cycles Q n s
    tl s' x = tl s x ∧ th s' x = th s x ∧ overflows s' x = overflows s x ∧ flag s' x = flag s x := by
  induction n generalizing s with
  | zero => exact ⟨rfl, rfl, rfl, rfl⟩
  | succ n ih =>
    intro s'
    obtain ⟨i1, i2, i3, i4⟩ := ih (cycles Q 1 s) (cycle_coherent Q s hc) (by rw [cycle_enabled, cycle_mode]; exact h)
      (by rw [cycle_mode]; exact hm)
    have es : s' = cycles Q n (cycles Q 1 s) := cycles_succ Q n s
    rw [es, i1, i2, i3, i4]
    have m3 : tmode s false < 4 := Nat.mod_lt _ (by decide)
    cases x with
    | false =>
      have hne : ¬ enabled s false := by
        rcases h with h | h
        · exact h
        · cases h.1
      have e : after0 s = (s.hw.t0, s.sfr) :=
        tick_stop cfg0 1 _ (Or.inl (by show s.hw.t0.mode < 3; rw [hc.1.mode]; omega)) (not_enabled hc.1 hne)
      refine ⟨?_, ?_, ?_, ?_⟩
      · exact congrArg BitVec.toNat ((cycle_sfr0 Q s TL0 (Or.inl rfl)).trans (congrArg (fun z : TS => z.2 TL0) e))
      · exact congrArg BitVec.toNat ((cycle_sfr0 Q s TH0 (Or.inr rfl)).trans (congrArg (fun z : TS => z.2 TH0) e))
      · show (after0 s).1.ovf = _; rw [e]; rfl
      · show ((cycles Q 1 s).sfr TCON).getLsbD 5 = (s.sfr TCON).getLsbD 5
        rw [(cycle_tcon Q s).1, bit5_of_not80 _ _ (fr1 s).tcon]
        show ((after0 s).2 TCON).getLsbD 5 = _; rw [e]
    | true =>
      have e : after1 s = (s.hw.t1, (after0 s).2) := by
        rcases h with h | h
        · exact tick_stop cfg1 1 _ (Or.inr rfl) (not_enabled hc.2 h)
        · unfold after1 Tmr.tick
          have : s.hw.t1.mode = 3 := hc.2.mode.trans h.2
          simp only [this]; rfl
      refine ⟨?_, ?_, ?_, ?_⟩
      · refine congrArg BitVec.toNat ((cycle_sfr Q s TL1 (by simp)).trans ?_)
        rw [e]; exact after0_sfr1 s TL1 (Or.inl rfl)
      · refine congrArg BitVec.toNat ((cycle_sfr Q s TH1 (by simp)).trans ?_)
        rw [e]; exact after0_sfr1 s TH1 (Or.inr rfl)
      · show (after1 s).1.ovf = _; rw [e]; rfl
      · show ((cycles Q 1 s).sfr TCON).getLsbD 7 = (s.sfr TCON).getLsbD 7
        rw [(cycle_tcon Q s).2, e]
        apply bit7_of_not20
        exact (tick_fr cfg0 good0 0x20#8 (by decide) 1 (s.hw.t0, s.sfr) (fun _ => by
          rw [show (s.hw.t0, s.sfr).1.mode = tmode s false from hc.1.mode]; omega)).tcon

/-- C41: cycles are what a program spends: while instructions leave the timers alone and
no interrupt is accepted, the timers see exactly the machine cycles that are counted. -/
theorem c41_program (s : St (Dev D)) (n : Nat) (h : ∀ k, k < n → LeavesTimers Q (steps (timers Q) k s)) :
    s.total ≤ (steps (timers Q) n s).total ∧
    SameTimers (steps (timers Q) n s) (cycles Q ((steps (timers Q) n s).total - s.total) s) := by
  obtain ⟨k, h1, h2⟩ := steps_leave Q s n h
  rw [h1]
  exact ⟨by omega, by rw [show s.total + k - s.total = k by omega]; exact h2.same⟩

end Ucsim.S51
