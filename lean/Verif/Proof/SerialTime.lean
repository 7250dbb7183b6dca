import Verif.Proof.SerialTx

namespace Ucsim.S51.Uart
open Spec

/-- Clocks or overflows in a bit, as the program counts them. -/
def dv (mode : Nat) (smod t2 : Bool) : Nat :=
  if t2 then 16 else if mode = 0 then 12 else if smod then 16 else 32

theorem dv_pos (m : Nat) (a b : Bool) : 0 < dv m a b := by
  unfold dv; repeat' split
  all_goals decide

/-- The configuration agrees with the registers. -/
structure Conf (s : Ser) : Prop where
  mode : s.scon.toNat / 64 = s.mode
  bits : s.bits = frameBits s.mode
  div : s.t2baud = false → s.divby = dv s.mode s.smod false
  ren : s.ren = s.scon.getLsbD 4

/-- The settings. -/
def cf (s : Ser) : Nat × Bool × Bool := (s.mode, s.smod, s.t2baud)

def tp (s : Ser) : Bool × Nat × Nat × Nat := (s.sending, s.trBit, s.trTick, s.trT1)
def rp (s : Ser) : Bool × Nat × Nat × Nat := (s.receiving, s.recBit, s.recTick, s.recT1)

theorem bits_frame (m : Nat) : (if m = 0 then 8 else if m = 1 then 10 else 11) = frameBits m := by
  match m with
  | 0 => rfl
  | 1 => rfl
  | n + 2 => rfl

theorem conf_wrScon (n : Byte) (s : Ser) : Conf (wrScon n s) := by
  refine ⟨rfl, bits_frame _, fun _ => ?_, rfl⟩
  show (if n.toNat / 64 = 0 then 12 else _) = _
  simp [dv, wrScon]

theorem hi_bits : ∀ (i : Fin 8) (b : Bool) (n : Byte), i.val ≤ 5 →
    (if b then n ||| (1#8 <<< i.val) else n &&& ~~~(1#8 <<< i.val)).toNat / 64 = n.toNat / 64 := by decide +kernel

theorem wrBit_calm (i : Fin 8) (b : Bool) (s : Ser) (hi : i.val ≤ 5) (h : Conf s) :
    cf (wrBit i b s) = cf s ∧ tp (wrBit i b s) = tp s ∧ rp (wrBit i b s) = rp s ∧ (wrBit i b s).avail = s.avail ∧ Conf (wrBit i b s) := by
  refine ⟨?_, rfl, rfl, rfl, conf_wrScon _ _⟩
  have e := hi_bits i b s.scon hi
  rw [h.mode] at e
  simp only [cf, wrBit, wrScon, e]

theorem conf_congr (s t : Ser) (h : cf t = cf s ∧ t.scon = s.scon ∧ t.bits = s.bits ∧ t.divby = s.divby ∧ t.ren = s.ren) (k : Conf s) : Conf t := by
  obtain ⟨h1, h2, h3, h4, h5⟩ := h
  simp only [cf, Prod.mk.injEq] at h1
  refine ⟨?_, ?_, ?_, by rw [h5, h2]; exact k.ren⟩
  · rw [h2, h1.1]; exact k.mode
  · rw [h3, h1.1]; exact k.bits
  · rw [h1.2.2, h4, h1.1, h1.2.1]; exact k.div

theorem poll_calm (s : Ser) : cf (poll s) = cf s ∧ tp (poll s) = tp s ∧ rp (poll s) = rp s ∧ (s.avail = true → (poll s).avail = true) ∧
    (Conf s → Conf (poll s)) := by
  unfold poll; split
  · split
    · exact ⟨rfl, rfl, rfl, id, id⟩
    · split
      · exact ⟨rfl, rfl, rfl, id, fun h => ⟨h.mode, h.bits, h.div, h.ren⟩⟩
      · exact ⟨rfl, rfl, rfl, fun _ => rfl, fun h => ⟨h.mode, h.bits, h.div, h.ren⟩⟩
  · exact ⟨rfl, rfl, rfl, id, id⟩

theorem key_calm (c : Byte) (s : Ser) : cf (key c s) = cf s ∧ tp (key c s) = tp s ∧ rp (key c s) = rp s ∧
    (s.avail = true → (key c s).avail = true) ∧ (Conf s → Conf (key c s)) := by
  unfold key; split
  · split
    · exact ⟨rfl, rfl, rfl, id, id⟩
    · exact ⟨rfl, rfl, rfl, fun _ => rfl, fun h => ⟨h.mode, h.bits, h.div, h.ren⟩⟩
  · exact ⟨rfl, rfl, rfl, id, id⟩

theorem sendNl_calm (s : Ser) : cf (sendNl s).2 = cf s ∧ tp (sendNl s).2 = tp s ∧ (sendNl s).2.scon = s.scon ∧
    (sendNl s).2.bits = s.bits ∧ (sendNl s).2.divby = s.divby ∧ (sendNl s).2.ren = s.ren := by
  unfold sendNl; dsimp only; split <;> exact ⟨rfl, rfl, rfl, rfl, rfl, rfl⟩

theorem getInput_calm (s t : Ser) (c : Byte) (h : getInput s = some (c, t)) : cf t = cf s ∧ tp t = tp s ∧ t.scon = s.scon ∧
    t.bits = s.bits ∧ t.divby = s.divby ∧ t.ren = s.ren := by
  unfold getInput at h
  split at h
  · cases h
  · split at h
    · cases h; exact ⟨rfl, rfl, rfl, rfl, rfl, rfl⟩
    · split at h
      · split at h
        · cases h; exact ⟨rfl, rfl, rfl, rfl, rfl, rfl⟩
        · simp only [Option.some.injEq] at h
          have := sendNl_calm { s with skipNl := some (oppositeNl s.input), sendingNl := true, nlIdx := 0 }
          rw [h] at this; exact this
      · simp only [Option.some.injEq] at h
        have := sendNl_calm s
        rw [h] at this; exact this

theorem rxDone_calm (s : Ser) (h : Conf s) : cf (rxDone s) = cf s ∧ tp (rxDone s) = tp s ∧ Conf (rxDone s) := by
  unfold rxDone
  split
  · split
    · exact ⟨rfl, rfl, h⟩
    · rename_i c t hg
      obtain ⟨a, b, c1, c2, c3, c4⟩ := getInput_calm s t c hg
      have k : Conf { t with sIn := c } := conf_congr s _ ⟨a, c1, c2, c3, c4⟩ h
      obtain ⟨d1, d2, _, _, d3⟩ := wrBit_calm 0 true { t with sIn := c } (by decide) k
      exact ⟨d1.trans a, d2.trans b, ⟨d3.mode, d3.bits, d3.div, d3.ren⟩⟩
  · exact ⟨rfl, rfl, h⟩

theorem rxStart_calm (s : Ser) (h : Conf s) : cf (rxStart s) = cf s ∧ tp (rxStart s) = tp s ∧ Conf (rxStart s) := by
  unfold rxStart
  split
  · have a : cf (rxPoll s) = cf s ∧ tp (rxPoll s) = tp s ∧ Conf (rxPoll s) := by
      unfold rxPoll; split
      · obtain ⟨a, b, _, _, c⟩ := poll_calm s; exact ⟨a, b, c h⟩
      · exact ⟨rfl, rfl, h⟩
    unfold rxBegin; split
    · exact ⟨a.1, a.2.1, ⟨a.2.2.mode, a.2.2.bits, a.2.2.div, a.2.2.ren⟩⟩
    · exact a
  · exact ⟨rfl, rfl, h⟩

theorem cntDiv_calm (s : Ser) (h : Conf s) : cf (cntDiv s) = cf s ∧ tp (cntDiv s) = tp s ∧ rp (cntDiv s) = rp s ∧ (cntDiv s).avail = s.avail ∧ Conf (cntDiv s) ∧
    (cntDiv s).divby = dv s.mode s.smod s.t2baud := by
  unfold cntDiv; split
  · rename_i k
    exact ⟨rfl, rfl, rfl, rfl, ⟨h.mode, h.bits, (fun k' => by rw [show s.t2baud = false from k'] at k; cases k), h.ren⟩, by rw [k]; rfl⟩
  · rename_i k
    simp only [Bool.not_eq_true] at k
    exact ⟨rfl, rfl, rfl, rfl, h, by rw [h.div k, k]⟩

theorem cntRec_calm (s : Ser) (h : Conf s) : cf (cntRec s) = cf s ∧ tp (cntRec s) = tp s ∧ (cntRec s).avail = s.avail ∧ Conf (cntRec s) ∧
    (cntRec s).bits = s.bits := by
  unfold cntRec; repeat' split
  · exact ⟨rfl, rfl, rfl, ⟨h.mode, h.bits, h.div, h.ren⟩, rfl⟩
  · exact ⟨rfl, rfl, rfl, ⟨h.mode, h.bits, h.div, h.ren⟩, rfl⟩
  · exact ⟨rfl, rfl, rfl, h, rfl⟩

theorem cntTr_calm (s : Ser) (h : Conf s) : cf (cntTr s) = cf s ∧ rp (cntTr s) = rp s ∧ (cntTr s).avail = s.avail ∧ Conf (cntTr s) ∧
    (cntTr s).bits = s.bits ∧ (cntTr s).sending = s.sending ∧ (cntTr s).divby = s.divby := by
  unfold cntTr; split
  · split
    · exact ⟨rfl, rfl, rfl, ⟨h.mode, h.bits, h.div, h.ren⟩, rfl, rfl, rfl⟩
    · exact ⟨rfl, rfl, rfl, ⟨h.mode, h.bits, h.div, h.ren⟩, rfl, rfl, rfl⟩
  · exact ⟨rfl, rfl, rfl, h, rfl, rfl, rfl⟩

theorem txDone_calm (s : Ser) (h : Conf s) : cf (txDone s) = cf s ∧ rp (txDone s) = rp s ∧ (txDone s).avail = s.avail ∧ Conf (txDone s) := by
  unfold txDone
  split
  · obtain ⟨a, _, b, c, d⟩ := wrBit_calm 1 true { s with sending := false } (by decide) ⟨h.mode, h.bits, h.div, h.ren⟩
    exact ⟨a, b, c, ⟨d.mode, d.bits, d.div, d.ren⟩⟩
  · exact ⟨rfl, rfl, rfl, h⟩

theorem bitCnt_calm (s : Ser) (h : Conf s) : cf (bitCnt s) = cf s ∧ (bitCnt s).avail = s.avail ∧ Conf (bitCnt s) := by
  obtain ⟨a1, _, _, a2, a3, _⟩ := cntDiv_calm s h
  obtain ⟨b1, _, b2, b3, _⟩ := cntTr_calm _ a3
  obtain ⟨c1, _, c2, c3, _⟩ := cntRec_calm _ b3
  exact ⟨c1.trans (b1.trans a1), c2.trans (b2.trans a2), c3⟩

theorem tick_calm (s : Ser) (h : Conf s) : cf (tick s) = cf s ∧ Conf (tick s) := by
  obtain ⟨a, _, b⟩ := bitCnt_calm s h
  obtain ⟨c, _, _, d⟩ := txDone_calm _ b
  obtain ⟨e, _, f⟩ := rxStart_calm _ d
  obtain ⟨g, _, i⟩ := rxDone_calm _ f
  exact ⟨g.trans (e.trans (c.trans a)), ⟨i.mode, i.bits, i.div, i.ren⟩⟩

/-! ### Time counted -/

/-- Units of the bit clock in an event. -/
def unit (clk : Bool) : Ev → Nat
  | .tick => if clk then 12 else 0
  | .ovf1 | .ovf2 => if clk then 0 else 1
  | _ => 0

def units (clk : Bool) (h : List Ev) : Nat := (h.map (unit clk)).sum

/-- Events that do not change the settings or restart the transmission. -/
def calm : Ev → Bool
  | .tick | .ovf1 | .ovf2 | .rdSbuf | .poll | .key _ => true
  | .wrBit i _ => decide (i.val ≤ 5)
  | _ => false

def clk (mode : Nat) : Bool := mode == 0 || mode == 2

/-- Units counted since the transmission began. -/
def trTime (s : Ser) : Nat :=
  s.trBit * dv s.mode s.smod s.t2baud + (if clk s.mode then s.trTick else s.trT1)

/-- Units of a frame. -/
def frame (s : Ser) : Nat := frameBits s.mode * dv s.mode s.smod s.t2baud

theorem frame_cf (s t : Ser) (h : cf t = cf s) : frame t = frame s := by
  simp only [cf, Prod.mk.injEq] at h
  simp only [frame, h.1, h.2.1, h.2.2]

theorem trTime_tp (s t : Ser) (h : cf t = cf s) (k : tp t = tp s) : trTime t = trTime s := by
  simp only [cf, tp, Prod.mk.injEq] at h k
  simp only [trTime, h.1, h.2.1, h.2.2, k.2.1, k.2.2.1, k.2.2.2]

theorem ge_iff (b x d n : Nat) (hd : 0 < d) : n ≤ b + x / d ↔ n * d ≤ b * d + x := by
  constructor
  · intro h
    have h1 := Nat.div_add_mod x d
    have h2 := Nat.mul_le_mul_right d h
    rw [Nat.add_mul, Nat.mul_comm (x / d) d] at h2
    omega
  · intro h
    have h1 := Nat.div_add_mod x d
    have h2 := Nat.mod_lt x hd
    apply Nat.lt_succ_iff.1
    apply Nat.lt_of_mul_lt_mul_right (a := d)
    rw [Nat.succ_mul, Nat.add_mul, Nat.mul_comm (x / d) d]
    omega

theorem bits_pos (m : Nat) : 0 < frameBits m := by
  match m with
  | 0 => decide
  | 1 => decide
  | n + 2 => exact (by decide : 0 < 11)

/-- The transmitter after counting. -/
theorem cntTr_time (s : Ser) (h : Conf s) (hd : s.divby = dv s.mode s.smod s.t2baud) (hs : s.sending = true)
    (hb : s.trBit < s.bits) :
    (frame s ≤ trTime s → (cntTr s).bits ≤ (cntTr s).trBit) ∧
    (¬ frame s ≤ trTime s → (cntTr s).trBit < (cntTr s).bits ∧ trTime (cntTr s) = trTime s) := by
  have hp := dv_pos s.mode s.smod s.t2baud
  have hbits := h.bits
  unfold frame trTime
  unfold cntTr
  rw [if_pos hs, ← hd, ← hbits]
  rw [← hd] at hp
  have hc : byClock s = clk s.mode := rfl
  rw [hc]
  cases hk : clk s.mode
  · simp only [Bool.false_eq_true, if_false, hb, if_true, hk]
    have g := ge_iff s.trBit s.trT1 s.divby s.bits hp
    constructor
    · intro k; have := g.2 k; omega
    · intro k
      have k' : ¬ s.bits ≤ s.trBit + s.trT1 / s.divby := fun h => k (g.1 h)
      have := Nat.div_add_mod s.trT1 s.divby
      refine ⟨by omega, ?_⟩
      rw [← hd, Nat.min_eq_right (by omega), Nat.add_mul, Nat.mul_comm (s.trT1 / s.divby)]; omega
  · simp only [if_true, hb, hk]
    have g := ge_iff s.trBit s.trTick s.divby s.bits hp
    constructor
    · intro k; have := g.2 k; omega
    · intro k
      have k' : ¬ s.bits ≤ s.trBit + s.trTick / s.divby := fun h => k (g.1 h)
      have := Nat.div_add_mod s.trTick s.divby
      refine ⟨by omega, ?_⟩
      rw [← hd, Nat.min_eq_right (by omega), Nat.add_mul, Nat.mul_comm (s.trTick / s.divby)]; omega

/-- A machine cycle while a byte is being sent. -/
theorem tick_time (s : Ser) (h : Conf s) (hs : s.sending = true) (hb : s.trBit < s.bits) :
    (frame s ≤ trTime s → (tick s).sending = false ∧ (tick s).out = s.out ++ [s.sOut] ∧ ti (tick s) = true) ∧
    (¬ frame s ≤ trTime s → (tick s).sending = true ∧ (tick s).out = s.out ∧ (tick s).sOut = s.sOut ∧
      (tick s).trBit < (tick s).bits ∧ trTime (tick s) = trTime s + unit (clk s.mode) .tick ∧ ti (tick s) = ti s) := by
  obtain ⟨a1, a2, _, _, a3, a4⟩ := cntDiv_calm s h
  have a5 : (cntDiv s).sending = true := by
    simp only [tp, Prod.mk.injEq] at a2; rw [a2.1]; exact hs
  have a6 : (cntDiv s).trBit < (cntDiv s).bits := by
    have e : (cntDiv s).bits = s.bits := by unfold cntDiv; split <;> rfl
    simp only [tp, Prod.mk.injEq] at a2; rw [a2.2.1, e]; exact hb
  have a4' : (cntDiv s).divby = dv (cntDiv s).mode (cntDiv s).smod (cntDiv s).t2baud := by
    simp only [cf, Prod.mk.injEq] at a1; rw [a1.1, a1.2.1, a1.2.2]; exact a4
  have t := cntTr_time _ a3 a4' a5 a6
  rw [frame_cf _ _ a1, trTime_tp _ _ a1 a2] at t
  obtain ⟨b1, _, _, b3, b4, b5, _⟩ := cntTr_calm _ a3
  obtain ⟨c1, c2, _, c3, c4⟩ := cntRec_calm _ b3
  have hbit : bitCnt s = cntRec (cntTr (cntDiv s)) := rfl
  rw [← hbit] at c1 c2 c3 c4
  have k2 := c2
  simp only [tp, Prod.mk.injEq] at k2
  have s1 : (bitCnt s).sending = true := by rw [k2.1, b5]; exact a5
  have o1 := tx_bitCnt s
  simp only [tx, Prod.mk.injEq] at o1
  -- after the transmitter
  have d := txDone_calm _ c3
  have e := rxStart_calm _ d.2.2.2
  have f := rxDone_calm _ e.2.2
  have z : tp (rxDone (rxStart (txDone (bitCnt s)))) = tp (txDone (bitCnt s)) := f.2.1.trans e.2.1
  have zc : cf (rxDone (rxStart (txDone (bitCnt s)))) = cf s := f.1.trans (e.1.trans (d.1.trans (c1.trans (b1.trans a1))))
  have zb : Conf (rxDone (rxStart (txDone (bitCnt s)))) := f.2.2
  have zx : tx (tick s) = tx (txDone (bitCnt s)) := by
    show tx (rxDone (rxStart (txDone (bitCnt s)))) = _
    rw [tx_rxDone, tx_rxStart]
  have zt : ti (tick s) = ti (txDone (bitCnt s)) := by
    show (rxDone (rxStart (txDone (bitCnt s)))).scon.getLsbD 1 = _
    rw [ti_rxDone, scon_rxStart]; rfl
  constructor
  · intro hf
    have q := t.1 hf
    rw [← k2.2.1, ← c4] at q
    have wx : tx (txDone (bitCnt s)) = (s.out ++ [s.sOut], false, s.sOut) := by
      unfold txDone
      rw [if_pos (by simp [s1, q])]
      show ((bitCnt s).out ++ [(bitCnt s).sOut], false, (bitCnt s).sOut) = _
      rw [o1.1, o1.2.2]
    have wt : ti (txDone (bitCnt s)) = true := by
      unfold txDone
      rw [if_pos (by simp [s1, q])]
      exact (bits_or _).1
    rw [wx] at zx
    simp only [tx, Prod.mk.injEq] at zx
    exact ⟨zx.2.1, zx.1, by rw [zt, wt]⟩
  · intro hf
    obtain ⟨q1, q2⟩ := t.2 hf
    have q1' := q1
    rw [← k2.2.1, ← c4] at q1
    have w : txDone (bitCnt s) = bitCnt s := by
      unfold txDone; rw [if_neg]; simp only [Bool.and_eq_true, decide_eq_true_eq]; omega
    rw [w] at zx z zt
    simp only [tx, Prod.mk.injEq] at zx
    have zz := z
    simp only [tp, Prod.mk.injEq] at zz
    have zc' := zc
    simp only [cf, Prod.mk.injEq] at zc'
    refine ⟨by rw [zx.2.1]; exact s1, by rw [zx.1, o1.1], by rw [zx.2.2, o1.2.2], ?_, ?_, ?_⟩
    · show (rxDone (rxStart (txDone (bitCnt s)))).trBit < (rxDone (rxStart (txDone (bitCnt s)))).bits
      rw [w] at zb zc' ⊢
      rw [zz.2.1, zb.bits, zc'.1, ← h.bits]
      have : (bitCnt s).bits = s.bits := by
        rw [c4, b4]; unfold cntDiv; split <;> rfl
      rw [← this]; exact q1
    · have u : trTime (rxDone (rxStart (txDone (bitCnt s)))) = trTime s := by
        rw [w] at zc ⊢
        have x := trTime_tp (cntTr (cntDiv s)) _ c1 c2
        have y := trTime_tp (bitCnt s) (rxDone (rxStart (bitCnt s))) (by rw [zc]; exact (c1.trans (b1.trans a1)).symm) z
        rw [y, x, q2]
      have v : trTime (tick s) = trTime (rxDone (rxStart (txDone (bitCnt s)))) + (if clk (rxDone (rxStart (txDone (bitCnt s)))).mode then 12 else 0) := by
        unfold trTime
        show _ * _ + (if clk (rxDone (rxStart (txDone (bitCnt s)))).mode then (rxDone (rxStart (txDone (bitCnt s)))).trTick + 12 else (rxDone (rxStart (txDone (bitCnt s)))).trT1) = _
        cases clk (rxDone (rxStart (txDone (bitCnt s)))).mode
        · rfl
        · simp only [if_true, Nat.add_assoc]; rfl
      rw [v, u, zc'.1]; rfl
    · rw [zt]; show (bitCnt s).scon.getLsbD 1 = _
      rw [scon_bitCnt]; rfl

/-- Another event while a byte is being sent or not. -/
theorem calm_time (s : Ser) (e : Ev) (hc : calm e = true) (ht : e ≠ .tick) (h : Conf s) :
    cf (ev s e) = cf s ∧ Conf (ev s e) ∧ tx (ev s e) = tx s ∧ (ev s e).trBit = s.trBit ∧ (ev s e).bits = s.bits ∧
    trTime (ev s e) = trTime s + unit (clk s.mode) e := by
  have o : ∀ t : Ser, cf t = cf s → tp t = tp s → Conf t → t.bits = s.bits ∧ t.trBit = s.trBit ∧ trTime t = trTime s := by
    intro t a b c
    have a' := a
    have b' := b
    simp only [cf, tp, Prod.mk.injEq] at a' b'
    exact ⟨by rw [c.bits, h.bits, a'.1], b'.2.1, trTime_tp _ _ a b⟩
  cases e with
  | tick => exact absurd rfl ht
  | ovf1 =>
    refine ⟨rfl, ⟨h.mode, h.bits, h.div, h.ren⟩, rfl, rfl, rfl, ?_⟩
    show s.trBit * dv s.mode s.smod s.t2baud + (if clk s.mode then s.trTick else s.trT1 + 1) = _
    simp only [trTime, unit]; cases clk s.mode
    · simp only [Bool.false_eq_true, if_false, Nat.add_assoc]
    · rfl
  | ovf2 =>
    refine ⟨rfl, ⟨h.mode, h.bits, h.div, h.ren⟩, rfl, rfl, rfl, ?_⟩
    show s.trBit * dv s.mode s.smod s.t2baud + (if clk s.mode then s.trTick else s.trT1 + 1) = _
    simp only [trTime, unit]; cases clk s.mode
    · simp only [Bool.false_eq_true, if_false, Nat.add_assoc]
    · rfl
  | rdSbuf => exact ⟨rfl, ⟨h.mode, h.bits, h.div, h.ren⟩, rfl, rfl, rfl, rfl⟩
  | poll =>
    obtain ⟨a, b, _, _, c⟩ := poll_calm s
    obtain ⟨x, y, z⟩ := o _ a b (c h)
    exact ⟨a, c h, tx_poll s, y, x, z⟩
  | key ch =>
    obtain ⟨a, b, _, _, c⟩ := key_calm ch s
    obtain ⟨x, y, z⟩ := o _ a b (c h)
    exact ⟨a, c h, tx_key ch s, y, x, z⟩
  | wrBit i b =>
    obtain ⟨a, b', _, _, c⟩ := wrBit_calm i b s (by simpa [calm] using hc) h
    obtain ⟨x, y, z⟩ := o _ a b' c
    exact ⟨a, c, rfl, y, x, z⟩
  | wrSbuf v => cases hc
  | wrScon v => cases hc
  | wrPcon v => cases hc
  | t2con v => cases hc
  | reset => cases hc

/-- Without a write of SBUF an idle transmitter stays idle. -/
theorem idle_run (h : List Ev) : ∀ (s : Ser), (∀ e ∈ h, calm e = true) → s.sending = false → (run s h).sending = false ∧ (run s h).out = s.out := by
  induction h with
  | nil => intro s _ k; exact ⟨k, rfl⟩
  | cons e h ih =>
    intro s hc k
    have c := hc e (List.mem_cons_self ..)
    have x : tx (ev s e) = tx s := by
      by_cases ht : e = .tick
      · subst ht
        rcases tick_tx s with ⟨h, _⟩ | ⟨hs, _⟩
        · exact h
        · rw [k] at hs; cases hs
      · apply tx_other s e _ ht
        · intro hr; subst hr; cases c
        · cases e <;> first | rfl | cases c
    obtain ⟨a, _, b⟩ := pend_tx _ _ x
    have := ih (ev s e) (fun e' m => hc e' (List.mem_cons_of_mem _ m)) (b.trans k)
    exact ⟨this.1, this.2.trans a⟩

/-- When the byte is out. -/
theorem send_time (h : List Ev) : ∀ (s : Ser), (∀ e ∈ h, calm e = true) → Conf s → s.sending = true → s.trBit < s.bits →
    ((∃ p q, h = p ++ .tick :: q ∧ frame s ≤ trTime s + units (clk s.mode) p) →
      (run s h).sending = false ∧ (run s h).out = s.out ++ [s.sOut]) ∧
    ((¬ ∃ p q, h = p ++ .tick :: q ∧ frame s ≤ trTime s + units (clk s.mode) p) →
      (run s h).sending = true ∧ (run s h).out = s.out ∧ (run s h).sOut = s.sOut ∧ Conf (run s h) ∧
      (run s h).trBit < (run s h).bits ∧ cf (run s h) = cf s ∧ trTime (run s h) = trTime s + units (clk s.mode) h) := by
  induction h with
  | nil =>
    intro s _ hk hs hb
    refine ⟨fun ⟨p, q, e, _⟩ => by simp at e, fun _ => ⟨hs, rfl, rfl, hk, hb, rfl, rfl⟩⟩
  | cons e h ih =>
    intro s hc hk hs hb
    have c := hc e (List.mem_cons_self ..)
    have hc' : ∀ e ∈ h, calm e = true := fun e' m => hc e' (List.mem_cons_of_mem _ m)
    have hu : ∀ p, units (clk s.mode) (e :: p) = unit (clk s.mode) e + units (clk s.mode) p := fun p => by
      simp [units]
    -- one step, the byte still there
    have step : cf (ev s e) = cf s → Conf (ev s e) → (ev s e).sending = true → (ev s e).trBit < (ev s e).bits →
        (ev s e).out = s.out → (ev s e).sOut = s.sOut → trTime (ev s e) = trTime s + unit (clk s.mode) e →
        (e = .tick → ¬ frame s ≤ trTime s) →
        ((∃ p q, e :: h = p ++ .tick :: q ∧ frame s ≤ trTime s + units (clk s.mode) p) →
          (run s (e :: h)).sending = false ∧ (run s (e :: h)).out = s.out ++ [s.sOut]) ∧
        ((¬ ∃ p q, e :: h = p ++ .tick :: q ∧ frame s ≤ trTime s + units (clk s.mode) p) →
          (run s (e :: h)).sending = true ∧ (run s (e :: h)).out = s.out ∧ (run s (e :: h)).sOut = s.sOut ∧ Conf (run s (e :: h)) ∧
          (run s (e :: h)).trBit < (run s (e :: h)).bits ∧ cf (run s (e :: h)) = cf s ∧
          trTime (run s (e :: h)) = trTime s + units (clk s.mode) (e :: h)) := by
      intro a1 a2 a3 a4 a5 a6 a7 a8
      obtain ⟨i1, i2⟩ := ih (ev s e) hc' a2 a3 a4
      have a1' := a1
      simp only [cf, Prod.mk.injEq] at a1'
      rw [frame_cf _ _ a1, a7, a1'.1] at i1 i2
      rw [a5, a6] at i1 i2
      constructor
      · rintro ⟨p, q, e1, e2⟩
        cases p with
        | nil =>
          simp only [List.nil_append, List.cons.injEq] at e1
          exact absurd (by simpa [units] using e2) (a8 e1.1)
        | cons x p =>
          simp only [List.cons_append, List.cons.injEq] at e1
          obtain ⟨rfl, e1⟩ := e1
          exact i1 ⟨p, q, e1, by rw [hu] at e2; omega⟩
      · intro hn
        have := i2 (fun ⟨p, q, e1, e2⟩ => hn ⟨e :: p, q, by rw [e1]; rfl, by rw [hu]; omega⟩)
        obtain ⟨b1, b2, b3, b4, b5, b6, b7⟩ := this
        exact ⟨b1, b2, b3, b4, b5, b6.trans a1, by rw [hu]; exact b7.trans (by omega)⟩
    by_cases ht : e = .tick
    · subst ht
      obtain ⟨t1, t2⟩ := tick_time s hk hs hb
      obtain ⟨k1, k2⟩ := tick_calm s hk
      by_cases hf : frame s ≤ trTime s
      · obtain ⟨u1, u2, _⟩ := t1 hf
        refine ⟨fun _ => ?_, fun hn => absurd ⟨[], h, rfl, by simpa [units] using hf⟩ hn⟩
        have := idle_run h (tick s) hc' u1
        exact ⟨this.1, this.2.trans u2⟩
      · obtain ⟨u1, u2, u3, u4, u5, _⟩ := t2 hf
        exact step k1 k2 u1 u4 u2 u3 u5 (fun _ => hf)
    · obtain ⟨c1, c2, c3, c4, c5, c6⟩ := calm_time s e c ht hk
      simp only [tx, Prod.mk.injEq] at c3
      exact step c1 c2 (by rw [c3.2.1]; exact hs) (by rw [c4, c5]; exact hb) c3.1 c3.2.2 c6 (fun k => absurd k ht)

end Ucsim.S51.Uart
