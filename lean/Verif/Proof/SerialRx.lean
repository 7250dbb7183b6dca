import Verif.Proof.SerialTime

namespace Ucsim.S51.Uart
open Spec

/-! ### Time of a reception -/

/-- Units counted since the reception began. -/
def recTime (s : Ser) : Nat :=
  s.recBit * dv s.mode s.smod s.t2baud + (if clk s.mode then s.recTick else s.recT1)

theorem recTime_rp (s t : Ser) (h : cf t = cf s) (k : rp t = rp s) : recTime t = recTime s := by
  simp only [cf, rp, Prod.mk.injEq] at h k
  simp only [recTime, h.1, h.2.1, h.2.2, k.2.1, k.2.2.1, k.2.2.2]

def ri (s : Ser) : Bool := s.scon.getLsbD 0

theorem rx_bitCnt (s : Ser) : (bitCnt s).rx = s.rx ∧ (bitCnt s).avail = s.avail ∧ (bitCnt s).receiving = s.receiving := by
  have h := rxp_bitCnt s
  simp only [rxp, Prod.mk.injEq] at h
  refine ⟨h.1, h.2.1, ?_⟩
  have a : ∀ s, (cntDiv s).receiving = s.receiving := fun s => by unfold cntDiv; split <;> rfl
  have b : ∀ s, (cntTr s).receiving = s.receiving := fun s => by unfold cntTr; repeat' split
                                                                 all_goals rfl
  have c : ∀ s, (cntRec s).receiving = s.receiving := fun s => by unfold cntRec; repeat' split
                                                                  all_goals rfl
  unfold bitCnt; rw [c, b, a]

/-- The receiver after counting. -/
theorem cntRec_time (s : Ser) (h : Conf s) (hd : s.divby = dv s.mode s.smod s.t2baud) (hs : s.receiving = true) :
    ((cntRec s).bits ≤ (cntRec s).recBit ↔ frame s ≤ recTime s) ∧ recTime (cntRec s) = recTime s := by
  have hp := dv_pos s.mode s.smod s.t2baud
  have hbits := h.bits
  unfold frame recTime cntRec
  rw [if_pos hs, ← hd, ← hbits]
  rw [← hd] at hp
  rw [show byClock s = clk s.mode from rfl]
  cases hk : clk s.mode
  · simp only [Bool.false_eq_true, if_false, hk]
    have := Nat.div_add_mod s.recT1 s.divby
    refine ⟨ge_iff s.recBit s.recT1 s.divby s.bits hp, ?_⟩
    rw [← hd, Nat.add_mul, Nat.mul_comm (s.recT1 / s.divby)]; omega
  · simp only [if_true, hk]
    have := Nat.div_add_mod s.recTick s.divby
    refine ⟨ge_iff s.recBit s.recTick s.divby s.bits hp, ?_⟩
    rw [← hd, Nat.add_mul, Nat.mul_comm (s.recTick / s.divby)]; omega

theorem sendNl_rx (s : Ser) : (sendNl s).2.rx = s.rx ∧ (sendNl s).2.recBit = s.recBit ∧ (sendNl s).2.bits = s.bits := by
  unfold sendNl; dsimp only; split <;> exact ⟨rfl, rfl, rfl⟩

theorem getInput_some (s : Ser) (h : s.avail = true) : ∃ c t, getInput s = some (c, t) ∧ t.rx = s.rx := by
  unfold getInput
  rw [if_neg (by simp [h])]
  split
  · exact ⟨_, _, rfl, rfl⟩
  · split
    · split
      · exact ⟨_, _, rfl, rfl⟩
      · exact ⟨_, _, rfl, (sendNl_rx _).1⟩
    · exact ⟨_, _, rfl, (sendNl_rx _).1⟩

theorem rxDone_yes (s : Ser) (ha : s.avail = true) (hr : s.receiving = true) (hb : s.bits ≤ s.recBit) :
    (∃ c, (rxDone s).rx = s.rx ++ [c] ∧ (rxDone s).sIn = c) ∧ (rxDone s).receiving = false ∧ ri (rxDone s) = true := by
  obtain ⟨c, t, hg, hx⟩ := getInput_some s ha
  unfold rxDone
  rw [if_pos (by simp [hr, hb]), hg]
  refine ⟨⟨c, ?_, rfl⟩, rfl, ?_⟩
  · show t.rx ++ [c] = _; rw [hx]
  · exact (bits_or _).2.2.1

theorem rxDone_no (s : Ser) (h : ¬ (s.receiving = true ∧ s.bits ≤ s.recBit)) : rxDone s = s := by
  unfold rxDone; rw [if_neg]; simpa using h

theorem rxStart_id (s : Ser) (h : s.receiving = true) : rxStart s = s := by
  unfold rxStart; rw [if_neg]; simp [h]

theorem txDone_rx (s : Ser) : (txDone s).rx = s.rx ∧ (txDone s).sIn = s.sIn := by
  unfold txDone; split <;> exact ⟨rfl, rfl⟩

theorem ri_txDone (s : Ser) : ri (txDone s) = ri s := by
  unfold txDone; split
  · exact (bits_or _).2.2.2
  · rfl

/-- A machine cycle while a byte is being received. -/
theorem tick_rec (s : Ser) (h : Conf s) (hr : s.receiving = true) (ha : s.avail = true) :
    (frame s ≤ recTime s → (∃ c, (tick s).rx = s.rx ++ [c] ∧ (tick s).sIn = c) ∧ (tick s).receiving = false ∧ ri (tick s) = true) ∧
    (¬ frame s ≤ recTime s → (tick s).rx = s.rx ∧ (tick s).receiving = true ∧ (tick s).avail = true ∧
      recTime (tick s) = recTime s + unit (clk s.mode) .tick ∧ ri (tick s) = ri s) := by
  obtain ⟨a1, _, a2, _, a3, a4⟩ := cntDiv_calm s h
  obtain ⟨b1, b2, _, b3, _, _, b5⟩ := cntTr_calm _ a3
  have e1 : cf (cntTr (cntDiv s)) = cf s := b1.trans a1
  have e2 : rp (cntTr (cntDiv s)) = rp s := b2.trans a2
  have e1' := e1
  have e2' := e2
  simp only [cf, rp, Prod.mk.injEq] at e1' e2'
  have t := cntRec_time (cntTr (cntDiv s)) b3 (by rw [b5, a4, e1'.1, e1'.2.1, e1'.2.2]) (by rw [e2'.1]; exact hr)
  rw [frame_cf _ _ e1, recTime_rp _ _ e1 e2] at t
  change ((bitCnt s).bits ≤ (bitCnt s).recBit ↔ _) ∧ recTime (bitCnt s) = _ at t
  obtain ⟨c1, c2, c3⟩ := bitCnt_calm s h
  obtain ⟨x1, x2, x3⟩ := rx_bitCnt s
  obtain ⟨d1, d2, d3, d4⟩ := txDone_calm _ c3
  obtain ⟨y1, _⟩ := txDone_rx (bitCnt s)
  have d2' := d2
  simp only [rp, Prod.mk.injEq] at d2'
  have u : rxStart (txDone (bitCnt s)) = txDone (bitCnt s) := rxStart_id _ (by rw [d2'.1, x3, hr])
  have w : (txDone (bitCnt s)).bits = (bitCnt s).bits := by
    have q := d1
    simp only [cf, Prod.mk.injEq] at q
    rw [d4.bits, c3.bits, q.1]
  have v : tick s = { rxDone (txDone (bitCnt s)) with
      trTick := (rxDone (txDone (bitCnt s))).trTick + 12, recTick := (rxDone (txDone (bitCnt s))).recTick + 12 } := by
    unfold tick; rw [u]
  constructor
  · intro hf
    have q := rxDone_yes (txDone (bitCnt s)) (by rw [d3, c2]; exact ha) (by rw [d2'.1, x3]; exact hr)
      (by rw [w, d2'.2.1]; exact t.1.2 hf)
    rw [y1, x1] at q
    rw [v]; exact q
  · intro hf
    have q := rxDone_no (txDone (bitCnt s)) (fun k => hf (t.1.1 (by rw [← w, ← d2'.2.1]; exact k.2)))
    rw [v, q]
    refine ⟨y1.trans x1, by rw [← hr, ← x3]; exact d2'.1, by rw [← ha, ← c2]; exact d3, ?_, ?_⟩
    · have m := d1.trans c1
      simp only [cf, Prod.mk.injEq] at m
      have g : recTime (txDone (bitCnt s)) = recTime s := (recTime_rp _ _ d1 d2).trans t.2
      have z : recTime { txDone (bitCnt s) with trTick := (txDone (bitCnt s)).trTick + 12, recTick := (txDone (bitCnt s)).recTick + 12 } =
          recTime (txDone (bitCnt s)) + (if clk (txDone (bitCnt s)).mode then 12 else 0) := by
        unfold recTime
        dsimp only
        cases clk (txDone (bitCnt s)).mode
        · rfl
        · simp only [if_true, Nat.add_assoc]
      rw [z, g, m.1]; rfl
    · show ri (txDone (bitCnt s)) = _
      rw [ri_txDone]; show (bitCnt s).scon.getLsbD 0 = _
      rw [scon_bitCnt]; rfl

theorem bit4 : ∀ (b : Byte), (b ||| 1#8 <<< 1).getLsbD 4 = b.getLsbD 4 := by decide +kernel

/-- A reception begins. -/
theorem tick_begin (s : Ser) (h : Conf s) (hr : s.receiving = false) (hn : s.ren = true) (ha : s.avail = true) :
    (tick s).receiving = true ∧ (tick s).avail = true ∧ (tick s).rx = s.rx ∧ recTime (tick s) = unit (clk s.mode) .tick := by
  obtain ⟨c1, c2, c3⟩ := bitCnt_calm s h
  obtain ⟨x1, x2, x3⟩ := rx_bitCnt s
  obtain ⟨d1, d2, d3, d4⟩ := txDone_calm _ c3
  obtain ⟨y1, _⟩ := txDone_rx (bitCnt s)
  simp only [rp, Prod.mk.injEq] at d2
  have n1 : (txDone (bitCnt s)).ren = s.ren := by
    have a : ∀ s, (cntDiv s).ren = s.ren := fun s => by unfold cntDiv; split <;> rfl
    have b : ∀ s, (cntTr s).ren = s.ren := fun s => by unfold cntTr; repeat' split
                                                       all_goals rfl
    have c : ∀ s, (cntRec s).ren = s.ren := fun s => by unfold cntRec; repeat' split
                                                        all_goals rfl
    have e : (bitCnt s).ren = s.ren := by unfold bitCnt; rw [c, b, a]
    rw [← e]
    unfold txDone; split
    · show ((bitCnt s).scon ||| 1#8 <<< 1).getLsbD 4 = _
      rw [c3.ren]; exact bit4 _
    · rfl
  have hr1 : (txDone (bitCnt s)).receiving = false := by rw [d2.1, x3]; exact hr
  have ha1 : (txDone (bitCnt s)).avail = true := by rw [d3, c2]; exact ha
  have p1 : rxPoll (txDone (bitCnt s)) = txDone (bitCnt s) := by
    unfold rxPoll poll; rw [ha1]; simp
  have p2 : rxStart (txDone (bitCnt s)) = { txDone (bitCnt s) with receiving := true, recBit := 0, recTick := 0, recT1 := 0 } := by
    unfold rxStart; rw [if_pos (by simp [n1, hn, hr1]), p1]
    unfold rxBegin; rw [if_pos ha1]
  have p3 : rxDone (rxStart (txDone (bitCnt s))) = rxStart (txDone (bitCnt s)) := by
    apply rxDone_no
    rw [p2]; dsimp only
    rw [d4.bits]
    have := bits_pos (txDone (bitCnt s)).mode
    omega
  have m := d1.trans c1
  simp only [cf, Prod.mk.injEq] at m
  unfold tick
  rw [p3, p2]
  refine ⟨rfl, ha1, y1.trans x1, ?_⟩
  unfold recTime unit
  dsimp only
  rw [m.1]
  cases clk s.mode <;> simp

/-- Events that leave a reception alone. -/
def calmR (e : Ev) : Bool := calm e || isWrite e

theorem calmR_rec (s : Ser) (e : Ev) (hc : calmR e = true) (ht : e ≠ .tick) (h : Conf s) :
    cf (ev s e) = cf s ∧ Conf (ev s e) ∧ (ev s e).receiving = s.receiving ∧ (s.avail = true → (ev s e).avail = true) ∧
    (ev s e).rx = s.rx ∧ recTime (ev s e) = recTime s + unit (clk s.mode) e := by
  have o : ∀ t : Ser, cf t = cf s → rp t = rp s → t.receiving = s.receiving ∧ recTime t = recTime s := by
    intro t a b
    have b' := b
    simp only [rp, Prod.mk.injEq] at b'
    exact ⟨b'.1, recTime_rp _ _ a b⟩
  have hk : ∀ c, (key c s).rx = s.rx := fun c => by unfold key; repeat' split
                                                    all_goals rfl
  have hp : (poll s).rx = s.rx := by
    unfold poll; split
    · split
      · rfl
      · split <;> rfl
    · rfl
  cases e with
  | tick => exact absurd rfl ht
  | ovf1 =>
    refine ⟨rfl, ⟨h.mode, h.bits, h.div, h.ren⟩, rfl, id, rfl, ?_⟩
    show s.recBit * dv s.mode s.smod s.t2baud + (if clk s.mode then s.recTick else s.recT1 + 1) = _
    simp only [recTime, unit]; cases clk s.mode
    · simp only [Bool.false_eq_true, if_false, Nat.add_assoc]
    · rfl
  | ovf2 =>
    refine ⟨rfl, ⟨h.mode, h.bits, h.div, h.ren⟩, rfl, id, rfl, ?_⟩
    show s.recBit * dv s.mode s.smod s.t2baud + (if clk s.mode then s.recTick else s.recT1 + 1) = _
    simp only [recTime, unit]; cases clk s.mode
    · simp only [Bool.false_eq_true, if_false, Nat.add_assoc]
    · rfl
  | rdSbuf => exact ⟨rfl, ⟨h.mode, h.bits, h.div, h.ren⟩, rfl, id, rfl, rfl⟩
  | wrSbuf v => exact ⟨rfl, ⟨h.mode, h.bits, h.div, h.ren⟩, rfl, id, rfl, rfl⟩
  | poll =>
    obtain ⟨a, _, b, d, c⟩ := poll_calm s
    obtain ⟨x, y⟩ := o _ a b
    exact ⟨a, c h, x, d, hp, y⟩
  | key ch =>
    obtain ⟨a, _, b, d, c⟩ := key_calm ch s
    obtain ⟨x, y⟩ := o _ a b
    exact ⟨a, c h, x, d, hk ch, y⟩
  | wrBit i b =>
    obtain ⟨a, _, b', d, c⟩ := wrBit_calm i b s (by simpa [calm, calmR, isWrite] using hc) h
    obtain ⟨x, y⟩ := o _ a b'
    exact ⟨a, c, x, fun k => d.trans k, rfl, y⟩
  | wrScon v => cases hc
  | wrPcon v => cases hc
  | t2con v => cases hc
  | reset => cases hc

/-- Nothing is received before the time of a frame has passed. -/
theorem rec_time (h : List Ev) : ∀ (s : Ser), (∀ e ∈ h, calmR e = true) → Conf s → s.receiving = true → s.avail = true →
    (¬ ∃ p q, h = p ++ .tick :: q ∧ frame s ≤ recTime s + units (clk s.mode) p) →
    (run s h).rx = s.rx ∧ (run s h).receiving = true ∧ (run s h).avail = true ∧ Conf (run s h) ∧ cf (run s h) = cf s ∧
    recTime (run s h) = recTime s + units (clk s.mode) h := by
  induction h with
  | nil => intro s _ hk hs ha _; exact ⟨rfl, hs, ha, hk, rfl, rfl⟩
  | cons e h ih =>
    intro s hc hk hs ha hn
    have c := hc e (List.mem_cons_self ..)
    have hc' : ∀ e ∈ h, calmR e = true := fun e' m => hc e' (List.mem_cons_of_mem _ m)
    have hu : ∀ p, units (clk s.mode) (e :: p) = unit (clk s.mode) e + units (clk s.mode) p := fun p => by
      simp [units]
    have st : cf (ev s e) = cf s ∧ Conf (ev s e) ∧ (ev s e).receiving = true ∧ (ev s e).avail = true ∧
        (ev s e).rx = s.rx ∧ recTime (ev s e) = recTime s + unit (clk s.mode) e := by
      by_cases ht : e = .tick
      · subst ht
        obtain ⟨k1, k2⟩ := tick_calm s hk
        obtain ⟨u1, u2, u3, u4, _⟩ := (tick_rec s hk hs ha).2 (fun hf => hn ⟨[], h, rfl, by simpa [units] using hf⟩)
        exact ⟨k1, k2, u2, u3, u1, u4⟩
      · obtain ⟨a, b, c, d, e', f⟩ := calmR_rec s e c ht hk
        exact ⟨a, b, c.trans hs, d ha, e', f⟩
    obtain ⟨a1, a2, a3, a4, a5, a6⟩ := st
    have a1' := a1
    simp only [cf, Prod.mk.injEq] at a1'
    have i := ih (ev s e) hc' a2 a3 a4 (by
      rw [frame_cf _ _ a1, a6, a1'.1]
      rintro ⟨p, q, e1, e2⟩
      exact hn ⟨e :: p, q, by rw [e1]; rfl, by rw [hu]; omega⟩)
    obtain ⟨b1, b2, b3, b4, b5, b6⟩ := i
    refine ⟨b1.trans a5, b2, b3, b4, b5.trans a1, ?_⟩
    rw [hu]
    rw [a6, a1'.1] at b6
    exact b6.trans (by omega)

/-! ### Every history keeps the settings in order -/

theorem conf_wrPcon (v : Byte) (s : Ser) (h : Conf s) : Conf (wrPcon v s) := by
  refine ⟨h.mode, h.bits, fun k => ?_, h.ren⟩
  have k' : s.t2baud = false := k
  have d := h.div k'
  show (if s.mode ≠ 0 then (if v.getLsbD 7 then 16 else 32) else s.divby) = dv s.mode (v.getLsbD 7) false
  by_cases hm : s.mode = 0
  · rw [if_neg (by simpa using hm), d]; simp [dv, hm]
  · rw [if_pos hm]; simp [dv, hm]

theorem conf_reset (s : Ser) : Conf (reset s) := by
  have t2 : ∀ t : Ser, Conf t → ∀ v : Byte, (t.t2baud = false ∨ v &&& 0x30#8 ≠ 0#8) → Conf (t2con v t) := by
    intro t k v hv
    have a : Conf (if !t.t2baud then { t with recT1 := 0, trT1 := 0 } else t) := by
      split
      · exact ⟨k.mode, k.bits, k.div, k.ren⟩
      · exact k
    have b : (if !t.t2baud then { t with recT1 := 0, trT1 := 0 } else t).t2baud = t.t2baud := by split <;> rfl
    refine ⟨a.mode, a.bits, fun q => ?_, a.ren⟩
    apply a.div
    rw [b]
    rcases hv with hv | hv
    · exact hv
    · have q' : (v &&& 0x30#8 != 0#8) = false := q
      simp only [bne_eq_false_iff_eq] at q'
      exact absurd q' hv
  show Conf (t2con 0 (wrPcon 0 (wrScon 0 _)))
  by_cases hb : s.t2baud = false
  · exact t2 _ (conf_wrPcon _ _ (conf_wrScon _ _)) 0 (.inl hb)
  · simp only [Bool.not_eq_false] at hb
    have k := conf_wrScon 0 { s with
      trT1 := 0, recT1 := 0, trTick := 0, recTick := 0, sIn := 0, sOut := 0
      sending := false, receiving := false, recBit := 0, trBit := 0 }
    have e : ∀ t : Ser, t.t2baud = true → t2con 0 t = { t with t2baud := false } := by
      intro t k; unfold t2con; rw [k]; rfl
    rw [e (wrPcon 0 (wrScon 0 _)) (by exact hb)]
    have k2 := conf_wrPcon 0 _ k
    refine ⟨k2.mode, k2.bits, fun _ => ?_, k2.ren⟩
    simp [wrPcon, wrScon, dv]

theorem conf_ev (s : Ser) (e : Ev) (h : Conf s) (ht : ∀ v, e = .t2con v → s.t2baud = false ∨ v &&& 0x30#8 ≠ 0#8) : Conf (ev s e) := by
  have t2 : ∀ t : Ser, Conf t → ∀ v : Byte, (t.t2baud = false ∨ v &&& 0x30#8 ≠ 0#8) → Conf (t2con v t) := by
    intro t k v hv
    have a : Conf (if !t.t2baud then { t with recT1 := 0, trT1 := 0 } else t) := by
      split
      · exact ⟨k.mode, k.bits, k.div, k.ren⟩
      · exact k
    have b : (if !t.t2baud then { t with recT1 := 0, trT1 := 0 } else t).t2baud = t.t2baud := by split <;> rfl
    refine ⟨a.mode, a.bits, fun q => ?_, a.ren⟩
    apply a.div
    rw [b]
    rcases hv with hv | hv
    · exact hv
    · have q' : (v &&& 0x30#8 != 0#8) = false := q
      simp only [bne_eq_false_iff_eq] at q'
      exact absurd q' hv
  cases e with
  | wrScon v => exact conf_wrScon v s
  | wrBit i b => exact conf_wrScon _ s
  | wrPcon v => exact conf_wrPcon v s h
  | tick => exact (tick_calm s h).2
  | poll => exact (poll_calm s).2.2.2.2 h
  | key c => exact (key_calm c s).2.2.2.2 h
  | t2con v => exact t2 s h v (ht v rfl)
  | reset => exact conf_reset s
  | wrSbuf v => exact ⟨h.mode, h.bits, h.div, h.ren⟩
  | rdSbuf => exact ⟨h.mode, h.bits, h.div, h.ren⟩
  | ovf1 => exact ⟨h.mode, h.bits, h.div, h.ren⟩
  | ovf2 => exact ⟨h.mode, h.bits, h.div, h.ren⟩

/-! ### Flow control -/

/-- The bytes the program reads. -/
def reads (s : Ser) : List Ev → List Byte
  | [] => []
  | .rdSbuf :: h => s.sIn :: reads (ev s .rdSbuf) h
  | e :: h => reads (ev s e) h

/-- The program reads SBUF only when something was received since the last read: `n` bytes were read before. -/
def reader (n : Nat) (s : Ser) : List Ev → Bool
  | [] => true
  | .rdSbuf :: h => decide (n < s.rx.length) && reader (n + 1) (ev s .rdSbuf) h
  | e :: h => reader n (ev s e) h

/-- `old`: read already -/
structure Fl (L : List Byte) (s : Ser) (old u : List Byte) : Prop where
  inv : Inv L s
  one : L.length ≤ 1
  flow : s.flow = true
  rx : s.rx = old ++ u
  tok : s.able.toNat + s.avail.toNat + u.length = 1
  last : ∀ c, u = [c] → s.sIn = c

def fp (s : Ser) : Bool × Bool × Bool × Byte := (s.flow, s.able, s.avail, s.sIn)

theorem fl_congr (L : List Byte) (s t : Ser) (old u : List Byte) (h : rxp t = rxp s) (k : fp t = fp s) (i : Fl L s old u) : Fl L t old u := by
  simp only [fp, Prod.mk.injEq] at k
  have h' := h
  simp only [rxp, Prod.mk.injEq] at h'
  exact ⟨(whole_congr L s t h.symm).2 i.inv, i.one, k.1.trans i.flow, h'.1.trans i.rx, by rw [k.2.1, k.2.2.1]; exact i.tok,
    fun c e => k.2.2.2.trans (i.last c e)⟩

theorem fl_poll (L : List Byte) (s : Ser) (old u : List Byte) (i : Fl L s old u) : Fl L (poll s) old u := by
  have iv := (poll_ok L s i.inv).2
  revert iv
  unfold poll
  split
  · rename_i hc
    simp only [Bool.and_eq_true, Bool.not_eq_true', Bool.or_eq_true, i.flow] at hc
    have hab : s.able = true := by
      rcases hc.2 with h | h
      · cases h
      · exact h
    have tok := i.tok
    split
    · intro iv; exact i
    · split
      · intro iv; exact ⟨iv, i.one, i.flow, i.rx, i.tok, i.last⟩
      · intro iv
        refine ⟨iv, i.one, i.flow, i.rx, ?_, i.last⟩
        rw [hab, hc.1] at tok
        simp at tok
        simp [tok]
  · intro iv; exact i

/-- With a new line of at most one character a character is gone when it was received. -/
theorem getInput_one (L : List Byte) (s t : Ser) (c : Byte) (h : Inv L s) (h1 : L.length ≤ 1) (hg : getInput s = some (c, t)) :
    t.avail = false ∧ t.able = s.able ∧ t.flow = s.flow ∧ t.rx = s.rx ∧ s.avail = true := by
  obtain ⟨n1, n2, n3⟩ := nl_bytes s.nl h.lt
  rw [h.nl] at n1 n2 n3
  have av : s.avail = true := by
    cases k : s.avail with
    | true => rfl
    | false => unfold getInput at hg; rw [k] at hg; cases hg
  unfold getInput at hg
  rw [if_neg (by rw [av]; decide)] at hg
  by_cases h0 : nlByte s.nl 0 = 0
  · rw [if_pos h0] at hg; cases hg; exact ⟨rfl, rfl, rfl, rfl, av⟩
  · rw [if_neg h0] at hg
    have hl : L.length = 1 := by
      have : L.length ≠ 0 := fun k => by rw [k] at n2; exact h0 n2
      omega
    have sn : ∀ x : Ser, x.nl = s.nl → x.nlIdx = 0 → (sendNl x).2.avail = false ∧ (sendNl x).2.able = x.able ∧ (sendNl x).2.flow = x.flow ∧ (sendNl x).2.rx = x.rx := by
      intro x hx hi
      unfold sendNl
      rw [hl] at n2
      dsimp only
      rw [hx, hi, if_pos n2]; exact ⟨rfl, rfl, rfl, rfl⟩
    split at hg
    · split at hg
      · cases hg; exact ⟨rfl, rfl, rfl, rfl, av⟩
      · simp only [Option.some.injEq] at hg
        have q := sn { s with skipNl := some (oppositeNl s.input), sendingNl := true, nlIdx := 0 } rfl rfl
        rw [hg] at q
        exact ⟨q.1, q.2.1, q.2.2.1, q.2.2.2, av⟩
    · rename_i hs
      simp only [Bool.not_eq_true, Bool.not_eq_false'] at hs
      have i0 := (h.sending hs).2
      simp only [Option.some.injEq] at hg
      have q := sn s rfl (by omega)
      rw [hg] at q
      exact ⟨q.1, q.2.1, q.2.2.1, q.2.2.2, av⟩

theorem fl_rxDone (L : List Byte) (s : Ser) (old u : List Byte) (i : Fl L s old u) : ∃ u', Fl L (rxDone s) old u' := by
  have iv := (rxDone_ok L s i.inv).2
  revert iv
  unfold rxDone
  split
  · split
    · intro iv; exact ⟨u, i⟩
    · rename_i c t hg
      intro iv
      obtain ⟨q1, q2, q3, q4, q5⟩ := getInput_one L s t c i.inv i.one hg
      have tok := i.tok
      rw [q5] at tok
      have hu : u = [] := by
        cases u with
        | nil => rfl
        | cons a l => simp at tok; omega
      refine ⟨[c], ⟨iv, i.one, q3.trans i.flow, ?_, ?_, ?_⟩⟩
      · show t.rx ++ [c] = _; rw [q4, i.rx, hu]; simp
      · show t.able.toNat + t.avail.toNat + 1 = 1
        rw [q1, q2]
        rw [hu] at tok; simp at tok; simp [tok]
      · intro d hd; cases hd; rfl
  · intro iv; exact ⟨u, i⟩

theorem fl_rxStart (L : List Byte) (s : Ser) (old u : List Byte) (i : Fl L s old u) : Fl L (rxStart s) old u := by
  unfold rxStart
  split
  · have a : Fl L (rxPoll s) old u := by
      unfold rxPoll; split
      · exact fl_poll L s old u i
      · exact i
    apply fl_congr L (rxPoll s) _ old u _ _ a
    · unfold rxBegin; split <;> rfl
    · unfold rxBegin; split <;> rfl
  · exact i

theorem fp_bitCnt (s : Ser) : fp (bitCnt s) = fp s := by
  have a : ∀ s, fp (cntDiv s) = fp s := fun s => by unfold cntDiv; split <;> rfl
  have b : ∀ s, fp (cntTr s) = fp s := fun s => by unfold cntTr; repeat' split
                                                   all_goals rfl
  have c : ∀ s, fp (cntRec s) = fp s := fun s => by unfold cntRec; repeat' split
                                                    all_goals rfl
  unfold bitCnt; rw [c, b, a]

theorem fl_tick (L : List Byte) (s : Ser) (old u : List Byte) (i : Fl L s old u) : ∃ u', Fl L (tick s) old u' := by
  have a : Fl L (txDone (bitCnt s)) old u := by
    apply fl_congr L s _ old u _ _ i
    · rw [rxp_txDone, rxp_bitCnt]
    · rw [← fp_bitCnt s]; unfold txDone; split <;> rfl
  obtain ⟨u', b⟩ := fl_rxDone L _ old u (fl_rxStart L _ old u a)
  exact ⟨u', fl_congr L (rxDone (rxStart (txDone (bitCnt s)))) (tick s) old u' rfl rfl b⟩

def isReset : Ev → Bool
  | .reset => true
  | _ => false

theorem fl_ev (L : List Byte) (s : Ser) (old u : List Byte) (e : Ev) (hk : isKey e = false) (hr : isReset e = false) (hd : e ≠ .rdSbuf)
    (i : Fl L s old u) : ∃ u', Fl L (ev s e) old u' := by
  cases e with
  | key c => cases hk
  | reset => cases hr
  | rdSbuf => exact absurd rfl hd
  | tick => exact fl_tick L s old u i
  | poll => exact ⟨u, fl_poll L s old u i⟩
  | t2con v =>
    refine ⟨u, fl_congr L s _ old u ?_ ?_ i⟩
    · show rxp (t2con v s) = _; unfold t2con; cases s.t2baud <;> rfl
    · show fp (t2con v s) = _; unfold t2con; cases s.t2baud <;> rfl
  | wrSbuf v => exact ⟨u, fl_congr L s _ old u rfl rfl i⟩
  | wrScon v => exact ⟨u, fl_congr L s _ old u rfl rfl i⟩
  | wrBit i' b => exact ⟨u, fl_congr L s _ old u rfl rfl i⟩
  | wrPcon v => exact ⟨u, fl_congr L s _ old u rfl rfl i⟩
  | ovf1 => exact ⟨u, fl_congr L s _ old u rfl rfl i⟩
  | ovf2 => exact ⟨u, fl_congr L s _ old u rfl rfl i⟩

theorem fl_run (L : List Byte) (h : List Ev) : ∀ (s : Ser) (old u : List Byte), (∀ e ∈ h, isKey e = false ∧ isReset e = false) →
    reader old.length s h = true → Fl L s old u → ∃ u', Fl L (run s h) (old ++ reads s h) u' := by
  induction h with
  | nil => intro s old u _ _ i; exact ⟨u, by simpa [reads, run] using i⟩
  | cons e h ih =>
    intro s old u hk hrd i
    have ke := hk e (List.mem_cons_self ..)
    have hk' : ∀ e ∈ h, isKey e = false ∧ isReset e = false := fun e' m => hk e' (List.mem_cons_of_mem _ m)
    by_cases hd : e = .rdSbuf
    · subst hd
      simp only [reader, Bool.and_eq_true, decide_eq_true_eq] at hrd
      have hl := hrd.1
      rw [i.rx] at hl
      have tok := i.tok
      have hu : ∃ c, u = [c] := by
        match u, hl, tok with
        | [], hl, _ => simp at hl
        | [c], _, _ => exact ⟨c, rfl⟩
        | c :: d :: l, _, tok => simp at tok; omega
      obtain ⟨c, rfl⟩ := hu
      have lst := i.last c rfl
      have n : Fl L (ev s .rdSbuf) (old ++ [c]) [] := by
        refine ⟨⟨i.inv.nl, i.inv.lt, i.inv.sending, i.inv.zero, i.inv.idle⟩, i.one, i.flow, ?_, ?_, ?_⟩
        · show s.rx = _; rw [i.rx]; simp
        · show true.toNat + s.avail.toNat + 0 = 1
          have : s.avail.toNat = 0 := by simp at tok; simp [tok]
          rw [this]; rfl
        · intro c h; cases h
      have q := ih (ev s .rdSbuf) (old ++ [c]) [] hk' (by simpa using hrd.2) n
      have er : reads s (.rdSbuf :: h) = c :: reads (ev s .rdSbuf) h := by rw [reads, lst]
      rw [er, show old ++ c :: reads (ev s .rdSbuf) h = old ++ [c] ++ reads (ev s .rdSbuf) h by simp]
      exact q
    · have hrd : reader old.length (ev s e) h = true := by
        cases e <;> first | exact hrd | exact absurd rfl hd
      obtain ⟨u', n⟩ := fl_ev L s old u e ke.1 ke.2 hd i
      have q := ih (ev s e) old u' hk' hrd n
      have er : reads s (e :: h) = reads (ev s e) h := by
        cases e <;> first | rfl | exact absurd rfl hd
      rw [er]; exact q

end Ucsim.S51.Uart
