import Verif.S51.Serial
import Verif.Spec.Serial

namespace Ucsim.S51.Uart
open Spec

/-! ### Sending -/

/-- What sending has to do with. -/
def tx (s : Ser) : List Byte × Bool × Byte := (s.out, s.sending, s.sOut)

theorem tx_wrScon (n : Byte) (s : Ser) : tx (wrScon n s) = tx s := rfl
theorem tx_wrBit (i : Nat) (b : Bool) (s : Ser) : tx (wrBit i b s) = tx s := rfl
theorem tx_poll (s : Ser) : tx (poll s) = tx s := by
  unfold poll; split
  · split
    · rfl
    · split <;> rfl
  · rfl
theorem tx_key (c : Byte) (s : Ser) : tx (key c s) = tx s := by
  unfold key; split
  · split <;> rfl
  · rfl
theorem tx_bitCnt (s : Ser) : tx (bitCnt s) = tx s := by
  have a : ∀ s, tx (cntDiv s) = tx s := fun s => by unfold cntDiv; split <;> rfl
  have b : ∀ s, tx (cntTr s) = tx s := fun s => by unfold cntTr; repeat' split
                                                   all_goals rfl
  have c : ∀ s, tx (cntRec s) = tx s := fun s => by unfold cntRec; repeat' split
                                                    all_goals rfl
  unfold bitCnt; rw [c, b, a]
theorem tx_rxStart (s : Ser) : tx (rxStart s) = tx s := by
  have a : ∀ s, tx (rxPoll s) = tx s := fun s => by unfold rxPoll; split; exact tx_poll s; rfl
  have b : ∀ s, tx (rxBegin s) = tx s := fun s => by unfold rxBegin; split <;> rfl
  unfold rxStart; split
  · rw [b, a]
  · rfl

theorem sendNl_tx (s : Ser) : tx (sendNl s).2 = tx s ∧ (sendNl s).2.scon = s.scon ∧ (sendNl s).2.smod = s.smod := by
  unfold sendNl; dsimp only; split <;> exact ⟨rfl, rfl, rfl⟩

theorem getInput_tx (s t : Ser) (c : Byte) (h : getInput s = some (c, t)) : tx t = tx s ∧ t.scon = s.scon ∧ t.smod = s.smod := by
  unfold getInput at h
  split at h
  · cases h
  · split at h
    · cases h; exact ⟨rfl, rfl, rfl⟩
    · split at h
      · split at h
        · cases h; exact ⟨rfl, rfl, rfl⟩
        · simp only [Option.some.injEq] at h
          have := sendNl_tx { s with skipNl := some (oppositeNl s.input), sendingNl := true, nlIdx := 0 }
          rw [h] at this; exact this
      · simp only [Option.some.injEq] at h
        have := sendNl_tx s
        rw [h] at this; exact this

theorem tx_rxDone (s : Ser) : tx (rxDone s) = tx s := by
  unfold rxDone
  split
  · split
    · rfl
    · rename_i c t h
      exact (getInput_tx s t c h).1
  · rfl

theorem bits_or : ∀ (b : Byte), (b ||| 1#8 <<< 1).getLsbD 1 = true ∧ (b ||| 1#8 <<< 0).getLsbD 1 = b.getLsbD 1 ∧
    (b ||| 1#8 <<< 0).getLsbD 0 = true ∧ (b ||| 1#8 <<< 1).getLsbD 0 = b.getLsbD 0 := by decide +kernel

theorem scon_bitCnt (s : Ser) : (bitCnt s).scon = s.scon := by
  have a : ∀ s, (cntDiv s).scon = s.scon := fun s => by unfold cntDiv; split <;> rfl
  have b : ∀ s, (cntTr s).scon = s.scon := fun s => by unfold cntTr; repeat' split
                                                       all_goals rfl
  have c : ∀ s, (cntRec s).scon = s.scon := fun s => by unfold cntRec; repeat' split
                                                        all_goals rfl
  unfold bitCnt; rw [c, b, a]
theorem scon_poll (s : Ser) : (poll s).scon = s.scon := by
  unfold poll; split
  · split
    · rfl
    · split <;> rfl
  · rfl
theorem scon_rxStart (s : Ser) : (rxStart s).scon = s.scon := by
  have a : ∀ s, (rxPoll s).scon = s.scon := fun s => by unfold rxPoll; split; exact scon_poll s; rfl
  have b : ∀ s, (rxBegin s).scon = s.scon := fun s => by unfold rxBegin; split <;> rfl
  unfold rxStart; split
  · rw [b, a]
  · rfl
theorem ti_rxDone (s : Ser) : (rxDone s).scon.getLsbD 1 = s.scon.getLsbD 1 := by
  unfold rxDone
  split
  · split
    · rfl
    · rename_i c t h
      have := (getInput_tx s t c h).2.1
      show (t.scon ||| 1#8 <<< 0).getLsbD 1 = _
      rw [(bits_or _).2.1, this]
  · rfl

/-- What a machine cycle does to the transmitter. -/
theorem tick_tx (s : Ser) : (tx (tick s) = tx s ∧ (tick s).scon.getLsbD 1 = s.scon.getLsbD 1) ∨
    (s.sending = true ∧ tx (tick s) = (s.out ++ [s.sOut], false, s.sOut) ∧ (tick s).scon.getLsbD 1 = true) := by
  have e : tx (tick s) = tx (txDone (bitCnt s)) := by
    show tx (rxDone (rxStart (txDone (bitCnt s)))) = _
    rw [tx_rxDone, tx_rxStart]
  have f : (tick s).scon.getLsbD 1 = (txDone (bitCnt s)).scon.getLsbD 1 := by
    show (rxDone (rxStart (txDone (bitCnt s)))).scon.getLsbD 1 = _
    rw [ti_rxDone, scon_rxStart]
  have k := tx_bitCnt s
  rw [e, f, ← scon_bitCnt s]
  simp only [tx, Prod.mk.injEq] at k
  obtain ⟨k1, k2, k3⟩ := k
  unfold txDone
  split
  · rename_i h
    simp only [Bool.and_eq_true] at h
    right
    refine ⟨k2 ▸ h.1, ?_, (bits_or _).1⟩
    show ((bitCnt s).out ++ [(bitCnt s).sOut], false, (bitCnt s).sOut) = _
    rw [k1, k3]
  · left
    refine ⟨?_, rfl⟩
    simp only [tx, k1, k2, k3]

/-! ### Receiving: the stream -/

/-- What the receiver makes of the input, `L`: the new line, `k`: the character to be skipped. -/
def stream (L : List Byte) : Option Byte → List Byte → List Byte
  | _, [] => []
  | k, c :: l =>
    if L = [] then c :: stream L none l
    else if k = some c then stream L k l
    else if isNl c then L ++ stream L (some (oppositeNl c)) l
    else c :: stream L none l

/-- Characters taken from the input and not yet received. -/
def inflight (L : List Byte) (s : Ser) : List Byte :=
  if s.avail then
    if L = [] then [s.input]
    else if s.sendingNl then L.drop s.nlIdx
    else if isNl s.input then L else [s.input]
  else []

/-- The character to be skipped when they are received. -/
def skipAfter (L : List Byte) (s : Ser) : Option Byte :=
  if s.avail = true ∧ s.sendingNl = false ∧ L ≠ [] then (if isNl s.input then some (oppositeNl s.input) else none) else s.skipNl

/-- Everything received and to be received. -/
def whole (L : List Byte) (s : Ser) : List Byte := s.rx ++ inflight L s ++ stream L (skipAfter L s) s.fin

structure Inv (L : List Byte) (s : Ser) : Prop where
  nl : newline s.nl = L
  lt : s.nl < 0x1000000
  sending : s.sendingNl = true → s.avail = true ∧ s.nlIdx < L.length
  zero : L = [] → s.skipNl = none
  idle : s.avail = true → s.sendingNl = false → s.skipNl = none

/-- The part of the state the stream depends on. -/
def rxp (s : Ser) : List Byte × Bool × Byte × Bool × Nat × Option Byte × List Byte × Nat :=
  (s.rx, s.avail, s.input, s.sendingNl, s.nlIdx, s.skipNl, s.fin, s.nl)

theorem whole_congr (L : List Byte) (s t : Ser) (h : rxp s = rxp t) : whole L s = whole L t ∧ (Inv L s → Inv L t) := by
  simp only [rxp, Prod.mk.injEq] at h
  obtain ⟨h1, h2, h3, h4, h5, h6, h7, h8⟩ := h
  refine ⟨?_, fun i => ⟨h8 ▸ i.nl, h8 ▸ i.lt, ?_, fun e => h6 ▸ i.zero e, ?_⟩⟩
  · simp only [whole, inflight, skipAfter, h1, h2, h3, h4, h5, h6, h7]
  · rw [← h4, ← h2, ← h5]; exact i.sending
  · rw [← h4, ← h2, ← h6]; exact i.idle

theorem nl_bytes (nl : Nat) (h : nl < 0x1000000) : (∀ i, i < (newline nl).length → nlByte nl i = (newline nl).getD i 0) ∧
    nlByte nl (newline nl).length = 0 ∧ (∀ i, i < (newline nl).length → nlByte nl i ≠ 0) := by
  have e0 : nlByte nl 0 = BitVec.ofNat 8 (nl % 256) := by
    apply BitVec.eq_of_toNat_eq; simp [nlByte]
  have e1 : nlByte nl 1 = BitVec.ofNat 8 (nl / 256 % 256) := by
    apply BitVec.eq_of_toNat_eq; simp [nlByte]
  have e2 : nlByte nl 2 = BitVec.ofNat 8 (nl / 65536 % 256) := by
    apply BitVec.eq_of_toNat_eq; simp [nlByte]
  have e3 : nlByte nl 3 = 0 := by
    apply BitVec.eq_of_toNat_eq; simp [nlByte]; omega
  have nz : ∀ n, n % 256 ≠ 0 → BitVec.ofNat 8 (n % 256) ≠ (0 : Byte) := by
    intro n hn e
    have := congrArg BitVec.toNat e
    simp at this; omega
  unfold newline
  by_cases a0 : nl % 256 = 0
  · simp [List.takeWhile, a0, e0]
  · by_cases a1 : nl / 256 % 256 = 0
    · simp only [List.takeWhile, ne_eq, a0, a1, not_false_eq_true, decide_true, decide_false, not_true_eq_false, List.map, List.length_cons, List.length_nil]
      refine ⟨?_, ?_, ?_⟩
      · intro i hi; have : i = 0 := by omega
        subst this; exact e0
      · rw [show 0 + 1 = 1 from rfl, e1, a1]; rfl
      · intro i hi; have : i = 0 := by omega
        subst this; rw [e0]; exact nz _ a0
    · by_cases a2 : nl / 65536 % 256 = 0
      · simp only [List.takeWhile, ne_eq, a0, a1, a2, not_false_eq_true, decide_true, decide_false, not_true_eq_false, List.map, List.length_cons, List.length_nil]
        refine ⟨?_, ?_, ?_⟩
        · intro i hi
          have : i = 0 ∨ i = 1 := by omega
          rcases this with rfl | rfl
          · exact e0
          · exact e1
        · rw [show 0 + 1 + 1 = 2 from rfl, e2, a2]; rfl
        · intro i hi
          have : i = 0 ∨ i = 1 := by omega
          rcases this with rfl | rfl
          · rw [e0]; exact nz _ a0
          · rw [e1]; exact nz _ a1
      · simp only [List.takeWhile, ne_eq, a0, a1, a2, not_false_eq_true, decide_true, List.map, List.length_cons, List.length_nil]
        refine ⟨?_, e3, ?_⟩
        · intro i hi
          have : i = 0 ∨ i = 1 ∨ i = 2 := by omega
          rcases this with rfl | rfl | rfl
          · exact e0
          · exact e1
          · exact e2
        · intro i hi
          have : i = 0 ∨ i = 1 ∨ i = 2 := by omega
          rcases this with rfl | rfl | rfl
          · rw [e0]; exact nz _ a0
          · rw [e1]; exact nz _ a1
          · rw [e2]; exact nz _ a2

/-- A character of a new line. -/
theorem sendNl_ok (L : List Byte) (s : Ser) (h : Inv L s) (hs : s.sendingNl = true) :
    let r := sendNl s
    s.rx ++ inflight L s = s.rx ++ [r.1] ++ inflight L r.2 ∧ skipAfter L r.2 = skipAfter L s ∧ Inv L r.2 ∧
    r.2.rx = s.rx ∧ r.2.fin = s.fin := by
  obtain ⟨ha, hi⟩ := h.sending hs
  have hL : L ≠ [] := fun e => by rw [e] at hi; exact absurd hi (by simp)
  obtain ⟨n1, n2, n3⟩ := nl_bytes s.nl h.lt
  rw [h.nl] at n1 n2 n3
  have hd : L.drop s.nlIdx = L.getD s.nlIdx 0 :: L.drop (s.nlIdx + 1) := by
    rw [List.drop_eq_getElem_cons hi]
    simp [List.getD, hi]
  dsimp only
  unfold sendNl
  by_cases hz : nlByte s.nl (s.nlIdx + 1) = 0
  · have hl : s.nlIdx + 1 = L.length := by
      have : ¬ s.nlIdx + 1 < L.length := fun k => n3 _ k hz
      omega
    rw [if_pos hz]
    refine ⟨?_, ?_, ⟨h.nl, h.lt, (fun k => by cases k), h.zero, (fun k => by cases k)⟩, rfl, rfl⟩
    · simp only [inflight, ha, hs, hL, if_true, if_false, Bool.false_eq_true, List.append_nil]
      rw [hd, hl, List.drop_length, n1 _ hi]
    · simp [skipAfter, hs]
  · have hl : s.nlIdx + 1 < L.length := by
      have : s.nlIdx + 1 ≠ L.length := fun k => hz (by rw [k]; exact n2)
      omega
    rw [if_neg hz]
    refine ⟨?_, ?_, ⟨h.nl, h.lt, (fun _ => ⟨ha, hl⟩), h.zero, (fun _ k => by simp only [hs] at k; cases k)⟩, rfl, rfl⟩
    · simp only [inflight, ha, hs, hL, if_true, if_false]
      rw [hd, n1 _ hi]; simp
    · simp [skipAfter, hs]

theorem getInput_ok (L : List Byte) (s t : Ser) (c : Byte) (h : Inv L s) (hg : getInput s = some (c, t)) :
    s.rx ++ inflight L s ++ stream L (skipAfter L s) s.fin = t.rx ++ [c] ++ inflight L t ++ stream L (skipAfter L t) t.fin ∧ Inv L t := by
  obtain ⟨n1, n2, n3⟩ := nl_bytes s.nl h.lt
  rw [h.nl] at n1 n2 n3
  unfold getInput at hg
  by_cases ha : s.avail = false
  · rw [ha] at hg; cases hg
  simp only [Bool.not_eq_false] at ha
  rw [if_neg (by rw [ha]; decide)] at hg
  by_cases h0 : nlByte s.nl 0 = 0
  · have hL : L = [] := by
      cases hl : L with
      | nil => rfl
      | cons a l => exact absurd h0 (n3 0 (by rw [hl]; simp))
    have hs : s.sendingNl = false := by
      cases k : s.sendingNl with
      | false => rfl
      | true => have := (h.sending k).2; rw [hL] at this; exact absurd this (by simp)
    rw [if_pos h0] at hg
    cases hg
    refine ⟨?_, ⟨h.nl, h.lt, (fun k => by rw [hs] at k; cases k), h.zero, (fun k => by cases k)⟩⟩
    simp [inflight, ha, hL, skipAfter]
  · have hL : L ≠ [] := fun e => h0 (by rw [e] at n2; exact n2)
    rw [if_neg h0] at hg
    by_cases hs : s.sendingNl = true
    · simp only [hs, Bool.not_true, Bool.false_eq_true, if_false, Option.some.injEq] at hg
      have k := sendNl_ok L s h hs
      rw [hg] at k
      obtain ⟨k1, k2, k3, k4, k5⟩ := k
      refine ⟨?_, k3⟩
      rw [k1, k4, k5, k2]
    · simp only [Bool.not_eq_true] at hs
      simp only [hs, Bool.not_false, if_true] at hg
      by_cases hn : isNl s.input = true
      · simp only [hn, Bool.not_true, Bool.false_eq_true, if_false, Option.some.injEq] at hg
        have h' : Inv L { s with skipNl := some (oppositeNl s.input), sendingNl := true, nlIdx := 0 } :=
          ⟨h.nl, h.lt, fun _ => ⟨ha, by cases L; exact absurd rfl hL; simp⟩, fun e => absurd e hL, fun _ k => by cases k⟩
        have k := sendNl_ok L _ h' rfl
        rw [hg] at k
        obtain ⟨k1, k2, k3, k4, k5⟩ := k
        refine ⟨?_, k3⟩
        rw [k4, k5, k2]
        have e1 : inflight L s = inflight L { s with skipNl := some (oppositeNl s.input), sendingNl := true, nlIdx := 0 } := by
          simp [inflight, ha, hL, hs, hn]
        have e2 : skipAfter L s = skipAfter L { s with skipNl := some (oppositeNl s.input), sendingNl := true, nlIdx := 0 } := by
          simp [skipAfter, ha, hL, hs, hn]
        rw [e1, e2]
        exact congrArg (· ++ _) k1
      · simp only [Bool.not_eq_true] at hn
        simp only [hn, Bool.not_false, if_true, Option.some.injEq, Prod.mk.injEq] at hg
        obtain ⟨rfl, rfl⟩ := hg
        refine ⟨?_, ⟨h.nl, h.lt, (fun k => by cases k), h.zero, (fun k => by cases k)⟩⟩
        have e := h.idle ha hs
        simp [inflight, ha, hL, hs, hn, skipAfter, e]

/-! ### Receiving: every event -/

def isKey : Ev → Bool
  | .key _ => true
  | _ => false

theorem poll_ok (L : List Byte) (s : Ser) (h : Inv L s) : whole L (poll s) = whole L s ∧ Inv L (poll s) := by
  unfold poll
  split
  · rename_i hc
    simp only [Bool.and_eq_true, Bool.not_eq_true'] at hc
    have ha := hc.1
    have hs : s.sendingNl = false := by
      cases k : s.sendingNl with
      | false => rfl
      | true => have := (h.sending k).1; rw [ha] at this; cases this
    split
    · exact ⟨rfl, h⟩
    · rename_i c l hf
      split
      · rename_i hk
        have hL : L ≠ [] := fun e => by rw [h.zero e] at hk; cases hk
        refine ⟨?_, ⟨h.nl, h.lt, h.sending, h.zero, h.idle⟩⟩
        simp [whole, inflight, skipAfter, ha, hf, hk, stream, hL]
      · rename_i hk
        refine ⟨?_, ⟨h.nl, h.lt, (fun k => by simp only [hs] at k; cases k), fun _ => rfl, fun _ _ => rfl⟩⟩
        by_cases hL : L = []
        · simp [whole, inflight, skipAfter, ha, hf, hL, stream]
        · by_cases hn : isNl c = true
          · simp [whole, inflight, skipAfter, ha, hf, stream, hL, hk, hs, hn]
          · simp [whole, inflight, skipAfter, ha, hf, stream, hL, hk, hs, hn]
  · exact ⟨rfl, h⟩

theorem whole_congr' (L : List Byte) (s t : Ser) (h : rxp t = rxp s) (i : Inv L s) : whole L t = whole L s ∧ Inv L t :=
  ⟨((whole_congr L t s h).1), (whole_congr L s t h.symm).2 i⟩

theorem rxDone_ok (L : List Byte) (s : Ser) (h : Inv L s) : whole L (rxDone s) = whole L s ∧ Inv L (rxDone s) := by
  unfold rxDone
  split
  · split
    · exact ⟨rfl, h⟩
    · rename_i c t hg
      obtain ⟨e, i⟩ := getInput_ok L s t c h hg
      refine ⟨?_, ⟨i.nl, i.lt, i.sending, i.zero, i.idle⟩⟩
      exact e.symm
  · exact ⟨rfl, h⟩

theorem rxStart_ok (L : List Byte) (s : Ser) (h : Inv L s) : whole L (rxStart s) = whole L s ∧ Inv L (rxStart s) := by
  unfold rxStart
  split
  · have a : whole L (rxPoll s) = whole L s ∧ Inv L (rxPoll s) := by
      unfold rxPoll; split
      · exact poll_ok L s h
      · exact ⟨rfl, h⟩
    have b := whole_congr' L (rxPoll s) (rxBegin (rxPoll s)) (by unfold rxBegin; split <;> rfl) a.2
    exact ⟨b.1.trans a.1, b.2⟩
  · exact ⟨rfl, h⟩

theorem rxp_bitCnt (s : Ser) : rxp (bitCnt s) = rxp s := by
  have a : ∀ s, rxp (cntDiv s) = rxp s := fun s => by unfold cntDiv; split <;> rfl
  have b : ∀ s, rxp (cntTr s) = rxp s := fun s => by unfold cntTr; repeat' split
                                                     all_goals rfl
  have c : ∀ s, rxp (cntRec s) = rxp s := fun s => by unfold cntRec; repeat' split
                                                      all_goals rfl
  unfold bitCnt; rw [c, b, a]

theorem rxp_txDone (s : Ser) : rxp (txDone s) = rxp s := by
  unfold txDone; split <;> rfl

theorem tick_ok (L : List Byte) (s : Ser) (h : Inv L s) : whole L (tick s) = whole L s ∧ Inv L (tick s) := by
  have a := whole_congr' L s (txDone (bitCnt s)) (by rw [rxp_txDone, rxp_bitCnt]) h
  have b := rxStart_ok L _ a.2
  have c := rxDone_ok L _ b.2
  have d := whole_congr' L (rxDone (rxStart (txDone (bitCnt s)))) (tick s) rfl c.2
  exact ⟨d.1.trans (c.1.trans (b.1.trans a.1)), d.2⟩

theorem ev_ok (L : List Byte) (s : Ser) (e : Ev) (he : isKey e = false) (h : Inv L s) :
    whole L (ev s e) = whole L s ∧ Inv L (ev s e) := by
  cases e with
  | key c => cases he
  | tick => exact tick_ok L s h
  | poll => exact poll_ok L s h
  | t2con v =>
    apply whole_congr' L s _ _ h
    show rxp (t2con v s) = _
    unfold t2con; cases s.t2baud <;> rfl
  | reset =>
    apply whole_congr' L s _ _ h
    show rxp (reset s) = _
    unfold reset
    have k : ∀ t, rxp (t2con 0 t) = rxp t := fun t => by unfold t2con; cases t.t2baud <;> rfl
    rw [k]; rfl
  | wrSbuf v => exact whole_congr' L s _ rfl h
  | wrScon v => exact whole_congr' L s _ rfl h
  | wrBit i b => exact whole_congr' L s _ rfl h
  | wrPcon v => exact whole_congr' L s _ rfl h
  | rdSbuf => exact whole_congr' L s _ rfl h
  | ovf1 => exact whole_congr' L s _ rfl h
  | ovf2 => exact whole_congr' L s _ rfl h

theorem run_ok (L : List Byte) (h : List Ev) : ∀ (s : Ser), (∀ e ∈ h, isKey e = false) → Inv L s →
    whole L (run s h) = whole L s ∧ Inv L (run s h) := by
  induction h with
  | nil => intro s _ i; exact ⟨rfl, i⟩
  | cons e h ih =>
    intro s hk i
    have a := ev_ok L s e (hk e (List.mem_cons_self ..)) i
    have b := ih (ev s e) (fun e' m => hk e' (List.mem_cons_of_mem _ m)) a.2
    exact ⟨b.1.trans a.1, b.2⟩

theorem start_ok (file : List Byte) (nl : Nat) (flow often : Bool) (hn : nl < 0x1000000) :
    whole (newline nl) (start file nl flow often) = stream (newline nl) none file ∧
    Inv (newline nl) (start file nl flow often) := by
  refine ⟨?_, ⟨rfl, hn, (fun k => by cases k), fun _ => rfl, (fun k => by cases k)⟩⟩
  rfl

theorem rx_stream (file : List Byte) (nl : Nat) (flow often : Bool) (hn : nl < 0x1000000) (h : List Ev)
    (hk : ∀ e ∈ h, isKey e = false) :
    (run (start file nl flow often) h).rx ++ inflight (newline nl) (run (start file nl flow often) h) ++
      stream (newline nl) (skipAfter (newline nl) (run (start file nl flow often) h)) (run (start file nl flow often) h).fin =
    stream (newline nl) none file := by
  have a := start_ok file nl flow often hn
  exact (run_ok (newline nl) h _ hk a.2).1.trans a.1

/-! ### The stream and the specification -/

theorem stream_nil : ∀ (l : List Byte), stream [] none l = l
  | [] => rfl
  | c :: l => by simp [stream, stream_nil l]

/-- No line end is followed by two characters that could each be its second half. -/
def plain (l : List Byte) : Prop := ¬ [13, 10, 10] <:+: l ∧ ¬ [10, 13, 13] <:+: l

theorem plain_tail (c : Byte) (l : List Byte) (h : plain (c :: l)) : plain l :=
  ⟨fun k => h.1 (k.trans (List.suffix_cons c l).isInfix), fun k => h.2 (k.trans (List.suffix_cons c l).isInfix)⟩

theorem isNl_iff (c : Byte) : isNl c = true ↔ c = 13 ∨ c = 10 := by
  simp only [isNl, lf, cr, Bool.or_eq_true, beq_iff_eq]; exact Or.comm

theorem opp_cr : oppositeNl 13 = 10 := rfl
theorem opp_lf : oppositeNl 10 = 13 := rfl

theorem stream_ne (n : List Byte) (k : Option Byte) (e : Byte) (l : List Byte) (h : k ≠ some e) :
    stream n k (e :: l) = stream n none (e :: l) := by
  simp [stream, h]

/-- After a line end whose second half may come. -/
theorem stream_convert (n : List Byte) (hn : n ≠ []) : ∀ (k : Nat) (l : List Byte), l.length ≤ k → plain l →
    stream n none l = convert n l ∧
    (∀ c d : Byte, (c = 13 ∧ d = 10) ∨ (c = 10 ∧ d = 13) → plain (c :: d :: l) → stream n (some d) l = convert n l) := by
  intro k
  induction k with
  | zero =>
    intro l hl _
    cases l with
    | nil => exact ⟨rfl, fun _ _ _ _ => rfl⟩
    | cons a l => simp at hl
  | succ k ih =>
    intro l hl hp
    have first : stream n none l = convert n l := by
      match l, hl, hp with
      | [], _, _ => rfl
      | [c], _, _ =>
        simp only [stream, hn, if_false, convert, isNl_iff]
        by_cases hc : c = 13 ∨ c = 10
        · simp [hc]
        · simp [hc]
      | c :: d :: l, hl, hp =>
        simp only [List.length_cons] at hl
        have i1 := ih (d :: l) (by simp only [List.length_cons]; omega) (plain_tail _ _ hp)
        have i2 := ih l (by omega) (plain_tail _ _ (plain_tail _ _ hp))
        rw [convert]
        by_cases hcd : (c = 13 ∧ d = 10) ∨ (c = 10 ∧ d = 13)
        · rw [if_pos hcd]
          have hc : isNl c = true := (isNl_iff c).2 (hcd.elim (fun h => .inl h.1) (fun h => .inr h.1))
          have ho : oppositeNl c = d := by
            rcases hcd with ⟨rfl, rfl⟩ | ⟨rfl, rfl⟩ <;> rfl
          have := i2.2 c d hcd hp
          rw [stream, if_neg hn, if_neg (by simp), if_pos hc, ho, stream, if_neg hn, if_pos rfl, this]
        · rw [if_neg hcd]
          by_cases hc : c = 13 ∨ c = 10
          · rw [if_pos hc, stream, if_neg hn, if_neg (by simp), if_pos ((isNl_iff c).2 hc)]
            have ho : oppositeNl c ≠ d := by
              rcases hc with rfl | rfl
              · intro e; exact hcd (.inl ⟨rfl, e.symm⟩)
              · intro e; exact hcd (.inr ⟨rfl, e.symm⟩)
            rw [← i1.1, stream_ne n _ d l (by simpa using ho)]
          · rw [if_neg hc, stream, if_neg hn, if_neg (by simp), if_neg (by rw [isNl_iff]; exact hc), i1.1]
    refine ⟨first, ?_⟩
    intro c d hcd hpp
    rw [← first]
    cases l with
    | nil => rfl
    | cons e l =>
      have : d ≠ e := by
        intro h; subst h
        rcases hcd with ⟨rfl, rfl⟩ | ⟨rfl, rfl⟩
        · exact hpp.1 ⟨[], l, rfl⟩
        · exact hpp.2 ⟨[], l, rfl⟩
      exact stream_ne n _ e l (by simpa using this)

theorem stream_received (nl : Nat) (file : List Byte) (h : nl = 0 ∨ plain file) :
    stream (newline nl) none file = received nl file := by
  unfold received
  by_cases hn : newline nl = []
  · rw [if_pos hn, hn, stream_nil]
  · rw [if_neg hn]
    rcases h with h | h
    · subst h; exact absurd rfl hn
    · exact (stream_convert _ hn file.length file (Nat.le_refl _) h).1

end Ucsim.S51.Uart
