import Verif.S51.Baud
import Verif.Props.Serial
import Verif.Props.Timer2

/-
C77: the baud rate that timer 2 makes.
-/
namespace Ucsim.S51.Baud
open Ucsim.S51 Tim2.Spec Uart.Spec

/-- What T2CON becomes when it is written. -/
def newCon (j : J) : JEv → Option Tim2.Byte
  | .t2 (.wrCon v) => some v
  | .t2 (.wrBit i b) => some (if b then j.t2.con ||| (1#8 <<< i.val) else j.t2.con &&& ~~~(1#8 <<< i.val))
  | _ => none

/-- Once selected as baud rate generator (RCLK or TCLK) timer 2 is not deselected, but by a reset. -/
def keepsBaud (j : J) : List JEv → Prop
  | [] => True
  | e :: h => (∀ v, newCon j e = some v → Tim2.selBaud j.t2.con = true → Tim2.selBaud v = true) ∧ keepsBaud (ev j e) h

/-- The same as histories of the two. -/
def serEv (j : J) : JEv → List Uart.Ev
  | .ser .tick | .ser .ovf2 | .ser (.t2con _) | .ser .reset => []
  | .ser e => [e]
  | .t2 (.wrCon v) => [.t2con v]
  | .t2 (.wrBit i b) => [.t2con (if b then j.t2.con ||| (1#8 <<< i.val) else j.t2.con &&& ~~~(1#8 <<< i.val))]
  | .t2 _ => []
  | .cycle => .tick :: List.replicate ((Tim2.tick j.t2).ovf - j.t2.ovf) .ovf2
  | .reset => [.reset]

def t2Ev : JEv → List Tim2.Ev
  | .ser _ => []
  | .t2 .tick | .t2 .reset => []
  | .t2 e => [e]
  | .cycle => [.tick]
  | .reset => [.reset]

theorem ev_split (j : J) (e : JEv) : (ev j e).ser = Uart.run j.ser (serEv j e) ∧ (ev j e).t2 = Tim2.run j.t2 (t2Ev e) := by
  cases e with
  | ser e => cases e <;> exact ⟨rfl, rfl⟩
  | t2 e => cases e <;> exact ⟨rfl, rfl⟩
  | cycle => exact ⟨rfl, rfl⟩
  | reset => exact ⟨rfl, rfl⟩

theorem uart_append (s : Uart.Ser) (a b : List Uart.Ev) : Uart.run s (a ++ b) = Uart.run (Uart.run s a) b := List.foldl_append

theorem last_append (x : Tim2.Byte) (a b : List Uart.Ev) : Uart.lastT2con x (a ++ b) = Uart.lastT2con (Uart.lastT2con x a) b := by
  induction a generalizing x with
  | nil => rfl
  | cons e a ih => cases e <;> exact ih _

theorem keeps_append (x : Tim2.Byte) (a b : List Uart.Ev) : Uart.keepsT2 x (a ++ b) ↔ Uart.keepsT2 x a ∧ Uart.keepsT2 (Uart.lastT2con x a) b := by
  induction a generalizing x with
  | nil => exact ⟨fun h => ⟨trivial, h⟩, fun h => h.2⟩
  | cons e a ih =>
    cases e with
    | t2con v => exact ⟨fun h => ⟨⟨h.1, ((ih v).1 h.2).1⟩, ((ih v).1 h.2).2⟩, fun h => ⟨h.1.1, (ih v).2 ⟨h.1.2, h.2⟩⟩⟩
    | _ => exact ih _

theorem last_ovf (x : Tim2.Byte) (n : Nat) : Uart.lastT2con x (List.replicate n .ovf2) = x ∧ Uart.keepsT2 x (List.replicate n .ovf2) := by
  induction n with
  | zero => exact ⟨rfl, trivial⟩
  | succ n ih => exact ih

theorem sel_iff (c : Tim2.Byte) : Uart.t2sel c ↔ Tim2.selBaud c = true := by
  unfold Uart.t2sel Tim2.selBaud; simp

theorem sel_fixed {s t : Tim2.T2} (h : Tim2.fixed s t) : Tim2.selBaud t.con = Tim2.selBaud s.con := by
  have h7 := h.2.2.2.2.2.2.1
  unfold Tim2.selBaud; rw [h7 5 (by omega), h7 4 (by omega)]

/-- The two histories of a history. -/
theorem split (file : List Tim2.Byte) (nl : Nat) (flow often : Bool) (h : List JEv) : ∀ (j : J) (hs : List Uart.Ev) (ht : List Tim2.Ev),
    j.ser = Uart.run (Uart.start file nl flow often) hs → j.t2 = Tim2.run Tim2.start ht → Uart.keepsT2 0 hs →
    (Uart.t2sel (Uart.lastT2con 0 hs) ↔ Tim2.selBaud j.t2.con = true) → keepsBaud j h →
    ∃ hs' ht', (run j h).ser = Uart.run (Uart.start file nl flow often) hs' ∧ (run j h).t2 = Tim2.run Tim2.start ht' ∧ Uart.keepsT2 0 hs' ∧
      (Uart.t2sel (Uart.lastT2con 0 hs') ↔ Tim2.selBaud (run j h).t2.con = true) := by
  induction h with
  | nil => intro j hs ht a b c d _; exact ⟨hs, ht, a, b, c, d⟩
  | cons e h ih =>
    intro j hs ht a b c d hk
    obtain ⟨e1, e2⟩ := ev_split j e
    have key : Uart.keepsT2 (Uart.lastT2con 0 hs) (serEv j e) ∧
        (Uart.t2sel (Uart.lastT2con (Uart.lastT2con 0 hs) (serEv j e)) ↔ Tim2.selBaud (ev j e).t2.con = true) := by
      generalize Uart.lastT2con 0 hs = x at d
      have con : ∀ (v : Tim2.Byte) (t : Tim2.T2), (Tim2.wrCon v t).con = v := fun v t => by
        unfold Tim2.wrCon; exact (Tim2.restart_keeps _ _ _).1
      cases e with
      | ser e => cases e <;> exact ⟨trivial, d⟩
      | t2 e =>
        cases e with
        | wrCon v =>
          refine ⟨⟨fun k => (sel_iff v).2 (hk.1 v rfl (d.1 k)), trivial⟩, ?_⟩
          show Uart.t2sel v ↔ Tim2.selBaud (Tim2.wrCon v j.t2).con = true
          rw [con]; exact sel_iff v
        | wrBit i bb =>
          refine ⟨⟨fun k => (sel_iff _).2 (hk.1 _ rfl (d.1 k)), trivial⟩, ?_⟩
          show Uart.t2sel _ ↔ Tim2.selBaud (Tim2.wrCon _ j.t2).con = true
          rw [con]; exact sel_iff _
        | wrMod v =>
          refine ⟨trivial, ?_⟩
          show Uart.t2sel x ↔ Tim2.selBaud (Tim2.wrMod v j.t2).con = true
          have : (Tim2.wrMod v j.t2).con = j.t2.con := (Tim2.restart_keeps _ _ _).1
          rw [this]; exact d
        | wrP1 v =>
          refine ⟨trivial, ?_⟩
          show Uart.t2sel x ↔ Tim2.selBaud (Tim2.wrP1 v j.t2).con = true
          have : (Tim2.wrP1 v j.t2).con = j.t2.con := by unfold Tim2.wrP1; split <;> rfl
          rw [this]; exact d
        | pins v =>
          refine ⟨trivial, ?_⟩
          show Uart.t2sel x ↔ Tim2.selBaud (Tim2.setPins v j.t2).con = true
          have : (Tim2.setPins v j.t2).con = j.t2.con := by unfold Tim2.setPins; split <;> rfl
          rw [this]; exact d
        | _ => exact ⟨trivial, d⟩
      | cycle =>
        refine ⟨(last_ovf x _).2, ?_⟩
        show Uart.t2sel (Uart.lastT2con x (List.replicate _ .ovf2)) ↔ Tim2.selBaud (Tim2.tick j.t2).con = true
        rw [(last_ovf x _).1, sel_fixed (Tim2.tick_fixed j.t2).1]; exact d
      | reset =>
        refine ⟨trivial, ?_⟩
        show Uart.t2sel 0 ↔ Tim2.selBaud (Tim2.wrCon 0 _).con = true
        rw [con]; decide
    exact ih (ev j e) (hs ++ serEv j e) (ht ++ t2Ev e) (by rw [e1, a, uart_append]) (by rw [e2, b, Tim2.run_append])
      ((keeps_append _ _ _).2 ⟨c, key.1⟩) (by rw [last_append]; exact key.2) hk.2

/-! ### Cycles -/

/-- What n machine cycles are for the serial line. -/
def cyc (t : Tim2.T2) : Nat → List Uart.Ev
  | 0 => []
  | n + 1 => cyc t n ++ (.tick :: List.replicate
      ((Tim2.run t (List.replicate (n + 1) .tick)).ovf - (Tim2.run t (List.replicate n .tick)).ovf) .ovf2)

theorem run_append (j : J) (a b : List JEv) : run j (a ++ b) = run (run j a) b := List.foldl_append

theorem cycles (j : J) (n : Nat) : (run j (List.replicate n .cycle)).ser = Uart.run j.ser (cyc j.t2 n) ∧
    (run j (List.replicate n .cycle)).t2 = Tim2.run j.t2 (List.replicate n .tick) := by
  induction n with
  | zero => exact ⟨rfl, rfl⟩
  | succ n ih =>
    have e : run j (List.replicate (n + 1) .cycle) = cycle (run j (List.replicate n .cycle)) := by
      rw [show List.replicate (n + 1) JEv.cycle = List.replicate n .cycle ++ [.cycle] from List.replicate_succ', run_append]; rfl
    have e2 : (cycle (run j (List.replicate n .cycle))).t2 = Tim2.run j.t2 (List.replicate (n + 1) .tick) := by
      show Tim2.tick (run j (List.replicate n .cycle)).t2 = _
      rw [ih.2, Tim2.run_ticks]
    rw [e]
    refine ⟨?_, e2⟩
    have e3 : (cycle (run j (List.replicate n .cycle))).ser = Uart.run (Uart.tick (run j (List.replicate n .cycle)).ser)
      (List.replicate ((cycle (run j (List.replicate n .cycle))).t2.ovf - (run j (List.replicate n .cycle)).t2.ovf) .ovf2) := rfl
    rw [e3, e2, ih.1, ih.2]
    show _ = Uart.run j.ser (cyc j.t2 n ++ _)
    rw [uart_append]; rfl

theorem cyc_mem (t : Tim2.T2) (n : Nat) : ∀ e ∈ cyc t n, e = .tick ∨ e = .ovf2 := by
  induction n with
  | zero => intro e h; cases h
  | succ n ih =>
    intro e h
    rcases List.mem_append.1 h with h | h
    · exact ih e h
    · rcases List.mem_cons.1 h with h | h
      · exact .inl h
      · exact .inr (List.eq_of_mem_replicate h)

/-- The last cycle is the one that counts. -/
theorem cyc_prefix (t : Tim2.T2) (n N : Nat) :
    (∃ a b, cyc t n = a ++ .tick :: b ∧ N ≤ a.count .ovf2) ↔ 0 < n ∧ N ≤ (cyc t (n - 1)).count .ovf2 := by
  cases n with
  | zero =>
    constructor
    · rintro ⟨a, b, h, _⟩
      have : ([] : List Uart.Ev) = a ++ .tick :: b := h
      simp at this
    · intro h; exact absurd h.1 (by omega)
  | succ n =>
    show _ ↔ 0 < n + 1 ∧ N ≤ (cyc t n).count .ovf2
    constructor
    · rintro ⟨a, b, h, k⟩
      refine ⟨by omega, ?_⟩
      rw [show cyc t (n + 1) = cyc t n ++ (.tick :: List.replicate _ .ovf2) from rfl] at h
      rcases List.append_eq_append_iff.1 h with ⟨c, h1, h2⟩ | ⟨c, h1, h2⟩
      · cases c with
        | nil => rw [List.append_nil] at h1; rw [← h1]; exact k
        | cons x c =>
          have : Uart.Ev.tick ∈ List.replicate ((Tim2.run t (List.replicate (n + 1) .tick)).ovf - (Tim2.run t (List.replicate n .tick)).ovf) Uart.Ev.ovf2 := by
            rw [List.cons_append, List.cons.injEq] at h2
            rw [h2.2]; simp
          exact absurd (List.eq_of_mem_replicate this) (by decide)
      · rw [h1, List.count_append]; omega
    · intro h
      exact ⟨cyc t n, _, rfl, h.2⟩

/-- The overflows in n cycles. -/
theorem cyc_count (ht : List Tim2.Ev) (n : Nat) :
    let t := Tim2.run Tim2.start ht
    Tim2.selBaud t.con = true → t.con.getLsbD 2 = true → t.con.getLsbD 1 = false →
    (cyc t n).count .ovf2 = (upN (Tim2.rcap t) (Tim2.val t) (6 * n)).2 := by
  intro t h1 h2 h3
  have o : ∀ n, (Tim2.run t (List.replicate n .tick)).ovf = t.ovf + (upN (Tim2.rcap t) (Tim2.val t) (6 * n)).2 := fun n => (Tim2.c75_overflows ht n h1 h2 h3).2.1
  have mono : ∀ n, (upN (Tim2.rcap t) (Tim2.val t) (6 * n)).2 ≤ (upN (Tim2.rcap t) (Tim2.val t) (6 * (n + 1))).2 := by
    intro n
    have step : ∀ k, (upN (Tim2.rcap t) (Tim2.val t) k).2 ≤ (upN (Tim2.rcap t) (Tim2.val t) (k + 1)).2 := by
      intro k
      rw [Tim2.upN_succ _ _ _ (Tim2.rcap_lt t) (Tim2.val_lt t)]
      split
      · exact Nat.le_succ _
      · exact Nat.le_refl _
    rw [show 6 * (n + 1) = 6 * n + 1 + 1 + 1 + 1 + 1 + 1 by omega]
    exact Nat.le_trans (step _) (Nat.le_trans (step _) (Nat.le_trans (step _) (Nat.le_trans (step _) (Nat.le_trans (step _) (step _)))))
  induction n with
  | zero =>
    have : upN (Tim2.rcap t) (Tim2.val t) (6 * 0) = (Tim2.val t, 0) := by
      unfold upN; rw [Nat.mul_zero, Nat.add_zero, if_pos (Tim2.val_lt t)]
    rw [this]; rfl
  | succ n ih =>
    show (cyc t n ++ (Uart.Ev.tick :: List.replicate _ Uart.Ev.ovf2)).count Uart.Ev.ovf2 = _
    rw [List.count_append, List.count_cons, List.count_replicate_self, ih, o (n + 1), o n]
    have := mono n
    simp; omega

/-! ### C77 -/

/-- Timer 2 as baud rate generator, mode 1 or 3: in any state the two can be in, a byte written to SBUF is out in the machine cycle
that finds 16 overflows for each bit of the frame, where timer 2 has counted 6 times in each earlier cycle. -/
theorem c77_send_partial (file : List Tim2.Byte) (nl : Nat) (flow often : Bool) (h : List JEv) (hk : keepsBaud (start file nl flow often) h)
    (v : Tim2.Byte) (n : Nat) :
    let j := run (start file nl flow often) h
    let mode := j.ser.scon.toNat / 64
    (mode = 1 ∨ mode = 3) → Tim2.selBaud j.t2.con = true → j.t2.con.getLsbD 2 = true → j.t2.con.getLsbD 1 = false →
    (run j (.ser (.wrSbuf v) :: List.replicate n .cycle)).ser.out =
      if 0 < n ∧ frameBits mode * 16 ≤ (upN (Tim2.rcap j.t2) (Tim2.val j.t2) (6 * (n - 1))).2 then j.ser.out ++ [v] else j.ser.out := by
  intro j mode hm h1 h2 h3
  obtain ⟨hs, ht, a, b, c, d⟩ := split file nl flow often h (start file nl flow often) [] [] rfl rfl trivial (by
    show Uart.t2sel 0 ↔ Tim2.selBaud 0 = true; decide) hk
  change j.ser = _ at a
  change j.t2 = _ at b
  change _ ↔ Tim2.selBaud j.t2.con = true at d
  have t2 : decide (Uart.t2sel (Uart.lastT2con 0 hs)) = true := decide_eq_true (d.2 h1)
  have out : (run j (.ser (.wrSbuf v) :: List.replicate n .cycle)).ser = Uart.run j.ser (.wrSbuf v :: cyc j.t2 n) :=
    (cycles (ev j (.ser (.wrSbuf v))) n).1
  have st : ∀ e ∈ cyc j.t2 n, Uart.steady true e := by
    intro e he
    rcases cyc_mem _ _ e he with rfl | rfl
    · exact ⟨rfl, by decide⟩
    · exact ⟨rfl, by decide⟩
  have q := Uart.c72_send_partial file nl flow often hs (cyc j.t2 n) v c
  dsimp only at q
  rw [t2, ← a] at q
  have q := q (.inr hm) st
  have nd : Uart.needed mode ((Uart.lastPcon 0 hs).getLsbD 7) true = frameBits mode * 16 := by
    rcases hm with hm | hm <;> rw [hm] <;> rfl
  have el : ∀ x, Uart.elapsed mode true x = x.count .ovf2 := by
    intro x
    rcases hm with hm | hm <;> rw [hm] <;> rfl
  have cnt := cyc_count ht (n - 1) (by rw [← b]; exact h1) (by rw [← b]; exact h2) (by rw [← b]; exact h3)
  rw [← b] at cnt
  have pr := cyc_prefix j.t2 n (frameBits mode * 16)
  rw [cnt] at pr
  have q' : (∃ a b, cyc j.t2 n = a ++ .tick :: b ∧ Uart.needed mode ((Uart.lastPcon 0 hs).getLsbD 7) true ≤ Uart.elapsed mode true a) ↔
      0 < n ∧ frameBits mode * 16 ≤ (upN (Tim2.rcap j.t2) (Tim2.val j.t2) (6 * (n - 1))).2 := by
    rw [← pr, nd]; simp only [el]
  rw [out]
  by_cases k : 0 < n ∧ frameBits mode * 16 ≤ (upN (Tim2.rcap j.t2) (Tim2.val j.t2) (6 * (n - 1))).2
  · rw [if_pos k]; exact q.1 (q'.2 k)
  · rw [if_neg k]; exact q.2 (fun z => k (q'.1 z))

/-- When timer 2 was just reloaded, a bit takes 32 * (65536 - RCAP2) clocks of the oscillator (12 in a machine cycle). -/
theorem c77_rate_partial (file : List Tim2.Byte) (nl : Nat) (flow often : Bool) (h : List JEv) (hk : keepsBaud (start file nl flow often) h)
    (v : Tim2.Byte) (n : Nat) :
    let j := run (start file nl flow often) h
    let mode := j.ser.scon.toNat / 64
    (mode = 1 ∨ mode = 3) → Tim2.selBaud j.t2.con = true → j.t2.con.getLsbD 2 = true → j.t2.con.getLsbD 1 = false →
    Tim2.val j.t2 = Tim2.rcap j.t2 →
    (run j (.ser (.wrSbuf v) :: List.replicate (n + 1) .cycle)).ser.out =
      if frameBits mode * (32 * (65536 - Tim2.rcap j.t2)) ≤ 12 * n then j.ser.out ++ [v] else j.ser.out := by
  intro j mode hm h1 h2 h3 hv
  have q := c77_send_partial file nl flow often h hk v (n + 1) hm h1 h2 h3
  refine q.trans ?_
  have hr := Tim2.rcap_lt j.t2
  have e : (upN (Tim2.rcap j.t2) (Tim2.val j.t2) (6 * n)).2 = 6 * n / (65536 - Tim2.rcap j.t2) := by
    rw [hv]
    have hd : 0 < 65536 - Tim2.rcap j.t2 := by omega
    unfold upN
    split
    · rw [Nat.div_eq_of_lt (by omega)]
    · have : Tim2.rcap j.t2 + 6 * n - 65536 = 6 * n - (65536 - Tim2.rcap j.t2) := by omega
      show 1 + _ = _
      rw [this, Nat.div_eq (6 * n), if_pos ⟨hd, by omega⟩, Nat.add_comm]
  have e' : (upN (Tim2.rcap j.t2) (Tim2.val j.t2) (6 * (n + 1 - 1))).2 = 6 * n / (65536 - Tim2.rcap j.t2) := e
  have iff : (0 < n + 1 ∧ frameBits mode * 16 ≤ (upN (Tim2.rcap j.t2) (Tim2.val j.t2) (6 * (n + 1 - 1))).2) ↔
      frameBits mode * (32 * (65536 - Tim2.rcap j.t2)) ≤ 12 * n := by
    rw [e', Nat.le_div_iff_mul_le (by omega)]
    have : frameBits mode * (32 * (65536 - Tim2.rcap j.t2)) = 2 * (frameBits mode * 16 * (65536 - Tim2.rcap j.t2)) := by
      rw [Nat.mul_assoc (frameBits mode), Nat.mul_left_comm 2, ← Nat.mul_assoc 2]
    rw [this]; omega
  by_cases k : frameBits mode * (32 * (65536 - Tim2.rcap j.t2)) ≤ 12 * n
  · rw [if_pos k]; exact if_pos (iff.2 k)
  · rw [if_neg k]; exact if_neg (fun z => k (iff.1 z))

/-- 8 data bits, RCAP2 = FFFD: 960 clocks for a frame, 80 machine cycles. -/
def demoHist : List JEv := [.ser (.wrScon 0x40), .t2 (.wrRl 0xfd), .t2 (.wrRh 0xff), .t2 (.wrTl 0xfd), .t2 (.wrTh 0xff), .t2 (.wrCon 0x34)]

theorem demoHist_ok :
    let j := run (start [] 10 false false) demoHist
    j.ser.scon.toNat / 64 = 1 ∧ Tim2.selBaud j.t2.con = true ∧ j.t2.con.getLsbD 2 = true ∧ j.t2.con.getLsbD 1 = false ∧
    Tim2.val j.t2 = Tim2.rcap j.t2 ∧ frameBits 1 * (32 * (65536 - Tim2.rcap j.t2)) = 12 * 80 ∧
    (run j (.ser (.wrSbuf 65) :: List.replicate 80 .cycle)).ser.out = [] ∧ (run j (.ser (.wrSbuf 65) :: List.replicate 81 .cycle)).ser.out = [65] := by
  decide +kernel

theorem demoHist_keeps : keepsBaud (start [] 10 false false) demoHist := by
  refine ⟨?_, ?_, ?_, ?_, ?_, ?_, trivial⟩ <;> intro v h <;> first | (cases h; done) | (injection h with h; subst h; intro _; decide)

/-- Deselected and the line left to timer 1: a bit takes half the time (as in C72). -/
theorem c77_false_deselect :
    (run (start [] 10 false false) (demoHist ++ [.cycle, .t2 (.wrCon 0), .ser (.wrSbuf 65)] ++ List.replicate 160 (.ser .ovf1) ++ [.cycle])).ser.out = [65] ∧
    Uart.needed 1 false false = 320 := by
  constructor <;> decide +kernel

end Ucsim.S51.Baud
