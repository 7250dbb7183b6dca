import Verif.Proof.SerialRx

/-
The serial line of the 8051: C71 (sending), C72 (time), C73 (receiving), C74 (flow control).

An input of every theorem is a history: the CPU accesses the registers, machine cycles pass, timers
overflow, the simulator looks for input, in any order.
-/
namespace Ucsim.S51.Uart
open Spec List

/-! ### C71: what is written to SBUF is sent -/

/-- Whatever happens, what was sent is a subsequence of what was written to SBUF: nothing is made up, nothing is sent
twice, the order is kept. -/
theorem c71_order (file : List Byte) (nl : Nat) (flow often : Bool) (h : List Ev) :
    (run (start file nl flow often) h).out <+ writes h := by
  have a := run_out h (start file nl flow often)
  exact (sublist_append_left _ _).trans a

/-- A program that waits for TI before it writes SBUF again loses nothing: but for the last byte (it may still be on its
way) everything it wrote was sent. -/
theorem c71_all (file : List Byte) (nl : Nat) (flow often : Bool) (h : List Ev) (hr : ∀ e ∈ h, e ≠ .reset)
    (ht : honestTI (start file nl flow often) h = true) (hw : waits .free (start file nl flow often) h = true) :
    ∃ u, u.length ≤ 1 ∧ (run (start file nl flow often) h).out ++ u = writes h := by
  have a := run_out_eq h _ (waits_polite h .free (start file nl flow often) (show _ = false from rfl) hr ht hw) hr
  refine ⟨pend (run (start file nl flow often) h), ?_, a⟩
  unfold pend; split <;> simp

/-- And when it has seen TI again (so that it may write), the last byte was sent too. -/
theorem c71_last (file : List Byte) (nl : Nat) (flow often : Bool) (h : List Ev) (v : Byte) (hr : ∀ e ∈ h, e ≠ .reset)
    (ht : honestTI (start file nl flow often) (h ++ [.wrSbuf v]) = true)
    (hw : waits .free (start file nl flow often) (h ++ [.wrSbuf v]) = true) :
    (run (start file nl flow often) h).out = writes h := by
  have hr' : ∀ e ∈ h ++ [.wrSbuf v], e ≠ .reset := by
    intro e m
    rcases mem_append.1 m with m | m
    · exact hr e m
    · simp only [mem_singleton] at m; subst m; intro k; cases k
  have p := waits_polite _ .free (start file nl flow often) (show _ = false from rfl) hr' ht hw
  have p' : Polite (start file nl flow often) h := by
    intro a b c e
    exact p a b (c ++ [.wrSbuf v]) (by rw [e]; simp)
  have a := run_out_eq h _ p' hr
  have s := p h v [] rfl
  have : pend (run (start file nl flow often) h) = [] := by unfold pend; rw [s]; rfl
  rw [this, append_nil] at a
  exact a

/-- The program that sends 'A' and 'B' and waits for TI (mode 0). -/
def demoTx : List Ev :=
  [.wrSbuf 65] ++ replicate 9 .tick ++ [.wrBit 1 false, .wrSbuf 66] ++ replicate 9 .tick

theorem demoTx_ok : (run (start [] 10 false false) demoTx).out = [65, 66] ∧ writes demoTx = [65, 66] ∧
    honestTI (start [] 10 false false) demoTx = true ∧ waits .free (start [] 10 false false) demoTx = true ∧
    (run (start [] 10 false false) ([.wrSbuf 65] ++ replicate 8 .tick)).out = [] ∧
    ti (run (start [] 10 false false) ([.wrSbuf 65] ++ replicate 8 .tick)) = false ∧
    ti (run (start [] 10 false false) ([.wrSbuf 65] ++ replicate 9 .tick)) = true := by decide +kernel

/-- A program that does not wait loses bytes (as on the real chip). -/
theorem c71_no_wait : (run (start [] 10 false false) ([.wrSbuf 65, .wrSbuf 66] ++ replicate 9 .tick)).out = [66] := by decide +kernel

/-! ### C72: the time of a frame -/

/-- PCON and T2CON: what was last written. -/
def lastPcon (x : Byte) : List Ev → Byte
  | [] => x
  | .wrPcon v :: h => lastPcon v h
  | .reset :: h => lastPcon 0 h
  | _ :: h => lastPcon x h

def lastT2con (x : Byte) : List Ev → Byte
  | [] => x
  | .t2con v :: h => lastT2con v h
  | .reset :: h => lastT2con 0 h
  | _ :: h => lastT2con x h

/-- Is timer 2 the baud rate generator: RCLK or TCLK. -/
def t2sel (v : Byte) : Prop := v.getLsbD 5 = true ∨ v.getLsbD 4 = true
instance (v : Byte) : Decidable (t2sel v) := inferInstanceAs (Decidable (_ ∨ _))

/-- Timer 2 is not deselected as baud rate generator (but by a reset). -/
def keepsT2 (x : Byte) : List Ev → Prop
  | [] => True
  | .t2con v :: h => (t2sel x → t2sel v) ∧ keepsT2 v h
  | .reset :: h => keepsT2 0 h
  | _ :: h => keepsT2 x h

theorem t2sel_iff : ∀ v : Byte, t2sel v ↔ v &&& 0x30#8 ≠ 0#8 := by decide +kernel

/-- The settings after a history are those written. -/
theorem settings (h : List Ev) : ∀ (s : Ser) (x y : Byte), Conf s → (s.t2baud = true ↔ t2sel x) → s.smod = y.getLsbD 7 →
    keepsT2 x h → Conf (run s h) ∧ ((run s h).t2baud = true ↔ t2sel (lastT2con x h)) ∧ (run s h).smod = (lastPcon y h).getLsbD 7 := by
  induction h with
  | nil => intro s x y hc h1 h2 _; exact ⟨hc, h1, h2⟩
  | cons e h ih =>
    intro s x y hc h1 h2 hk
    have ce : ∀ (k : ∀ v, e = .t2con v → s.t2baud = false ∨ v &&& 0x30#8 ≠ 0#8), Conf (ev s e) := fun k => conf_ev s e hc k
    have g : ∀ k, lastT2con x (e :: h) = lastT2con x h → lastPcon y (e :: h) = lastPcon y h → keepsT2 x (e :: h) = keepsT2 x h →
        (ev s e).t2baud = s.t2baud → (ev s e).smod = s.smod → k = e → (∀ v, k ≠ .t2con v) →
        Conf (run s (e :: h)) ∧ ((run s (e :: h)).t2baud = true ↔ t2sel (lastT2con x (e :: h))) ∧
        (run s (e :: h)).smod = (lastPcon y (e :: h)).getLsbD 7 := by
      intro k a b c d f hk' nt
      subst hk'
      rw [a, b]
      rw [c] at hk
      exact ih (ev s k) x y (ce (fun v e => absurd e (nt v))) (by rw [d]; exact h1) (by rw [f]; exact h2) hk
    cases e with
    | t2con v =>
      have hb : (ev s (.t2con v)).t2baud = true ↔ t2sel v := by
        show (v &&& 0x30#8 != 0#8) = true ↔ _
        rw [t2sel_iff]; simp
      have hm : (ev s (.t2con v)).smod = s.smod := by
        show (t2con v s).smod = _; unfold t2con; cases s.t2baud <;> rfl
      refine ih _ v y (ce fun w e => ?_) hb (hm.trans h2) hk.2
      cases e
      by_cases q : t2sel v
      · exact .inr ((t2sel_iff v).1 q)
      · left
        cases r : s.t2baud with
        | false => rfl
        | true => exact absurd (hk.1 (h1.1 r)) q
    | wrPcon v =>
      exact ih _ x v (ce fun w e => by cases e) h1 rfl hk
    | reset =>
      have hb : (ev s .reset).t2baud = true ↔ t2sel 0 := by
        show ((0 : Byte) &&& 0x30#8 != 0#8) = true ↔ _
        decide
      have hm : (ev s .reset).smod = (0 : Byte).getLsbD 7 := by
        show (t2con 0 _).smod = _
        have k : ∀ t, (t2con 0 t).smod = t.smod := fun t => by unfold t2con; cases t.t2baud <;> rfl
        rw [k]; rfl
      exact ih _ 0 0 (ce fun w e => by cases e) hb hm hk
    | tick =>
      have q := (tick_calm s hc).1
      simp only [cf, Prod.mk.injEq] at q
      exact g _ rfl rfl rfl q.2.2 q.2.1 rfl (fun v e => by cases e)
    | poll =>
      have q := (poll_calm s).1
      simp only [cf, Prod.mk.injEq] at q
      exact g _ rfl rfl rfl q.2.2 q.2.1 rfl (fun v e => by cases e)
    | key c =>
      have q := (key_calm c s).1
      simp only [cf, Prod.mk.injEq] at q
      exact g _ rfl rfl rfl q.2.2 q.2.1 rfl (fun v e => by cases e)
    | wrSbuf v => exact g _ rfl rfl rfl rfl rfl rfl (fun v e => by cases e)
    | wrScon v => exact g _ rfl rfl rfl rfl rfl rfl (fun v e => by cases e)
    | wrBit i b => exact g _ rfl rfl rfl rfl rfl rfl (fun v e => by cases e)
    | rdSbuf => exact g _ rfl rfl rfl rfl rfl rfl (fun v e => by cases e)
    | ovf1 => exact g _ rfl rfl rfl rfl rfl rfl (fun v e => by cases e)
    | ovf2 => exact g _ rfl rfl rfl rfl rfl rfl (fun v e => by cases e)

theorem start_conf (file : List Byte) (nl : Nat) (flow often : Bool) : Conf (start file nl flow often) :=
  conf_reset _

/-- Units of the bit clock in a history: clocks of the oscillator (12 in a machine cycle), overflows of timer 1 or 2. -/
def clocks (h : List Ev) : Nat := 12 * h.count .tick
def ovfs1 (h : List Ev) : Nat := h.count .ovf1
def ovfs2 (h : List Ev) : Nat := h.count .ovf2

theorem units_clk (h : List Ev) : units true h = clocks h := by
  induction h with
  | nil => rfl
  | cons e h ih =>
    have : units true (e :: h) = unit true e + units true h := by simp [units]
    rw [this, ih]; unfold clocks
    cases e <;> simp [unit] <;> omega

theorem units_ovf (h : List Ev) : units false h = ovfs1 h + ovfs2 h := by
  induction h with
  | nil => rfl
  | cons e h ih =>
    have : units false (e :: h) = unit false e + units false h := by simp [units]
    rw [this, ih]; unfold ovfs1 ovfs2
    cases e <;> simp [unit] <;> omega

/-- `n` clocks of the oscillator or overflows are needed; how many were there? -/
def elapsed (mode : Nat) (t2 : Bool) (h : List Ev) : Nat :=
  if fromOscillator mode then clocks h else if t2 then ovfs2 h else ovfs1 h

/-- Units needed for a frame. -/
def needed (mode : Nat) (smod t2 : Bool) : Nat :=
  frameBits mode * (if t2 ∧ ¬ fromOscillator mode then bitTime2 else bitTime mode smod)

/-- Events that do not set up the serial line anew, one timer as the source. -/
def steady (t2 : Bool) (e : Ev) : Prop := calm e = true ∧ e ≠ (if t2 then .ovf1 else .ovf2)

theorem count_zero (h : List Ev) (e : Ev) (k : ∀ x ∈ h, x ≠ e) : h.count e = 0 := by
  rw [count_eq_zero]; intro m; exact k e m rfl

theorem clk_iff (m : Nat) : clk m = decide (fromOscillator m) := by
  by_cases h0 : m = 0
  · subst h0; rfl
  · by_cases h2 : m = 2
    · subst h2; rfl
    · simp [clk, fromOscillator, h0, h2]

theorem units_elapsed (m : Nat) (t2 : Bool) (h : List Ev) (hs : ∀ e ∈ h, e ≠ (if t2 then .ovf1 else .ovf2)) :
    units (clk m) h = elapsed m t2 h := by
  rw [clk_iff]; unfold elapsed
  by_cases hm : fromOscillator m
  · simp only [hm, decide_true, if_true]; exact units_clk h
  · simp only [hm, decide_false, if_false, units_ovf]
    cases t2
    · simp only [Bool.false_eq_true, if_false] at hs ⊢
      have := count_zero h _ hs
      unfold ovfs1 ovfs2; omega
    · simp only [if_true] at hs ⊢
      have := count_zero h _ hs
      unfold ovfs1 ovfs2; omega

/-- The modes whose bit time is right: 0 (timer 2 not selected), 1 and 3. -/
def timed (mode : Nat) (t2 : Bool) : Prop := (mode = 0 ∧ t2 = false) ∨ mode = 1 ∨ mode = 3

theorem frame_needed (s : Ser) (m : Nat) (smod t2 : Bool) (h1 : s.mode = m) (h2 : s.smod = smod) (h3 : s.t2baud = t2) (h : timed m t2) :
    frame s = needed m smod t2 := by
  unfold frame needed
  rw [h1, h2, h3]
  rcases h with ⟨rfl, rfl⟩ | rfl | rfl
  · rfl
  · cases t2 <;> cases smod <;> rfl
  · cases t2 <;> cases smod <;> rfl

/-- The state of the line when it is used: the settings written in the history `h`. -/
theorem line (file : List Byte) (nl : Nat) (flow often : Bool) (h : List Ev) (hk : keepsT2 0 h) :
    let s := run (start file nl flow often) h
    Conf s ∧ s.mode = s.scon.toNat / 64 ∧ s.smod = (lastPcon 0 h).getLsbD 7 ∧ s.t2baud = decide (t2sel (lastT2con 0 h)) := by
  obtain ⟨a, b, c⟩ := settings h (start file nl flow often) 0 0 (start_conf ..)
    (by show false = true ↔ _; decide) rfl hk
  refine ⟨a, a.mode.symm, c, ?_⟩
  generalize run (start file nl flow often) h = s at *
  cases q : s.t2baud
  · symm; rw [decide_eq_false_iff_not, ← b, q]; simp
  · symm; rw [decide_eq_true_eq, ← b, q]

/-- Sending, in any state the line can be in: after a write of SBUF the byte is out exactly when a machine cycle begins
after the time of the frame has passed. -/
theorem c72_send_partial (file : List Byte) (nl : Nat) (flow often : Bool) (h p : List Ev) (v : Byte) (hk : keepsT2 0 h) :
    let s := run (start file nl flow often) h
    let mode := s.scon.toNat / 64
    let smod := (lastPcon 0 h).getLsbD 7
    let t2 := decide (t2sel (lastT2con 0 h))
    timed mode t2 → (∀ e ∈ p, steady t2 e) →
    ((∃ a b, p = a ++ .tick :: b ∧ needed mode smod t2 ≤ elapsed mode t2 a) → (run s (.wrSbuf v :: p)).out = s.out ++ [v]) ∧
    ((¬ ∃ a b, p = a ++ .tick :: b ∧ needed mode smod t2 ≤ elapsed mode t2 a) → (run s (.wrSbuf v :: p)).out = s.out) := by
  intro s mode smod t2 ht hp
  obtain ⟨l1, l2, l3, l4⟩ := line file nl flow often h hk
  change Conf s at l1
  change s.mode = mode at l2
  change s.smod = smod at l3
  change s.t2baud = t2 at l4
  have q := send_time p (wrSbuf v s) (fun e m => (hp e m).1) ⟨l1.mode, l1.bits, l1.div, l1.ren⟩ rfl
    (by show 0 < s.bits; rw [l1.bits]; exact bits_pos _)
  have f : frame (wrSbuf v s) = needed mode smod t2 := frame_needed _ _ _ _ l2 l3 l4 ht
  have z : trTime (wrSbuf v s) = 0 := by
    show 0 * _ + (if clk s.mode then 0 else 0) = 0
    rw [Nat.zero_mul]; split <;> rfl
  have m : (wrSbuf v s).mode = mode := l2
  rw [f, z, m] at q
  have u : ∀ a b, p = a ++ .tick :: b → units (clk mode) a = elapsed mode t2 a := by
    intro a b e
    exact units_elapsed mode t2 a (fun x hx => (hp x (by rw [e]; simp [hx])).2)
  constructor
  · rintro ⟨a, b, e, n⟩
    exact (q.1 ⟨a, b, e, by rw [u a b e]; omega⟩).2
  · intro n
    exact (q.2 (fun ⟨a, b, e, w⟩ => n ⟨a, b, e, by rw [u a b e] at w; omega⟩)).2.1

/-- The machine cycle that ends the frame sets TI; no earlier one does. -/
theorem c72_ti_partial (file : List Byte) (nl : Nat) (flow often : Bool) (h p : List Ev) (v : Byte) (hk : keepsT2 0 h) :
    let s := run (start file nl flow often) h
    let mode := s.scon.toNat / 64
    let smod := (lastPcon 0 h).getLsbD 7
    let t2 := decide (t2sel (lastT2con 0 h))
    timed mode t2 → (∀ e ∈ p, steady t2 e) → (¬ ∃ a b, p = a ++ .tick :: b ∧ needed mode smod t2 ≤ elapsed mode t2 a) →
    (needed mode smod t2 ≤ elapsed mode t2 p → ti (run s (.wrSbuf v :: p ++ [.tick])) = true) ∧
    (¬ needed mode smod t2 ≤ elapsed mode t2 p → ti (run s (.wrSbuf v :: p ++ [.tick])) = ti (run s (.wrSbuf v :: p))) := by
  intro s mode smod t2 ht hp n
  obtain ⟨l1, l2, l3, l4⟩ := line file nl flow often h hk
  change Conf s at l1
  change s.mode = mode at l2
  change s.smod = smod at l3
  change s.t2baud = t2 at l4
  have q := send_time p (wrSbuf v s) (fun e m => (hp e m).1) ⟨l1.mode, l1.bits, l1.div, l1.ren⟩ rfl
    (by show 0 < s.bits; rw [l1.bits]; exact bits_pos _)
  have f : frame (wrSbuf v s) = needed mode smod t2 := frame_needed _ _ _ _ l2 l3 l4 ht
  have z : trTime (wrSbuf v s) = 0 := by
    show 0 * _ + (if clk s.mode then 0 else 0) = 0
    rw [Nat.zero_mul]; split <;> rfl
  have m : (wrSbuf v s).mode = mode := l2
  rw [f, z, m] at q
  have u : ∀ a b, p = a ++ .tick :: b → units (clk mode) a = elapsed mode t2 a := by
    intro a b e
    exact units_elapsed mode t2 a (fun x hx => (hp x (by rw [e]; simp [hx])).2)
  obtain ⟨r1, r2, r3, r4, r5, r6, r7⟩ := q.2 (fun ⟨a, b, e, w⟩ => n ⟨a, b, e, by rw [u a b e] at w; omega⟩)
  have e1 : run s (.wrSbuf v :: p ++ [.tick]) = tick (run s (.wrSbuf v :: p)) := by rw [run_append]; rfl
  have e2 : run (wrSbuf v s) p = run s (.wrSbuf v :: p) := rfl
  rw [e2] at r1 r2 r3 r4 r5 r6 r7
  have tt := tick_time _ r4 r1 r5
  rw [frame_cf _ _ r6, f, r7, Nat.zero_add, units_elapsed mode t2 p (fun x hx => (hp x hx).2)] at tt
  rw [e1]
  exact ⟨fun k => (tt.1 k).2.2, fun k => (tt.2 k).2.2.2.2.2⟩

/-- Receiving: when a character waits, the receiver is enabled and free, the next machine cycle starts the frame; it is
received (RI set, in SBUF) in the machine cycle that begins after the time of the frame, not before. -/
theorem c72_receive_partial (file : List Byte) (nl : Nat) (flow often : Bool) (h p : List Ev) (hk : keepsT2 0 h) :
    let s := run (start file nl flow often) h
    let mode := s.scon.toNat / 64
    let smod := (lastPcon 0 h).getLsbD 7
    let t2 := decide (t2sel (lastT2con 0 h))
    let p' := .tick :: p
    s.avail = true → s.receiving = false → s.scon.getLsbD 4 = true →
    timed mode t2 → (∀ e ∈ p, calmR e = true ∧ e ≠ (if t2 then .ovf1 else .ovf2)) →
    (¬ ∃ a b, p = a ++ .tick :: b ∧ needed mode smod t2 ≤ elapsed mode t2 (.tick :: a)) →
    (run s p').rx = s.rx ∧
    (needed mode smod t2 ≤ elapsed mode t2 p' → ri (run s (p' ++ [.tick])) = true ∧
      ∃ c, (run s (p' ++ [.tick])).rx = s.rx ++ [c] ∧ (run s (p' ++ [.tick])).sIn = c) ∧
    (¬ needed mode smod t2 ≤ elapsed mode t2 p' → (run s (p' ++ [.tick])).rx = s.rx ∧ ri (run s (p' ++ [.tick])) = ri (run s p')) := by
  intro s mode smod t2 p' ha hr hn ht hp n
  obtain ⟨l1, l2, l3, l4⟩ := line file nl flow often h hk
  change Conf s at l1
  change s.mode = mode at l2
  change s.smod = smod at l3
  change s.t2baud = t2 at l4
  obtain ⟨b1, b2, b3, b4⟩ := tick_begin s l1 hr (by rw [l1.ren]; exact hn) ha
  obtain ⟨c1, c2⟩ := tick_calm s l1
  have c1' := c1
  simp only [cf, Prod.mk.injEq] at c1'
  have f : frame (tick s) = needed mode smod t2 :=
    frame_needed _ _ _ _ (c1'.1.trans l2) (c1'.2.1.trans l3) (c1'.2.2.trans l4) ht
  have hu : ∀ a, units (clk mode) (.tick :: a) = unit (clk mode) .tick + units (clk mode) a := fun a => by simp [units]
  have ht' : Ev.tick ≠ (if t2 then .ovf1 else .ovf2) := by cases t2 <;> intro k <;> cases k
  have u : ∀ a b, p = a ++ .tick :: b → units (clk mode) (.tick :: a) = elapsed mode t2 (.tick :: a) := by
    intro a b e
    apply units_elapsed mode t2
    intro x hx
    rcases mem_cons.1 hx with rfl | hx
    · exact ht'
    · exact (hp x (by rw [e]; simp [hx])).2
  have up : units (clk mode) p' = elapsed mode t2 p' := by
    apply units_elapsed mode t2
    intro x hx
    rcases mem_cons.1 hx with rfl | hx
    · exact ht'
    · exact (hp x hx).2
  have q := rec_time p (tick s) (fun e m => (hp e m).1) c2 b1 b2 (by
    rw [f, b4, c1'.1, l2]
    rintro ⟨a, b, e, w⟩
    exact n ⟨a, b, e, by rw [← u a b e, hu]; exact w⟩)
  have e2 : run (tick s) p = run s p' := rfl
  have e1 : run s (p' ++ [.tick]) = tick (run s p') := by rw [run_append]; rfl
  rw [e2] at q
  obtain ⟨q1, q2, q3, q4, q5, q6⟩ := q
  rw [b4, c1'.1, l2, ← hu, show Ev.tick :: p = p' from rfl, up] at q6
  have tt := tick_rec _ q4 q2 q3
  rw [frame_cf _ _ q5, f, q6, q1, b3] at tt
  rw [e1]
  refine ⟨q1.trans b3, fun k => ?_, fun k => ?_⟩
  · exact ⟨(tt.1 k).2.2, (tt.1 k).1⟩
  · exact ⟨(tt.2 k).1, (tt.2 k).2.2.2.2⟩

/-- Mode 1, SMOD clear: 320 overflows of timer 1 and a machine cycle; SMOD set: 160; timer 2: 160 of its overflows. -/
theorem demoTime :
    (run (start [] 10 false false) ([.wrScon 0x40, .wrSbuf 65] ++ replicate 319 .ovf1 ++ [.tick])).out = [] ∧
    (run (start [] 10 false false) ([.wrScon 0x40, .wrSbuf 65] ++ replicate 320 .ovf1 ++ [.tick])).out = [65] ∧
    (run (start [] 10 false false) ([.wrScon 0x40, .wrPcon 0x80, .wrSbuf 65] ++ replicate 160 .ovf1 ++ [.tick])).out = [65] ∧
    (run (start [] 10 false false) ([.wrScon 0x40, .t2con 0x34, .wrSbuf 65] ++ replicate 160 .ovf2 ++ [.tick])).out = [65] ∧
    (run (start [66] 10 false false) ([.wrScon 0x50, .poll, .tick] ++ replicate 320 .ovf1 ++ [.tick])).rx = [66] ∧
    (run (start [66] 10 false false) ([.wrScon 0x50, .poll])).avail = true ∧
    timed 1 false ∧ needed 1 false false = 320 ∧ needed 1 true false = 160 ∧ needed 1 false true = 160 := by
  refine ⟨?_, ?_, ?_, ?_, ?_, ?_, .inr (.inl rfl), rfl, rfl, rfl⟩ <;> decide +kernel

/-- Mode 2 is twice as fast as it should be: 11 bits of 64 clocks are 704, 59 machine cycles; after 30 the byte is out. -/
theorem c72_false_mode2 : needed 2 false false = 704 ∧ elapsed 2 false (replicate 30 .tick) = 360 ∧
    (run (start [] 10 false false) ([.wrScon 0x80, .wrSbuf 65] ++ replicate 31 .tick)).out = [65] := by
  refine ⟨rfl, rfl, ?_⟩; decide +kernel

/-- With timer 2 as the baud rate generator the overflows of timer 1 are counted too. -/
theorem c72_false_two_timers :
    (run (start [] 10 false false) ([.wrScon 0x40, .t2con 0x34, .wrSbuf 65] ++ replicate 160 .ovf1 ++ [.tick])).out = [65] := by
  decide +kernel

/-- With timer 2 selected the fixed rate of mode 0 changes: 128 clocks instead of 96 for a byte. -/
theorem c72_false_mode0 :
    needed 0 false true = 96 ∧
    (run (start [] 10 false false) ([.t2con 0x34, .wrSbuf 65] ++ replicate 9 .tick)).out = [] ∧
    (run (start [] 10 false false) ([.t2con 0x34, .wrSbuf 65] ++ replicate 12 .tick)).out = [65] := by
  refine ⟨rfl, ?_, ?_⟩ <;> decide +kernel

/-- When timer 2 is deselected the bit time of it stays: 160 overflows of timer 1 instead of 320. -/
theorem c72_false_back :
    (run (start [] 10 false false) ([.wrScon 0x40, .t2con 0x34, .tick, .t2con 0x04, .wrSbuf 65] ++ replicate 160 .ovf1 ++ [.tick])).out = [65] := by
  decide +kernel

/-! ### C73: what comes on the line is received -/

/-- Whatever happens (no key pressed: the input is a file or a socket), what the program received so far is the beginning
of the input with the line ends converted as the option `nl` says. -/
theorem c73_prefix_partial (file : List Byte) (nl : Nat) (flow often : Bool) (hn : nl < 0x1000000) (hf : nl = 0 ∨ plain file)
    (h : List Ev) (hk : ∀ e ∈ h, isKey e = false) :
    (run (start file nl flow often) h).rx <+: received nl file := by
  have a := rx_stream file nl flow often hn h hk
  rw [stream_received nl file hf] at a
  rw [append_assoc] at a
  exact ⟨_, a⟩

/-- When the whole input was taken and no character waits, everything was received. -/
theorem c73_all_partial (file : List Byte) (nl : Nat) (flow often : Bool) (hn : nl < 0x1000000) (hf : nl = 0 ∨ plain file)
    (h : List Ev) (hk : ∀ e ∈ h, isKey e = false)
    (h1 : (run (start file nl flow often) h).fin = []) (h2 : (run (start file nl flow often) h).avail = false) :
    (run (start file nl flow often) h).rx = received nl file := by
  have a := rx_stream file nl flow often hn h hk
  rw [stream_received nl file hf, h1, inflight, h2] at a
  simpa [stream] using a

/-- Without conversion a file of any bytes is received as it is. -/
theorem c73_binary_partial (file : List Byte) (flow often : Bool) (h : List Ev) (hk : ∀ e ∈ h, isKey e = false) :
    (run (start file 0 flow often) h).rx <+: file :=
  c73_prefix_partial file 0 flow often (by decide) (.inl rfl) h hk

/-- "a" CR LF "b" with nl = LF (mode 0): a, LF, b. -/
def demoRx : List Ev := .wrScon 0x10 :: (replicate 5 (.poll :: replicate 10 .tick)).flatten

theorem demoRx_ok : (run (start [97, 13, 10, 98] 10 false false) demoRx).rx = [97, 10, 98] ∧
    (run (start [97, 13, 10, 98] 10 false false) demoRx).fin = [] ∧ (run (start [97, 13, 10, 98] 10 false false) demoRx).avail = false ∧
    received 10 [97, 13, 10, 98] = [97, 10, 98] ∧
    (run (start [97, 13, 10, 98] 0 false false) demoRx).rx = [97, 13, 10, 98] ∧ (∀ e ∈ demoRx, isKey e = false) := by decide +kernel

theorem demoRx_plain : plain [97, 13, 10, 98] := by
  constructor <;> decide

/-- CR LF LF are two line ends; one is received. -/
theorem c73_false_newline : received 10 [97, 13, 10, 10, 98] = [97, 10, 10, 98] ∧
    (run (start [97, 13, 10, 10, 98] 10 false false) demoRx).rx = [97, 10, 98] ∧
    (run (start [97, 13, 10, 10, 98] 10 false false) demoRx).fin = [] := by decide +kernel

/-- A key pressed while a character waits is dropped. -/
theorem c73_false_key : (run (start [] 10 false false) ([.wrScon 0x10, .key 97, .key 98] ++ replicate 30 .tick)).rx = [97] := by
  decide +kernel

/-- An event that does not set REN (bit 4 of SCON). -/
def noRen : Ev → Bool
  | .wrScon v => !v.getLsbD 4
  | .wrBit i b => decide (i ≠ 4) || !b
  | _ => true

theorem bit4_other : ∀ (i : Fin 8) (n : Byte), (i ≠ 4 → (n ||| (1#8 <<< i.val)).getLsbD 4 = n.getLsbD 4) ∧
    (n.getLsbD 4 = false → (n &&& ~~~(1#8 <<< i.val)).getLsbD 4 = false) := by decide +kernel

/-- The receiver is off. -/
structure Off (s : Ser) : Prop where
  ren : s.ren = false
  scon : s.scon.getLsbD 4 = false
  quiet : s.receiving = false

theorem off_wrScon (n : Byte) (s : Ser) (hn : n.getLsbD 4 = false) (h : s.receiving = false) : Off (wrScon n s) := ⟨hn, hn, h⟩

theorem off_ev (s : Ser) (e : Ev) (h : Off s) (he : noRen e = true) : Off (ev s e) ∧ (ev s e).rx = s.rx ∧ (ev s e).sIn = (if e = .reset then 0 else s.sIn) := by
  cases e with
  | wrSbuf v => exact ⟨⟨h.ren, h.scon, h.quiet⟩, rfl, rfl⟩
  | wrScon v => exact ⟨off_wrScon v s (by simpa [noRen] using he) h.quiet, rfl, rfl⟩
  | wrBit i b =>
    refine ⟨off_wrScon _ s ?_ h.quiet, rfl, rfl⟩
    cases b
    · exact (bit4_other i s.scon).2 h.scon
    · have : i ≠ 4 := by simpa [noRen] using he
      exact ((bit4_other i s.scon).1 this).trans h.scon
  | wrPcon v => exact ⟨⟨h.ren, h.scon, h.quiet⟩, rfl, rfl⟩
  | rdSbuf => exact ⟨⟨h.ren, h.scon, h.quiet⟩, rfl, rfl⟩
  | ovf1 => exact ⟨⟨h.ren, h.scon, h.quiet⟩, rfl, rfl⟩
  | ovf2 => exact ⟨⟨h.ren, h.scon, h.quiet⟩, rfl, rfl⟩
  | t2con v =>
    show Off (t2con v s) ∧ (t2con v s).rx = s.rx ∧ (t2con v s).sIn = s.sIn
    unfold t2con; cases s.t2baud
    · exact ⟨⟨h.ren, h.scon, h.quiet⟩, rfl, rfl⟩
    · exact ⟨⟨h.ren, h.scon, h.quiet⟩, rfl, rfl⟩
  | poll =>
    show Off (poll s) ∧ (poll s).rx = s.rx ∧ (poll s).sIn = s.sIn
    unfold poll; split
    · split
      · exact ⟨h, rfl, rfl⟩
      · split <;> exact ⟨⟨h.ren, h.scon, h.quiet⟩, rfl, rfl⟩
    · exact ⟨h, rfl, rfl⟩
  | key c =>
    show Off (key c s) ∧ (key c s).rx = s.rx ∧ (key c s).sIn = s.sIn
    unfold key; split
    · split <;> exact ⟨⟨h.ren, h.scon, h.quiet⟩, rfl, rfl⟩
    · exact ⟨h, rfl, rfl⟩
  | reset =>
    show Off (t2con 0 _) ∧ (t2con 0 _).rx = s.rx ∧ (t2con 0 _).sIn = 0
    have k : ∀ t : Ser, Off t → t.rx = s.rx → t.sIn = 0 → Off (t2con 0 t) ∧ (t2con 0 t).rx = s.rx ∧ (t2con 0 t).sIn = 0 := by
      intro t a b c; unfold t2con; cases t.t2baud
      · exact ⟨⟨a.ren, a.scon, a.quiet⟩, b, c⟩
      · exact ⟨⟨a.ren, a.scon, a.quiet⟩, b, c⟩
    exact k _ ⟨by show (0 : Byte).getLsbD 4 = false; decide, by show (0 : Byte).getLsbD 4 = false; decide, rfl⟩ rfl rfl
  | tick =>
    have c1 : Off (cntDiv s) ∧ (cntDiv s).rx = s.rx ∧ (cntDiv s).sIn = s.sIn := by
      unfold cntDiv; split
      · exact ⟨⟨h.ren, h.scon, h.quiet⟩, rfl, rfl⟩
      · exact ⟨h, rfl, rfl⟩
    have c2 : ∀ t : Ser, Off t → Off (cntTr t) ∧ (cntTr t).rx = t.rx ∧ (cntTr t).sIn = t.sIn := by
      intro t h; unfold cntTr; split
      · split <;> exact ⟨⟨h.ren, h.scon, h.quiet⟩, rfl, rfl⟩
      · exact ⟨h, rfl, rfl⟩
    have c3 : ∀ t : Ser, Off t → cntRec t = t := by
      intro t h; unfold cntRec; rw [h.quiet]; rfl
    have c4 : ∀ t : Ser, Off t → Off (txDone t) := by
      intro t h; unfold txDone; split
      · refine ⟨?_, ?_, h.quiet⟩
        · exact (((bit4_other 1 t.scon).1 (by decide)).trans h.scon)
        · exact (((bit4_other 1 t.scon).1 (by decide)).trans h.scon)
      · exact h
    have c5 : ∀ t : Ser, Off t → rxDone (rxStart t) = t := by
      intro t h
      have : rxStart t = t := by unfold rxStart; rw [h.ren]; rfl
      rw [this]; unfold rxDone; rw [h.quiet]; rfl
    obtain ⟨a1, a2, a3⟩ := c1
    obtain ⟨b1, b2, b3⟩ := c2 _ a1
    have e0 : bitCnt s = cntTr (cntDiv s) := c3 _ b1
    obtain ⟨d1, d2⟩ := txDone_rx (cntTr (cntDiv s))
    have o := c4 _ b1
    have e1 : rxDone (rxStart (txDone (bitCnt s))) = txDone (cntTr (cntDiv s)) := by rw [e0]; exact c5 _ o
    show Off (tick s) ∧ (tick s).rx = s.rx ∧ (tick s).sIn = s.sIn
    unfold tick
    rw [e1]
    exact ⟨⟨o.ren, o.scon, o.quiet⟩, d1.trans (b2.trans a2), d2.trans (b3.trans a3)⟩

/-- Until REN is set (from the start or a reset on) nothing is received, whatever comes in and whatever else is done. -/
theorem c73_ren (file : List Byte) (nl : Nat) (flow often : Bool) (h h' : List Ev) (hn : ∀ e ∈ h', noRen e = true) :
    (run (start file nl flow often) (h ++ .reset :: h')).rx = (run (start file nl flow often) h).rx ∧
    (run (start file nl flow often) (h ++ .reset :: h')).sIn = 0 := by
  have key : ∀ (h' : List Ev) (s : Ser), (∀ e ∈ h', noRen e = true) → Off s → s.sIn = 0 → (run s h').rx = s.rx ∧ (run s h').sIn = 0 := by
    intro h'
    induction h' with
    | nil => exact fun s _ _ z => ⟨rfl, z⟩
    | cons e h' ih =>
      intro s hn o z
      obtain ⟨a, b, c⟩ := off_ev s e o (hn e mem_cons_self)
      obtain ⟨d, f⟩ := ih (ev s e) (fun x hx => hn x (mem_cons_of_mem _ hx)) a (by rw [c, z]; simp)
      exact ⟨d.trans b, f⟩
  have e : run (start file nl flow often) (h ++ .reset :: h') = run (reset (run (start file nl flow often) h)) h' := foldl_append
  have rs : ∀ s : Ser, Off (reset s) ∧ (reset s).rx = s.rx ∧ (reset s).sIn = 0 := by
    intro s
    have k : ∀ t : Ser, Off t → t.rx = s.rx → t.sIn = 0 → Off (t2con 0 t) ∧ (t2con 0 t).rx = s.rx ∧ (t2con 0 t).sIn = 0 := by
      intro t a b c; unfold t2con; cases t.t2baud
      · exact ⟨⟨a.ren, a.scon, a.quiet⟩, b, c⟩
      · exact ⟨⟨a.ren, a.scon, a.quiet⟩, b, c⟩
    exact k _ ⟨by show (0 : Byte).getLsbD 4 = false; decide, by show (0 : Byte).getLsbD 4 = false; decide, rfl⟩ rfl rfl
  obtain ⟨a, b, c⟩ := rs (run (start file nl flow often) h)
  rw [e]
  obtain ⟨d, f⟩ := key h' _ hn a c
  exact ⟨d.trans b, f⟩

/-- Input comes, mode 1 is set up, time passes; then REN is set and the input is received. -/
theorem demoRen_ok : (∀ e ∈ [Ev.wrScon 0x40, .poll] ++ replicate 50 .tick ++ replicate 400 .ovf1, noRen e = true) ∧
    (run (start [97] 10 false false) (.reset :: ([.wrScon 0x00, .poll] ++ replicate 50 .tick))).rx = [] ∧
    (run (start [97] 10 false false) (.reset :: ([.wrScon 0x00, .poll] ++ replicate 50 .tick ++ [.wrBit 4 true] ++ replicate 10 .tick))).rx = [97] := by
  decide +kernel

/-! ### C74: flow control -/

/-- With flow control, a new line of at most one character and a program that reads SBUF (once) when something was
received: what the program reads is what was received; at most the last byte is not read yet. -/
theorem c74_flow_partial (file : List Byte) (nl : Nat) (often : Bool) (hn : nl < 0x1000000) (h1 : (newline nl).length ≤ 1) (h : List Ev)
    (hk : ∀ e ∈ h, isKey e = false ∧ isReset e = false) (hr : reader 0 (start file nl true often) h = true) :
    ∃ u, u.length ≤ 1 ∧ reads (start file nl true often) h ++ u = (run (start file nl true often) h).rx := by
  have i : Fl (newline nl) (start file nl true often) [] [] :=
    ⟨(start_ok file nl true often hn).2, h1, rfl, rfl, rfl, fun c h => by cases h⟩
  obtain ⟨u, q⟩ := fl_run (newline nl) h _ [] [] hk hr i
  refine ⟨u, ?_, ?_⟩
  · have := q.tok; omega
  · have := q.rx; simpa using this.symm

/-- So it reads the beginning of the input. -/
theorem c74_file_partial (file : List Byte) (nl : Nat) (often : Bool) (hn : nl < 0x1000000) (h1 : (newline nl).length ≤ 1)
    (hf : nl = 0 ∨ plain file) (h : List Ev)
    (hk : ∀ e ∈ h, isKey e = false ∧ isReset e = false) (hr : reader 0 (start file nl true often) h = true) :
    reads (start file nl true often) h <+: received nl file := by
  obtain ⟨u, _, e⟩ := c74_flow_partial file nl often hn h1 h hk hr
  exact (show _ <+: (run (start file nl true often) h).rx from ⟨u, e⟩).trans (c73_prefix_partial file nl true often hn hf h (fun e m => (hk e m).1))

/-- A program that reads each byte (mode 0). -/
def demoFlow : List Ev := .wrScon 0x10 :: (replicate 3 (.poll :: .poll :: replicate 10 .tick ++ [.rdSbuf])).flatten

theorem demoFlow_ok : reads (start [97, 98, 99] 10 true false) demoFlow = [97, 98, 99] ∧
    (∀ e ∈ demoFlow, isKey e = false ∧ isReset e = false) ∧ (newline 10).length = 1 ∧
    reader 0 (start [97, 98, 99] 10 true false) demoFlow = true := by decide +kernel

/-- Without flow control (the default) a byte the program was too slow to read is overwritten. -/
theorem c74_false_overrun :
    reads (start [97, 98] 10 false false) (.wrScon 0x10 :: (replicate 2 (.poll :: replicate 10 .tick)).flatten ++ [.rdSbuf]) = [98] := by
  decide +kernel

/-- With flow control too, if a line end is to be two characters: the first one is overwritten. -/
theorem c74_false_two : received 0x0a0d [10] = [13, 10] ∧
    reads (start [10] 0x0a0d true false) (.wrScon 0x10 :: (.poll :: replicate 20 .tick) ++ [.rdSbuf]) = [10] := by
  decide +kernel

theorem rxStart_dead (s : Ser) (h1 : s.avail = false) (h2 : s.often = false) : rxStart s = s := by
  unfold rxStart; split
  · unfold rxPoll; rw [h2]; unfold rxBegin; simp [h1]
  · rfl

theorem dead (h : List Ev) : ∀ (s : Ser), (∀ e ∈ h, e = .poll ∨ e = .tick) → s.avail = false → s.flow = true → s.able = false →
    s.often = false → s.receiving = false → (run s h).rx = s.rx := by
  induction h with
  | nil => intro s _ _ _ _ _ _; rfl
  | cons e h ih =>
    intro s hh h1 h2 h3 h4 h5
    have hh' : ∀ e ∈ h, e = .poll ∨ e = .tick := fun e' m => hh e' (mem_cons_of_mem _ m)
    rcases hh e (mem_cons_self ..) with rfl | rfl
    · have : ev s .poll = s := by
        show poll s = s
        unfold poll; rw [h2, h3]; simp
      show (run (ev s .poll) h).rx = _
      rw [this]; exact ih s hh' h1 h2 h3 h4 h5
    · have a : fp (txDone (bitCnt s)) = fp s := by
        rw [← fp_bitCnt s]; unfold txDone; split <;> rfl
      have b : (txDone (bitCnt s)).receiving = false := by
        have : (txDone (bitCnt s)).receiving = (bitCnt s).receiving := by unfold txDone; split <;> rfl
        rw [this, (rx_bitCnt s).2.2, h5]
      have c : (txDone (bitCnt s)).often = false := by
        have x : ∀ s, (cntDiv s).often = s.often := fun s => by unfold cntDiv; split <;> rfl
        have y : ∀ s, (cntTr s).often = s.often := fun s => by unfold cntTr; repeat' split
                                                               all_goals rfl
        have z : ∀ s, (cntRec s).often = s.often := fun s => by unfold cntRec; repeat' split
                                                                all_goals rfl
        have : (txDone (bitCnt s)).often = (bitCnt s).often := by unfold txDone; split <;> rfl
        rw [this]; unfold bitCnt; rw [z, y, x, h4]
      have d : (txDone (bitCnt s)).rx = s.rx := by rw [(txDone_rx _).1, (rx_bitCnt s).1]
      simp only [fp, Prod.mk.injEq] at a
      have t : tick s = { txDone (bitCnt s) with trTick := (txDone (bitCnt s)).trTick + 12, recTick := (txDone (bitCnt s)).recTick + 12 } := by
        unfold tick
        rw [rxStart_dead _ (a.2.2.1.trans h1) c, rxDone_no _ (by rw [b]; simp)]
      show (run (tick s) h).rx = _
      exact (ih (tick s) hh' (by rw [t]; exact a.2.2.1.trans h1) (by rw [t]; exact a.1.trans h2) (by rw [t]; exact a.2.1.trans h3)
        (by rw [t]; exact c) (by rw [t]; exact b)).trans (by rw [t]; exact d)

/-- With flow control a reset before the program has read a byte stops the input for ever (until SBUF is read): the
program enables the receiver again and waits as long as it likes. -/
theorem c74_false_reset (h : List Ev) (hh : ∀ e ∈ h, e = .poll ∨ e = .tick) :
    (run (start [97, 98] 10 true false) ([.wrScon 0x10, .poll] ++ replicate 10 .tick ++ [.reset, .wrScon 0x10] ++ h)).rx = [97] := by
  rw [run_append]
  have e : ∀ s, s = run (start [97, 98] 10 true false) ([.wrScon 0x10, .poll] ++ replicate 10 .tick ++ [.reset, .wrScon 0x10]) →
      (s.avail = false ∧ s.flow = true ∧ s.able = false ∧ s.often = false ∧ s.receiving = false ∧ s.rx = [97]) := by
    intro s hs; subst hs; decide +kernel
  obtain ⟨a, b, c, d, f, g⟩ := e _ rfl
  rw [dead h _ hh a b c d f, g]

end Ucsim.S51.Uart
