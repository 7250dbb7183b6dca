import Verif.Proof.Timer2

/-
C75, C76: timer 2 of the 8052.
-/
namespace Ucsim.S51.Tim2
open Spec

/-- An event that is no machine cycle and does not write T2CON or T2MOD. -/
def quiet : Ev → Bool
  | .wrTl _ | .wrTh _ | .wrRl _ | .wrRh _ | .wrP1 _ | .pins _ => true
  | _ => false

/-- An event that does not write T2CON or T2MOD. -/
def keeps : Ev → Bool
  | .tick => true
  | e => quiet e

/-- Level of pin i of port 1. -/
def level (i : Nat) (t : T2) : Bool := (t.pins &&& t.latch).getLsbD i

/-- The levels of pin i of port 1 after each change. -/
def levels (i : Nat) : Byte → Byte → List Ev → List Bool
  | _, _, [] => []
  | _, pins, .wrP1 v :: es => (pins &&& v).getLsbD i :: levels i v pins es
  | latch, _, .pins v :: es => (v &&& latch).getLsbD i :: levels i latch v es
  | latch, pins, _ :: es => levels i latch pins es

/-- Falling edges at T2 (P1.0) and T2EX (P1.1). -/
def t2Falls (t : T2) (es : List Ev) : Nat := falls (level 0 t) (levels 0 t.latch t.pins es)
def t2exFalls (t : T2) (es : List Ev) : Nat := falls (level 1 t) (levels 1 t.latch t.pins es)

/-- RCLK or TCLK. -/
def selBaud (c : Byte) : Bool := c.getLsbD 5 || c.getLsbD 4
def selCapture (c : Byte) : Bool := !selBaud c && c.getLsbD 0
def selReload (c : Byte) : Bool := !selBaud c && !c.getLsbD 0

/-! ### Lemmas -/

theorem fall0 : ∀ n o : Byte, ((n &&& 0x01#8 = 0#8 ∧ o &&& 0x01#8 ≠ 0#8) ↔ (o.getLsbD 0 && !n.getLsbD 0) = true) := by
  intro n o
  have a := (masks n).2.2.2.2.2
  have b := (masks o).2.2.2.2.2
  rw [← a, ← b]; simp only [bne_iff_ne, ne_eq, Bool.and_eq_true, Bool.not_eq_true', bne_eq_false_iff_eq]
  exact and_comm
theorem fall1 : ∀ n o : Byte, ((n &&& 0x02#8 = 0#8 ∧ o &&& 0x02#8 ≠ 0#8) ↔ (o.getLsbD 1 && !n.getLsbD 1) = true) := by
  intro n o
  rw [← bit1, ← bit1]; simp only [bne_iff_ne, ne_eq, Bool.and_eq_true, Bool.not_eq_true', bne_eq_false_iff_eq]
  exact and_comm

theorem port_edge (o n : Byte) (t : T2) : (port o n t).edge = t.edge + (if o.getLsbD 0 && !n.getLsbD 0 then 1 else 0) ∧
    (port o n t).exEdge = t.exEdge + (if o.getLsbD 1 && !n.getLsbD 1 then 1 else 0) := by
  constructor
  · show (if _ then t.edge + 1 else t.edge) = _
    by_cases h : (o.getLsbD 0 && !n.getLsbD 0) = true
    · rw [if_pos ((fall0 n o).2 h), if_pos h]
    · rw [if_neg (fun k => h ((fall0 n o).1 k)), if_neg h]; rfl
  · show (if _ then t.exEdge + 1 else t.exEdge) = _
    by_cases h : (o.getLsbD 1 && !n.getLsbD 1) = true
    · rw [if_pos ((fall1 n o).2 h), if_pos h]
    · rw [if_neg (fun k => h ((fall1 n o).1 k)), if_neg h]; rfl

/-- Settings. -/
def sets (s t : T2) : Prop := t.con = s.con ∧ t.mode = s.mode ∧ t.ct = s.ct ∧ t.tr = s.tr ∧ t.exen = s.exen

theorem sets_trans {a b c : T2} (h : sets a b) (k : sets b c) : sets a c :=
  ⟨k.1.trans h.1, k.2.1.trans h.2.1, k.2.2.1.trans h.2.2.1, k.2.2.2.1.trans h.2.2.2.1, k.2.2.2.2.trans h.2.2.2.2⟩

theorem no_fall (a : Bool) : (if (a && !a) = true then 1 else 0) = (0 : Nat) := by cases a <;> rfl

theorem quiet_run (es : List Ev) : ∀ t : T2, (∀ e ∈ es, quiet e = true) → sets t (run t es) ∧ (run t es).edge = t.edge + t2Falls t es ∧
    (run t es).exEdge = t.exEdge + t2exFalls t es := by
  induction es with
  | nil => intro t _; exact ⟨⟨rfl, rfl, rfl, rfl, rfl⟩, rfl, rfl⟩
  | cons e es ih =>
    intro t q
    have q' := fun x hx => q x (List.mem_cons_of_mem _ hx)
    have q0 := q e List.mem_cons_self
    obtain ⟨a, b, c⟩ := ih (ev t e) q'
    show sets t (run (ev t e) es) ∧ (run (ev t e) es).edge = _ ∧ (run (ev t e) es).exEdge = _
    rw [b, c]
    cases e with
    | wrCon _ => cases q0
    | wrBit _ _ => cases q0
    | wrMod _ => cases q0
    | tick => cases q0
    | reset => cases q0
    | wrTl v => exact ⟨sets_trans (b := ev t (.wrTl v)) ⟨rfl, rfl, rfl, rfl, rfl⟩ a, rfl, rfl⟩
    | wrTh v => exact ⟨sets_trans (b := ev t (.wrTh v)) ⟨rfl, rfl, rfl, rfl, rfl⟩ a, rfl, rfl⟩
    | wrRl v => exact ⟨sets_trans (b := ev t (.wrRl v)) ⟨rfl, rfl, rfl, rfl, rfl⟩ a, rfl, rfl⟩
    | wrRh v => exact ⟨sets_trans (b := ev t (.wrRh v)) ⟨rfl, rfl, rfl, rfl, rfl⟩ a, rfl, rfl⟩
    | wrP1 v =>
      have f0 : t2Falls t (.wrP1 v :: es) = (if level 0 t && !(t.pins &&& v).getLsbD 0 then 1 else 0) + falls ((t.pins &&& v).getLsbD 0) (levels 0 v t.pins es) := rfl
      have f1 : t2exFalls t (.wrP1 v :: es) = (if level 1 t && !(t.pins &&& v).getLsbD 1 then 1 else 0) + falls ((t.pins &&& v).getLsbD 1) (levels 1 v t.pins es) := rfl
      rw [f0, f1]
      have e0 : ev t (.wrP1 v) = wrP1 v t := rfl
      rw [e0] at a ⊢
      by_cases k : t.latch = v
      · have w : wrP1 v t = t := if_pos k
        rw [w] at a ⊢
        rw [← k]
        unfold level
        rw [no_fall, no_fall, Nat.zero_add, Nat.zero_add]
        exact ⟨a, rfl, rfl⟩
      · have w : wrP1 v t = { port (t.pins &&& t.latch) (t.pins &&& v) t with latch := v } := if_neg k
        obtain ⟨p0, p1⟩ := port_edge (t.pins &&& t.latch) (t.pins &&& v) t
        rw [w] at a ⊢
        refine ⟨sets_trans (b := { port (t.pins &&& t.latch) (t.pins &&& v) t with latch := v }) ⟨rfl, rfl, rfl, rfl, rfl⟩ a, ?_, ?_⟩
        · show (port (t.pins &&& t.latch) (t.pins &&& v) t).edge + _ = _
          rw [p0, Nat.add_assoc]; rfl
        · show (port (t.pins &&& t.latch) (t.pins &&& v) t).exEdge + _ = _
          rw [p1, Nat.add_assoc]; rfl
    | pins v =>
      have f0 : t2Falls t (.pins v :: es) = (if level 0 t && !(v &&& t.latch).getLsbD 0 then 1 else 0) + falls ((v &&& t.latch).getLsbD 0) (levels 0 t.latch v es) := rfl
      have f1 : t2exFalls t (.pins v :: es) = (if level 1 t && !(v &&& t.latch).getLsbD 1 then 1 else 0) + falls ((v &&& t.latch).getLsbD 1) (levels 1 t.latch v es) := rfl
      rw [f0, f1]
      have e0 : ev t (.pins v) = setPins v t := rfl
      rw [e0] at a ⊢
      by_cases k : t.pins = v
      · have w : setPins v t = t := if_pos k
        rw [w] at a ⊢
        rw [← k]
        unfold level
        rw [no_fall, no_fall, Nat.zero_add, Nat.zero_add]
        exact ⟨a, rfl, rfl⟩
      · have w : setPins v t = { port (t.pins &&& t.latch) (v &&& t.latch) t with pins := v } := if_neg k
        obtain ⟨p0, p1⟩ := port_edge (t.pins &&& t.latch) (v &&& t.latch) t
        rw [w] at a ⊢
        refine ⟨sets_trans (b := { port (t.pins &&& t.latch) (v &&& t.latch) t with pins := v }) ⟨rfl, rfl, rfl, rfl, rfl⟩ a, ?_, ?_⟩
        · show (port (t.pins &&& t.latch) (v &&& t.latch) t).edge + _ = _
          rw [p0, Nat.add_assoc]; rfl
        · show (port (t.pins &&& t.latch) (v &&& t.latch) t).exEdge + _ = _
          rw [p1, Nat.add_assoc]; rfl

theorem run_append (t : T2) (a b : List Ev) : run t (a ++ b) = run (run t a) b := List.foldl_append

/-- Events that keep the settings keep the mode. -/
theorem keeps_run (es : List Ev) : ∀ t : T2, (∀ e ∈ es, keeps e = true) → (run t es).mode = t.mode ∧ ∀ i, i < 6 → (run t es).con.getLsbD i = t.con.getLsbD i := by
  induction es with
  | nil => intro t _; exact ⟨rfl, fun _ _ => rfl⟩
  | cons e es ih =>
    intro t q
    obtain ⟨a, b⟩ := ih (ev t e) (fun x hx => q x (List.mem_cons_of_mem _ hx))
    have q0 := q e List.mem_cons_self
    have one : (ev t e).mode = t.mode ∧ ∀ i, i < 6 → (ev t e).con.getLsbD i = t.con.getLsbD i := by
      by_cases he : e = .tick
      · subst he
        obtain ⟨f, _⟩ := tick_fixed t
        exact ⟨f.2.1, f.2.2.2.2.2.2.1⟩
      · have q1 : quiet e = true := by cases e <;> first | rfl | exact absurd rfl he | exact q0
        obtain ⟨s, _⟩ := quiet_run [e] t (fun x hx => by rw [List.mem_singleton.1 hx]; exact q1)
        exact ⟨s.2.1, fun _ _ => by rw [show (ev t e).con = t.con from s.1]⟩
    exact ⟨a.trans one.1, fun i hi => (b i hi).trans (one.2 i hi)⟩

/-- A state just after a cycle, then quiet events: which edges are pending. -/
theorem pending (s : T2) (es : List Ev) (q : ∀ e ∈ es, quiet e = true) :
    let p := tick s
    let t := run p es
    sets p t ∧ (t.tr = true → t.ct = true → t.edge = t2Falls p es) ∧ (t.mode ≠ .down → t.exen = true → t.exEdge = t2exFalls p es) := by
  intro p t
  obtain ⟨a, b, c⟩ := quiet_run es p q
  obtain ⟨f, f1, f2⟩ := tick_fixed s
  obtain ⟨a1, a2, a3, a4, a5⟩ := a
  obtain ⟨_, g2, g3, g4, g5, _⟩ := f
  refine ⟨⟨a1, a2, a3, a4, a5⟩, ?_, ?_⟩
  · intro k1 k2
    have z : p.edge = 0 := f1 (by rw [← g4, ← a4]; exact k1) (by rw [← g3, ← a3]; exact k2)
    show (run p es).edge = _
    rw [b, z, Nat.zero_add]
  · intro k1 k2
    have z : p.exEdge = 0 := f2 (by rw [← g2, ← a2]; exact k1) (by rw [← g5, ← a5]; exact k2)
    show (run p es).exEdge = _
    rw [c, z, Nat.zero_add]

/-- A cycle looks at the edges only if it has to. -/
theorem cycle_congr (m : Mode) (tr ct exen : Bool) (n n' : Nat) (f f' : Bool) (r : Reg) (h : tr = true → ct = true → n = n') (k : exen = true → f = f') :
    cycle m tr ct exen n f r = cycle m tr ct exen n' f' r := by
  have e : (exen && f) = (exen && f') := by cases exen <;> simp_all
  unfold cycle
  rw [e]
  cases tr
  · rfl
  · cases ct
    · rfl
    · rw [h rfl rfl]

theorem sel (t : T2) (h : Coh t) : (selBaud t.con = true ↔ t.mode = .baud) ∧ (selCapture t.con = true ↔ t.mode = .capture) ∧
    (selReload t.con = true ↔ t.mode = .reload ∨ t.mode = .down) := by
  have a := h.baud
  have b := h.cap
  simp only [selReload, selCapture, selBaud]
  rw [a, b]
  refine ⟨by simp, by simp [and_assoc], ?_⟩
  generalize t.con.getLsbD 5 = x at a b ⊢
  generalize t.con.getLsbD 4 = y at a b ⊢
  generalize t.con.getLsbD 0 = z at a b ⊢
  generalize t.mode = m at a b ⊢
  cases m <;> revert x y z <;> decide

/-! ### C75 -/

/-- Baud rate generator: every machine cycle is as in the manual (T2EX only sets EXF2). -/
theorem c75_baud (h es : List Ev) (q : ∀ e ∈ es, quiet e = true) :
    let p := run start (h ++ [.tick])
    let t := run p es
    selBaud t.con = true →
    regs (tick t) = cycle .baud (t.con.getLsbD 2) (t.con.getLsbD 1) (t.con.getLsbD 3) (t2Falls p es) (decide (t2exFalls p es ≠ 0)) (regs t) := by
  intro p t hs
  have ep : p = tick (run start h) := run_append start h [.tick]
  have hc : Coh t := coh_run es p (coh_run _ _ coh_start)
  have hm := (sel t hc).1.1 hs
  obtain ⟨_, e1, e2⟩ := pending (run start h) es q
  have e : tick t = baud t := by unfold tick; rw [hm]
  rw [e, (baud_ok t).1.regs, ← hc.tr, ← hc.ct, ← hc.exen]
  apply cycle_congr
  · intro k1 k2; rw [ep]; exact (e1 (by rw [← ep]; exact k1) (by rw [← ep]; exact k2)).symm ▸ (by rw [← ep])
  · intro k
    have : t.exEdge = t2exFalls p es := by
      have := e2 (by rw [← ep]; show t.mode ≠ _; rw [hm]; decide) (by rw [← ep]; exact k)
      rw [← ep] at this; exact this
    rw [this]

theorem restart_keeps (m : Md) (b : Bool) (t : T2) : (restart m b t).con = t.con ∧ (restart m b t).mode = t.mode := by
  unfold restart; split <;> exact ⟨rfl, rfl⟩
theorem restart_latch (m : Md) (b : Bool) (t : T2) : (restart m b t).latch = t.latch := by
  unfold restart; split <;> rfl

theorem wrCon_reload (n : Byte) (hn : selReload n = true) (s : T2) : (wrCon n s).con = n ∧ (wrCon n s).mode = .reload := by
  obtain ⟨r1, r2⟩ := restart_keeps s.mode s.tr
    { s with
      con := n
      ct := n &&& 0x02#8 != 0#8
      tr := n &&& 0x04#8 != 0#8
      rclk := n &&& 0x20#8 != 0#8
      tclk := n &&& 0x10#8 != 0#8
      cprl := n &&& 0x01#8 != 0#8
      exen := n &&& 0x08#8 != 0#8
      mode := if n &&& 0x20#8 != 0#8 || n &&& 0x10#8 != 0#8 then .baud
              else if n &&& 0x01#8 != 0#8 then .capture else .reload }
  refine ⟨r1, r2.trans ?_⟩
  dsimp only
  obtain ⟨_, _, _, a4, a5, a0⟩ := masks n
  rw [a4, a5, a0]
  revert hn
  simp only [selReload, selBaud]
  cases n.getLsbD 5 <;> cases n.getLsbD 4 <;> cases n.getLsbD 0 <;> decide

theorem wrMod_down (v : Byte) (hv : v.getLsbD 0 = true) (s : T2) (hs : s.mode = .reload ∨ s.mode = .down) : (wrMod v s).mode = .down := by
  have hb : (v &&& 0x01#8 != 0#8) = true := by rw [(masks v).2.2.2.2.2]; exact hv
  refine ((restart_keeps _ _ _).2).trans ?_
  dsimp only
  rw [hb]
  obtain h | h := hs <;> simp [h]

theorem pend (h es : List Ev) (q : ∀ e ∈ es, quiet e = true) :
    let p := run start (h ++ [.tick])
    let t := run p es
    Coh t ∧ (t.tr = true → t.ct = true → t.edge = t2Falls p es) ∧ (t.mode ≠ .down → t.exen = true → t.exEdge = t2exFalls p es) := by
  intro p t
  have ep : p = tick (run start h) := run_append start h [.tick]
  obtain ⟨_, e1, e2⟩ := pending (run start h) es q
  rw [← ep] at e1 e2
  exact ⟨coh_run es p (coh_run _ _ coh_start), e1, e2⟩

/-- Capture mode, counting machine cycles. -/
theorem c75_capture_partial (h es : List Ev) (q : ∀ e ∈ es, quiet e = true) :
    let p := run start (h ++ [.tick])
    let t := run p es
    selCapture t.con = true → t.con.getLsbD 1 = false →
    regs (tick t) = cycle .capture (t.con.getLsbD 2) (t.con.getLsbD 1) (t.con.getLsbD 3) (t2Falls p es) (decide (t2exFalls p es ≠ 0)) (regs t) := by
  intro p t hs hct
  obtain ⟨hc, _, e2⟩ := pend h es q
  have hm := (sel t hc).2.1.1 hs
  have e : tick t = capture t := by unfold tick; rw [hm]
  have x : t.exen = true → decide (t.exEdge ≠ 0) = decide (t2exFalls p es ≠ 0) := fun k => by rw [e2 (by rw [hm]; decide) k]
  rw [e, (capture_ok t).1, hct, ← hc.tr, ← hc.exen]
  exact cycle_congr _ _ _ _ _ _ _ _ _ (fun _ k => by cases k) x

/-- T2CON with RCLK = TCLK = CP/RL2 = C/T2 = 0 was written, T2MOD not after that: auto-reload, counting up. -/
theorem c75_reload_partial (h0 h1 es : List Ev) (n : Byte) (hn : selReload n = true) (hct : n.getLsbD 1 = false)
    (k1 : ∀ e ∈ h1, keeps e = true) (q : ∀ e ∈ es, quiet e = true) :
    let p := run start (h0 ++ .wrCon n :: h1 ++ [.tick])
    let t := run p es
    regs (tick t) = cycle .reload (n.getLsbD 2) (n.getLsbD 1) (n.getLsbD 3) (t2Falls p es) (decide (t2exFalls p es ≠ 0)) (regs t) := by
  intro p t
  obtain ⟨hc, _, e2⟩ := pend (h0 ++ .wrCon n :: h1) es q
  have et : t = run (ev (run start h0) (.wrCon n)) (h1 ++ [.tick] ++ es) := by
    show run (run start (h0 ++ .wrCon n :: h1 ++ [.tick])) es = _
    rw [← run_append, List.append_assoc, List.append_assoc, run_append, List.append_assoc]; rfl
  obtain ⟨m1, m2⟩ := keeps_run (h1 ++ [.tick] ++ es) (ev (run start h0) (.wrCon n)) (by
    intro e he
    simp only [List.mem_append, List.mem_singleton] at he
    obtain (he | rfl) | he := he
    · exact k1 e he
    · rfl
    · have := q e he; cases e <;> first | rfl | exact this)
  rw [← et] at m1 m2
  obtain ⟨cc, mm⟩ := wrCon_reload n hn (run start h0)
  rw [show (ev (run start h0) (.wrCon n)).con = n from cc] at m2
  have hm : t.mode = .reload := m1.trans mm
  have e : tick t = reloadUp t := by unfold tick; rw [hm]
  have x : t.exen = true → decide (t.exEdge ≠ 0) = decide (t2exFalls p es ≠ 0) := fun k => by rw [e2 (by rw [hm]; decide) k]
  rw [e, (reloadUp_ok t).1, hct, ← m2 2 (by omega), ← m2 3 (by omega), ← hc.tr, ← hc.exen]
  exact cycle_congr _ _ _ _ _ _ _ _ _ (fun _ k => by cases k) x

theorem updown_ext (u tr ct exen : Bool) (n : Nat) (f : Bool) (r : Reg) : cycle (.updown u) tr ct exen n f r = cycle (.updown u) tr ct exen n false r := by
  cases exen <;> cases f <;> rfl

/-- DCEN was set in auto-reload mode, T2CON not written after that: up or down as T2EX says (EXF2 aside; the value in the range of
counting, RCAP2 not 0). -/
theorem c75_updown_partial (h0 h1 es : List Ev) (v : Byte) (hn : selReload (run start h0).con = true) (hv : v.getLsbD 0 = true)
    (k1 : ∀ e ∈ h1, keeps e = true) (q : ∀ e ∈ es, quiet e = true) :
    let p := run start (h0 ++ .wrMod v :: h1 ++ [.tick])
    let t := run p es
    (level 1 t = false → rcap t ≠ 0 ∧ (rcap t ≤ val t ∨ val t = 0)) →
    { regs (tick t) with exf := false } =
      { cycle (.updown (level 1 t)) (t.con.getLsbD 2) (t.con.getLsbD 1) (t.con.getLsbD 3) (t2Falls p es) (decide (t2exFalls p es ≠ 0)) (regs t) with exf := false } := by
  intro p t hr
  obtain ⟨hc, e1, _⟩ := pend (h0 ++ .wrMod v :: h1) es q
  have et : t = run (ev (run start h0) (.wrMod v)) (h1 ++ [.tick] ++ es) := by
    show run (run start (h0 ++ .wrMod v :: h1 ++ [.tick])) es = _
    rw [← run_append, List.append_assoc, List.append_assoc, run_append, List.append_assoc]; rfl
  obtain ⟨m1, m2⟩ := keeps_run (h1 ++ [.tick] ++ es) (ev (run start h0) (.wrMod v)) (by
    intro e he
    simp only [List.mem_append, List.mem_singleton] at he
    obtain (he | rfl) | he := he
    · exact k1 e he
    · rfl
    · have := q e he; cases e <;> first | rfl | exact this)
  rw [← et] at m1 m2
  have hm : t.mode = .down := m1.trans (wrMod_down v hv _ ((sel _ (coh_run h0 _ coh_start)).2.2.1 hn))
  have e : tick t = downUp t := by unfold tick; rw [hm]
  have lx : t.ex = level 1 t := hc.ex
  rw [e, downUp_ok t (fun k => hr (by rw [← lx]; exact k)), lx, ← hc.tr, ← hc.exen, ← hc.ct]
  have x := e1
  have c1 := cycle_congr (.updown (level 1 t)) t.tr t.ct t.exen t.edge (t2Falls p es) (decide (t.exEdge ≠ 0)) (decide (t.exEdge ≠ 0)) (regs t) e1 (fun _ => rfl)
  rw [c1, updown_ext _ _ _ _ _ (decide (t.exEdge ≠ 0)), updown_ext _ _ _ _ _ (decide (t2exFalls p es ≠ 0))]

/-! ### Closed form -/

theorem upN_succ (rc x n : Nat) (h : rc < 65536) (hx : x < 65536) :
    upN rc x (n + 1) = if (upN rc x n).1 = 65535 then (rc, (upN rc x n).2 + 1) else ((upN rc x n).1 + 1, (upN rc x n).2) := by
  unfold upN
  by_cases a : x + (n + 1) < 65536
  · have b : x + n < 65536 := by omega
    simp only [if_pos a, if_pos b]
    rw [if_neg (by omega)]; rfl
  · rw [if_neg a]
    by_cases b : x + n < 65536
    · rw [if_pos b]
      dsimp only
      rw [if_pos (by omega)]
      have : x + (n + 1) - 65536 = 0 := by omega
      rw [this, Nat.zero_mod, Nat.zero_div]; rfl
    · rw [if_neg b]
      dsimp only
      have : x + (n + 1) - 65536 = (x + n - 65536) + 1 := by omega
      rw [this]
      generalize x + n - 65536 = m
      have hd : 0 < 65536 - rc := by omega
      generalize hdd : 65536 - rc = d at hd
      have e1 := Nat.div_add_mod m d
      have e2 := Nat.mod_lt m hd
      by_cases c : m % d = d - 1
      · rw [if_pos (by omega)]
        have z : m + 1 = d * (m / d + 1) := by rw [Nat.mul_add]; omega
        rw [z, Nat.mul_mod_right, Nat.mul_div_cancel_left _ hd]
        simp only [Nat.add_zero, Prod.mk.injEq, true_and]; omega
      · rw [if_neg (by omega)]
        have z : m + 1 = (m % d + 1) + d * (m / d) := by omega
        rw [z, Nat.add_mul_mod_self_left, Nat.add_mul_div_left _ _ hd, Nat.mod_eq_of_lt (by omega), Nat.div_eq_of_lt (by omega)]
        simp only [Prod.mk.injEq]; omega

/-- n counts up, the flag remembers an overflow. -/
def upReg (r : Reg) (n : Nat) : Reg := { r with val := (upN r.rc r.val n).1, tf := r.tf || decide ((upN r.rc r.val n).2 ≠ 0) }

theorem upReg_succ (r : Reg) (n : Nat) (h : r.rc < 65536) (hx : r.val < 65536) : upReg r (n + 1) = count .reload (upReg r n) := by
  unfold upReg
  rw [upN_succ r.rc r.val n h hx]
  simp only [count]
  by_cases k : (upN r.rc r.val n).1 = 65535
  · rw [if_pos k, if_pos k]; simp
  · rw [if_neg k, if_neg k]

theorem upReg_zero (r : Reg) (hx : r.val < 65536) : upReg r 0 = r := by
  unfold upReg upN
  rw [if_pos (by omega)]; simp

theorem run_ticks (t : T2) (n : Nat) : run t (List.replicate (n + 1) .tick) = tick (run t (List.replicate n .tick)) := by
  rw [show List.replicate (n + 1) Ev.tick = List.replicate n .tick ++ [.tick] from List.replicate_succ', run_append]; rfl

theorem ticks_fixed (t : T2) (n : Nat) : fixed t (run t (List.replicate n .tick)) := by
  induction n with
  | zero => exact fixed_refl t
  | succ n ih => rw [run_ticks]; exact fixed_trans ih (tick_fixed _).1

/-- Auto-reload with TR2 set, EXEN2 and C/T2 clear: after n machine cycles the counter has counted n times, TF2 is set if it overflowed. -/
theorem c75_period_partial (h0 h1 : List Ev) (c : Byte) (hn : selReload c = true) (htr : c.getLsbD 2 = true) (_hct : c.getLsbD 1 = false)
    (hx : c.getLsbD 3 = false) (k1 : ∀ e ∈ h1, keeps e = true) (n : Nat) :
    let t := run start (h0 ++ .wrCon c :: h1)
    let r := run t (List.replicate n .tick)
    val r = (upN (rcap t) (val t) n).1 ∧ rcap r = rcap t ∧ tf2 r = (tf2 t || decide ((upN (rcap t) (val t) n).2 ≠ 0)) ∧ exf2 r = exf2 t := by
  intro t r
  have main : ∀ n, regs (run t (List.replicate n .tick)) = upReg (regs t) n := by
    intro n
    induction n with
    | zero => rw [upReg_zero _ (val_lt t)]; rfl
    | succ n ih =>
      rw [run_ticks, upReg_succ _ _ (rcap_lt t) (val_lt t), ← ih]
      have hc : Coh t := coh_run _ _ coh_start
      have fx := ticks_fixed t n
      generalize run t (List.replicate n .tick) = s at fx ⊢
      have et : t = run (ev (run start h0) (.wrCon c)) h1 := run_append _ _ _
      obtain ⟨m1, m2⟩ := keeps_run h1 (ev (run start h0) (.wrCon c)) k1
      rw [← et] at m1 m2
      obtain ⟨cc, mm⟩ := wrCon_reload c hn (run start h0)
      rw [show (ev (run start h0) (.wrCon c)).con = c from cc] at m2
      have hs : Coh s := coh_fixed hc fx
      obtain ⟨_, f2, _, _, _, _, f7, _⟩ := fx
      have e : tick s = reloadUp s := by unfold tick; rw [f2.trans (m1.trans mm)]
      rw [e, (reloadUp_ok s).1, hs.tr, hs.exen, f7 2 (by omega), f7 3 (by omega), m2 2 (by omega), m2 3 (by omega), htr, hx]
      rfl
  have := main n
  exact ⟨congrArg Reg.val this, congrArg Reg.rc this, congrArg Reg.tf this, congrArg Reg.exf this⟩

/-- The baud rate generator overflows as often as an oscillator divided by two (six counts in a machine cycle) makes it. -/
theorem c75_overflows (h : List Ev) (n : Nat) :
    let t := run start h
    let r := run t (List.replicate n .tick)
    selBaud t.con = true → t.con.getLsbD 2 = true → t.con.getLsbD 1 = false →
    val r = (upN (rcap t) (val t) (6 * n)).1 ∧ r.ovf = t.ovf + (upN (rcap t) (val t) (6 * n)).2 ∧ rcap r = rcap t ∧ tf2 r = tf2 t := by
  intro t r hb htr hct
  have hc : Coh t := coh_run _ _ coh_start
  have one : ∀ (k : Nat) (s : T2) (j : Nat), val s = (upN (rcap t) (val t) j).1 ∧ s.ovf = t.ovf + (upN (rcap t) (val t) j).2 ∧ rcap s = rcap t ∧ tf2 s = tf2 t →
      val (loop baud1 k s) = (upN (rcap t) (val t) (j + k)).1 ∧ (loop baud1 k s).ovf = t.ovf + (upN (rcap t) (val t) (j + k)).2 ∧ rcap (loop baud1 k s) = rcap t ∧
      tf2 (loop baud1 k s) = tf2 t := by
    intro k
    induction k with
    | zero => intro s j h; exact h
    | succ k ih =>
      intro s j h
      obtain ⟨a1, a2, a3, a4⟩ := h
      obtain ⟨b1, _, _, _, b5⟩ := baud1_ok s
      have ej : j + (k + 1) = (j + 1) + k := by omega
      rw [ej]
      refine ih (baud1 s) (j + 1) ?_
      rw [upN_succ _ _ _ (rcap_lt t) (val_lt t), ← a1]
      have v := congrArg Reg.val b1
      have rc := congrArg Reg.rc b1
      have tf := congrArg Reg.tf b1
      by_cases k : val s = 65535
      · have c : count .baud (regs s) = { regs s with val := rcap s } := if_pos k
        rw [c] at v rc tf
        rw [if_pos k] at b5
        rw [if_pos k]
        refine ⟨v.trans a3, ?_, rc.trans a3, tf.trans a4⟩
        rw [b5, a2]; exact Nat.add_assoc _ _ _
      · have c : count .baud (regs s) = { regs s with val := val s + 1 } := if_neg k
        rw [c] at v rc tf
        rw [if_neg k] at b5
        rw [if_neg k]
        exact ⟨v, b5.trans a2, rc.trans a3, tf.trans a4⟩
  show val (run t (List.replicate n .tick)) = _ ∧ (run t (List.replicate n .tick)).ovf = _ ∧ rcap (run t (List.replicate n .tick)) = _ ∧ tf2 (run t (List.replicate n .tick)) = _
  clear r
  induction n with
  | zero =>
    have : upN (rcap t) (val t) (6 * 0) = (val t, 0) := by
      unfold upN; rw [Nat.mul_zero, Nat.add_zero, if_pos (val_lt t)]
    rw [this]; exact ⟨rfl, rfl, rfl, rfl⟩
  | succ n ih =>
    rw [run_ticks]
    have fx := ticks_fixed t n
    generalize run t (List.replicate n .tick) = s at fx ih ⊢
    have hs : Coh s := coh_fixed hc fx
    obtain ⟨_, f2, f3, f4, _, _, f7, _⟩ := fx
    have md : s.mode = .baud := f2.trans ((sel t hc).1.1 hb)
    have e : tick s = baud s := by unfold tick; rw [md]
    obtain ⟨o1, o2, o3, o4, o5, o6⟩ := onEx_ok .baud id s (fun t => ⟨rfl, rfl, rfl, rfl, rfl, rfl, rfl, rfl, rfl, rfl, rfl, rfl, rfl, rfl⟩) (fun u h => by cases h)
    have e0 : baud s = if (onEx id s).tr = false then onEx id s else if (onEx id s).ct then loop baud1 (onEx id s).edge { onEx id s with edge := 0 }
      else loop baud1 6 (onEx id s) := rfl
    have t1 : (onEx id s).tr = true := by rw [o2.2.2.2.1, f4, hc.tr, htr]
    have t2 : (onEx id s).ct = false := by rw [o2.2.2.1, f3, hc.ct, hct]
    rw [e, e0, if_neg (by rw [t1]; simp), if_neg (by rw [t2]; simp)]
    have rr : val (onEx id s) = val s ∧ rcap (onEx id s) = rcap s ∧ tf2 (onEx id s) = tf2 s := by
      refine ⟨?_, ?_, ?_⟩
      · refine (congrArg Reg.val o1).trans ?_; split <;> rfl
      · refine (congrArg Reg.rc o1).trans ?_; split <;> rfl
      · refine (congrArg Reg.tf o1).trans ?_; split <;> rfl
    have := one 6 (onEx id s) (6 * n) ⟨rr.1.trans ih.1, o6.trans ih.2.1, rr.2.1.trans ih.2.2.1, rr.2.2.trans ih.2.2.2⟩
    rw [show 6 * (n + 1) = 6 * n + 6 by omega]
    exact this

/-! ### Cases -/

/-- Baud rate generator, RCAP2 = FFFC: 24 counts in 4 cycles, 6 overflows; T2EX falls, EXF2 is set. -/
def demoBaud : List Ev := [.wrRl 0xfc, .wrRh 0xff, .wrTl 0xfc, .wrTh 0xff, .wrCon 0x3c]

theorem demoBaud_ok : selBaud (run start demoBaud).con = true ∧ (run start demoBaud).con.getLsbD 2 = true ∧ (run start demoBaud).con.getLsbD 1 = false ∧
    upN 0xfffc 0xfffc (6 * 4) = (0xfffc, 6) ∧ (run start (demoBaud ++ List.replicate 4 .tick)).ovf = 6 ∧
    (∀ e ∈ [Ev.pins 0xfd, .wrP1 0xff], quiet e = true) ∧ t2exFalls (run start (demoBaud ++ [.tick])) [.pins 0xfd, .wrP1 0xff] = 1 ∧
    exf2 (tick (run (run start (demoBaud ++ [.tick])) [.pins 0xfd, .wrP1 0xff])) = true := by decide +kernel

/-- Auto-reload from FFF0: 20 cycles. -/
theorem demoReload_ok : selReload 0x04 = true ∧ (∀ e ∈ [Ev.wrTl 0xf8, .wrTh 0xff, .wrRl 0xf0, .wrRh 0xff, .tick], keeps e = true) ∧
    upN 0xfff0 0xfff9 20 = (0xfffd, 1) ∧
    val (run start ([.wrCon 0x04] ++ [Ev.wrTl 0xf8, .wrTh 0xff, .wrRl 0xf0, .wrRh 0xff, .tick] ++ List.replicate 20 .tick)) = 0xfffd ∧
    tf2 (run start ([.wrCon 0x04] ++ [Ev.wrTl 0xf8, .wrTh 0xff, .wrRl 0xf0, .wrRh 0xff, .tick] ++ List.replicate 20 .tick)) = true := by decide +kernel

/-- Down from 1000 with T2EX low; RCAP2 = 0FFE. -/
def demoDown : List Ev := [.wrCon 0x04, .wrMod 1, .wrRh 0x0f, .wrRl 0xfe, .pins 0xfd, .wrTh 0x10, .wrTl 0x01, .tick]

theorem demoDown_ok : val (run start demoDown) = 0x1000 ∧ level 1 (run start demoDown) = false ∧ val (run start (demoDown ++ [.tick, .tick])) = 0x0ffe ∧
    val (run start (demoDown ++ [.tick, .tick, .tick])) = 0xffff ∧ tf2 (run start (demoDown ++ [.tick, .tick])) = false ∧
    tf2 (run start (demoDown ++ [.tick, .tick, .tick])) = true ∧ selReload (run start [.wrCon 0x04]).con = true := by decide +kernel

/-! ### Where the code is not as the manual says -/

/-- A counter of events (C/T2 = 1) in the capture and reload modes counts machine cycles: no edge came at T2, but it counted five. -/
theorem c75_false_counter :
    cycle .reload true true false 0 false ⟨0, 0, false, false⟩ = ⟨0, 0, false, false⟩ ∧
    t2Falls (run start [.wrCon 0x06]) (List.replicate 5 .tick) = 0 ∧
    val (run start ([.wrCon 0x06] ++ List.replicate 5 .tick)) = 5 ∧ val (run start ([.wrCon 0x07] ++ List.replicate 5 .tick)) = 5 := by decide +kernel

/-- DCEN is set and T2EX is low, but a write of T2CON after that (here: TR2 is set) makes it count up. -/
theorem c75_false_dcen :
    cycle (.updown false) true false false 0 false ⟨0x1000, 0x0ffe, false, false⟩ = ⟨0x0fff, 0x0ffe, false, false⟩ ∧
    regs (run start [.wrMod 1, .pins 0xfd, .wrRh 0x0f, .wrRl 0xfe, .wrTh 0x10, .wrTl 0x00, .wrCon 0x04]) = ⟨0x1000, 0x0ffe, false, false⟩ ∧
    level 1 (run start [.wrMod 1, .pins 0xfd, .wrRh 0x0f, .wrRl 0xfe, .wrTh 0x10, .wrTl 0x00, .wrCon 0x04]) = false ∧
    val (run start [.wrMod 1, .pins 0xfd, .wrRh 0x0f, .wrRl 0xfe, .wrTh 0x10, .wrTl 0x00, .wrCon 0x04, .tick]) = 0x1001 := by decide +kernel

/-- The interrupt routine clears TF2 (bit 7 of T2CON): from then on it counts up. -/
theorem c75_false_clear_tf2 : val (run start (demoDown ++ [.tick, .tick, .tick, .wrBit 7 false, .wrTh 0x10, .wrTl 0x00, .tick])) = 0x1001 := by decide +kernel

/-- DCEN is cleared: it goes on counting down. -/
theorem c75_false_dcen_off : val (run start (demoDown ++ [.wrMod 0, .tick])) = 0x0fff := by decide +kernel

/-- When it overflows (DCEN set) EXF2 should change; P1.6 does. -/
theorem c75_false_exf2 :
    (cycle (.updown false) true false false 0 false ⟨0x0ffe, 0x0ffe, false, false⟩).exf = true ∧
    regs (run start (demoDown ++ [.tick, .tick])) = ⟨0x0ffe, 0x0ffe, false, false⟩ ∧
    exf2 (run start (demoDown ++ [.tick, .tick, .tick])) = false ∧
    (run start (demoDown ++ [.tick, .tick])).latch = 0xff ∧ (run start (demoDown ++ [.tick, .tick, .tick])).latch = 0xbf := by decide +kernel

/-- Down to RCAP2 = 0: TF2 is not set.  And below RCAP2 it does not count on to zero. -/
theorem c75_false_underflow :
    cycle (.updown false) true false false 0 false ⟨0, 0, false, false⟩ = ⟨65535, 0, true, true⟩ ∧
    (let t := run start [.wrCon 0x04, .wrMod 1, .pins 0xfd]
     regs t = ⟨0, 0, false, false⟩ ∧ regs (tick t) = ⟨65535, 0, false, false⟩) ∧
    cycle (.updown false) true false false 0 false ⟨5, 9, false, false⟩ = ⟨4, 9, false, false⟩ ∧
    (let t := run start [.wrCon 0x04, .wrMod 1, .pins 0xfd, .wrTl 5, .wrRl 9]
     regs t = ⟨5, 9, false, false⟩ ∧ (regs (tick t)).val = 65535) := by decide +kernel

/-! ### C76: the external input T2EX -/

/-- Capture: in a cycle with EXEN2 set RCAP2 gets the count, and EXF2 is set, if T2EX has fallen since the last cycle; otherwise
they do not change. -/
theorem c76_capture (h es : List Ev) (q : ∀ e ∈ es, quiet e = true) :
    let p := run start (h ++ [.tick])
    let t := run p es
    selCapture t.con = true → t.con.getLsbD 3 = true →
    (t2exFalls p es ≠ 0 → rcap (tick t) = val t ∧ exf2 (tick t) = true) ∧ (t2exFalls p es = 0 → rcap (tick t) = rcap t ∧ exf2 (tick t) = exf2 t) := by
  intro p t hs hx
  obtain ⟨hc, _, e2⟩ := pend h es q
  have hm := (sel t hc).2.1.1 hs
  have e : tick t = capture t := by unfold tick; rw [hm]
  have x : t.exEdge = t2exFalls p es := e2 (by show t.mode ≠ _; rw [hm]; decide) (hc.exen.trans hx)
  have r := (capture_ok t).1
  rw [← e, hc.exen, hx, x] at r
  have cnt : ∀ (b : Bool) (r : Reg), (if b then counts .capture 1 r else r).rc = r.rc ∧ (if b then counts .capture 1 r else r).exf = r.exf := by
    intro b r; cases b
    · exact ⟨rfl, rfl⟩
    · simp only [if_true, counts, count]; split <;> exact ⟨rfl, rfl⟩
  have g : ∀ f : Bool, (cycle .capture t.tr false true t.edge f (regs t)).rc = (if f then val t else rcap t) ∧
      (cycle .capture t.tr false true t.edge f (regs t)).exf = (f || exf2 t) := by
    intro f
    have := cnt t.tr (if f then external .capture (regs t) else regs t)
    have cy : cycle .capture t.tr false true t.edge f (regs t) = if t.tr then counts .capture 1 (if f then external .capture (regs t) else regs t) else
        (if f then external .capture (regs t) else regs t) := rfl
    rw [cy, this.1, this.2]; cases f <;> exact ⟨rfl, rfl⟩
  obtain ⟨g1, g2⟩ := g (decide (t2exFalls p es ≠ 0))
  have r1 := congrArg Reg.rc r
  have r2 := congrArg Reg.exf r
  constructor
  · intro k
    rw [g1, if_pos (by simpa using k)] at r1
    rw [g2, decide_eq_true k] at r2
    exact ⟨r1, r2⟩
  · intro k
    rw [g1, if_neg (by simpa using k)] at r1
    rw [g2, decide_eq_false (by simpa using k)] at r2
    exact ⟨r1, r2⟩

/-- Auto-reload (timer stopped, to see only this): the counter is reloaded if T2EX has fallen, otherwise it does not change. -/
theorem c76_reload_partial (h0 h1 es : List Ev) (n : Byte) (hn : selReload n = true) (htr : n.getLsbD 2 = false) (hx : n.getLsbD 3 = true)
    (hct : n.getLsbD 1 = false) (k1 : ∀ e ∈ h1, keeps e = true) (q : ∀ e ∈ es, quiet e = true) :
    let p := run start (h0 ++ .wrCon n :: h1 ++ [.tick])
    let t := run p es
    (t2exFalls p es ≠ 0 → val (tick t) = rcap t ∧ exf2 (tick t) = true) ∧
    (t2exFalls p es = 0 → val (tick t) = val t ∧ exf2 (tick t) = exf2 t) := by
  intro p t
  have r := c75_reload_partial h0 h1 es n hn hct k1 q
  change regs (tick t) = cycle .reload _ _ _ (t2Falls p es) (decide (t2exFalls p es ≠ 0)) (regs t) at r
  rw [htr, hct, hx] at r
  constructor
  · intro k
    rw [decide_eq_true k] at r
    exact ⟨congrArg Reg.val r, congrArg Reg.exf r⟩
  · intro k
    rw [decide_eq_false (by simpa using k)] at r
    exact ⟨congrArg Reg.val r, congrArg Reg.exf r⟩

theorem up_keeps (x : Bool × T2) : rcap (down1up x).2 = rcap x.2 ∧ exf2 (down1up x).2 = exf2 x.2 := by
  obtain ⟨a, _, _⟩ := rel1_ok x.2
  have e : (down1up x).2 = rel1 x.2 := by
    unfold down1up rel1; dsimp only; split <;> rfl
  have c : (count .reload (regs x.2)).rc = rcap x.2 ∧ (count .reload (regs x.2)).exf = exf2 x.2 := by
    simp only [count]; split <;> exact ⟨rfl, rfl⟩
  rw [e]
  exact ⟨(congrArg Reg.rc a).trans c.1, (congrArg Reg.exf a).trans c.2⟩

theorem dn_keeps (x : Bool × T2) : rcap (down1 x).2 = rcap x.2 ∧ exf2 (down1 x).2 = exf2 x.2 := by
  have key : ∃ l h : Byte, down1 x = if h.toNat * 256 + l.toNat < x.2.rh.toNat * 256 + x.2.rl.toNat then
        (true, { x.2 with con := x.2.con ||| 0x80#8, th := 0xff#8, tl := 0xff#8 }) else (x.1, { x.2 with tl := l, th := h }) :=
    ⟨x.2.tl - 1#8, if x.2.tl - 1#8 = 0xff#8 then x.2.th - 1#8 else x.2.th, rfl⟩
  obtain ⟨l, h, e⟩ := key
  rw [e]
  by_cases k : h.toNat * 256 + l.toNat < x.2.rh.toNat * 256 + x.2.rl.toNat
  · rw [if_pos k]; exact ⟨rfl, (flags x.2.con).2.1⟩
  · rw [if_neg k]; exact ⟨rfl, rfl⟩

theorem loop_keeps (u : Bool) (n : Nat) : ∀ x : Bool × T2, rcap (loop2 (if u then down1up else down1) n x).2 = rcap x.2 ∧
    exf2 (loop2 (if u then down1up else down1) n x).2 = exf2 x.2 := by
  induction n with
  | zero => exact fun x => ⟨rfl, rfl⟩
  | succ n ih =>
    intro x
    have one : rcap ((if u then down1up else down1) x).2 = rcap x.2 ∧ exf2 ((if u then down1up else down1) x).2 = exf2 x.2 := by
      cases u
      · exact dn_keeps x
      · exact up_keeps x
    have := ih ((if u then down1up else down1) x)
    exact ⟨this.1.trans one.1, this.2.trans one.2⟩

theorem down_keeps (t : T2) : rcap (downUp t) = rcap t ∧ exf2 (downUp t) = exf2 t := by
  have e0 : downUp t = if t.tr = false then t else
    (let r := loop2 (if (drop t).ex then down1up else down1) (if t.ct then t.edge else 1) (false, drop t)
     if r.1 then { r.2 with latch := r.2.latch ^^^ 0x40#8 } else r.2) := rfl
  rw [e0]
  cases htr : t.tr
  · rw [if_pos rfl]; exact ⟨rfl, rfl⟩
  · rw [if_neg (by simp)]
    have d := (drop_ok t).1
    have a := loop_keeps (drop t).ex (if t.ct then t.edge else 1) (false, drop t)
    have b : rcap (drop t) = rcap t ∧ exf2 (drop t) = exf2 t := ⟨congrArg Reg.rc d, congrArg Reg.exf d⟩
    have a : _ ∧ _ := ⟨a.1.trans b.1, a.2.trans b.2⟩
    generalize loop2 (if (drop t).ex then down1up else down1) (if t.ct then t.edge else 1) (false, drop t) = r at a ⊢
    dsimp only
    split <;> exact a

/-- With EXEN2 clear no machine cycle changes RCAP2 or EXF2, in any state. -/
theorem c76_disabled (h : List Ev) :
    let t := run start h
    t.con.getLsbD 3 = false → rcap (tick t) = rcap t ∧ exf2 (tick t) = exf2 t := by
  intro t hx
  have hc : Coh t := coh_run h _ coh_start
  have rc : ∀ (m : Mode), (∀ u, m ≠ .updown u) → ∀ (n : Nat) (r : Reg), (counts m n r).rc = r.rc ∧ (counts m n r).exf = r.exf := by
    intro m hm n
    induction n with
    | zero => exact fun r => ⟨rfl, rfl⟩
    | succ n ih =>
      intro r
      have one : (count m r).rc = r.rc ∧ (count m r).exf = r.exf := by
        cases m with
        | updown u => exact absurd rfl (hm u)
        | _ => simp only [count]; split <;> exact ⟨rfl, rfl⟩
      have := ih (count m r)
      exact ⟨this.1.trans one.1, this.2.trans one.2⟩
  have cy : ∀ (m : Mode), (∀ u, m ≠ .updown u) → ∀ (tr ct : Bool) (e : Nat) (f : Bool) (r : Reg),
      (cycle m tr ct false e f r).rc = r.rc ∧ (cycle m tr ct false e f r).exf = r.exf := by
    intro m hm tr ct e f r
    cases tr
    · exact ⟨rfl, rfl⟩
    · exact rc m hm _ r
  have ex : t.exen = false := hc.exen.trans hx
  unfold tick
  cases hm : t.mode
  · have r := (reloadUp_ok t).1
    rw [ex] at r
    have := cy .reload (fun u h => by cases h) t.tr false t.edge (decide (t.exEdge ≠ 0)) (regs t)
    exact ⟨(congrArg Reg.rc r).trans this.1, (congrArg Reg.exf r).trans this.2⟩
  · have r := (capture_ok t).1
    rw [ex] at r
    have := cy .capture (fun u h => by cases h) t.tr false t.edge (decide (t.exEdge ≠ 0)) (regs t)
    exact ⟨(congrArg Reg.rc r).trans this.1, (congrArg Reg.exf r).trans this.2⟩
  · have r := (baud_ok t).1.regs
    rw [ex] at r
    have := cy .baud (fun u h => by cases h) t.tr t.ct t.edge (decide (t.exEdge ≠ 0)) (regs t)
    exact ⟨(congrArg Reg.rc r).trans this.1, (congrArg Reg.exf r).trans this.2⟩
  · exact down_keeps t
/-- T2EX falls: the count 5 is captured. -/
theorem demoCapture_ok :
    let p := run start ([.wrCon 0x0d] ++ List.replicate 4 .tick ++ [.tick])
    let t := run p [.pins 0xfd, .pins 0xff]
    selCapture t.con = true ∧ t.con.getLsbD 3 = true ∧ t2exFalls p [.pins 0xfd, .pins 0xff] = 1 ∧ val t = 5 ∧ rcap (tick t) = 5 ∧ exf2 (tick t) = true := by
  decide +kernel

theorem demoReloadEx_ok :
    let p := run start ([] ++ .wrCon 0x08 :: [.wrRl 7] ++ [.tick])
    let t := run p [.pins 0xfd, .pins 0xff]
    selReload 0x08 = true ∧ t2exFalls p [.pins 0xfd, .pins 0xff] = 1 ∧ val (tick t) = 7 := by
  decide +kernel

/-- An edge that came while EXEN2 was clear is not forgotten: many cycles later EXEN2 is set and the count is captured, though T2EX did
not fall again. -/
theorem c76_false_old_edge :
    let h := [Ev.wrCon 0x05, .pins 0xfd, .pins 0xff] ++ List.replicate 100 .tick ++ [.wrBit 3 true]
    t2exFalls (run start [.wrCon 0x05, .pins 0xfd, .pins 0xff]) (List.replicate 100 .tick ++ [.wrBit 3 true, .tick]) = 0 ∧
    rcap (run start h) = 0 ∧ rcap (run start (h ++ [.tick])) = 100 ∧ exf2 (run start (h ++ [.tick])) = true := by decide +kernel

/-! ### Reset (C58) -/

/-- A reset in any state: T2CON, the count and RCAP2 are zero, P1 is FF; the timer stands still and T2EX does nothing until T2CON or the count is
written. -/
theorem c58_timer2 (h es : List Ev) (he : ∀ e ∈ es, e = .tick ∨ (∃ v, e = .wrP1 v) ∨ ∃ v, e = .pins v) :
    let t := run start (h ++ [.reset])
    t.con = 0 ∧ t.latch = 0xff ∧ regs (run t es) = ⟨0, 0, false, false⟩ ∧ (run t es).con = 0 := by
  intro t
  have et : t = reset (run start h) := run_append start h [.reset]
  have z : ∀ s, (reset s).con = 0 ∧ (reset s).latch = 0xff ∧ regs (reset s) = ⟨0, 0, false, false⟩ := by
    intro s
    have l : (wrP1 0xff { s with latch := 0, con := 0 }).latch = 0xff := by
      unfold wrP1; rw [if_neg (by show (0 : Byte) ≠ 0xff; decide)]
    have c : ∀ u, (wrCon 0 u).con = 0 ∧ (wrCon 0 u).latch = u.latch := by
      intro u; unfold wrCon
      exact ⟨(restart_keeps _ _ _).1, restart_latch _ _ _⟩
    obtain ⟨c1, c2⟩ := c (wrP1 0xff { s with latch := 0, con := 0 })
    have rc : (reset s).con = 0 := c1
    refine ⟨rc, c2.trans l, ?_⟩
    have vz : ∀ u : T2, val { u with th := 0, tl := 0, rl := 0, rh := 0 } = 0 ∧ rcap { u with th := 0, tl := 0, rl := 0, rh := 0 } = 0 := by
      intro u
      constructor <;> (show (0 : Byte).toNat * 256 + (0 : Byte).toNat = 0; decide)
    have v : val (reset s) = 0 ∧ rcap (reset s) = 0 := vz _
    unfold regs tf2 exf2
    rw [v.1, v.2, rc]; decide
  have stay : ∀ (es : List Ev) (s : T2), Coh s → s.con = 0 → (∀ e ∈ es, e = .tick ∨ (∃ v, e = .wrP1 v) ∨ ∃ v, e = .pins v) →
      regs (run s es) = regs s ∧ (run s es).con = 0 := by
    intro es
    induction es with
    | nil => exact fun s _ k _ => ⟨rfl, k⟩
    | cons e es ih =>
      intro s hc hz hs
      have one : regs (ev s e) = regs s ∧ (ev s e).con = 0 := by
        rcases hs e List.mem_cons_self with rfl | ⟨v, rfl⟩ | ⟨v, rfl⟩
        · have tr : s.tr = false := by rw [hc.tr, hz]; rfl
          have ex : s.exen = false := by rw [hc.exen, hz]; rfl
          have oe : ∀ f, onEx f s = s := fun f => if_neg (by rw [ex]; simp)
          have : tick s = s := by
            unfold tick
            cases s.mode
            · show reloadUp s = s; unfold reloadUp; rw [oe]; exact if_pos tr
            · show capture s = s; unfold capture; rw [oe]; exact if_pos tr
            · show baud s = s; unfold baud; rw [oe]; exact if_pos tr
            · show downUp s = s; unfold downUp; exact if_pos tr
          show regs (tick s) = _ ∧ (tick s).con = 0
          rw [this]; exact ⟨rfl, hz⟩
        · show regs (wrP1 v s) = _ ∧ (wrP1 v s).con = 0
          unfold wrP1; split
          · exact ⟨rfl, hz⟩
          · exact ⟨rfl, hz⟩
        · show regs (setPins v s) = _ ∧ (setPins v s).con = 0
          unfold setPins; split
          · exact ⟨rfl, hz⟩
          · exact ⟨rfl, hz⟩
      obtain ⟨a, b⟩ := ih (ev s e) (coh_ev s e hc) one.2 (fun x hx => hs x (List.mem_cons_of_mem _ hx))
      exact ⟨a.trans one.1, b⟩
  rw [et]
  obtain ⟨z1, z2, z3⟩ := z (run start h)
  obtain ⟨s1, s2⟩ := stay es _ (coh_reset _) z1 he
  exact ⟨z1, z2, s1.trans z3, s2⟩

/-- Running in up/down mode, then a reset. -/
theorem demoReset2_ok : val (run start demoDown) = 0x1000 ∧ regs (run start (demoDown ++ [.reset, .pins 0xff, .tick, .pins 0xfd, .tick])) = ⟨0, 0, false, false⟩ := by
  decide +kernel

end Ucsim.S51.Tim2
