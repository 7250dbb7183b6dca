import Verif.Proof.Serial

namespace Ucsim.S51.Uart
open Spec List

theorem run_append (s : Ser) (p q : List Ev) : run s (p ++ q) = run (run s p) q := List.foldl_append

/-- The bytes written to SBUF. -/
def writes (h : List Ev) : List Byte := h.filterMap fun e => match e with | .wrSbuf v => some v | _ => none

def isWrite : Ev → Bool
  | .wrSbuf _ => true
  | _ => false

/-- The byte in the transmitter. -/
def pend (s : Ser) : List Byte := if s.sending then [s.sOut] else []

def ti (s : Ser) : Bool := s.scon.getLsbD 1

/-- Sending or not, an event other than a machine cycle, a write and a reset leaves the transmitter alone. -/
theorem tx_other (s : Ser) (e : Ev) (h : isWrite e = false) (ht : e ≠ .tick) (hr : e ≠ .reset) : tx (ev s e) = tx s := by
  cases e with
  | wrSbuf v => cases h
  | tick => exact absurd rfl ht
  | reset => exact absurd rfl hr
  | poll => exact tx_poll s
  | key c => exact tx_key c s
  | t2con v => show tx (t2con v s) = _; unfold t2con; cases s.t2baud <;> rfl
  | wrScon v => rfl
  | wrBit i b => rfl
  | wrPcon v => rfl
  | rdSbuf => rfl
  | ovf1 => rfl
  | ovf2 => rfl

theorem tx_reset (s : Ser) : tx (reset s) = (s.out, false, 0) := by
  have k : ∀ t, tx (t2con 0 t) = tx t := fun t => by unfold t2con; cases t.t2baud <;> rfl
  unfold reset; rw [k]; rfl

theorem pend_tx (s t : Ser) (h : tx s = tx t) : s.out = t.out ∧ pend s = pend t ∧ s.sending = t.sending := by
  simp only [tx, Prod.mk.injEq] at h
  exact ⟨h.1, by simp only [pend, h.2.1, h.2.2], h.2.1⟩

theorem ev_out (s : Ser) (e : Ev) : (ev s e).out ++ pend (ev s e) <+ s.out ++ pend s ++ writes [e] := by
  by_cases hw : isWrite e = true
  · cases e with
    | wrSbuf v =>
      show s.out ++ [v] <+ s.out ++ pend s ++ [v]
      exact (List.sublist_append_left _ _).append (List.Sublist.refl _)
    | _ => cases hw
  · simp only [Bool.not_eq_true] at hw
    have e0 : writes [e] = [] := by cases e <;> first | rfl | cases hw
    rw [e0, List.append_nil]
    by_cases ht : e = .tick
    · subst ht
      rcases tick_tx s with ⟨h, _⟩ | ⟨hs, h, _⟩
      · obtain ⟨a, b, _⟩ := pend_tx _ _ h
        show (tick s).out ++ pend (tick s) <+ _
        rw [a, b]; exact List.Sublist.refl _
      · simp only [tx, Prod.mk.injEq] at h
        show (tick s).out ++ pend (tick s) <+ _
        simp only [pend, h.1, h.2.1, hs, if_true, Bool.false_eq_true, if_false, List.append_nil]
        exact List.Sublist.refl _
    · by_cases hr : e = .reset
      · subst hr
        have h := tx_reset s
        simp only [tx, Prod.mk.injEq] at h
        show (reset s).out ++ pend (reset s) <+ _
        simp only [pend, h.1, h.2.1, Bool.false_eq_true, if_false, List.append_nil]
        exact List.sublist_append_left _ _
      · obtain ⟨a, b, _⟩ := pend_tx _ _ (tx_other s e hw ht hr)
        rw [a, b]; exact List.Sublist.refl _

theorem writes_cons (e : Ev) (h : List Ev) : writes (e :: h) = writes [e] ++ writes h := by
  have : e :: h = [e] ++ h := rfl
  rw [this]; exact List.filterMap_append

theorem run_out (h : List Ev) : ∀ (s : Ser), (run s h).out ++ pend (run s h) <+ s.out ++ pend s ++ writes h := by
  induction h with
  | nil => intro s; rw [show writes [] = [] from rfl, List.append_nil]; exact List.Sublist.refl _
  | cons e h ih =>
    intro s
    have a := ih (ev s e)
    have b := (ev_out s e).append (List.Sublist.refl (writes h))
    rw [writes_cons, ← List.append_assoc]
    exact a.trans b

/-- SBUF is written only when nothing is being sent. -/
def Polite (s : Ser) (h : List Ev) : Prop := ∀ p v q, h = p ++ .wrSbuf v :: q → (run s p).sending = false

theorem polite_cons (s : Ser) (e : Ev) (h : List Ev) (k : Polite s (e :: h)) : Polite (ev s e) h := by
  intro p v q hq
  exact k (e :: p) v q (by rw [hq]; rfl)

theorem run_out_eq (h : List Ev) : ∀ (s : Ser), Polite s h → (∀ e ∈ h, e ≠ .reset) →
    (run s h).out ++ pend (run s h) = s.out ++ pend s ++ writes h := by
  induction h with
  | nil => intro s _ _; rw [show writes [] = [] from rfl, List.append_nil]; rfl
  | cons e h ih =>
    intro s hp hr
    have a := ih (ev s e) (polite_cons s e h hp) (fun e' m => hr e' (List.mem_cons_of_mem _ m))
    rw [writes_cons, ← List.append_assoc]
    refine a.trans (congrArg (· ++ writes h) ?_)
    by_cases hw : isWrite e = true
    · cases e with
      | wrSbuf v =>
        have := hp [] v h rfl
        show s.out ++ [v] = s.out ++ pend s ++ [v]
        have hs : s.sending = false := this
        simp [pend, hs]
      | _ => cases hw
    · simp only [Bool.not_eq_true] at hw
      have e0 : writes [e] = [] := by cases e <;> first | rfl | cases hw
      rw [e0, List.append_nil]
      by_cases ht : e = .tick
      · subst ht
        rcases tick_tx s with ⟨h, _⟩ | ⟨hs, h, _⟩
        · obtain ⟨a, b, _⟩ := pend_tx _ _ h
          show (tick s).out ++ pend (tick s) = _
          rw [a, b]
        · simp only [tx, Prod.mk.injEq] at h
          show (tick s).out ++ pend (tick s) = _
          simp only [pend, h.1, h.2.1, hs, if_true, Bool.false_eq_true, if_false, List.append_nil]
      · obtain ⟨a, b, _⟩ := pend_tx _ _ (tx_other s e hw ht (hr e (List.mem_cons_self ..)))
        rw [a, b]

/-! ### TI -/

/-- The program does not set TI itself. -/
def honestTI (s : Ser) : List Ev → Bool
  | [] => true
  | e :: h => (e == .tick || ti s || !ti (ev s e)) && honestTI (ev s e) h

/-- What the program knows of the transmitter: it may be written; SBUF was written; and since then TI was clear. -/
inductive Seen
  | free | wrote | clear
  deriving DecidableEq

/-- The program looks at TI. -/
def look (t : Bool) : Seen → Seen
  | .free => .free
  | .wrote => if t then .wrote else .clear
  | .clear => if t then .free else .clear

/-- Between two writes of SBUF TI is clear and then set. -/
def waits (k : Seen) (s : Ser) : List Ev → Bool
  | [] => true
  | .wrSbuf v :: h => look (ti s) k == .free && waits .wrote (ev s (.wrSbuf v)) h
  | e :: h => waits (look (ti s) k) (ev s e) h

def Knows (k : Seen) (s : Ser) : Prop :=
  match k with
  | .free => s.sending = false
  | .wrote => True
  | .clear => s.sending = true → ti s = false

theorem knows_look (k : Seen) (s : Ser) (h : Knows k s) : Knows (look (ti s) k) s := by
  cases k with
  | free => exact h
  | wrote =>
    cases ht : ti s
    · exact fun _ => ht
    · exact trivial
  | clear =>
    cases ht : ti s
    · exact h
    · show s.sending = false
      cases hs : s.sending with
      | false => rfl
      | true => have := h hs; rw [ht] at this; cases this

theorem knows_ev (k : Seen) (s : Ser) (e : Ev) (hw : isWrite e = false) (hr : e ≠ .reset)
    (hh : (e == .tick || ti s || !ti (ev s e)) = true) (h : Knows k s) : Knows k (ev s e) := by
  have st : (ev s e).sending = true → s.sending = true ∧ (e = .tick → ti (ev s e) = ti s) := by
    intro a
    by_cases ht : e = .tick
    · subst ht
      rcases tick_tx s with ⟨h, t⟩ | ⟨hs, h, _⟩
      · exact ⟨by rw [← (pend_tx _ _ h).2.2]; exact a, fun _ => t⟩
      · simp only [tx, Prod.mk.injEq] at h
        have a' : (tick s).sending = true := a
        rw [h.2.1] at a'; cases a'
    · exact ⟨by rw [← (pend_tx _ _ (tx_other s e hw ht hr)).2.2]; exact a, fun k => absurd k ht⟩
  cases k with
  | free =>
    show (ev s e).sending = false
    cases hs : (ev s e).sending with
    | false => rfl
    | true => have := (st hs).1; rw [show s.sending = false from h] at this; cases this
  | wrote => trivial
  | clear =>
    intro hs
    have a := h (st hs).1
    by_cases ht : e = .tick
    · exact ((st hs).2 ht).trans a
    · have : (e == Ev.tick) = false := by simpa using ht
      rw [this, a] at hh
      simpa using hh

theorem waits_polite (h : List Ev) : ∀ (k : Seen) (s : Ser), Knows k s → (∀ e ∈ h, e ≠ .reset) → honestTI s h = true → waits k s h = true →
    Polite s h := by
  induction h with
  | nil => intro k s _ _ _ _ p v q e; simp at e
  | cons e h ih =>
    intro k s hk hr hh hw p v q he
    have hr' : ∀ e ∈ h, e ≠ .reset := fun e' m => hr e' (List.mem_cons_of_mem _ m)
    simp only [honestTI, Bool.and_eq_true] at hh
    have kl := knows_look k s hk
    have nx : Polite (ev s e) h ∧ (isWrite e = true → s.sending = false) := by
      by_cases hwe : isWrite e = true
      · cases e with
        | wrSbuf x =>
          simp only [waits, Bool.and_eq_true, beq_iff_eq] at hw
          rw [hw.1] at kl
          exact ⟨ih .wrote _ trivial hr' hh.2 hw.2, fun _ => kl⟩
        | _ => cases hwe
      · simp only [Bool.not_eq_true] at hwe
        have hw' : waits (look (ti s) k) (ev s e) h = true := by
          cases e <;> first | exact hw | cases hwe
        exact ⟨ih _ _ (knows_ev _ s e hwe (hr e (List.mem_cons_self ..)) hh.1 kl) hr' hh.2 hw', fun k => by rw [hwe] at k; cases k⟩
    cases p with
    | nil =>
      simp only [List.nil_append, List.cons.injEq] at he
      exact nx.2 (by rw [he.1]; rfl)
    | cons x p =>
      simp only [List.cons_append, List.cons.injEq] at he
      obtain ⟨rfl, he⟩ := he
      exact nx.1 p v q he

end Ucsim.S51.Uart
