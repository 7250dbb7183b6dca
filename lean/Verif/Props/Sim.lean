import Verif.Core.Sim

/-! # C31: stepping -/
namespace Ucsim.Props
open Ucsim
open Ucsim.Spec

variable {S : Type}

/-- The time limit does not interfere: there is none, or it is not reached. -/
def noTime (c : Cpu S) (t : Option Nat) (u : S) : Prop := ∀ r, t = some r → r = 0 ∨ c.now u < r

theorem not_reached {c : Cpu S} {s : SimSt S} (h : noTime c s.timeStop s.uc) : timeReached c s = false := by
  unfold timeReached
  cases ht : s.timeStop with
  | none => rfl
  | some t =>
    rcases h t ht with h | h
    · simp [h]
    · simp only [ne_eq, Bool.and_eq_false_imp, decide_eq_true_eq, decide_eq_false_iff_not]
      intro _; omega

/-- The k first instructions leave the simulator running. -/
theorem quiet_prefix (c : Cpu S) (f k : Nat) (s0 : SimSt S) (hgo : s0.go = true) (hd : s0.done = 0) (ht : k < s0.todo ∨ s0.todo = 0)
    (hq : ∀ j, j < k → c.quiet s0.uc j) (hn : ∀ j, j < k → noTime c s0.timeStop (c.after (j + 1) s0.uc)) :
    SimSt.loop c (f + k) s0 = ((SimSt.loop c f { s0 with uc := c.after k s0.uc, done := k }).1,
      (SimSt.loop c f { s0 with uc := c.after k s0.uc, done := k }).2 + k) := by
  induction k generalizing f with
  | zero =>
    have : ({ s0 with uc := c.after 0 s0.uc, done := 0 } : SimSt S) = s0 := by
      cases s0; cases hd; rfl
    rw [this]; rfl
  | succ k ih =>
    have h1 := ih (f := f + 1) (by omega) (fun j hj => hq j (by omega)) (fun j hj => hn j (by omega))
    rw [show f + (k + 1) = f + 1 + k by omega, h1]
    have hl : SimSt.loop c (f + 1) { s0 with uc := c.after k s0.uc, done := k } =
        ((SimSt.loop c f { s0 with uc := c.after (k + 1) s0.uc, done := k + 1 }).1,
          (SimSt.loop c f { s0 with uc := c.after (k + 1) s0.uc, done := k + 1 }).2 + 1) := by
      obtain ⟨q1, q2⟩ := hq k (by omega)
      have hst : SimSt.step c { s0 with uc := c.after k s0.uc, done := k } =
          { s0 with uc := c.after (k + 1) s0.uc, done := k + 1 } := by
        have hfl : (!(s0.go && decide (k > 0))) = decide (k = 0) := by
          rw [hgo]; rcases Nat.eq_zero_or_pos k with h | h
          · subst h; rfl
          · have : ¬ k = 0 := by omega
            simp [h, this]
        unfold SimSt.step
        simp only [hfl]
        have e1 : (c.inst (decide (k = 0)) (c.after k s0.uc)).2.1 = [] := q1
        have e2 : ¬ (c.inst (decide (k = 0)) (c.after k s0.uc)).2.2 ≥ 100 := by
          have := q2
          unfold Cpu.reports at this
          omega
        rw [e1]
        have g1 : ∀ x : SimSt S, x.checkRes c (c.inst (decide (k = 0)) (c.after k s0.uc)).2.2 = x := fun x => if_neg e2
        rw [g1]
        have g2 : SimSt.checkCount c { s0 with uc := c.after (k + 1) s0.uc, done := k + 1 } = { s0 with uc := c.after (k + 1) s0.uc, done := k + 1 } :=
          if_neg (by show ¬ (s0.todo > 0 ∧ k + 1 ≥ s0.todo); omega)
        have g3 : SimSt.checkTime c { s0 with uc := c.after (k + 1) s0.uc, done := k + 1 } = { s0 with uc := c.after (k + 1) s0.uc, done := k + 1 } :=
          if_neg (by rw [not_reached (c := c) (s := { s0 with uc := c.after (k + 1) s0.uc, done := k + 1 }) (hn k (by omega))]; decide)
        show SimSt.checkTime c (SimSt.checkCount c { s0 with uc := c.after (k + 1) s0.uc, done := k + 1 }) = _
        rw [g2, g3]
      rw [SimSt.loop]
      rw [if_pos (show ({ s0 with uc := c.after k s0.uc, done := k } : SimSt S).go = true from hgo), hst]
    rw [hl]
    simp only [Prod.mk.injEq, true_and]
    omega

theorem loop_stopped (c : Cpu S) (f : Nat) (s : SimSt S) (h : s.go = false) : SimSt.loop c f s = (s, 0) := by
  cases f with
  | zero => rfl
  | succ f => rw [SimSt.loop, h]; rfl

theorem stop_go (c : Cpu S) (s : SimSt S) (r : Int) : (s.stop c r).go = false := by
  unfold SimSt.stop
  dsimp only
  split <;> split <;> (try split) <;> rfl

theorem stop_frozen (c : Cpu S) (s : SimSt S) (r : Int) : (s.stop c r).frozen = false := by
  unfold SimSt.stop
  dsimp only
  split <;> split <;> rename_i h <;> (try split) <;> first | rfl | (simpa using h)

theorem stop_msgs (c : Cpu S) (s : SimSt S) (r : Int) : (s.stop c r).msgs = if s.frozen then r :: s.msgs else s.msgs := by
  unfold SimSt.stop
  dsimp only
  cases hf : s.frozen <;> split <;> simp only [hf, if_true, Bool.false_eq_true, if_false] <;> (try split) <;> rfl

theorem stop_time (c : Cpu S) (s : SimSt S) (r : Int) : (s.stop c r).timeStop = s.timeStop := by
  unfold SimSt.stop
  dsimp only
  split <;> split <;> (try split) <;> rfl

/-- Stop effects only: stopped, one message. -/
theorem effects_stops (c : Cpu S) (es : List SimEff) (h : ∀ e ∈ es, ∃ q, e = SimEff.stop q) (s : SimSt S) (hg : s.go = false) (hf : s.frozen = false) :
    (SimSt.effects c es s).go = false ∧ (SimSt.effects c es s).frozen = false ∧ (SimSt.effects c es s).msgs = s.msgs := by
  induction es generalizing s with
  | nil => exact ⟨hg, hf, rfl⟩
  | cons e es ih =>
    obtain ⟨q, rfl⟩ := h e (by simp)
    obtain ⟨a, b, d⟩ := ih (fun e he => h e (by simp [he])) (s.stop c q) (stop_go c s q) (stop_frozen c s q)
    refine ⟨a, b, d.trans ?_⟩
    rw [stop_msgs, hf]; rfl

/-- After the first stop the rest of cl_sim::step changes neither the stop nor what was printed. -/
theorem tail_stopped (c : Cpu S) (s : SimSt S) (res : Int) (hg : s.go = false) (hf : s.frozen = false) :
    (((s.checkRes c res).checkCount c).checkTime c).go = false ∧ (((s.checkRes c res).checkCount c).checkTime c).msgs = s.msgs := by
  have h1 : (s.checkRes c res).go = false ∧ (s.checkRes c res).frozen = false ∧ (s.checkRes c res).msgs = s.msgs := by
    unfold SimSt.checkRes; split
    · exact ⟨stop_go c s _, stop_frozen c s _, by rw [stop_msgs, hf]; rfl⟩
    · exact ⟨hg, hf, rfl⟩
  have h2 : ∀ s1 : SimSt S, s1.go = false → s1.frozen = false →
      (s1.checkCount c).go = false ∧ (s1.checkCount c).frozen = false ∧ (s1.checkCount c).msgs = s1.msgs := by
    intro s1 hg hf
    unfold SimSt.checkCount; split
    · exact ⟨stop_go c s1 _, stop_frozen c s1 _, by rw [stop_msgs, hf]; rfl⟩
    · exact ⟨hg, hf, rfl⟩
  have h3 : ∀ s2 : SimSt S, s2.go = false → s2.frozen = false → (s2.checkTime c).go = false ∧ (s2.checkTime c).msgs = s2.msgs := by
    intro s2 hg hf
    unfold SimSt.checkTime; split
    · refine ⟨stop_go c _ _, ?_⟩
      rw [stop_msgs]
      simp only [hf]
      rfl
    · exact ⟨hg, rfl⟩
  obtain ⟨a1, b1, d1⟩ := h1
  obtain ⟨a2, b2, d2⟩ := h2 _ a1 b1
  obtain ⟨a3, d3⟩ := h3 _ a2 b2
  exact ⟨a3, d3.trans (d2.trans d1)⟩

/-- `step n` from a stopped simulator (n ≥ 1): if none of the first n
instructions stops the simulator and no time limit is reached meanwhile, then
exactly n instructions are executed, the simulator stops and reports the
reason "step" (109). -/
theorem c31_step_partial (c : Cpu S) (s : SimSt S) (n : Nat) (hn : 1 ≤ n)
    (hq : ∀ j, j < n → c.quiet s.uc j) (ht : ∀ j, j < n → noTime c s.timeStop (c.after (j + 1) s.uc)) (fuel : Nat) (hf : n ≤ fuel) :
    ∃ s', SimSt.loop c fuel (s.stepCmd n) = (s', n) ∧ s'.go = false ∧ s'.uc = c.after n s.uc ∧ s'.msgs = 109 :: s.msgs ∧
      s'.timeStop = s.timeStop := by
  obtain ⟨k, rfl⟩ : ∃ k, n = k + 1 := ⟨n - 1, by omega⟩
  obtain ⟨f, rfl⟩ : ∃ f, fuel = f + 1 + k := ⟨fuel - 1 - k, by omega⟩
  have hs0 : s.stepCmd ((k + 1 : Nat) : Int) = { s with go := true, frozen := true, done := 0, todo := k + 1 } := by
    unfold SimSt.stepCmd SimSt.start
    have e : (if (((k + 1 : Nat) : Int)) ≤ 0 then 1 else (((k + 1 : Nat) : Int)).toNat) = k + 1 := by
      rw [if_neg (by omega)]; omega
    rw [e, if_neg (by intro h; exact absurd h.1 (by omega)), Bool.or_true]
  rw [hs0]
  rw [quiet_prefix c (f + 1) k { s with go := true, frozen := true, done := 0, todo := k + 1 } rfl rfl (Or.inl (Nat.lt_succ_self k))
    (fun j hj => hq j (by omega)) (fun j hj => ht j (by omega))]
  obtain ⟨q1, q2⟩ := hq k (by omega)
  have hst : SimSt.step c { s with go := true, frozen := true, done := k, todo := k + 1, uc := c.after k s.uc } =
      { s with go := false, frozen := false, done := k + 1, todo := k + 1, uc := c.after (k + 1) s.uc, msgs := 109 :: s.msgs, simif := some 109 } := by
    have hfl : (!(true && decide (k > 0))) = decide (k = 0) := by
      rcases Nat.eq_zero_or_pos k with h | h
      · subst h; rfl
      · have : ¬ k = 0 := by omega
        simp [h, this]
    unfold SimSt.step
    simp only [hfl]
    have e1 : (c.inst (decide (k = 0)) (c.after k s.uc)).2.1 = [] := q1
    have e2 : ¬ (c.inst (decide (k = 0)) (c.after k s.uc)).2.2 ≥ 100 := by
      have := q2
      unfold Cpu.reports at this
      omega
    rw [e1]
    have g1 : ∀ x : SimSt S, x.checkRes c (c.inst (decide (k = 0)) (c.after k s.uc)).2.2 = x := fun x => if_neg e2
    rw [g1]
    have g2 : SimSt.checkCount c { s with go := true, frozen := true, uc := c.after (k + 1) s.uc, done := k + 1, todo := k + 1 } =
        { s with go := false, frozen := false, done := k + 1, todo := k + 1, uc := c.after (k + 1) s.uc, msgs := 109 :: s.msgs, simif := some 109 } := by
      unfold SimSt.checkCount
      rw [if_pos (by show k + 1 > 0 ∧ k + 1 ≥ k + 1; omega)]
      rfl
    have g3 : ∀ x : SimSt S, x.timeStop = s.timeStop → x.uc = c.after (k + 1) s.uc → x.checkTime c = x := by
      intro x h1 h2
      exact if_neg (by rw [not_reached (c := c) (s := x) (by rw [h1, h2]; exact ht k (by omega))]; decide)
    show SimSt.checkTime c (SimSt.checkCount c { s with go := true, frozen := true, uc := c.after (k + 1) s.uc, done := k + 1, todo := k + 1 }) = _
    rw [g2]
    exact g3 _ rfl rfl
  refine ⟨{ s with go := false, frozen := false, done := k + 1, todo := k + 1, uc := c.after (k + 1) s.uc, msgs := 109 :: s.msgs, simif := some 109 }, ?_, ?_, ?_, ?_, ?_⟩
  · have hl : SimSt.loop c (f + 1) { s with go := true, frozen := true, done := k, todo := k + 1, uc := c.after k s.uc } =
      ({ s with go := false, frozen := false, done := k + 1, todo := k + 1, uc := c.after (k + 1) s.uc, msgs := 109 :: s.msgs, simif := some 109 }, 1) := by
      rw [SimSt.loop]
      simp only [if_true]
      rw [hst, loop_stopped c f _ rfl]
    have hl' : SimSt.loop c (f + 1) { ({ s with go := true, frozen := true, done := 0, todo := k + 1 } : SimSt S) with
        uc := c.after k s.uc, done := k } = _ := hl
    rw [hl']
    simp only [Prod.mk.injEq, true_and]
    omega
  · rfl
  · rfl
  · rfl
  · rfl

/-- Any start (step n, or run with no limit) where instruction number k (counted from 0)
is the first that stops the simulator, before the count is over: exactly k+1
instructions are started, the simulator stops, and reports the reason of that
instruction, once. -/
theorem c31_stop_partial (c : Cpu S) (s : SimSt S) (n : Nat) (k : Nat) (hk : k < n ∨ (n = 0 ∧ (s.limit = 0 ∨ s.timeStop ≠ none))) (r : Int)
    (hq : ∀ j, j < k → c.quiet s.uc j) (hs : c.stops s.uc k r) (ht : ∀ j, j < k → noTime c s.timeStop (c.after (j + 1) s.uc))
    (fuel : Nat) (hf : k < fuel) :
    ∃ s', SimSt.loop c fuel (s.start true n) = (s', k + 1) ∧ s'.go = false ∧ s'.msgs = r :: s.msgs := by
  obtain ⟨f, rfl⟩ : ∃ f, fuel = f + 1 + k := ⟨fuel - 1 - k, by omega⟩
  generalize hT : (if n = 0 ∧ s.timeStop = none then s.limit else n) = T
  have hTk : k < T ∨ T = 0 := by
    rw [← hT]
    rcases hk with h | ⟨h, h2⟩
    · rw [if_neg (by omega)]; exact Or.inl h
    · split
      · rename_i h3
        rcases h2 with h2 | h2
        · exact Or.inr h2
        · exact absurd h3.2 h2
      · exact Or.inr h
  have hs0 : s.start true n = { s with go := true, frozen := true, done := 0, todo := T } := by
    unfold SimSt.start
    rw [hT, Bool.or_true]
  rw [hs0]
  rw [quiet_prefix c (f + 1) k { s with go := true, frozen := true, done := 0, todo := T } rfl rfl hTk hq ht]
  have hstep : ∃ s', SimSt.step c { s with go := true, frozen := true, done := k, todo := T, uc := c.after k s.uc } = s' ∧
      s'.go = false ∧ s'.msgs = r :: s.msgs := by
    refine ⟨_, rfl, ?_⟩
    have hfl : (!(true && decide (k > 0))) = decide (k = 0) := by
      rcases Nat.eq_zero_or_pos k with h | h
      · subst h; rfl
      · have : ¬ k = 0 := by omega
        simp [h, this]
    unfold SimSt.step
    simp only [hfl]
    rcases hs with ⟨es, e1, e2⟩ | ⟨e1, e2, e3⟩
    · unfold Cpu.reports at e1
      rw [e1]
      simp only [SimSt.effects]
      generalize hx : (({ s with uc := (c.inst (decide (k = 0)) (c.after k s.uc)).1, go := true, frozen := true, done := k, todo := T } : SimSt S)) = x
      have hxf : x.frozen = true := by rw [← hx]
      have hxm : x.msgs = s.msgs := by rw [← hx]
      obtain ⟨a, b, d⟩ := effects_stops c es e2 (x.stop c r) (stop_go c x r) (stop_frozen c x r)
      have hy := tail_stopped c (SimSt.effects c es (x.stop c r)).count
        (c.inst (decide (k = 0)) (c.after k s.uc)).2.2 a b
      refine ⟨hy.1, hy.2.trans (d.trans ?_)⟩
      rw [stop_msgs, hxf, hxm]; rfl
    · unfold Cpu.reports at e1 e2
      rw [e1, e2]
      simp only [SimSt.effects]
      generalize hx : (SimSt.count (({ s with uc := (c.inst (decide (k = 0)) (c.after k s.uc)).1, go := true, frozen := true, done := k, todo := T } : SimSt S))) = x
      have hxf : x.frozen = true := by rw [← hx]; rfl
      have hxm : x.msgs = s.msgs := by rw [← hx]; rfl
      have hc : x.checkRes c r = x.stop c r := if_pos e3
      have hy := tail_stopped c (x.stop c r) 0 (stop_go c x r) (stop_frozen c x r)
      have h0 : (x.stop c r).checkRes c 0 = x.stop c r := if_neg (by decide)
      rw [h0] at hy
      rw [hc]
      refine ⟨hy.1, hy.2.trans ?_⟩
      rw [stop_msgs, hxf, hxm]; rfl
  obtain ⟨s', h1, h2, h3⟩ := hstep
  refine ⟨s', ?_, h2, h3⟩
  have hl : SimSt.loop c (f + 1) { s with go := true, frozen := true, done := k, todo := T, uc := c.after k s.uc } = (s', 1) := by
    rw [SimSt.loop]
    simp only [if_true]
    rw [h1, loop_stopped c f _ h2]
  have hl' : SimSt.loop c (f + 1) { ({ s with go := true, frozen := true, done := 0, todo := T } : SimSt S) with
      uc := c.after k s.uc, done := k } = _ := hl
  rw [hl']
  simp only [Prod.mk.injEq, true_and]
  omega

/-- A counter as CPU: instruction m adds 1 and does `prog m`. -/
def toy (prog : Nat → List SimEff × Int) : Cpu Nat := ⟨fun _ s => (s + 1, prog s), id, fun _ => false, id⟩

def toyStart : SimSt Nat := ⟨0, false, 0, 0, 0, none, false, [], none⟩

/-- Concrete: five quiet steps; a halt at the third. -/
example : ((toyStart.stepCmd 5).loop (toy (fun _ => ([], 0))) 10).2 = 5 ∧
    (let r := (toyStart.stepCmd 5).loop (toy (fun m => ([], if m = 2 then 101 else 0))) 10; (r.2, r.1.msgs) = (3, [101])) := by
  decide +kernel

/-- FALSE of the code without more assumptions, 1: a program that writes the limit register
of the simulator interface restarts the counting: `step 2` executes 5 instructions. -/
theorem c31_false_limit : ((toyStart.stepCmd 2).loop (toy (fun m => (if m = 0 then [.limit 5] else [], 0))) 10).2 = 5 := by
  decide +kernel

/-- FALSE, 2: a time limit left over from `step 10 clk` that a breakpoint interrupted
stops a later `step 100` with "breakpoint" (104) after 8 instructions, though no
instruction reports anything. -/
theorem c31_false_time :
    (let c := toy (fun m => ([], if m = 1 then 104 else 0))
     let s := ((toyStart.stepUnit c 10).loop c 50).1
     let r := (s.stepCmd 100).loop c 200
     (s.msgs, s.uc, r.2, r.1.msgs)) = ([104], 2, 8, [104, 104]) := by decide +kernel

/-- FALSE, 3: when the last instruction halts, the reason register of the simulator
interface says "step" (109) though "halted" (101) is printed. -/
theorem c31_false_reason :
    (let r := (toyStart.stepCmd 3).loop (toy (fun m => ([], if m = 2 then 101 else 0))) 10; (r.1.msgs, r.1.simif)) = ([101], some 109) := by
  decide +kernel

end Ucsim.Props
