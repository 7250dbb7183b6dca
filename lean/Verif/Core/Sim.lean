import Verif.Spec.Sim

/-
Model of the simulator's run control: cl_sim (/repo/src/core/sim.src/sim.cc
117-162, 183-200, 219-363) and cl_app::run/run_go (/repo/src/core/utils.src/app.cc
240-270, 272-295).  Simplifications: printed text is reduced to the reason codes;
consoles are reduced to "one is frozen (waits for the end of the run)"; input of the
user during the run is not modelled; host time is left out; steps_done and
steps_todo do not overflow.
-/
namespace Ucsim
open Spec

/-- cl_sim, simcl.h 50-70. -/
structure SimSt (S : Type) where
  uc : S
  go : Bool
  done : Nat
  todo : Nat
  limit : Nat
  /-- uc->stop_at_time. -/
  timeStop : Option Nat
  /-- Some console waits for the end. -/
  frozen : Bool
  /-- Reasons of the stop messages printed on it, newest first. -/
  msgs : List Int
  /-- The reason register of the simulator interface. -/
  simif : Option Int

variable {S : Type}

/-- cl_sim::stop, sim.cc 219-363. -/
def SimSt.stop (c : Cpu S) (s : SimSt S) (r : Int) : SimSt S :=
  let s : SimSt S := { s with go := false, simif := some r }
  let s : SimSt S := if r = 104 ∧ c.atBrk s.uc then { s with uc := c.breaking s.uc, done := 0 } else s
  if s.frozen then
    let s : SimSt S := if r = 104 ∨ r = 112 then { s with done := 0 } else s
    { s with msgs := r :: s.msgs, frozen := false }
  else s

/-- cl_sim::start, sim.cc 183-200; `con`: started from a console. -/
def SimSt.start (s : SimSt S) (con : Bool) (n : Nat) : SimSt S :=
  { s with go := true, frozen := s.frozen || con, done := 0,
           todo := if n = 0 ∧ s.timeStop = none then s.limit else n }

/-- cl_sim::set_limit, sim.cc 152-162. -/
def SimSt.setLimit (s : SimSt S) (n : Nat) : SimSt S :=
  if n ≠ 0 then { s with limit := n, todo := n, done := 0 } else { s with limit := n }

/-- What the instruction does to the simulator, in order. -/
def SimSt.effects (c : Cpu S) : List SimEff → SimSt S → SimSt S
  | [], s => s
  | .stop r :: es, s => SimSt.effects c es (s.stop c r)
  | .start n :: es, s => SimSt.effects c es (s.start false n)
  | .limit n :: es, s => SimSt.effects c es (s.setLimit n)

/-- cl_time_measurer::reached, uc.cc 208-213. -/
def timeReached (c : Cpu S) (s : SimSt S) : Bool :=
  match s.timeStop with
  | none => false
  | some t => t ≠ 0 && c.now s.uc ≥ t

/-- sim.cc 130-135. -/
def SimSt.checkRes (c : Cpu S) (s : SimSt S) (res : Int) : SimSt S := if res ≥ 100 then s.stop c res else s

/-- sim.cc 137-139. -/
def SimSt.checkCount (c : Cpu S) (s : SimSt S) : SimSt S := if s.todo > 0 ∧ s.done ≥ s.todo then s.stop c 109 else s

/-- sim.cc 141-147. -/
def SimSt.checkTime (c : Cpu S) (s : SimSt S) : SimSt S :=
  if timeReached c s then SimSt.stop c { s with timeStop := none } 104 else s

/-- `steps_done++`, sim.cc 130. -/
def SimSt.count (s : SimSt S) : SimSt S := { s with done := s.done + 1 }

/-- cl_sim::step, sim.cc 118-150. -/
def SimSt.step (c : Cpu S) (s : SimSt S) : SimSt S :=
  let x := c.inst (!(s.go && s.done > 0)) s.uc
  (((SimSt.effects c x.2.1 { s with uc := x.1 }).count.checkRes c x.2.2).checkCount c).checkTime c

/-- The loop of cl_app::run while the simulator is going (app.cc 240-267), at most `f`
turns; returns the number of steps made too. -/
def SimSt.loop (c : Cpu S) : Nat → SimSt S → SimSt S × Nat
  | 0, s => (s, 0)
  | f + 1, s => if s.go then ((SimSt.loop c f (s.step c)).1, (SimSt.loop c f (s.step c)).2 + 1) else (s, 0)

/-- The step command, cmd_exec.cc 144-235, without unit. -/
def SimSt.stepCmd (s : SimSt S) (instrs : Int) : SimSt S := s.start true (if instrs ≤ 0 then 1 else instrs.toNat)

/-- The step command with a unit, `from_now` of the measurer of that unit (cmd_exec.cc
155-230, uc.cc 202-206). -/
def SimSt.stepUnit (c : Cpu S) (s : SimSt S) (clk : Nat) : SimSt S :=
  SimSt.start { s with timeStop := some (c.now s.uc + clk) } true 0

/-- The run command without addresses, cmd_exec.cc 56-102. -/
def SimSt.runCmd (s : SimSt S) : SimSt S := s.start true 0

end Ucsim
