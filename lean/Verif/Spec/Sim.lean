/-
Specification of stepping.  The controller is arbitrary: `inst first s` executes one
instruction in state `s` (`first`: no fetch breakpoint is looked for) and returns
the new state, the things the instruction did to the simulator, and its result code.
-/
namespace Ucsim.Spec

/-- What an instruction (or the hardware it runs) can do to the simulator. -/
inductive SimEff
  /-- sim->stop(reason): error, event breakpoint, simulator interface. -/
  | stop (reason : Int)
  /-- sim->start(0, n). -/
  | start (n : Nat)
  /-- sim->set_limit(n). -/
  | limit (n : Nat)
deriving DecidableEq

structure Cpu (S : Type) where
  inst : Bool → S → S × List SimEff × Int
  /-- Clock that the pending time limit looks at. -/
  now : S → Nat
  /-- Is there a breakpoint at the PC? -/
  atBrk : S → Bool
  /-- What the breakpoint does when execution stops on it. -/
  breaking : S → S

/-- The state after `k` instructions from `s`. -/
def Cpu.after {S : Type} (c : Cpu S) : Nat → S → S
  | 0, s => s
  | k + 1, s => (c.inst (k = 0) (c.after k s)).1

/-- What instruction number `k` (from 0) does and reports. -/
def Cpu.reports {S : Type} (c : Cpu S) (s : S) (k : Nat) : List SimEff × Int := (c.inst (k = 0) (c.after k s)).2

/-- Instruction number `k` does not stop the simulator. -/
def Cpu.quiet {S : Type} (c : Cpu S) (s : S) (k : Nat) : Prop := (c.reports s k).1 = [] ∧ (c.reports s k).2 < 100

/-- Instruction number `k` makes the simulator stop for `r` (first). -/
def Cpu.stops {S : Type} (c : Cpu S) (s : S) (k : Nat) (r : Int) : Prop :=
  (∃ es, (c.reports s k).1 = .stop r :: es ∧ ∀ e ∈ es, ∃ q, e = .stop q) ∨
  ((c.reports s k).1 = [] ∧ (c.reports s k).2 = r ∧ 100 ≤ r)

end Ucsim.Spec
