/-
Specification of the execution history: the list of runs of executed addresses,
oldest first, each with its number of repetitions.
-/
namespace Ucsim.Spec

/-- One more instruction executed at `pc`. -/
def addRun (l : List (Nat × Nat)) (pc : Nat) : List (Nat × Nat) :=
  match l.getLast? with
  | some (a, n) => if a = pc then l.dropLast ++ [(a, n + 1)] else l ++ [(pc, 1)]
  | none => [(pc, 1)]

/-- Run-length form of a trace. -/
def runs (trace : List Nat) : List (Nat × Nat) := trace.foldl addRun []

/-- The last (newest) `n` members. -/
def lastN {α : Type} (n : Nat) (l : List α) : List α := l.drop (l.length - n)

/-- What happens to a history: an instruction at an address is executed; the
user keeps only the newest `n` runs (0: clear). -/
inductive HOp
  | put (pc : Nat)
  | keep (n : Int)

/-- A history of at most `cap` runs. -/
def histStep (cap : Nat) (l : List (Nat × Nat)) : HOp → List (Nat × Nat)
  | .put pc => lastN cap (addRun l pc)
  | .keep n => lastN n.toNat l

def histRun (cap : Nat) (l : List (Nat × Nat)) (ops : List HOp) : List (Nat × Nat) := ops.foldl (histStep cap) l

end Ucsim.Spec
