import Verif.Core.Var

/-
Specification of the variable table: a finite map from names to definitions.
-/
namespace Ucsim.Spec

/-- Commands on the table.  The bit numbers of `add` come in any order. -/
inductive VOp
  | add (name : CStr) (place : Place) (b1 b2 : Int)
  | del (name : CStr)
  | width
deriving DecidableEq, Repr

/-- The map from names to definitions. -/
abbrev VMap := CStr → Option Var

/-- The definition made by an `add`: bit numbers put in order. -/
def defOf (name : CStr) (place : Place) (b1 b2 : Int) : Var := ⟨name, place, max b1 b2, min b1 b2⟩

/-- An analyzer label (the name begins with a dot) is superseded by a new memory
variable for the same memory, address and bits. -/
def superseded (u v : Var) : Bool :=
  u.name.head? == some '.'.toNat && u.place == v.place && u.hi == v.hi && u.lo == v.lo &&
    (match v.place with | .mem _ _ => true | .cell _ => false)

def VMap.step (m : VMap) : VOp → VMap
  | .add n p b1 b2 => fun k =>
      if k = n then some (defOf n p b1 b2) else (m k).filter (fun u => !superseded u (defOf n p b1 b2))
  | .del n => fun k => if k = n then none else m k
  | .width => m

def VMap.run (m : VMap) (ops : List VOp) : VMap := ops.foldl VMap.step m

/-- No variable defined. -/
def VMap.empty : VMap := fun _ => none

/-- Ids of memories and addresses below 2^31, bit numbers at least -1 (which
stands for "none"). -/
def VOp.ok : VOp → Prop
  | .add _ (.mem u a) b1 b2 => u < 2 ^ 31 ∧ a < 2 ^ 31 ∧ -1 ≤ b1 ∧ -1 ≤ b2
  | .add _ (.cell _) b1 b2 => -1 ≤ b1 ∧ -1 ≤ b2
  | _ => True

end Ucsim.Spec
