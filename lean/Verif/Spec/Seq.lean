/-
Specification of lists as finite sequences, and of sorted collections.
-/
namespace Ucsim.Spec

/-- Operations of a list.  Positions are C ints. -/
inductive LOp (α : Type)
  | add (x : α) | addAt (i : Int) (x : α) | push (x : α) | pop | top
  | disconnAt (i : Int) | disconn (x : α) | putAt (i : Int) (x : α) | get (i : Int)

/-- What an operation does to a sequence: new sequence and returned item, or
`none` if the operation is to be rejected (position outside of the list). -/
def seqStep {α : Type} [DecidableEq α] (l : List α) : LOp α → Option (List α × Option α)
  | .add x => some (l ++ [x], none)
  | .addAt i x => if 0 ≤ i ∧ i ≤ l.length then some (l.insertIdx i.toNat x, none) else none
  | .push x => some (x :: l, none)
  | .pop => some (l.tail, l.head?)
  | .top => some (l, l.head?)
  | .disconnAt i => if 0 ≤ i ∧ i < l.length then some (l.eraseIdx i.toNat, none) else none
  | .disconn x => some (l.erase x, none)
  | .putAt i x => if 0 ≤ i ∧ i < l.length then some (l.set i.toNat x, none) else none
  | .get i => if 0 ≤ i ∧ i < l.length then some (l, l[i.toNat]?) else none

/-- A C style comparison function is a total preorder. -/
structure PreorderCmp {κ : Type} (cmp : κ → κ → Int) : Prop where
  refl : ∀ a, cmp a a = 0
  lt_gt : ∀ a b, cmp a b < 0 ↔ 0 < cmp b a
  trans : ∀ a b c, cmp a b ≤ 0 → cmp b c ≤ 0 → cmp a c ≤ 0

/-- The items are in ascending order. -/
def SortedBy {κ : Type} (cmp : κ → κ → Int) (l : List κ) : Prop :=
  l.Pairwise (fun a b => cmp a b ≤ 0)

end Ucsim.Spec
