import Verif.Spec.Z80

/-
What the repeated instructions of the Z80 are for.
-/
namespace Ucsim.Z80.Isa

/-- The memory after `n` bytes were copied one after the other from `h` to `d`, going up
(`dn`: down). -/
def copied (dn : Bool) : Nat → Word → Word → (Word → Byte) → (Word → Byte)
  | 0, _, _, m => m
  | n + 1, h, d, m => copied dn n (Mach.step1 dn h) (Mach.step1 dn d) (fun x => if x = d then m h else m x)

/-- The k-th address from `a`, going up or down. -/
def nth (dn : Bool) (a : Word) (k : Nat) : Word := if dn then a - BitVec.ofNat 16 k else a + BitVec.ofNat 16 k

end Ucsim.Z80.Isa
