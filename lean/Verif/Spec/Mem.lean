/-
Specification of a wired memory system, independent of cells, pointers and
bytes: every chip is a map from element numbers to values; an address either
leads to (bits of) one element of one chip or nowhere.
-/
namespace Ucsim.Spec

/-- Where an address leads: an element of a chip; `bits = some m`: only the
bits of mask `m` (a location of a 1-bit address space); `width` is the width of
the address space. -/
structure Target where
  chip : Nat
  elem : Nat
  bits : Option (BitVec 32)
  width : Nat
deriving DecidableEq

/-- Contents of all the chips. -/
abbrev ChipMem := Nat → Nat → BitVec 32

/-- What the user reads at a location. -/
def readT (m : ChipMem) (t : Target) : BitVec 32 :=
  match t.bits with
  | none => m t.chip t.elem
  | some b => if m t.chip t.elem &&& b = 0#32 then 0#32 else 1#32

/-- Element contents after storing `v` at a location: `v` modulo 2^width, or
the named bits set (`v ≠ 0`) or cleared (`v = 0`). -/
def newElem (old : BitVec 32) (t : Target) (v : BitVec 32) : BitVec 32 :=
  match t.bits with
  | none => BitVec.ofNat 32 (v.toNat % 2 ^ t.width)
  | some b => if v = 0#32 then old &&& ~~~b else old ||| b

def writeT (m : ChipMem) (t : Target) (v : BitVec 32) : ChipMem :=
  fun k e => if k = t.chip ∧ e = t.elem then newElem (m k e) t v else m k e

/-- What a user does with memories: accesses through address space `sp` at
address `a`, and changing the read-only flag. -/
inductive Act
  | write (sp a : Nat) (v : BitVec 32)
  | set (sp a : Nat) (v : BitVec 32)
  | download (sp a : Nat) (v : BitVec 32)
  | read (sp a : Nat)
  | get (sp a : Nat)
  | setRo (sp a : Nat) (b : Bool)

/-- The address an action is about. -/
def Act.loc : Act → Nat × Nat
  | .write sp a _ | .set sp a _ | .download sp a _ | .read sp a | .get sp a | .setRo sp a _ => (sp, a)

/-- Specification state: chip contents and read-only flags. -/
structure St where
  mem : ChipMem
  ro : Nat → Nat → Bool

/-- One action; `wire sp a` says where the address leads. -/
def step (wire : Nat → Nat → Option Target) (s : St) : Act → St
  | .write sp a v | .set sp a v =>
    match wire sp a with
    | none => s
    | some t => if s.ro sp a then s else { s with mem := writeT s.mem t v }
  | .download sp a v =>
    match wire sp a with
    | none => s
    | some t => { s with mem := writeT s.mem t v }
  | .read _ _ | .get _ _ => s
  | .setRo sp a b => { s with ro := fun sp' a' => if sp' = sp ∧ a' = a then b else s.ro sp' a' }

def run (wire : Nat → Nat → Option Target) (s : St) (l : List Act) : St :=
  l.foldl (step wire) s

end Ucsim.Spec
