import Verif.Spec.S51
import Verif.S51.Xint

/-
External interrupts as the manual describes them: everything is read off the registers
TCON, P3 and the pins.  `x`: false for INT0, true for INT1.
-/
namespace Ucsim.S51.Spec
open Ucsim.S51

variable {D : Type}

/-- Level of the pins of port 3 (open drain: low if either side is low). -/
def xport (s : St (XDev D)) : Byte := s.hw.pins &&& s.sfr 0xb0

/-- The pin INTx (P3.2, P3.3) is low. -/
def pinLow (s : St (XDev D)) (x : Bool) : Bool := !(xport s).getLsbD (if x then 3 else 2)

/-- ITx: the interrupt is transition activated. -/
def edgeMode (s : St (XDev D)) (x : Bool) : Bool := (s.sfr 0x88).getLsbD (if x then 2 else 0)

/-- IEx: the request flag. -/
def request (s : St (XDev D)) (x : Bool) : Bool := (s.sfr 0x88).getLsbD (if x then 3 else 1)

/-- The interrupt logic works as the registers tell. -/
structure XCoherent (s : St (XDev D)) : Prop where
  it0 : s.hw.it0 = edgeMode s false
  it1 : s.hw.it1 = edgeMode s true
  int0 : s.hw.int0 = !pinLow s false
  int1 : s.hw.int1 = !pinLow s true

/-- What happens from outside, besides `Act`: the pins of port 3 change; the other
devices react as they like. -/
inductive XEv (D : Type)
  | act (a : Act)
  | pins (v : Byte) (others : D → (Nat → Byte) → D × (Nat → Byte))

def xev (Q : Hw D) (s : St (XDev D)) : XEv D → St (XDev D)
  | .act a => act (xint Q) s a
  | .pins v others =>
    let r := s.hw.setPins s.sfr v
    let o := others r.1.rest r.2
    { s with hw := { r.1 with rest := o.1 }, sfr := protect r.2 (guardX r.2 o.2) }

def xevs (Q : Hw D) (s : St (XDev D)) (l : List (XEv D)) : St (XDev D) := l.foldl (xev Q) s

/-- Machine cycles seen by the devices. -/
def xcycles (Q : Hw D) (n : Nat) (s : St (XDev D)) : St (XDev D) := (tickHw (xint Q) n s).2

/-- The outside drives these values, one after the other. -/
def xdrive (Q : Hw D) (s : St (XDev D)) (l : List (Byte × (D → (Nat → Byte) → D × (Nat → Byte)))) : St (XDev D) :=
  xevs Q s (l.map fun p => XEv.pins p.1 p.2)

/-- Somewhere in the sequence the level falls. -/
def falls : Bool → List Bool → Bool
  | _, [] => false
  | cur, v :: l => (cur && !v) || falls v l

end Ucsim.S51.Spec
