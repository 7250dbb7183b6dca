import Verif.Spec.S51
import Verif.S51.Timer

/-
The timers as the manual describes them: everything is read off the registers TMOD,
TCON, TLx, THx, P3 and the pins.  `x`: false for timer 0, true for timer 1.
-/
namespace Ucsim.S51.Spec
open Ucsim.S51

variable {D : Type}

def tl (s : St (Dev D)) (x : Bool) : Nat := (s.sfr (if x then 0x8b else 0x8a)).toNat
def th (s : St (Dev D)) (x : Bool) : Nat := (s.sfr (if x then 0x8d else 0x8c)).toNat

/-- The timer's half of TMOD. -/
def half (s : St (Dev D)) (x : Bool) : Nat := (s.sfr 0x89).toNat / (if x then 16 else 1) % 16

def tmode (s : St (Dev D)) (x : Bool) : Nat := half s x % 4
def isCounter (s : St (Dev D)) (x : Bool) : Bool := half s x / 4 % 2 == 1
def gated (s : St (Dev D)) (x : Bool) : Bool := half s x / 8 % 2 == 1

/-- TRx, TFx. -/
def runBit (s : St (Dev D)) (x : Bool) : Bool := (s.sfr 0x88).getLsbD (if x then 6 else 4)
def flag (s : St (Dev D)) (x : Bool) : Bool := (s.sfr 0x88).getLsbD (if x then 7 else 5)

/-- Level seen on the pins of port 3 (open drain: low if either side is low). -/
def port3 (s : St (Dev D)) : Byte := s.hw.pins &&& s.sfr 0xb0

/-- The timer is switched on: TRx, and INTx is high if GATE is set. -/
def enabled (s : St (Dev D)) (x : Bool) : Prop :=
  runBit s x = true ∧ (gated s x = true → (port3 s).getLsbD (if x then 3 else 2) = true)

/-- How often the timer has overflowed. -/
def overflows (s : St (Dev D)) (x : Bool) : Nat := if x then s.hw.t1.ovf else s.hw.t0.ovf

/-- Machine cycles seen by the devices. -/
def cycles (Q : Hw D) (n : Nat) (s : St (Dev D)) : St (Dev D) := (tickHw (timers Q) n s).2

/-- What happens from outside, besides `Act`: the pins of port 3 change. -/
inductive Ev
  | act (a : Act)
  | pins (v : Byte)

def ev (Q : Hw D) (s : St (Dev D)) : Ev → St (Dev D)
  | .act a => act (timers Q) s a
  | .pins v => { s with hw := s.hw.setPins (s.sfr 0xb0) v }

def evs (Q : Hw D) (s : St (Dev D)) (l : List Ev) : St (Dev D) := l.foldl (ev Q) s

/-- The timer works as its registers tell. -/
structure Follows (t : Tmr) (s : St (Dev D)) (x : Bool) : Prop where
  mode : t.mode = tmode s x
  ct : t.ct = isCounter s x
  gate : t.gate = gated s x
  tr : t.tr = runBit s x
  int : t.int = (port3 s).getLsbD (if x then 3 else 2)

def Coherent (s : St (Dev D)) : Prop := Follows s.hw.t0 s false ∧ Follows s.hw.t1 s true

/-- Settings, counts and flags of the timers are the same. -/
structure SameTimers {E : Type} (s : St (Dev D)) (u : St (Dev E)) : Prop where
  settings : ∀ x, half s x = half u x ∧ runBit s x = runBit u x
  counts : ∀ x, tl s x = tl u x ∧ th s x = th u x
  flags : ∀ x, flag s x = flag u x
  ovf : ∀ x, overflows s x = overflows u x

/-- In the next step an instruction is executed that changes nothing about the timers,
and no interrupt is accepted. -/
structure LeavesTimers (Q : Hw D) (s : St (Dev D)) : Prop where
  go : s.state = .go
  regs : ∀ a ∈ [0x88, 0x89, 0x8a, 0x8b, 0x8c, 0x8d, 0xb0],
    (execInst (timers Q) { s with wasReti := false, cyc := 0 }).2.sfr a = s.sfr a
  t0 : (execInst (timers Q) { s with wasReti := false, cyc := 0 }).2.hw.t0 = s.hw.t0
  t1 : (execInst (timers Q) { s with wasReti := false, cyc := 0 }).2.hw.t1 = s.hw.t1
  pins : (execInst (timers Q) { s with wasReti := false, cyc := 0 }).2.hw.pins = s.hw.pins
  noInt : (doInst (timers Q) s).1 ≠ .interrupt

/-- The counted pin (T0 is P3.4, T1 is P3.5) is high when the outside drives `v`. -/
def pinT (s : St (Dev D)) (x : Bool) (v : Byte) : Bool := (v &&& s.sfr 0xb0).getLsbD (if x then 5 else 4)

/-- Number of changes from `a` to `b` in a sequence. -/
def changes (a b : Bool) : Bool → List Bool → Nat
  | _, [] => 0
  | cur, v :: l => (if cur = a ∧ v = b then 1 else 0) + changes a b v l

/-- The outside drives these values, one after the other. -/
def drive (Q : Hw D) (s : St (Dev D)) (l : List Byte) : St (Dev D) := evs Q s (l.map Ev.pins)

def rising (s : St (Dev D)) (x : Bool) (l : List Byte) : Nat := changes false true (pinT s x s.hw.pins) (l.map (pinT s x))
def falling (s : St (Dev D)) (x : Bool) (l : List Byte) : Nat := changes true false (pinT s x s.hw.pins) (l.map (pinT s x))

/-- Edges seen but not counted yet. -/
def uncounted (s : St (Dev D)) (x : Bool) : Nat := if x then s.hw.t1.edge else s.hw.t0.edge

end Ucsim.S51.Spec
