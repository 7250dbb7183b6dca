/-
What the data sheets of the PADAUK chips say about the 16 bit timer T16 and about the watchdog,
without reference to the simulator.
-/
namespace Ucsim.Pdk.Hw

/-- clock source selected by bits 7..5 of T16M -/
inductive Clk
  | stop | sys | ihrc | eosc | ilrc | pin
  deriving DecidableEq

/-- T16M bits 7..5: 0 stop, 1 system clock, 2 reserved, 3 PA4, 4 IHRC, 5 EOSC, 6 ILRC, 7 PA0 -/
def clkOf (v : BitVec 8) : Clk :=
  if v.toNat / 32 = 1 then .sys else if v.toNat / 32 = 4 then .ihrc else if v.toNat / 32 = 5 then .eosc
  else if v.toNat / 32 = 6 then .ilrc else if v.toNat / 32 = 3 ∨ v.toNat / 32 = 7 then .pin else .stop

/-- whole periods that the clocks of the chip have made -/
structure Osc where
  sys : BitVec 32
  ihrc : BitVec 32
  eosc : BitVec 32
  ilrc : BitVec 32

/-- periods of one of the clocks; a stopped one makes none -/
def Osc.periods (o : Osc) : Clk → Nat
  | .sys => o.sys.toNat
  | .ihrc => o.ihrc.toNat
  | .eosc => o.eosc.toNat
  | .ilrc => o.ilrc.toNat
  | _ => 0

/-- the clock only goes forward, from each state to the next by at most `lim` periods -/
def Forward (c : Clk) (lim : Nat) : Osc → List Osc → Prop
  | _, [] => True
  | a, b :: l => a.periods c ≤ b.periods c ∧ b.periods c ≤ a.periods c + lim ∧ Forward c lim b l

/-- the state of the clocks at the end -/
def lastOf : Osc → List Osc → Osc
  | a, [] => a
  | _, b :: l => lastOf b l

/-- T16M bits 4..3: the clock is divided by 1, 4, 16, 64 -/
def divOf (v : BitVec 8) : Nat := 4 ^ (v.toNat / 8 % 4)

/-- T16M bits 2..0: the counter bit that requests the interrupt, 8 .. 15 -/
def bitOf (v : BitVec 8) : Nat := v.toNat % 8 + 8

/-- a counter that goes from the value `a` by `k` steps of one passes the selected edge of bit `b`:
after one of the steps the bits `b`..0 are 10..0 (rising) or 00..0 (falling) -/
def PassesEdge (b : Nat) (falling : Bool) (a k : Nat) : Prop :=
  ∃ x, a < x ∧ x ≤ a + k ∧ x % 2 ^ (b + 1) = if falling then 0 else 2 ^ b

/-- ILRC periods of the watchdog selected by bits 1..0 of MISC -/
def wdLen (misc : BitVec 8) : Nat :=
  match misc.toNat % 4 with
  | 0 => 8192
  | 1 => 16384
  | 2 => 65536
  | _ => 262144

/-- what the program and the time do to the watchdog -/
inductive Ev
  /-- an instruction was executed, ILRC is at the given period -/
  | tick (ilrc : BitVec 32)
  /-- the wdreset instruction -/
  | clear
  /-- a value is written to CLKMD -/
  | clkmd (v : BitVec 8)

/-- the time (in periods of ILRC) after the events -/
def now (i0 : Nat) : List Ev → Nat
  | [] => i0
  | .tick i :: l => now i.toNat l
  | _ :: l => now i0 l

/-- the time of the latest wdreset, `c0` when there is none -/
def clearedAt (i0 c0 : Nat) : List Ev → Nat
  | [] => c0
  | .tick i :: l => clearedAt i.toNat c0 l
  | .clear :: l => clearedAt i0 i0 l
  | .clkmd _ :: l => clearedAt i0 c0 l

/-- ILRC only goes forward, by less than 2^31 periods in one instruction, and the program leaves the
watchdog enabled (bit 1 of CLKMD) -/
def Fwd (i0 : Nat) : List Ev → Prop
  | [] => True
  | .tick i :: l => i0 ≤ i.toNat ∧ i.toNat < i0 + 2 ^ 31 ∧ Fwd i.toNat l
  | .clear :: l => Fwd i0 l
  | .clkmd v :: l => v &&& 2 ≠ 0 ∧ Fwd i0 l

end Ucsim.Pdk.Hw
