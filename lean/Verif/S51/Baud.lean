import Verif.S51.Timer2

/-
The serial line and timer 2 of the 8052 together: timer 2 reports overflows and writes of T2CON to the
serial line (inform_partners, timer2.cc 121, 199; hw.cc 299-309; serial.cc 371-399).  In a machine cycle the
serial line ticks before timer 2 (uc.cc 3028-3050 in the order of uc51.cc 772-789, then uc52.cc 58-66).
Timer 1 does not overflow by itself here (its overflows are events).
-/
namespace Ucsim.S51.Baud

open Ucsim.S51

structure J where
  ser : Uart.Ser
  t2 : Tim2.T2

inductive JEv
  /-- something happens to the serial line only -/
  | ser (e : Uart.Ev)
  /-- something happens to timer 2 only, or T2CON is written -/
  | t2 (e : Tim2.Ev)
  | cycle
  | reset
  deriving DecidableEq, Repr

/-- One machine cycle: the overflows of timer 2 come to the serial line. -/
def cycle (j : J) : J :=
  let s := Uart.tick j.ser
  let t := Tim2.tick j.t2
  { ser := Uart.run s (List.replicate (t.ovf - j.t2.ovf) .ovf2), t2 := t }

def ev (j : J) : JEv → J
  | .ser .tick | .ser .ovf2 | .ser (.t2con _) | .ser .reset => j
  | .ser e => { j with ser := Uart.ev j.ser e }
  | .t2 .tick | .t2 .reset => j
  | .t2 (.wrCon v) => { ser := Uart.t2con v j.ser, t2 := Tim2.wrCon v j.t2 }
  | .t2 (.wrBit i b) =>
    { ser := Uart.t2con (if b then j.t2.con ||| (1#8 <<< i.val) else j.t2.con &&& ~~~(1#8 <<< i.val)) j.ser, t2 := Tim2.wrBit i b j.t2 }
  | .t2 e => { j with t2 := Tim2.ev j.t2 e }
  | .cycle => cycle j
  | .reset => { ser := Uart.reset j.ser, t2 := Tim2.reset j.t2 }

def run (j : J) (h : List JEv) : J := h.foldl ev j

def start (file : List Tim2.Byte) (nl : Nat) (flow often : Bool) : J := ⟨Uart.start file nl flow often, Tim2.start⟩

end Ucsim.S51.Baud
