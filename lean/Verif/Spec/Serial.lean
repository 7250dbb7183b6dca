/-
What a user expects of the serial line of the 8051 (MCS-51 User's Manual, and the description of
the simulator's options).
-/
namespace Ucsim.S51.Uart.Spec

abbrev Byte := BitVec 8

/-! ### Time of a frame -/

/-- Bits of a frame: start and stop bit, ninth bit. -/
def frameBits : Nat → Nat
  | 0 => 8
  | 1 => 10
  | _ => 11

/-- Is the bit clock derived from the oscillator (modes 0 and 2) or from timer overflows? -/
def fromOscillator (mode : Nat) : Prop := mode = 0 ∨ mode = 2
instance (m : Nat) : Decidable (fromOscillator m) := inferInstanceAs (Decidable (_ ∨ _))

/-- Clocks of the oscillator or overflows of timer 1 in a bit. -/
def bitTime (mode : Nat) (smod : Bool) : Nat :=
  match mode with
  | 0 => 12
  | 2 => if smod then 32 else 64
  | _ => if smod then 16 else 32

/-- Overflows of timer 2 in a bit when it is the baud rate generator (modes 1 and 3). -/
def bitTime2 : Nat := 16

/-! ### Line ends -/

/-- The characters of the option `nl`, first one in the lowest byte; none: no conversion. -/
def newline (nl : Nat) : List Byte :=
  [nl % 256, nl / 256 % 256, nl / 65536 % 256].takeWhile (· ≠ 0) |>.map (BitVec.ofNat 8)

/-- Each line end (CR, LF, CR LF, LF CR) becomes `n`. -/
def convert (n : List Byte) : List Byte → List Byte
  | [] => []
  | [c] => if c = 13 ∨ c = 10 then n else [c]
  | c :: d :: l =>
    if (c = 13 ∧ d = 10) ∨ (c = 10 ∧ d = 13) then n ++ convert n l
    else if c = 13 ∨ c = 10 then n ++ convert n (d :: l)
    else c :: convert n (d :: l)

/-- What the program is to receive. -/
def received (nl : Nat) (file : List Byte) : List Byte :=
  if newline nl = [] then file else convert (newline nl) file

end Ucsim.S51.Uart.Spec
