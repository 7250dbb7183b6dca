import Verif.S51.Timer

/-
External interrupts of the 8051: /repo/src/sims/s51.src/interrupt.cc, put together with
the part of port 3 it listens to (port.cc) and with other, arbitrary devices `Q` (for
instance the timers of S51/Timer).  `was_reti` is part of the CPU (S51/State).
-/
namespace Ucsim.S51

/-- Members of cl_interrupt, interruptcl.h 43, the outside level of the pins of port 3
(port.cc), and the other devices. -/
structure XDev (D : Type) where
  it0 : Bool
  it1 : Bool
  int0 : Bool
  int1 : Bool
  pins : Byte
  rest : D

variable {D : Type}

/-- interrupt.cc 94-98: TCON is written. -/
def XDev.wrTcon (h : XDev D) (v : Byte) : XDev D := { h with it0 := v &&& 0x01#8 != 0#8, it1 := v &&& 0x04#8 != 0#8 }

/-- cl_interrupt::tick, interrupt.cc 110-117: level activated requests (`t`: TCON). -/
def XDev.level (h : XDev D) (t : Byte) : Byte :=
  let t := if h.it0 = false ∧ h.int0 = false then t ||| 0x02#8 else t
  if h.it1 = false ∧ h.int1 = false then t ||| 0x08#8 else t

/-- cl_interrupt::happen, interrupt.cc 125-147, requests (`t`: TCON): port 3 shows `new`
after `old` (pins and latch together). -/
def XDev.edge (h : XDev D) (old new t : Byte) : Byte :=
  let t := if h.it0 = true ∧ new &&& 0x04#8 = 0#8 ∧ old &&& 0x04#8 ≠ 0#8 then t ||| 0x02#8 else t
  if h.it1 = true ∧ new &&& 0x08#8 = 0#8 ∧ old &&& 0x08#8 ≠ 0#8 then t ||| 0x08#8 else t

/-- cl_interrupt::happen, interrupt.cc 145-146. -/
def XDev.port (h : XDev D) (new : Byte) : XDev D := { h with int0 := new &&& 0x04#8 != 0#8, int1 := new &&& 0x08#8 != 0#8 }

/-- EV_PORT_CHANGED of port 3 after the output latch is written, port.cc 155-191: only if
its value changes. -/
def XDev.latch (h : XDev D) (f : Nat → Byte) (v : Byte) : XDev D × (Nat → Byte) :=
  if f P3 = v then (h, f)
  else (h.port (h.pins &&& v), upd f TCON (h.edge (h.pins &&& f P3) (h.pins &&& v) (f TCON)))

/-- The pins are changed from outside: cl_port::set_pin, port.cc 231-248; other devices
hear of it, too. -/
def XDev.setPins (h : XDev D) (f : Nat → Byte) (v : Byte) : XDev D × (Nat → Byte) :=
  if h.pins = v then (h, f)
  else ({ h.port (v &&& f P3) with pins := v }, upd f TCON (h.edge (h.pins &&& f P3) (v &&& f P3) (f TCON)))

/-- P3 is changed by nobody else; of TCON the other devices (the timers, timer0.cc
154-187, 246-377) use the upper half. -/
def guardX (old new : Nat → Byte) : Nat → Byte := fun a =>
  if a = P3 then old a
  else if a = TCON then (new a &&& 0xf0#8) ||| (old a &&& 0x0f#8)
  else new a

/-- interrupt.cc 68-84. -/
def ext0 : ItSrc := ⟨0x01#8, TCON, 0x02#8, 0x0003, true, true⟩
def ext1 : ItSrc := ⟨0x04#8, TCON, 0x08#8, 0x0013, true, true⟩

/-- The machine's hardware: the interrupt logic is the last element (uc51.cc 781-846).
Sources are sorted by their polling number (itsrc.cc 217-, interrupt.cc 74, 80: 1 and 3;
timer 0 has 2). -/
def xint (Q : Hw D) : Hw (XDev D) where
  iramSize := Q.iramSize
  sfrRd h f a l := Q.sfrRd h.rest f a l
  sfrRdEff h f a l := { h with rest := Q.sfrRdEff h.rest f a l }
  sfrWr h f a v :=
    let r := Q.sfrWr h.rest f a v
    let h := { h with rest := r.2.1 }
    let g := guardX f r.2.2
    if a = TCON then (v, h.wrTcon v, g)
    else if a = P3 then (v, h.latch g v)
    else (r.1, h, g)
  bitWr h f b v :=
    let r := Q.bitWr h.rest f b v
    let h := { h with rest := r.1 }
    let g := guardX f r.2
    if b = 0x88 then ({ h with it0 := v }, g)
    else if b = 0x8a then ({ h with it1 := v }, g)
    else if P3 ≤ b ∧ b < P3 + 8 then h.latch g (putBits (g P3) (1#8 <<< (b - P3)) v)
    else (h, g)
  tick h f :=
    let r := Q.tick h.rest f
    let g := guardX f r.2
    ({ h with rest := r.1 }, upd g TCON (h.level (g TCON)))
  dummyRd h := Q.dummyRd h.rest
  dummyWr h := { h with rest := Q.dummyWr h.rest }
  romDummy h := Q.romDummy h.rest
  sources h := ext0 :: ((Q.sources h.rest).take 1 ++ ext1 :: (Q.sources h.rest).drop 1)
  stopSelfjump := Q.stopSelfjump
  cmos := Q.cmos

end Ucsim.S51
