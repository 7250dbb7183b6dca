import Verif.S51.Step

/-
Timers 0 and 1 of the 8051: /repo/src/sims/s51.src/timer0.cc and timer1.cc, put
together with the part of port 3 they listen to (port.cc) and with other, arbitrary
devices.  Simplified: the timers are on (hw->on); overflow events are counted instead
of being passed on to the UART and the PCA.
-/
namespace Ucsim.S51

def TMOD : Nat := 0x89
def TL0 : Nat := 0x8a
def TL1 : Nat := 0x8b
def TH0 : Nat := 0x8c
def TH1 : Nat := 0x8d
def P3 : Nat := 0xb0

/-- The masks and addresses set by cl_timer0::cl_timer0, timer0.cc 36-84; values:
regs51.h 49-55, 201-224. -/
structure TCfg where
  first : Bool
  mM0 : Byte
  mM1 : Byte
  mCT : Byte
  mGATE : Byte
  mTR : Byte
  mINT : Byte
  mTF : Byte
  mT : Byte
  tl : Nat
  th : Nat

def cfg0 : TCfg := ⟨true, 0x01#8, 0x02#8, 0x04#8, 0x08#8, 0x10#8, 0x04#8, 0x20#8, 0x10#8, TL0, TH0⟩
def cfg1 : TCfg := ⟨false, 0x10#8, 0x20#8, 0x40#8, 0x80#8, 0x40#8, 0x08#8, 0x80#8, 0x20#8, TL1, TH1⟩

/-- Members of cl_timer0, timer0cl.h 48; `ovf`: how often overflow() was called. -/
structure Tmr where
  mode : Nat
  gate : Bool
  ct : Bool
  tr : Bool
  int : Bool
  edge : Nat
  ovf : Nat
deriving DecidableEq

/-- A timer and the SFRs. -/
abbrev TS := Tmr × (Nat → Byte)

/-- timer0.cc 167-181: TMOD is written. -/
def Tmr.wrTmod (c : TCfg) (t : Tmr) (v : Byte) : Tmr :=
  let md := v &&& (c.mM0 ||| c.mM1)
  { t with
    mode := if md = c.mM0 then 1 else if md = c.mM1 then 2 else if md = (c.mM0 ||| c.mM1) then 3 else 0
    gate := v &&& c.mGATE != 0#8
    ct := v &&& c.mCT != 0#8
    edge := 0 }

/-- timer0.cc 154-166, 182-187: TCON (or one of its bits) is written, new value `n`. -/
def Tmr.wrTcon (c : TCfg) (t : Tmr) (n : Byte) : Tmr := { t with tr := n &&& c.mTR != 0#8, edge := 0 }

/-- `cell_tcon->set(cell_tcon->get() | mask_TF); overflow();` -/
def overflowed (c : TCfg) (x : TS) : TS := ({ x.1 with ovf := x.1.ovf + 1 }, upd x.2 TCON (x.2 TCON ||| c.mTF))

/-- Body of the loop of do_mode0, timer0.cc 241-254. -/
def count0 (c : TCfg) (x : TS) : TS :=
  let f := upd x.2 c.tl (x.2 c.tl + 1#8)
  if f c.tl &&& 0x1f#8 = 0#8 then
    let f := upd f c.tl 0#8
    let f := upd f c.th (f c.th + 1#8)
    if f c.th = 0#8 then overflowed c (x.1, f) else (x.1, f)
  else (x.1, f)

/-- do_mode1, timer0.cc 281-293. -/
def count1 (c : TCfg) (x : TS) : TS :=
  let f := upd x.2 c.tl (x.2 c.tl + 1#8)
  if f c.tl = 0#8 then
    let f := upd f c.th (f c.th + 1#8)
    if f c.th = 0#8 then overflowed c (x.1, f) else (x.1, f)
  else (x.1, f)

/-- do_mode2, timer0.cc 321-333. -/
def count2 (c : TCfg) (x : TS) : TS :=
  let f := upd x.2 c.tl (x.2 c.tl + 1#8)
  if f c.tl = 0#8 then overflowed c (x.1, upd f c.tl (f c.th)) else (x.1, f)

/-- do_mode3, timer0.cc 361-369. -/
def count3 (c : TCfg) (x : TS) : TS :=
  let f := upd x.2 c.tl (x.2 c.tl + 1#8)
  if f c.tl = 0#8 then overflowed c (x.1, f) else (x.1, f)

/-- do_mode3, the high byte, timer0.cc 371-377; it sets TF1 (0x80). -/
def countTh (c : TCfg) (x : TS) : TS :=
  let f := upd x.2 c.th (x.2 c.th + 1#8)
  if f c.th = 0#8 then (x.1, upd f TCON (f TCON ||| 0x80#8)) else (x.1, f)

/-- `while (cycles--)`. -/
def loop (g : TS → TS) : Nat → TS → TS
  | 0, x => x
  | n + 1, x => loop g n (g x)

/-- The beginning of do_mode0..3, timer0.cc 222-240 and copies: stopped, gated off, or
how much to count. -/
def counting (g : TS → TS) (cycles : Nat) (x : TS) : TS :=
  if x.1.tr = false then x
  else if x.1.gate = true ∧ x.1.int = false then x
  else if x.1.ct then loop g x.1.edge ({ x.1 with edge := 0 }, x.2)
  else loop g cycles x

/-- cl_timer0::tick, timer0.cc 206-217; do_mode3 of timer 1 does nothing, timer1.cc 49-53;
`cell_tcon->get() & bmTR1` is looked at after the low byte was counted. -/
def Tmr.tick (c : TCfg) (cycles : Nat) (x : TS) : TS :=
  if x.1.mode = 0 then counting (count0 c) cycles x
  else if x.1.mode = 1 then counting (count1 c) cycles x
  else if x.1.mode = 2 then counting (count2 c) cycles x
  else if c.first then
    let y := counting (count3 c) cycles x
    if y.2 TCON &&& 0x40#8 != 0#8 then loop (countTh c) cycles y else y
  else x

/-- cl_timer0::happen, timer0.cc 387-404: port 3 shows `new` after `old` (pins and latch
together). -/
def Tmr.port (c : TCfg) (t : Tmr) (old new : Byte) : Tmr :=
  { t with
    edge := if new &&& c.mT != 0#8 ∧ old &&& c.mT = 0#8 then t.edge + 1 else t.edge
    int := new &&& c.mINT != 0#8 }

/-- The devices: timers, the outside level of the pins of port 3, others. -/
structure Dev (D : Type) where
  t0 : Tmr
  t1 : Tmr
  pins : Byte
  rest : D

variable {D : Type}

/-- EV_PORT_CHANGED of port 3 (port.cc 155-191, 231-246) reaches both timers. -/
def Dev.port (h : Dev D) (old new : Byte) : Dev D :=
  { h with t0 := h.t0.port cfg0 old new, t1 := h.t1.port cfg1 old new }

/-- The pins are changed from outside: cl_port::set_pin, port.cc 231-248. -/
def Dev.setPins (h : Dev D) (latch v : Byte) : Dev D :=
  if h.pins = v then h else { h.port (h.pins &&& latch) (v &&& latch) with pins := v }

/-- The SFRs of the timers are changed by the timers only, P3 by nobody; of TCON the
other devices (cl_interrupt, interrupt.cc 86-138) use the lower half. -/
def guard (old new : Nat → Byte) : Nat → Byte := fun a =>
  if a = TMOD ∨ a = TL0 ∨ a = TL1 ∨ a = TH0 ∨ a = TH1 ∨ a = P3 then old a
  else if a = TCON then (old a &&& 0xf0#8) ||| (new a &&& 0x0f#8)
  else new a

/-- The machine's hardware: timers added to arbitrary other devices `Q`
(mk_hw_elements, uc51.cc 781-846: the timers come first). -/
def timers (Q : Hw D) : Hw (Dev D) where
  iramSize := Q.iramSize
  sfrRd h f a l := Q.sfrRd h.rest f a l
  sfrRdEff h f a l := { h with rest := Q.sfrRdEff h.rest f a l }
  sfrWr h f a v :=
    let r := Q.sfrWr h.rest f a v
    let h := { h with rest := r.2.1 }
    if a = TMOD then (v, { h with t0 := h.t0.wrTmod cfg0 v, t1 := h.t1.wrTmod cfg1 v }, guard f r.2.2)
    else if a = TCON then (v, { h with t0 := h.t0.wrTcon cfg0 v, t1 := h.t1.wrTcon cfg1 v }, guard f r.2.2)
    else if a = TL0 ∨ a = TL1 ∨ a = TH0 ∨ a = TH1 then (v, h, guard f r.2.2)
    else if a = P3 then (v, if f P3 = v then h else h.port (h.pins &&& f P3) (h.pins &&& v), guard f r.2.2)
    else (r.1, h, guard f r.2.2)
  bitWr h f b v :=
    let r := Q.bitWr h.rest f b v
    let h := { h with rest := r.1 }
    if TCON ≤ b ∧ b < TCON + 8 then
      let n := putBits (f TCON) (1#8 <<< (b - TCON)) v
      ({ h with t0 := h.t0.wrTcon cfg0 n, t1 := h.t1.wrTcon cfg1 n }, guard f r.2)
    else if P3 ≤ b ∧ b < P3 + 8 then
      let n := putBits (f P3) (1#8 <<< (b - P3)) v
      (if f P3 = n then h else h.port (h.pins &&& f P3) (h.pins &&& n), guard f r.2)
    else (h, guard f r.2)
  tick h f :=
    let x := Tmr.tick cfg0 1 (h.t0, f)
    let y := Tmr.tick cfg1 1 (h.t1, x.2)
    let r := Q.tick h.rest y.2
    ({ h with t0 := x.1, t1 := y.1, rest := r.1 }, guard y.2 r.2)
  dummyRd h := Q.dummyRd h.rest
  dummyWr h := { h with rest := Q.dummyWr h.rest }
  romDummy h := Q.romDummy h.rest
  sources h := Q.sources h.rest
  stopSelfjump := Q.stopSelfjump
  cmos := Q.cmos

end Ucsim.S51
