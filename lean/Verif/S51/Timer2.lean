import Verif.S51.Serial

/-
Model of timer 2 of the 8052: /repo/src/sims/s51.src/timer2.cc (cl_timer2; made with the features
t2_default|t2_down, uc52.cc 64, so the clock-out mode does not occur), with the part of port 1 it listens
to (port.cc 152-191, 232-250).  Simplified: the timer is on; overflows passed on to the serial line are
counted; the members are initialised as by the reset at the start (bit_dcen is not initialised by the code).
-/
namespace Ucsim.S51.Tim2

abbrev Byte := BitVec 8

/-- T2MODE_RELOAD, CAPTURE, BAUDRATE, DOWN (T2MODE_OFF is never set), timer2cl.h 40-45 -/
inductive Md
  | reload | capture | baud | down
  deriving DecidableEq, Repr

structure T2 where
  /-- the registers T2CON, TL2, TH2, RCAP2L, RCAP2H -/
  con : Byte
  tl : Byte
  th : Byte
  rl : Byte
  rh : Byte
  /-- latch of port 1 and the level outside -/
  latch : Byte
  pins : Byte
  /-- members, timer0cl.h 40-60, timer2cl.h 54-66 -/
  mode : Md
  ct : Bool
  tr : Bool
  rclk : Bool
  tclk : Bool
  cprl : Bool
  exen : Bool
  edge : Nat
  exEdge : Nat
  ex : Bool
  dcen : Bool
  /-- EV_OVERFLOW sent so far -/
  ovf : Nat

/-- timer2.cc 142-145 -/
def restart (oldmode : Md) (oldtr : Bool) (t : T2) : T2 :=
  if t.mode ≠ oldmode ∨ t.tr ≠ oldtr then { t with edge := 0, exEdge := 0 } else t

/-- cl_timer2::write, timer2.cc 84-121: T2CON gets the value `n`. -/
def wrCon (n : Byte) (t : T2) : T2 :=
  restart t.mode t.tr
    { t with
      con := n
      ct := n &&& 0x02#8 != 0#8
      tr := n &&& 0x04#8 != 0#8
      rclk := n &&& 0x20#8 != 0#8
      tclk := n &&& 0x10#8 != 0#8
      cprl := n &&& 0x01#8 != 0#8
      exen := n &&& 0x08#8 != 0#8
      mode := if n &&& 0x20#8 != 0#8 || n &&& 0x10#8 != 0#8 then .baud
              else if n &&& 0x01#8 != 0#8 then .capture else .reload }

/-- timer2.cc 91-99: a bit of T2CON is written. -/
def wrBit (i : Nat) (b : Bool) (t : T2) : T2 :=
  wrCon (if b then t.con ||| (1#8 <<< i) else t.con &&& ~~~(1#8 <<< i)) t

/-- timer2.cc 123-138: T2MOD is written. -/
def wrMod (v : Byte) (t : T2) : T2 :=
  let d := v &&& 0x01#8 != 0#8
  restart t.mode t.tr { t with dcen := d, mode := if d && t.mode = .reload then .down else t.mode }

/-- `if (!cell_tl->set(cell_tl->get()+1)) if (!cell_th->set(cell_th->get()+1))`: count up; did it overflow? -/
def up (t : T2) : Bool × T2 :=
  let l := t.tl + 1#8
  if l = 0#8 then
    let h := t.th + 1#8
    (h = 0#8, { t with tl := l, th := h })
  else (false, { t with tl := l })

def reload (t : T2) : T2 := { t with th := t.rh, tl := t.rl }

/-- body of the loop of do_t2_baud, timer2.cc 191-200 -/
def baud1 (t : T2) : T2 :=
  let r := up t
  if r.1 then { reload r.2 with ovf := r.2.ovf + 1 } else r.2

/-- `while (n--)` -/
def loop (f : T2 → T2) : Nat → T2 → T2
  | 0, t => t
  | n + 1, t => loop f n (f t)

/-- `if (EXEN2 && t2ex_edge)`: f, then the edge is forgotten -/
def onEx (f : T2 → T2) (t : T2) : T2 := if t.exen = true ∧ t.exEdge ≠ 0 then { f { t with con := t.con ||| 0x40#8 } with exEdge := 0 } else t

/-- do_t2_baud, timer2.cc 174-203 -/
def baud (t : T2) : T2 :=
  let t := onEx id t
  if t.tr = false then t
  else if t.ct then loop baud1 t.edge { t with edge := 0 }
  else loop baud1 6 t

/-- do_t2_capture, timer2.cc 210-233; the number of edges is not used. -/
def capture (t : T2) : T2 :=
  let t := onEx (fun t => { t with rh := t.th, rl := t.tl }) t
  if t.tr = false then t
  else
    let t := if t.ct then { t with edge := 0 } else t
    let r := up t
    if r.1 then { r.2 with con := r.2.con ||| 0x80#8 } else r.2

/-- do_t2_reload, timer2.cc 240-267 -/
def reloadUp (t : T2) : T2 :=
  let t := onEx reload t
  if t.tr = false then t
  else
    let t := if t.ct then { t with edge := 0 } else t
    let r := up t
    if r.1 then reload { r.2 with con := r.2.con ||| 0x80#8 } else r.2

/-- do_t2_down, timer2.cc 280-293: one count up; was there an overflow? -/
def down1up (x : Bool × T2) : Bool × T2 :=
  let r := up x.2
  if r.1 then (true, reload { r.2 with con := r.2.con ||| 0x80#8 }) else (x.1, r.2)

/-- do_t2_down, timer2.cc 295-312: one count down -/
def down1 (x : Bool × T2) : Bool × T2 :=
  let t := x.2
  let l := t.tl - 1#8
  let h := if l = 0xff#8 then t.th - 1#8 else t.th
  if h.toNat * 256 + l.toNat < t.rh.toNat * 256 + t.rl.toNat then
    (true, { t with con := t.con ||| 0x80#8, th := 0xff#8, tl := 0xff#8 })
  else (x.1, { t with tl := l, th := h })

def loop2 (f : Bool × T2 → Bool × T2) : Nat → Bool × T2 → Bool × T2
  | 0, t => t
  | n + 1, t => loop2 f n (f t)

/-- do_t2_down, timer2.cc 269-321; at the end bmEXF2 (0x40) of P1 is changed. -/
def downUp (t : T2) : T2 :=
  if t.tr = false then t
  else
    let n := if t.ct then t.edge else 1
    let t := if t.ct then { t with edge := 0 } else t
    let r := loop2 (if t.ex then down1up else down1) n (false, t)
    if r.1 then { r.2 with latch := r.2.latch ^^^ 0x40#8 } else r.2

/-- cl_timer2::tick, timer2.cc 148-171, one machine cycle -/
def tick (t : T2) : T2 :=
  match t.mode with
  | .baud => baud t
  | .capture => capture t
  | .reload => reloadUp t
  | .down => downUp t

/-- cl_timer2::happen, timer2.cc 359-378; port 1 showed `old` and shows `new`. -/
def port (old new : Byte) (t : T2) : T2 :=
  { t with
    edge := if new &&& 0x01#8 = 0#8 ∧ old &&& 0x01#8 ≠ 0#8 then t.edge + 1 else t.edge
    exEdge := if new &&& 0x02#8 = 0#8 ∧ old &&& 0x02#8 ≠ 0#8 then t.exEdge + 1 else t.exEdge
    ex := new &&& 0x02#8 != 0#8 }

/-- P1 is written, port.cc 152-191. -/
def wrP1 (v : Byte) (t : T2) : T2 :=
  if t.latch = v then t else { port (t.pins &&& t.latch) (t.pins &&& v) t with latch := v }

/-- The pins of port 1 change, port.cc 232-250. -/
def setPins (v : Byte) (t : T2) : T2 :=
  if t.pins = v then t else { port (t.pins &&& t.latch) (v &&& t.latch) t with pins := v }

/-- Reset: all registers get 0 without `write` (uc51.cc 1571-1572), then P1 (1574) and the registers of the timer (uc52.cc
126-135) are written. -/
def reset (t : T2) : T2 :=
  let t := wrCon 0 (wrP1 0xff { t with latch := 0, con := 0 })
  { t with th := 0, tl := 0, rl := 0, rh := 0 }

inductive Ev
  | wrCon (v : Byte) | wrBit (i : Fin 8) (b : Bool) | wrMod (v : Byte)
  | wrTl (v : Byte) | wrTh (v : Byte) | wrRl (v : Byte) | wrRh (v : Byte)
  | wrP1 (v : Byte) | pins (v : Byte)
  | tick | reset
  deriving DecidableEq, Repr

def ev (t : T2) : Ev → T2
  | .wrCon v => wrCon v t
  | .wrBit i b => wrBit i b t
  | .wrMod v => wrMod v t
  | .wrTl v => { t with tl := v }
  | .wrTh v => { t with th := v }
  | .wrRl v => { t with rl := v }
  | .wrRh v => { t with rh := v }
  | .wrP1 v => wrP1 v t
  | .pins v => setPins v t
  | .tick => tick t
  | .reset => reset t

def run (t : T2) (h : List Ev) : T2 := h.foldl ev t

/-- After the reset at the start. -/
def start : T2 :=
  { con := 0, tl := 0, th := 0, rl := 0, rh := 0, latch := 0xff, pins := 0xff, mode := .reload, ct := false, tr := false
    rclk := false, tclk := false, cprl := false, exen := false, edge := 0, exEdge := 0, ex := true, dcen := false, ovf := 0 }

end Ucsim.S51.Tim2
