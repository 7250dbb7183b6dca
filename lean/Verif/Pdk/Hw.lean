import Verif.Spec.PdkHw
/-
The timer T16 (t16.cc) and the watchdog (wdt.cc) of the PADAUK simulator.

Simplifications: an oscillator (a double, osc.cc 181-192) is given by the whole number of its periods
so far, as `(t_mem)(*src)` reads it, below 2^32; the configuration cells and the display are left out.
-/
namespace Ucsim.Pdk.Hw

/-- cl_t16, t16cl.h 45-52, and the values of its cells: mod (io 6), edg (io 0xc), irq (io 5) -/
structure T16 where
  mod : BitVec 8
  edg : BitVec 8
  irq : BitVec 8
  cnt : BitVec 16
  mask : BitVec 16
  div : BitVec 32
  pre : BitVec 32
  last : BitVec 32
  src : Clk

/-- `*src` (cl_osc::sys, ihrc, eosc, ilrc read as t_mem, osc.cc 181-192), with src chosen in cl_t16::recalc, t16.cc 78-88; `none` when src is NULL -/
def srcVal (o : Osc) : Clk → Option (BitVec 32)
  | .sys => some o.sys
  | .ihrc => some o.ihrc
  | .eosc => some o.eosc
  | .ilrc => some o.ilrc
  | _ => none

/-- the first switch of cl_t16::recalc, t16.cc 78-88 -/
def selSrc (v : BitVec 8) : Clk :=
  match ((v >>> 5) &&& 7).toNat with
  | 0 => .stop
  | 1 => .sys
  | 2 => .stop
  | 3 => .pin
  | 4 => .ihrc
  | 5 => .eosc
  | 6 => .ilrc
  | _ => .pin

/-- cl_t16::set_div, t16.cc 96-107 -/
def setDiv (v : BitVec 8) : BitVec 32 :=
  match ((v >>> 3) &&& 3).toNat with
  | 0 => 1
  | 1 => 4
  | 2 => 16
  | _ => 64

/-- cl_t16::recalc, t16.cc 74-94 -/
def recalc (o : Osc) (t : T16) : T16 :=
  let s := selSrc t.mod
  { t with src := s, div := setDiv t.mod, mask := 1 <<< ((t.mod &&& 7).toNat + 8), pre := 0, last := (srcVal o s).getD t.last }

/-- cl_t16::reset, t16.cc 65-72 -/
def reset (o : Osc) (t : T16) : T16 := recalc o { t with cnt := 0, last := 0, mod := 0 }

/-- cl_t16::write of the cell mod, t16.cc 109-121 and 128 -/
def writeMod (o : Osc) (v : BitVec 8) (t : T16) : T16 :=
  let t := if v ≠ t.mod then recalc o { t with mod := v } else t
  { t with mod := v }

/-- `int d= act - last; if (d<0) d= -d;`, t16.cc 160-161, wdt.cc 146-147 -/
def dist (act last : BitVec 32) : BitVec 32 :=
  let d := act - last
  if d.slt 0 then -d else d

/-- cl_t16::tick, t16.cc 152-186 -/
def tick (o : Osc) (t : T16) : T16 :=
  match srcVal o t.src with
  | none => t
  | some act =>
    if act ≠ t.last then
      let d := dist act t.last
      let t' :=
        if d ≠ 0 then
          let pre := t.pre + d
          let i := pre / t.div
          if i ≠ 0 then
            let cnt := t.cnt + i.setWidth 16
            let irq :=
              if t.cnt &&& t.mask ≠ cnt &&& t.mask then
                let edge := t.edg &&& 0x10
                if (edge ≠ 0 ∧ cnt &&& t.mask = 0) ∨ (edge = 0 ∧ cnt &&& t.mask ≠ 0) then t.irq ||| 4 else t.irq
              else t.irq
            { t with pre := pre % t.div, cnt := cnt, irq := irq }
          else { t with pre := pre }
        else t
      { t' with last := act }
    else t

/-- ticks at the given states of the oscillators -/
def ticks (os : List Osc) (t : T16) : T16 := os.foldl (fun t o => tick o t) t

/-- cl_wdt, wdtcl.h 45-50, and the values of its cells: mod (io 3, CLKMD), misc (io 0x49) -/
structure Wdt where
  mod : BitVec 8
  misc : BitVec 8
  run : Bool
  cnt : BitVec 32
  len : BitVec 32
  last : BitVec 32

/-- cl_wdt::set_len, wdt.cc 79-90 -/
def setLen (v : BitVec 8) : BitVec 32 :=
  match (v &&& 3).toNat with
  | 0 => 8192
  | 1 => 16384
  | 2 => 65536
  | _ => 262144

/-- cl_wdt::recalc, wdt.cc 71-77 -/
def wRecalc (ilrc : BitVec 32) (w : Wdt) : Wdt :=
  { w with run := decide (w.mod &&& 2 ≠ 0), len := setLen w.misc, last := ilrc }

/-- cl_wdt::reset, wdt.cc 62-69 -/
def wReset (ilrc : BitVec 32) (w : Wdt) : Wdt := wRecalc ilrc { w with cnt := 0, last := 0, mod := 0 }

/-- cl_wdt::write of the cell mod, wdt.cc 92-104 and 116 -/
def wWriteMod (ilrc : BitVec 32) (v : BitVec 8) (w : Wdt) : Wdt :=
  let w := if v ≠ w.mod then wRecalc ilrc { w with mod := v } else w
  { w with mod := v }

/-- cl_wdt::write of the cell misc, wdt.cc 105-112 and 116 -/
def wWriteMisc (ilrc : BitVec 32) (v : BitVec 8) (w : Wdt) : Wdt :=
  let w := if v ≠ w.misc then wRecalc ilrc { w with misc := v } else w
  { w with misc := v }

/-- cl_wdt::clear, wdtcl.h 59, called by wdreset -/
def wClear (w : Wdt) : Wdt := { w with cnt := 0 }

/-- cl_wdt::tick, wdt.cc 140-157: whether the chip is reset, and the watchdog afterwards. Of
puc->reset() only the own part, cl_wdt::reset, is here. -/
def wTick (ilrc : BitVec 32) (w : Wdt) : Bool × Wdt :=
  if w.run = true ∧ ilrc ≠ w.last then
    let d := dist ilrc w.last
    let r : Bool × Wdt :=
      if d ≠ 0 then
        let w := { w with cnt := w.cnt + d }
        if w.len.ult w.cnt then (true, wReset ilrc w) else (false, w)
      else (false, w)
    (r.1, { r.2 with last := ilrc })
  else (false, w)

/-- the events in their order: whether a tick reset the chip (then the rest is not looked at).
A write comes before the next tick, ILRC is then where it was at the latest tick, osc.cc 181-192. -/
def wRun : List Ev → Wdt → Bool × Wdt
  | [], w => (false, w)
  | .clear :: l, w => wRun l (wClear w)
  | .clkmd v :: l, w => wRun l (wWriteMod w.last v w)
  | .tick i :: l, w =>
    let r := wTick i w
    if r.1 then r else wRun l r.2

end Ucsim.Pdk.Hw
