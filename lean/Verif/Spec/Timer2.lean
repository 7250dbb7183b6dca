/-
Timer 2 as the manual (Philips/Intel 80C52, 80C51 family hardware description) describes it.  Values are natural
numbers below 65536.
-/
namespace Ucsim.S51.Tim2.Spec

inductive Mode
  | capture
  | reload
  /-- auto-reload, DCEN set: up or down by the level of T2EX -/
  | updown (up : Bool)
  | baud
  deriving DecidableEq

structure Reg where
  val : Nat
  rc : Nat
  tf : Bool
  exf : Bool
  deriving DecidableEq

/-- One count. -/
def count : Mode → Reg → Reg
  | .capture, r => if r.val = 65535 then { r with val := 0, tf := true } else { r with val := r.val + 1 }
  | .reload, r => if r.val = 65535 then { r with val := r.rc, tf := true } else { r with val := r.val + 1 }
  | .baud, r => if r.val = 65535 then { r with val := r.rc } else { r with val := r.val + 1 }
  | .updown true, r => if r.val = 65535 then { r with val := r.rc, tf := true, exf := !r.exf } else { r with val := r.val + 1 }
  | .updown false, r => if r.val = r.rc then { r with val := 65535, tf := true, exf := !r.exf }
                        else if r.val = 0 then { r with val := 65535 } else { r with val := r.val - 1 }

def counts (m : Mode) : Nat → Reg → Reg
  | 0, r => r
  | n + 1, r => counts m n (count m r)

/-- T2EX fell while EXEN2 was set. -/
def external : Mode → Reg → Reg
  | .capture, r => { r with rc := r.val, exf := true }
  | .reload, r => { r with val := r.rc, exf := true }
  | .baud, r => { r with exf := true }
  | .updown _, r => r

/-- A machine cycle: `edges` falling edges were seen at T2, T2EX `fell`. -/
def cycle (m : Mode) (tr ct exen : Bool) (edges : Nat) (fell : Bool) (r : Reg) : Reg :=
  let r := if exen && fell then external m r else r
  if tr then counts m (if ct then edges else if m = .baud then 6 else 1) r else r

/-- Counting up from `x` with reload value `rc`, `n` counts: the value and how many overflows. -/
def upN (rc x n : Nat) : Nat × Nat :=
  if x + n < 65536 then (x + n, 0)
  else (rc + (x + n - 65536) % (65536 - rc), 1 + (x + n - 65536) / (65536 - rc))

/-- How many times a line at level `a` falls when it takes these levels. -/
def falls : Bool → List Bool → Nat
  | _, [] => 0
  | a, b :: l => (if a && !b then 1 else 0) + falls b l

end Ucsim.S51.Tim2.Spec
