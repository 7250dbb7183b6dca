import Verif.Spec.Hist

/-
Model of the execution history: cl_exec_hist, /repo/src/core/sim.src/uc.cc
377-517, uccl.h 229-254.  Simplification: `nr` of an element (int) does not
overflow.
-/
namespace Ucsim

/-- Length of the ring, uc.cc 381. -/
abbrev histLen : Nat := 10001

/-- cl_exec_hist, uccl.h 235-254.  `el i` is hist[i] (address, number of times);
what malloc returned is arbitrary. -/
structure Hist where
  h : Nat
  t : Nat
  el : Nat → Nat × Nat

/-- Constructor, uc.cc 377-384. -/
def Hist.new (junk : Nat → Nat × Nat) : Hist := ⟨0, 0, junk⟩

/-- `hist[i]= x`. -/
def Hist.store (s : Hist) (i : Nat) (x : Nat × Nat) : Nat → Nat × Nat := fun j => if j = i then x else s.el j

/-- cl_exec_hist::put, uc.cc 398-419. -/
def Hist.put (s : Hist) (pc : Nat) : Hist :=
  if s.t ≠ s.h ∧ (s.el s.h).1 = pc then { s with el := s.store s.h ((s.el s.h).1, (s.el s.h).2 + 1) }
  else
    let nh := (s.h + 1) % histLen
    let t := if s.t = nh then (s.t + 1) % histLen else s.t
    ⟨nh, t, s.store nh (pc, 1)⟩

/-- cl_exec_hist::get_used, uc.cc 489-497. -/
def Hist.used (s : Hist) : Nat := if s.t = s.h then 0 else if s.h > s.t then s.h - s.t else histLen - s.t + s.h

/-- The loop of keep, uc.cc 484-485; the first argument bounds the turns. -/
def Hist.keepLoop : Nat → Hist → Int → Option Hist
  | 0, _, _ => none
  | f + 1, s, nr => if s.used > nr then Hist.keepLoop f { s with t := (s.t + 1) % histLen } nr else some s

/-- cl_exec_hist::keep, uc.cc 478-486 (clear is keep(0), uccl.h 248).  `none`: would not end. -/
def Hist.keep (s : Hist) (nr : Int) : Option Hist :=
  let nr := if nr < 0 then 0 else nr
  if s.t = s.h then some s else Hist.keepLoop (histLen + 1) s nr

/-- The loop of list with inc, uc.cc 437-474.  `none`: hist[p] outside of the
array, or would not end. -/
def Hist.incLoop (s : Hist) : Nat → Int → Option (List (Nat × Nat))
  | 0, _ => none
  | f + 1, p =>
    if p < 0 ∨ p ≥ histLen then none
    else if p = s.h then some [s.el p.toNat]
    else (Hist.incLoop s f ((p + 1) % histLen)).map (fun l => s.el p.toNat :: l)

/-- The loop of list without inc, uc.cc 437-474. -/
def Hist.decLoop (s : Hist) (ta : Nat) : Nat → Nat → Option (List (Nat × Nat))
  | 0, _ => none
  | f + 1, p =>
    if p = ta then some [s.el p]
    else (Hist.decLoop s ta f (if p = 0 then histLen - 1 else (p - 1) % histLen)).map (fun l => s.el p :: l)

/-- cl_exec_hist::list, uc.cc 421-475: the elements printed, in order. -/
def Hist.list (s : Hist) (inc : Bool) (nr : Int) : Option (List (Nat × Nat)) :=
  if s.t = s.h then some []
  else
    let nr : Int := if nr > (histLen : Int) - 1 then (histLen : Int) - 1 else nr
    let nr := if nr > s.used then (s.used : Int) else nr
    let b := (s.h : Int) - nr + 1
    let b := if b < 0 then b + histLen else b
    let ta := (s.t + 1) % histLen
    if inc then s.incLoop (histLen + 1) b else s.decLoop ta (histLen + 1) s.h

/-- The loop of get_insts, uc.cc 507-514. -/
def Hist.instLoop (s : Hist) : Nat → Nat → Nat → Option Nat
  | 0, _, _ => none
  | f + 1, p, i =>
    let i := (i + (s.el p).2) % 4294967296
    if p = s.h then some i else Hist.instLoop s f ((p + 1) % histLen) i

/-- cl_exec_hist::get_insts, uc.cc 499-517. -/
def Hist.insts (s : Hist) : Option Nat := if s.t = s.h then some 0 else s.instLoop (histLen + 1) ((s.t + 1) % histLen) 0

open Spec in
/-- One happening. -/
def Hist.step (s : Hist) : HOp → Option Hist
  | .put pc => some (s.put pc)
  | .keep n => s.keep n

open Spec in
def Hist.run (s : Hist) : List HOp → Option Hist
  | [] => some s
  | o :: os => (s.step o).bind (fun s' => Hist.run s' os)

end Ucsim
