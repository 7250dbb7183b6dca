import Verif.Spec.Misc16
/-
The Extended MISC16, from the table in em.cc: the MISC16 with a pointer P and three more addresses.
-/
namespace Ucsim.Em
open Ucsim.Misc (Word Src Dst srcOf dstOf val put upd)

@[ext] structure S where
  s : Misc.S
  P : Word

inductive ESrc | base (x : Src) | p | pop | inc deriving DecidableEq
inductive EDst | base (y : Dst) | p | push | inc deriving DecidableEq

def esrcOf (a : Word) : Option ESrc :=
  if a = 5 then some .p else if a = 6 then some .pop else if a = 10 then some .inc else (srcOf a).map .base

def edstOf (a : Word) : Option EDst :=
  if a = 5 then some .p else if a = 6 then some .push else if a = 10 then some .inc else (dstOf a).map .base

/-- what a source gives, and the state then: `[P++]` and `[A++]` move the pointer -/
def eval (e : S) : ESrc → Option (Word × S)
  | .base x => (val e.s x).map fun v => (v, e)
  | .p => some (e.P, e)
  | .pop => if 16 ≤ e.P.toNat then some (e.s.ram e.P, { e with P := e.P + 1 }) else none
  | .inc => if 16 ≤ e.s.A.toNat then some (e.s.ram e.s.A, { e with s := { e.s with A := e.s.A + 1 } }) else none

def eput (e : S) (v : Word) : EDst → Option S
  | .base y => (put e.s v y).map fun s' => { e with s := s' }
  | .p => some { e with P := v }
  | .push => if 16 ≤ (e.P - 1).toNat then some { s := { e.s with ram := upd e.s.ram (e.P - 1) v }, P := e.P - 1 } else none
  | .inc => if 16 ≤ e.s.A.toNat then some { e with s := { e.s with A := e.s.A + 1, ram := upd e.s.ram e.s.A v } } else none

def estep (e : S) : Option S :=
  if 16 ≤ e.s.PC.toNat ∧ e.s.PC.toNat + 1 < 65536 then
    (esrcOf (e.s.ram e.s.PC)).bind fun a => (edstOf (e.s.ram (e.s.PC + 1))).bind fun d =>
      (eval e a).bind fun r => eput { r.2 with s := { r.2.s with PC := r.2.s.PC + 2 } } r.1 d
  else none

def erun : Nat → S → Option S
  | 0, e => some e
  | n + 1, e => (estep e).bind (erun n)

end Ucsim.Em
