import Verif.Vcd.Model
/-
What a value change dump means (IEEE 1364, 18.2), stated without the functions of the model, and
the clock of a dump.
-/
namespace Ucsim.Vcd.Spec

/-- A binary number, none when a digit is not 0 or 1 (x, z). -/
def num : List Char → Nat → Option Nat
  | [], n => some n
  | '0' :: l, n => num l (2 * n)
  | '1' :: l, n => num l (2 * n + 1)
  | _ :: _, _ => none

/-- A reader of a dump that takes note of the changes up to the time `T`.  `vec`: the digits of a
vector whose identifier follows; `com`: inside a $comment section; `val`: none before the first
change, some none: unknown. -/
structure Rd where
  time : Nat
  vec : Option (List Char)
  com : Bool
  val : Char → Option (Option Nat)

def Rd.change (T : Nat) (r : Rd) (id : Char) (v : Option Nat) : Rd :=
  if r.time ≤ T then { r with val := fun i => if i = id then some v else r.val i } else r

def Rd.word (T : Nat) (r : Rd) : Word → Rd
  | .stamp t => { r with time := t }
  | .txt w =>
    if r.com then (if w = "$end".toList then { r with com := false } else r)
    else match r.vec with
      | some ds => { r.change T (w.headD ' ') (num ds 0) with vec := none }
      | none => match w with
        | '$' :: k => if k = "comment".toList then { r with com := true } else r
        | 'b' :: ds => { r with vec := some ds }
        | [d, id] => r.change T id (num [d] 0)
        | _ => r

/-- The value of the variable `id` at the time `T` of the dump, after all the changes up to and at
that time. -/
def valueAt (T : Nat) (file : List Word) (id : Char) : Option (Option Nat) :=
  (file.foldl (Rd.word T) { time := 0, vec := none, com := false, val := fun _ => none }).val id

/-- The bits `hi` to `lo` of a number. -/
def field (hi lo v : Nat) : Nat := v / 2 ^ lo % 2 ^ (hi + 1 - lo)

/-- The clock of a dump whose pauses are shortened to `lim` when they are longer.  `at`: the time
of the dump at the last start or pause; `el`: the time since then. -/
structure Clock where
  base : Nat
  el : Nat
  paused : Bool

def Clock.time (lim : Option Nat) (k : Clock) : Nat :=
  k.base + if k.paused then (match lim with
    | none => k.el
    | some p => min k.el p) else k.el

def Clock.step (lim : Option Nat) (k : Clock) : Op → Clock
  | .adv n => { k with el := k.el + n }
  | .start => if k.paused then { base := k.time lim, el := 0, paused := false } else k
  | .pause => { base := k.time lim, el := 0, paused := !k.paused }
  | _ => k

def clock (lim : Option Nat) (h : List Op) : Clock := h.foldl (Clock.step lim) { base := 0, el := 0, paused := false }

/-- The two cells have no data in common. -/
def Apart (W : World) (c c' : Nat) : Prop :=
  W.slot c ≠ W.slot c' ∨ ∃ b b', W.bit c = some b ∧ W.bit c' = some b' ∧ b ≠ b'

/-- A variable of a cell whose operators were all there when the variable was added, inside of a
cell that can be written. -/
structure Watchable (W : World) (x : Var) : Prop where
  rw : W.ro x.cell = false
  last : ∀ v, W.post x.cell v = v
  lohi : x.lo ≤ x.hi
  inside : x.hi < W.width x.cell
  small : W.width x.cell ≤ 32
  bit : W.width x.cell = 1 ↔ ∃ b, W.bit x.cell = some b

/-- What is recorded: the watched cells change only by being written themselves, those of one bit
with 0 or 1. -/
def Recorded (W : World) (vars : List Var) : Op → Prop
  | .write c v => ∀ x ∈ vars, (x.cell = c ∧ (W.width c = 1 → v ≤ 1)) ∨ Apart W x.cell c
  | .set c _ => ∀ x ∈ vars, Apart W x.cell c
  | _ => True

/-- `h2` does not begin before the clock of the dump has passed its value after `h1`. -/
def Later (lim : Option Nat) (h1 h2 : List Op) : Prop :=
  h2 = [] ∨ ∃ n l, h2 = .adv n :: l ∧ (clock lim h1).time lim < (clock lim (h1 ++ [.adv n])).time lim

/-- A recording without pauses. -/
def NoPause (h : List Op) : Prop := ∀ op ∈ h, op ≠ .pause

/-- The watched cells have no data in common. -/
def AllApart (W : World) (vars : List Var) : Prop := ∀ x ∈ vars, ∀ y ∈ vars, x.cell = y.cell ∨ Apart W x.cell y.cell

/-- `h1` is what happened before the time `T` of the dump, `h2` the rest of the history. -/
def Before (T : Nat) (h1 h2 : List Op) : Prop :=
  (clock none h1).time none < T ∧ (h2 = [] ∨ ∃ n l, h2 = .adv n :: l ∧ T ≤ (clock none (h1 ++ [.adv n])).time none)

/-- A recorder whose variables have been added, before `start`. -/
structure Ready (s : St) : Prop where
  started : s.started = false
  starttime : s.starttime = 0
  event : s.event = 0
  file : s.file = []
  ids : (s.vars.map Var.id).Nodup

end Ucsim.Vcd.Spec
