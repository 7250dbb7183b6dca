/-
Specification of the clock counters (timer commands): a finite map from numbers
to counters.
-/
namespace Ucsim.Spec

/-- What clocks a counter counts: all, those in interrupt service, in idle mode, in
power down mode. -/
inductive TType | any | isr | idle | halt
deriving DecidableEq, Repr

/-- State of the CPU. -/
inductive CpuState | go | idle | pd
deriving DecidableEq, Repr

/-- A counter; `name` is the list of character codes; `ticks` is 64 bit. -/
structure Ticker where
  name : Option (List Nat)
  dir : Int
  type : TType
  run : Bool
  user : Bool
  ticks : BitVec 64
deriving DecidableEq, Repr

/-- How a command names a counter. -/
inductive TId
  | nr (n : Int)
  | name (s : List Nat)
deriving DecidableEq, Repr

/-- `tick c isr st`: `c` clocks pass, in interrupt service or not, in CPU state
`st`.  The others are the timer commands. -/
inductive TOp
  | tick (clocks : Int) (isr : Bool) (st : CpuState)
  | add (id : TId) (dir : Int) (ty : TType)
  | del (id : TId)
  | start (id : TId)
  | stop (id : TId)
  | set (id : TId) (v : Int)

/-- The clocks are of the kind the counter counts. -/
def TType.counts (ty : TType) (isr : Bool) (st : CpuState) : Bool :=
  match ty with
  | .any => true
  | .isr => isr
  | .idle => st = .idle
  | .halt => st = .pd

/-- Clocks pass for a counter. -/
def Ticker.pass (t : Ticker) (c : Int) (isr : Bool) (st : CpuState) : Ticker :=
  if t.run && t.type.counts isr st then
    { t with ticks := if t.dir ≥ 0 then t.ticks + BitVec.ofInt 64 c else t.ticks - BitVec.ofInt 64 c }
  else t

/-- The counters by number. -/
abbrev TMap := Nat → Option Ticker

/-- The identifier names this counter of this number. -/
def TId.names (id : TId) (n : Nat) (t : Ticker) : Prop :=
  match id with
  | .nr k => k = n ∧ 1 ≤ n
  | .name s => t.name = some s

/-- Change one number of the map. -/
def TMap.upd (m : TMap) (n : Nat) (x : Option Ticker) : TMap := fun k => if k = n then x else m k

/-- A new counter. -/
def newTicker (id : TId) (dir : Int) (ty : TType) : Ticker :=
  ⟨match id with | .nr _ => none | .name s => some s, dir, ty, true, true, 0#64⟩

/-- The identifier refers to an existing counter, and the map changes there by `f`; or
it refers to none, and the map does not change. -/
def TMap.change (m m' : TMap) (id : TId) (f : Ticker → Option Ticker) : Prop :=
  (∃ n t, m n = some t ∧ id.names n t ∧ m' = m.upd n (f t)) ∨ ((∀ n t, m n = some t → ¬ id.names n t) ∧ m' = m)

/-- One step of the specification. -/
def TMap.step (m m' : TMap) : TOp → Prop
  | .tick c isr st => m' = fun n => (m n).map (fun t => t.pass c isr st)
  | .add id dir ty =>
    ((∃ n t, m n = some t ∧ id.names n t) ∧ m' = m) ∨
    ((∀ n t, m n = some t → ¬ id.names n t) ∧
      match id with
      | .nr k => if k ≤ 0 then m' = m else m' = m.upd k.toNat (some (newTicker id dir ty))
      | .name _ => ∃ n, 1 ≤ n ∧ m n = none ∧ m' = m.upd n (some (newTicker id dir ty)))
  | .del id => m.change m' id (fun t => if t.user then none else some t)
  | .start id => m.change m' id (fun t => some { t with run := true })
  | .stop id => m.change m' id (fun t => some { t with run := false })
  | .set id v => m.change m' id (fun t => some { t with ticks := BitVec.ofInt 64 v })

/-- Steps one after the other. -/
def TMap.steps : TMap → List TOp → TMap → Prop
  | m, [], m' => m' = m
  | m, o :: os, m' => ∃ m1, m.step m1 o ∧ TMap.steps m1 os m'

/-- The identifier names the counter of this number and name. -/
def TId.hits (id : TId) (n : Nat) (nam : Option (List Nat)) : Bool :=
  match id with
  | .nr k => k = n
  | .name s => nam = some s

/-- The clocks a counter (number, name, kind) has seen while it was running and while the
clocks were of its kind; and if it is running at the end. -/
def seen (n : Nat) (nam : Option (List Nat)) (ty : TType) : Bool → List TOp → Int × Bool
  | r, [] => (0, r)
  | r, .tick c isr st :: os =>
    ((if r && ty.counts isr st then c else 0) + (seen n nam ty r os).1, (seen n nam ty r os).2)
  | r, .start id :: os => seen n nam ty (r || id.hits n nam) os
  | r, .stop id :: os => seen n nam ty (r && !id.hits n nam) os
  | r, _ :: os => seen n nam ty r os

/-- No operation deletes this counter or sets its value. -/
def leaves (n : Nat) (nam : Option (List Nat)) : TOp → Bool
  | .del id => !id.hits n nam
  | .set id _ => !id.hits n nam
  | _ => true

end Ucsim.Spec
