import Verif.Core.Pobj
import Verif.Spec.Ticker

/-
Model of the clock counters: cl_ticker (/repo/src/core/sim.src/uc.cc 71-96,
uccl.h 51-79), the table of cl_uc (uc.cc 3055-3181) and the timer commands
(/repo/src/core/cmd.src/cmd_timer.cc).  Simplifications: real time (double) is
left out; the value given to `timer set` is an `int`.
-/
namespace Ucsim
open Spec

/-- cl_uc::counters: a list of pointers to counters. -/
abbrev Counters := CList (Option Ticker)

/-- cl_ticker::tick, uc.cc 83-96. -/
def tickerTick (t : Ticker) (nr : Int) : Ticker :=
  if t.dir ≥ 0 then { t with ticks := t.ticks + BitVec.ofInt 64 nr } else { t with ticks := t.ticks - BitVec.ofInt 64 nr }

/-- Body of the loop of cl_uc::tick, uc.cc 3067-3075. -/
def tickOne (clocks : Int) (level : Int) (st : CpuState) : Option Ticker → Option Ticker
  | none => none
  | some t =>
    if t.run then
      if t.type = .any ∨ (level ≥ 0 ∧ t.type = .isr) ∨ (st = .idle ∧ t.type = .idle) ∨ (st = .pd ∧ t.type = .halt) then
        some (tickerTick t clocks)
      else some t
    else some t

/-- cl_uc::tick, uc.cc 3056-3081, for `clocks`= cycles * clock_per_cycle();
`level` is the level of the top of it_levels. -/
def Counters.tick (cs : Counters) (clocks level : Int) (st : CpuState) : Counters :=
  { cs with items := cs.items.map (tickOne clocks level st) }

/-- cl_uc::get_counter(int), uc.cc 3095-3101. -/
def Counters.getNr (cs : Counters) (nr : Int) : Out (Option Ticker) :=
  if nr ≥ cs.count then .ok none else CList.get cs nr

/-- The test of the name in get_counter and del_counter, uc.cc 3113-3115, 3170-3172. -/
def isNamed (nam : List Nat) : Option Ticker → Bool
  | none => false
  | some t => t.name = some nam

/-- cl_uc::get_counter(name), uc.cc 3103-3119. -/
def Counters.getName (cs : Counters) (nam : List Nat) : Option Ticker := (cs.items.find? (isNamed nam)).join

/-- `while (counters->count <= nr) counters->add(0)`, uc.cc 3124-3125; the first
argument bounds the turns. -/
def Counters.grow : Nat → Counters → Int → Out Counters
  | 0, _, _ => .ub
  | f + 1, cs, nr =>
    if (cs.count : Int) ≤ nr then
      match CList.add cs none with
      | .ok cs' => Counters.grow f cs' nr
      | .exit => .exit
      | .ub => .ub
    else .ok cs

/-- cl_uc::add_counter(ticker, int), uc.cc 3121-3127. -/
def Counters.addNr (cs : Counters) (t : Ticker) (nr : Int) : Out Counters :=
  match Counters.grow (nr.toNat + 2) cs nr with
  | .ok cs' => CList.putAt cs' nr (some t)
  | .exit => .exit
  | .ub => .ub

/-- The loop of add_counter(ticker, name), uc.cc 3136-3144: first free place from `i`. -/
def freeFrom (items : List (Option Ticker)) : Nat → Nat → Option Nat
  | 0, _ => none
  | f + 1, i =>
    match items[i]? with
    | none => none
    | some none => some i
    | some (some _) => freeFrom items f (i + 1)

/-- cl_uc::add_counter(ticker, name), uc.cc 3129-3146. -/
def Counters.addName (cs : Counters) (t : Ticker) : Out Counters :=
  match (if cs.count < 1 then CList.add cs none else .ok cs) with
  | .ok cs' =>
    match freeFrom cs'.items (cs'.count + 1) 1 with
    | some i => CList.putAt cs' i (some t)
    | none => CList.add cs' (some t)
  | .exit => .exit
  | .ub => .ub

/-- cl_uc::del_counter(int), uc.cc 3148-3158.  If there is a counter at 0, that
object is deleted although it stays on the list: undefined behaviour when it is
used next, modelled at once. -/
def Counters.delNr (cs : Counters) (nr : Int) : Out Counters :=
  if nr ≥ cs.count then .ok cs
  else match CList.get cs 0 with
    | .ok (some _) => if nr = 0 then CList.putAt cs nr none else .ub
    | .ok none => CList.putAt cs nr none
    | .exit => .exit
    | .ub => .ub

/-- cl_uc::del_counter(name), uc.cc 3160-3181. -/
def Counters.delName (cs : Counters) (nam : List Nat) : Out Counters :=
  match cs.items.findIdx? (isNamed nam) with
  | some i => CList.putAt cs i none
  | none => .ok cs

/-- Find the counter of a command, cl_timer_cmd::do_work, cmd_timer.cc 58-89:
`none`: error message for a number below 1. -/
def Counters.look (cs : Counters) : TId → Option (Out (Option Ticker))
  | .nr n => if n ≤ 0 then none else some (cs.getNr n)
  | .name s => some (.ok (cs.getName s))

/-- Assignment through the pointer found by the command. -/
def Counters.poke (cs : Counters) (f : Ticker → Ticker) : TId → Counters
  | .nr n => { cs with items := cs.items.modify n.toNat (Option.map f) }
  | .name s =>
    match cs.items.findIdx? (isNamed s) with
    | some i => { cs with items := cs.items.modify i (Option.map f) }
    | none => cs

/-- Commands that change a counter found, cmd_timer.cc 240-345. -/
def Counters.withTicker (cs : Counters) (id : TId) (f : Ticker → Ticker) : Out Counters :=
  match cs.look id with
  | none => .ok cs
  | some (.ok none) => .ok cs
  | some (.ok (some _)) => .ok (cs.poke f id)
  | some .exit => .exit
  | some .ub => .ub

/-- timer add (cmd_timer.cc 101-156) with the new object of uc.cc 71-79. -/
def Counters.addCmd (cs : Counters) (id : TId) (dir : Int) (ty : TType) : Out Counters :=
  match cs.look id with
  | none => .ok cs
  | some (.ok (some _)) => .ok cs
  | some (.ok none) =>
    match id with
    | .nr n => cs.addNr ⟨none, dir, ty, true, true, 0#64⟩ n
    | .name s => cs.addName ⟨some s, dir, ty, true, true, 0#64⟩
  | some .exit => .exit
  | some .ub => .ub

/-- timer delete, cmd_timer.cc 169-194. -/
def Counters.delCmd (cs : Counters) (id : TId) : Out Counters :=
  match cs.look id with
  | none => .ok cs
  | some (.ok none) => .ok cs
  | some (.ok (some t)) =>
    if t.user then
      match id with
      | .nr n => cs.delNr n
      | .name s => cs.delName s
    else .ok cs
  | some .exit => .exit
  | some .ub => .ub

/-- One step. -/
def Counters.step (cs : Counters) : TOp → Out Counters
  | .tick c isr st => .ok (cs.tick c (if isr then 0 else -1) st)
  | .add id dir ty => cs.addCmd id dir ty
  | .del id => cs.delCmd id
  | .start id => cs.withTicker id (fun t => { t with run := true })
  | .stop id => cs.withTicker id (fun t => { t with run := false })
  | .set id v => cs.withTicker id (fun t => { t with ticks := BitVec.ofInt 64 v })

def Counters.run (cs : Counters) : List TOp → Out Counters
  | [] => .ok cs
  | o :: os =>
    match cs.step o with
    | .ok cs' => Counters.run cs' os
    | .exit => .exit
    | .ub => .ub

/-- The built-in counters, uc.cc 657-665 (names "time", "isr", "idle", "halt"). -/
def builtin : List Ticker :=
  [⟨some [116, 105, 109, 101], 1, .any, true, false, 0#64⟩, ⟨some [105, 115, 114], 1, .isr, true, false, 0#64⟩,
   ⟨some [105, 100, 108, 101], 1, .idle, true, false, 0#64⟩, ⟨some [104, 97, 108, 116], 1, .halt, true, false, 0#64⟩]

/-- add_counter of each. -/
def addAll : List Ticker → Counters → Out Counters
  | [], cs => .ok cs
  | t :: ts, cs =>
    match cs.addName t with
    | .ok cs' => addAll ts cs'
    | .exit => .exit
    | .ub => .ub

/-- The table of a new simulator, uc.cc 657-665. -/
def Counters.new : Out Counters := addAll builtin ⟨[], 2, 2⟩

end Ucsim
