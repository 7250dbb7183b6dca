import Verif.Spec.Mem

/-
Specification of breakpoints: what the user of the break, tbreak, clear,
delete, run and next commands expects.  No cells, flags, operators or lists of
the program; every breakpoint is one record.
-/
namespace Ucsim.Spec

/-- What a breakpoint watches: instruction fetch, data read, data write, or a
kind that was mistyped (neither r nor w). -/
inductive BKind | fetch | rd | wr | other
deriving DecidableEq, Repr

/-- A breakpoint: the `uid`-th one made, with number `nr` on the listing; it is
to stop at every `hit`-th event (`seen` events so far) at which the condition,
if any, holds; a temporary one goes away when it stops. -/
structure Bp where
  uid : Nat
  nr : Int
  kind : BKind
  mem : Nat
  addr : Nat
  temp : Bool
  hit : Int
  cond : Bool
  seen : Nat
deriving DecidableEq, Repr

/-- All the breakpoints, the last number given, how many were made so far, and
the event breakpoints that stopped the program (newest first). -/
structure BpSt where
  fetch : List Bp
  event : List Bp
  last : Int
  made : Nat
  log : List Nat

def BpSt.init : BpSt := ⟨[], [], 0, 0, []⟩

/-- Commands and happenings.  `arrive a c`: execution arrives at address `a`;
`c uid` is the value of the condition expression at that time.  `acc x c`: the
program accesses memory. -/
inductive BOp
  | brk (a : Nat) (hit : Int) (cond temp : Bool)
  | ev (k : BKind) (mem a : Nat) (hit : Int) (cond temp : Bool)
  | until_ (a : Nat)
  | clear (a : Nat)
  | delete (nr : Int)
  | deleteAll
  | arrive (a : Nat) (c : Nat → Bool)
  | acc (x : Act) (c : Nat → Bool)

/-- The `k`-th event is one at which a breakpoint of hit count `n` stops. -/
def due (n : Int) (k : Nat) : Bool := n ≤ 1 ∨ k % n.toNat = 0

/-- Number of the next breakpoint: restarts when there is none. -/
def BpSt.nextNr (s : BpSt) : Int := if s.fetch = [] ∧ s.event = [] then 1 else s.last + 1

/-- One more event seen. -/
def Bp.tick (b : Bp) : Bp := { b with seen := b.seen + 1 }

/-- Does the breakpoint stop the program at its next event? -/
def Bp.stops (b : Bp) (c : Nat → Bool) : Bool := due b.hit (b.seen + 1) && (!b.cond || c b.uid)

/-- The kind of event breakpoint an access is of interest to. -/
def accKind : Act → Option BKind
  | .read _ _ => some .rd
  | .write _ _ _ => some .wr
  | _ => none

/-- The breakpoint watches this access. -/
def Bp.watches (b : Bp) (x : Act) : Bool := accKind x = some b.kind ∧ x.loc = (b.mem, b.addr)

def BpSt.addFetch (s : BpSt) (rom a : Nat) (hit : Int) (cond temp : Bool) : BpSt :=
  { s with
    fetch := s.fetch ++ [⟨s.made, s.nextNr, .fetch, rom, a, temp, hit, cond, 0⟩]
    last := s.nextNr
    made := s.made + 1 }

/-- One step; `rom` is the code memory, `inside sp a` says that the memory `sp`
has a location `a`.  The second component: execution stops here. -/
def bpStep (rom : Nat) (inside : Nat → Nat → Bool) (s : BpSt) : BOp → BpSt × Bool
  | .brk a hit cond temp =>
    if hit > 99999 ∨ ∃ b ∈ s.fetch, b.addr = a then (s, false)
    else (s.addFetch rom a hit cond temp, false)
  | .until_ a =>
    if ∃ b ∈ s.fetch, b.addr = a then (s, false) else (s.addFetch rom a 1 false true, false)
  | .ev k mem a hit cond temp =>
    ({ s with
       event := s.event ++ [⟨s.made, s.nextNr, k, mem, a, temp, hit, cond, 0⟩]
       last := s.nextNr
       made := s.made + 1 }, false)
  | .clear a => ({ s with fetch := s.fetch.filter (fun b => b.addr ≠ a) }, false)
  | .delete nr =>
    ({ s with
       fetch := s.fetch.filter (fun b => b.nr ≠ nr)
       event := s.event.filter (fun b => b.nr ≠ nr) }, false)
  | .deleteAll => ({ s with fetch := [], event := [] }, false)
  | .arrive a c =>
    ({ s with
       fetch := (s.fetch.filter (fun b => !(b.addr = a && b.temp && b.stops c))).map
         (fun b => if b.addr = a then b.tick else b) },
     s.fetch.any (fun b => b.addr = a && b.stops c))
  | .acc x c =>
    if inside x.loc.1 x.loc.2 then
      ({ s with
         event := s.event.map (fun b => if b.watches x then b.tick else b)
         log := ((s.event.filter (fun b => b.watches x && b.stops c)).map Bp.uid).reverse ++ s.log },
       false)
    else (s, false)

/-- A history; the list tells for each step if execution stopped. -/
def bpRun (rom : Nat) (inside : Nat → Nat → Bool) (s : BpSt) : List BOp → BpSt × List Bool
  | [] => (s, [])
  | o :: os =>
    let (s1, x) := bpStep rom inside s o
    let (s2, xs) := bpRun rom inside s1 os
    (s2, x :: xs)

end Ucsim.Spec
