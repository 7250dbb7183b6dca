import Verif.Core.Pobj
import Verif.Core.MemMisc
import Verif.Proof.MemWorld
import Verif.Spec.Brk

/-
Model of breakpoints.  Sources: /repo/src/core/sim.src/brk.cc, brkcl.h, mem.cc
(1409-1453, 1940-1999), uc.cc (3199-3233, 3685-3835),
/repo/src/core/cmd.src/cmd_bp.cc and cmd_exec.cc.

Simplifications: break addresses are given together with their address space
(the variant with a cell that belongs to no address space, brk.cc 58-72, is not
modelled); `int` counters are `Int`; printing, `commands` and `vcd_break` are
left out; a breakpoint object's address is its creation index `id`.
-/
namespace Ucsim
open Spec (BKind BOp Act)

/-- cl_brk, cl_fetch_brk, cl_ev_brk (brk.cc 43-262): hit and cnt are in
`World.brks id`. -/
structure Brk where
  id : Nat
  nr : Int
  kind : BKind
  mem : Nat
  addr : Nat
  dyn : Bool
deriving DecidableEq, Repr

/-- brk_coll::compare, brk.cc 318-331. -/
def cmpNr (a b : Brk) : Int := if a.nr = b.nr then 0 else if a.nr < b.nr then -1 else 1

/-- cl_address_space::get_cell_flag(addr, CELL_FETCH_BRK), mem.cc 1727-1737. -/
def World.fetchFlag (w : World) (sp a : Nat) : Bool :=
  match (w.spaces sp).idx? a with
  | none => (w.spaces sp).dummy.fetchBrk
  | some i => ((w.spaces sp).cells i).fetchBrk

/-- cl_address_space::set_brk (mem.cc 1940-1973) and cl_memory_cell::set_brk
(1409-1435), called by cl_brk::activate (brk.cc 101-108). -/
def World.setBrk (w : World) (b : Brk) : World :=
  match (w.spaces b.mem).idx? b.addr with
  | none => w
  | some i =>
    let c := (w.spaces b.mem).cells i
    match b.kind with
    | .fetch => w.setCell (.cell b.mem i) { c with fetchBrk := true }
    | .wr => w.setCell (.cell b.mem i) { c with ops := c.ops ++ [.wr b.id] }
    | .rd => w.setCell (.cell b.mem i) { c with ops := c.ops ++ [.rd b.id] }
    | .other => w

/-- cl_address_space::del_brk (mem.cc 1975-1999) and cl_memory_cell::del_brk
(1437-1453) with del_operator(brk) (1351-1371), called by cl_brk::inactivate
(brk.cc 110-117).  `none`: null pointer dereference in del_operator. -/
def World.delBrk (w : World) (b : Brk) : Option World :=
  match (w.spaces b.mem).idx? b.addr with
  | none => some w
  | some i =>
    let c := (w.spaces b.mem).cells i
    match b.kind with
    | .fetch => some (w.setCell (.cell b.mem i) { c with fetchBrk := false })
    | .wr | .rd =>
      if c.ops = [] then none
      else some (w.setCell (.cell b.mem i) { c with ops := c.ops.filter (fun o => !o.matchBrk b.id) })
    | .other => some w

/-- The breakpoint part of cl_uc: rom, fbrk, ebrk, brk_counter; `fresh` counts
the objects made. -/
structure BSt where
  w : World
  rom : Nat
  fbrk : CList Brk
  ebrk : CList Brk
  counter : Int
  fresh : Nat

/-- How a step ends: normally, in undefined behaviour or exit, or never. -/
inductive BRes (α : Type)
  | ok (x : α)
  | bad
  | hang

/-- brk_coll::bp_at, brk.cc 433-439 (valid_address: mem.cc 128-133). -/
def BSt.bpAt (s : BSt) (a : Nat) : Bool :=
  validAddr (s.w.spaces s.rom).start (s.w.spaces s.rom).size a && s.w.fetchFlag s.rom a

/-- brk_coll::get_bp(addr, &idx), brk.cc 402-417: index and item. -/
def BSt.getBp (s : BSt) (a : Nat) : Option (Nat × Brk) :=
  if s.bpAt a then
    match s.fbrk.items.findIdx? (fun b => b.addr = a) with
    | none => none
    | some i => (s.fbrk.items[i]?).map (fun b => (i, b))
  else none

/-- cl_uc::make_new_brknr, uc.cc 3800-3809. -/
def BSt.newNr (s : BSt) : Int :=
  if s.counter = 0 then 1
  else if s.fbrk.count = 0 ∧ s.ebrk.count = 0 then 1
  else s.counter + 1

/-- brk_coll::add_bp (brk.cc 363-372) of a new object: constructor
(brk.cc 43-56: cnt= hit), sorted list add without duplicates, activate. -/
def BSt.addBp (s : BSt) (b : Brk) (hit : Int) (cond : Bool) : BRes BSt :=
  let w0 := { s.w with brks := upd s.w.brks b.id ⟨hit, hit, cond⟩ }
  match b.kind with
  | .fetch =>
    match slAdd cmpNr false s.fbrk b with
    | .ok l => .ok { s with w := w0.setBrk b, fbrk := l, counter := b.nr, fresh := s.fresh + 1 }
    | _ => .bad
  | _ =>
    match slAdd cmpNr false s.ebrk b with
    | .ok l => .ok { s with w := w0.setBrk b, ebrk := l, counter := b.nr, fresh := s.fresh + 1 }
    | _ => .bad

/-- cl_break_cmd::do_fetch, cmd_bp.cc 250-279. -/
def BSt.doFetch (s : BSt) (a : Nat) (hit : Int) (cond dyn : Bool) : BRes BSt :=
  if hit > 99999 then .ok s
  else if s.bpAt a then .ok s
  else s.addBp ⟨s.fresh, s.newNr, .fetch, s.rom, a, dyn⟩ hit cond

/-- cl_break_cmd::do_event (cmd_bp.cc 281-300) with cl_uc::mk_ebrk (uc.cc
3811-3821). -/
def BSt.doEvent (s : BSt) (k : BKind) (mem a : Nat) (hit : Int) (cond dyn : Bool) : BRes BSt :=
  s.addBp ⟨s.fresh, s.newNr, k, mem, a, dyn⟩ hit cond

/-- The temporary breakpoint of `run start stop` (cmd_exec.cc 87-96) and `next`
(286-295): cl_uc::fbrk_at is get_bp (uc.cc 3689-3695). -/
def BSt.until_ (s : BSt) (a : Nat) : BRes BSt :=
  match s.getBp a with
  | some _ => .ok s
  | none => s.addBp ⟨s.fresh, s.newNr, .fetch, s.rom, a, true⟩ 1 false

/-- free_at: cl_list::disconn_at and delete, pobj.cc 352-363. -/
def BSt.freeF (s : BSt) (w : World) (i : Nat) : BRes BSt :=
  match s.fbrk.disconnAt i with
  | .ok l => .ok { s with w := w, fbrk := l }
  | _ => .bad

def BSt.freeE (s : BSt) (w : World) (i : Nat) : BRes BSt :=
  match s.ebrk.disconnAt i with
  | .ok l => .ok { s with w := w, ebrk := l }
  | _ => .bad

/-- brk_coll::del_bp(addr) of fbrk, brk.cc 374-386. -/
def BSt.delAddr (s : BSt) (a : Nat) : BRes BSt :=
  match s.getBp a with
  | none => .ok s
  | some (i, b) =>
    match s.w.delBrk b with
    | none => .bad
    | some w => s.freeF w i

/-- brk_coll::del_bp(idx, 0) of ebrk, brk.cc 388-400. -/
def BSt.delIdx (s : BSt) (i : Nat) : BRes BSt :=
  if i ≥ s.ebrk.count then .ok s
  else match s.ebrk.items[i]? with
    | none => .bad
    | some b =>
      match s.w.delBrk b with
      | none => .bad
      | some w => s.freeE w i

/-- The `clear` command with an address, cmd_bp.cc 344-356 (without argument
the address is PC, 330-339: the same effect). -/
def BSt.clear (s : BSt) (a : Nat) : BRes BSt := if s.bpAt a then s.delAddr a else .ok s

/-- cl_uc::rm_brk, uc.cc 3764-3781 (get_bp(nr): brk.cc 419-431). -/
def BSt.rmBrk (s : BSt) (nr : Int) : BRes BSt :=
  match s.fbrk.items.find? (fun b => b.nr = nr) with
  | some b => s.delAddr b.addr
  | none =>
    match s.ebrk.items.find? (fun b => b.nr = nr) with
    | some b =>
      match s.ebrk.indexOf? b with
      | some i => s.delIdx i
      | none => .bad
    | none => .ok s

/-- One turn of the first loop of cl_uc::remove_all_breaks, uc.cc 3791-3795. -/
def BSt.removeTurn (s : BSt) : BRes BSt :=
  match s.fbrk.items with
  | [] => .ok s
  | b :: _ => s.delAddr b.addr

/-- The first loop of remove_all_breaks, uc.cc 3791-3795.  A turn that does
not shorten the list changes nothing at all (see `removeTurn_same`), so the
loop then never ends.  `n`: an upper bound of the turns. -/
def BSt.removeF : Nat → BSt → BRes BSt
  | 0, s => if s.fbrk.items = [] then .ok s else .hang
  | n + 1, s =>
    if s.fbrk.items = [] then .ok s
    else match s.removeTurn with
      | .ok s' => if s'.fbrk.count < s.fbrk.count then BSt.removeF n s' else .hang
      | .bad => .bad
      | .hang => .hang

/-- The second loop of remove_all_breaks, uc.cc 3796-3797. -/
def BSt.removeE : Nat → BSt → BRes BSt
  | 0, s => if s.ebrk.items = [] then .ok s else .hang
  | n + 1, s =>
    if s.ebrk.items = [] then .ok s
    else match s.delIdx (s.ebrk.count - 1) with
      | .ok s' => BSt.removeE n s'
      | .bad => .bad
      | .hang => .hang

/-- cl_uc::remove_all_breaks, uc.cc 3788-3798. -/
def BSt.removeAll (s : BSt) : BRes BSt :=
  match BSt.removeF s.fbrk.count s with
  | .ok s' => BSt.removeE s'.ebrk.count s'
  | .bad => .bad
  | .hang => .hang

/-- cl_uc::do_brk, uc.cc 3205-3233, while running (SIM_GO, steps_done > 0).
`c` gives the values of the condition expressions. -/
def BSt.doBrk (env : Env) (s : BSt) (pc : Nat) (c : Nat → Bool) : BRes (BSt × Bool) :=
  if s.w.fetchFlag s.rom pc then
    match s.getBp pc with
    | none => .ok (s, false)
    | some (_, b) =>
      match s.w.doHit { env with cond := fun i _ => c i } b.id with
      | (w, true) =>
        if b.dyn then
          match BSt.delAddr { s with w := w } pc with
          | .ok s' => .ok (s', true)
          | .bad => .bad
          | .hang => .hang
        else .ok ({ s with w := w }, true)
      | (w, false) => .ok ({ s with w := w }, false)
  else .ok (s, false)

/-- A memory access of the running program. -/
def BSt.acc (env : Env) (s : BSt) (x : Act) (c : Nat → Bool) : BSt :=
  { s with w := s.w.act { env with cond := fun i _ => c i } x }

def BRes.quiet : BRes BSt → BRes (BSt × Bool)
  | .ok s => .ok (s, false)
  | .bad => .bad
  | .hang => .hang

/-- One command or happening (commands of cmd_bp.cc, cmd_exec.cc). -/
def BSt.step (env : Env) (s : BSt) : BOp → BRes (BSt × Bool)
  | .brk a hit cond dyn => (s.doFetch a hit cond dyn).quiet
  | .ev k mem a hit cond dyn => (s.doEvent k mem a hit cond dyn).quiet
  | .until_ a => (s.until_ a).quiet
  | .clear a => (s.clear a).quiet
  | .delete nr => (s.rmBrk nr).quiet
  | .deleteAll => s.removeAll.quiet
  | .arrive a c => s.doBrk env a c
  | .acc x c => .ok (s.acc env x c, false)

/-- A history. -/
def BSt.run (env : Env) (s : BSt) : List BOp → BRes (BSt × List Bool)
  | [] => .ok (s, [])
  | o :: os =>
    match s.step env o with
    | .ok (s1, x) =>
      match BSt.run env s1 os with
      | .ok (s2, xs) => .ok (s2, x :: xs)
      | .bad => .bad
      | .hang => .hang
    | .bad => .bad
    | .hang => .hang

/-- The breakpoint part of a new simulator (uc.cc 749-753: lists of capacity 2
growing by 2, counter 0). -/
def BSt.new (w : World) (rom : Nat) : BSt := ⟨w, rom, ⟨[], 2, 2⟩, ⟨[], 2, 2⟩, 0, 0⟩

end Ucsim
