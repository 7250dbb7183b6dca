import Verif.S51.Inst

/-
cl_51core::do_inst and the interrupt logic: /repo/src/sims/s51.src/uc51.cc 1698-1934.
-/
namespace Ucsim.S51

/-- Result codes used here (stypes.h): resGO, resSELFJUMP, resINTERRUPT. -/
inductive Res | go | selfjump | interrupt
deriving DecidableEq

section
variable {H : Type} (P : Hw H)

/-- cl_uc::tick_hw, uc.cc 3026-3050: every element gets the cycles one by one. -/
def tickHw : Nat → M H Unit
  | 0 => fun s => ((), s)
  | n + 1 => fun s =>
    let r := P.tick s.hw s.sfr
    tickHw n { s with hw := r.1, sfr := protect s.sfr r.2 }

/-- cl_uc::post_inst, uc.cc 3376-3386 (errors and events: Verif.Core.Brk). -/
def postInst : M H Unit := fun s => tickHw P s.cyc s

/-- cl_it_src::enabled, itsrc.cc 131-139. -/
def ItSrc.enabled (i : ItSrc) (s : St H) : Bool := s.sfr IE &&& i.ieMask == i.ieMask

/-- cl_it_src::pending, itsrc.cc 141-149. -/
def ItSrc.pending (i : ItSrc) (s : St H) : Bool := s.sfr i.srcAddr &&& i.srcMask == i.srcMask

/-- cl_51core::priority_of, uc51.cc 1847-1853. -/
def priorityOf (s : St H) (i : ItSrc) : Int := if s.sfr IP &&& i.ieMask != 0#8 then 1 else 0

/-- cl_it_src::clear, itsrc.cc 162-174. -/
def ItSrc.clear (i : ItSrc) : M H Unit :=
  if i.clrBit then do
    let v ← sfrGet i.srcAddr
    let _ ← sfrWrite P i.srcAddr (v &&& ~~~i.srcMask)
  else pure ()

/-- The priority of the current level: `it_levels->top()`. -/
def topLevel (s : St H) : Int := match s.levels with | l :: _ => l.level | [] => -1

/-- The condition of the loop of cl_51core::do_interrupt, uc51.cc 1820-1827. -/
def acceptable (s : St H) (i : ItSrc) : Bool :=
  i.active && i.enabled s && i.pending s && !(decide (topLevel s ≥ 0) && decide (priorityOf s i ≤ topLevel s))

/-- `state= stGO; sfr->set(PCON, sfr->get(PCON) & ~bmIDL)`, uc51.cc 1830-1831, 1862-1863. -/
def wake : M H Unit := fun s =>
  ((), { s with state := .go, sfr := upd s.sfr PCON (s.sfr PCON &&& ~~~(1#8)) })

def pushLevel (l : ItLevel) : M H Unit := fun s => ((), { s with levels := l :: s.levels })

/-- cl_51core::accept_it, uc51.cc 1860-1871.  (A source with address 0 would make
inst_lcall fetch; no source has it, itsrc addresses: interrupt.cc 77-88, timer0.cc
126-142, serial.cc 112-126.) -/
def acceptIt (l : ItLevel) : M H Unit := do
  wake
  pushLevel l
  tick 1
  lcallTo P l.addr

/-- What happens with the first acceptable source, uc51.cc 1828-1841. -/
def takeIt (i : ItSrc) : M H Res := fun s =>
  if s.state = .idle then
    (.go, { (wake s).2 with wasReti := true })
  else
    let s1 := (i.clear P s).2
    (.interrupt, (acceptIt P ⟨priorityOf s i, i.addr, s.pc⟩ s1).2)

/-- cl_51core::do_interrupt, uc51.cc 1805-1845. -/
def doInterrupt : M H Res := fun s =>
  if s.wasReti then (.go, { s with wasReti := false })
  else if s.sfr IE &&& 0x80#8 == 0#8 then (.go, s)
  else
    match (P.sources s.hw).find? (acceptable s) with
    | none => (.go, s)
    | some i => takeIt P i s

/-- cl_51core::idle_pd, uc51.cc 1909-1934. -/
def idlePd : M H Unit := fun s =>
  if P.cmos then
    let st := if s.sfr PCON &&& 1#8 != 0#8 then CpuState.idle else s.state
    let st := if s.sfr PCON &&& 2#8 != 0#8 then CpuState.pd else st
    ((), { s with state := st })
  else ((), s)

/-- The executing part of cl_51core::do_inst, uc51.cc 1704-1716: pre_inst clears
inst_ticks (uc.cc 3305-3313); not executing, `tick(1)` counts a cycle. -/
def runPart : M H Unit := fun s =>
  if s.state = .go then
    postInst P (execInst P { s with wasReti := false, cyc := 0 }).2
  else tick 1 s

/-- cl_51core::do_inst, uc51.cc 1698-1744. -/
def doInst : M H Res := fun s =>
  let s1 := (runPart P s).2
  if s1.pc = s.pc ∧ P.stopSelfjump then (.selfjump, s1)
  else
    let r := doInterrupt P s1
    if r.1 = .go then (.go, (idlePd P r.2).2) else r

/-- Everything that can be seen of the CPU from outside of the instruction set. -/
def steps : Nat → St H → St H
  | 0, s => s
  | n + 1, s => (doInst P (steps n s)).2

end
end Ucsim.S51
