import Verif.Simif.Cmds
import Verif.Fio.Dev

/-
Model of the simulator interface /repo/src/core/sim.src/simif.cc 45-495, 736-781, 918-926 with
the classes of simifcl.h: a memory cell through which the simulated program talks to the simulator.

Simplifications.  The configuration cells (`conf`, simif.cc 783-916) are not modelled: the cell
below is the one in the memory of the program.  `uc`, `sim`, `sif` and the command list exist.
The output file accepts what is written to it.  What the simulator does on stop(), reset() and
set_limit() is only recorded (`Ev`); of set_limit the value of `exec_limit` is kept (see
Core/Sim.lean for the rest).  `int c` of cl_sif_read is uninitialised: its value is an input of
the model (`Env.junk`).
-/
namespace Ucsim.Simif
open Fio (Dev Os)

/-- t_mem, stypes.h 61: unsigned, 32 bits -/
abbrev Word := BitVec 32

/-- order of the command list, simif.cc 578-610 -/
def order : List Kind :=
  [.detect, .commands, .ifver, .simver, .ifreset, .cmdinfo, .cmdhelp, .stop, .print, .hex,
   .finCheck, .read, .write, .reset, .setlimit, .getlimit]

/-- `command`, simifcl.h 41-91 and the constructors 180-373 -/
def code : Kind → Word
  | .detect => 0x5f | .commands => 0x69 | .ifver => 0x76 | .simver => 0x56 | .ifreset => 0x40
  | .cmdinfo => 0x49 | .cmdhelp => 0x68 | .stop => 0x73 | .print => 0x70 | .hex => 0x78
  | .finCheck => 0x66 | .read => 0x72 | .write => 0x77 | .reset => 0x52 | .setlimit => 0x4c
  | .getlimit => 0x6c

/-- `params_needed`, last but one argument of the constructors, simifcl.h 180-373 -/
def needed : Kind → Nat
  | .cmdinfo => 1 | .cmdhelp => 1 | .print => 1 | .hex => 1 | .write => 1 | .setlimit => 4
  | _ => 0

/-- `answer_type` (simifcl.h 93-100) of the constructors, simifcl.h 180-373 -/
def atype : Kind → Word
  | .detect => 1 | .commands => 2 | .ifver => 1 | .simver => 3 | .ifreset => 4 | .cmdinfo => 2
  | .cmdhelp => 3 | .stop => 1 | .print => 4 | .hex => 4 | .finCheck => 1 | .read => 1
  | .write => 4 | .reset => 4 | .setlimit => 4 | .getlimit => 8

/-- `description`, simifcl.h 180-373 -/
def descr : Kind → List Byte
  | .detect => chars "Detect existence of interface"
  | .commands => chars "Get information about known commands"
  | .ifver => chars "Get version of simulator interface"
  | .simver => chars "Get version of simulator"
  | .ifreset => chars "Reset interface to default state"
  | .cmdinfo => chars "Get information about a command"
  | .cmdhelp => chars "Get help about a command"
  | .stop => chars "Stop simulation"
  | .print => chars "Print character"
  | .hex => chars "Print character in hex"
  | .finCheck => chars "Check input file if input available"
  | .read => chars "Read character from input file"
  | .write => chars "Write character to output file"
  | .reset => chars "Reset CPU"
  | .setlimit => chars "Set execution limit for simulation"
  | .getlimit => chars "Get value of simulation execution limit"

/-- cl_sif_command, simifcl.h 130-141: what changes of a command object.  `pars` is `parameters`
(of length `nuof`) if it is not NULL, `answer` likewise. -/
structure Obj where
  pars : Option (List Word)
  nuof : Nat
  recv : Nat
  answer : Option (List Word)
  alen : Nat
  adone : Nat
  answering : Bool

/-- simif.cc 47-64 (constructor) -/
def Obj.init : Obj := ⟨none, 0, 0, none, 0, 0, false⟩

/-- simif.cc 82-89 `clear_params`; the pointer is not cleared, but nothing uses it before it is
set again -/
def Obj.clearParams (o : Obj) : Obj := { o with nuof := 0, recv := 0 }

/-- simif.cc 91-99 `clear_answer` -/
def Obj.clearAnswer (o : Obj) : Obj := { o with alen := 0, adone := 0, answer := none }

/-- simif.cc 109-118 `get_parameter` -/
def Obj.getParameter (o : Obj) (nr : Nat) : Option Word :=
  match o.pars with
  | none => none
  | some ps => if nr ≥ o.nuof then none else some (ps.getD nr 0)

/-- simif.cc 186-193 `set_answer(t_mem)` -/
def Obj.setAnswer1 (o : Obj) (a : Word) : Obj :=
  { o.clearAnswer with answer := some [a], alen := 1 }

/-- simif.cc 195-205 `set_answer(int, t_mem[])` -/
def Obj.setAnswerN (o : Obj) (as : List Word) : Obj :=
  { o.clearAnswer with
    answer := some (BitVec.ofNat 32 as.length :: as), alen := as.length + 1 }

/-- simif.cc 207-225 `set_answer(char *)`; the text has no NUL in it; chars are signed -/
def Obj.setAnswerS (o : Obj) (s : List Byte) : Obj :=
  if s = [] then o.clearAnswer
  else { o.clearAnswer with
    answer := some (BitVec.ofNat 32 (s.length + 1) :: s.map (fun b => b.signExtend 32) ++ [0]),
    alen := s.length + 2 }

/-- cl_simulator_interface (simifcl.h 382-396) and what its commands touch -/
structure Sif where
  cmds : Kind → Obj
  active : Option Kind
  /-- content of the memory cell -/
  cell : Word
  /-- its width -/
  mask : Word
  /-- VERSIONSTR -/
  ver : List Byte
  fin : Option Dev
  fout : Bool
  limit : Word
  log : List Ev

/-- what comes from outside at an access: the operating system's answer if it is asked for input,
and the content of an uninitialised variable -/
structure Env where
  os : Os
  junk : Word

/-- after init(), simif.cc 515-631 -/
def Sif.init (cell mask : Word) (ver : List Byte) (fin : Option Dev) (fout : Bool) (limit : Word) : Sif :=
  ⟨fun _ => Obj.init, none, cell, mask, ver, fin, fout, limit, []⟩

/-- change one command object -/
def Sif.upd (s : Sif) (k : Kind) (f : Obj → Obj) : Sif :=
  { s with cmds := fun j => if j = k then f (s.cmds j) else s.cmds j }

def Sif.ev (s : Sif) (e : List Ev) : Sif := { s with log := s.log ++ e }

/-- simif.cc 918-926 `finish_command` -/
def Sif.finish (s : Sif) : Sif :=
  match s.active with
  | some k => { s.upd k Obj.clearAnswer with active := none }
  | none => s

/-- the object with this command character, if any: the loops of simif.cc 278-287, 308-317 and
763-775 -/
def find (v : Word) : Option Kind := order.find? (fun k => code k == v)

/-- a hexadecimal digit as printf writes it -/
def digit (n : Nat) : Byte := if n < 10 then BitVec.ofNat 8 (48 + n) else BitVec.ofNat 8 (87 + n)

/-- the digits of a number in base 16, first the ones of lower value, `n` digits at most -/
def hexRev : Nat → Nat → List Byte
  | 0, _ => []
  | f + 1, v => if v = 0 then [] else digit (v % 16) :: hexRev f (v / 16)

/-- `printf("%02x", v)` of the C library for an unsigned 32 bit number -/
def fmt02x (v : Word) : List Byte :=
  let ds := (hexRev 8 v.toNat).reverse
  List.replicate (2 - ds.length) 48 ++ ds

/-- simif.cc 402-416: is there input? -/
def Sif.check (s : Sif) (e : Env) : Sif × Bool :=
  match s.fin with
  | none => (s, false)
  | some d =>
    let (d', b) := d.inputAvail e.os
    ({ s with fin := some d' }, b && !d'.eof)

/-- simif.cc 426-440: the next byte of the input file -/
def Sif.readIn (s : Sif) (e : Env) : Sif × Word :=
  match s.fin with
  | none => (s, 0)
  | some d =>
    let (d1, b) := d.inputAvail e.os
    if b then
      let (d2, i, got) := d1.read 1
      ({ s with fin := some d2 },
        if i = 0 then 0 else match got with
          | c :: _ => BitVec.ofInt 32 c
          | [] => e.junk)
    else ({ s with fin := some d1 }, 0)

/-- the virtual `produce_answer` of the commands -/
def Sif.produce (s : Sif) (e : Env) (k : Kind) : Sif :=
  match k with
  -- simifcl.h 188
  | .detect => s.upd k (·.setAnswer1 0x21)
  -- simif.cc 242-261; the list is not cleared first
  | .commands =>
    s.upd k (fun o => { o with
      answer := some (BitVec.ofNat 32 order.length :: order.map code), alen := order.length + 1 })
  -- simifcl.h 200, SIMIF_VERSION simifcl.h 39
  | .ifver => s.upd k (·.setAnswer1 2)
  -- simifcl.h 212
  | .simver => s.upd k (·.setAnswerS s.ver)
  -- simif.cc 180-184, the one of the base class
  | .ifreset => s.upd k Obj.clearAnswer
  -- simif.cc 266-294
  | .cmdinfo =>
    match (s.cmds k).getParameter 0 with
    | none => s
    | some cm =>
      s.upd k (fun o => { o with
        answer := some (2 :: (match find cm with
          | some a => [BitVec.ofNat 32 (needed a), atype a]
          | none => [0, 0])), alen := 3 })
  -- simif.cc 299-323
  | .cmdhelp =>
    match (s.cmds k).getParameter 0 with
    | none => s
    | some cm =>
      match find cm with
      | some a => s.upd k (·.setAnswerS (descr a))
      | none => s.upd k (·.setAnswer1 0)
  -- simif.cc 328-338
  | .stop => (s.upd k (·.setAnswer1 (code .stop))).ev [.stop]
  -- simif.cc 343-355: putchar
  | .print =>
    (match (s.cmds k).getParameter 0 with
     | none => s
     | some cm => s.ev [.con (cm.setWidth 8)]).finish
  -- simif.cc 360-372
  | .hex =>
    (match (s.cmds k).getParameter 0 with
     | none => s
     | some cm => s.ev ((fmt02x cm).map .con)).finish
  -- simif.cc 377-394
  | .write =>
    (match (s.cmds k).getParameter 0 with
     | none => s
     | some cm => if s.fout then s.ev [.file (cm.setWidth 8)] else s).finish
  -- simif.cc 399-418
  | .finCheck =>
    let r := s.check e
    r.1.upd k (·.setAnswer1 (if r.2 then 1 else 0))
  -- simif.cc 423-442
  | .read =>
    let r := s.readIn e
    r.1.upd k (·.setAnswer1 r.2)
  -- simif.cc 447-456
  | .reset => (s.ev [.reset]).finish
  -- simif.cc 461-473
  | .setlimit =>
    let p (n : Nat) : Word := (((s.cmds k).pars.getD []).getD n 0) &&& 0xff
    let v : Word := (p 3 <<< 24) + (p 2 <<< 16) + (p 1 <<< 8) + p 0
    ({ s with limit := v }.ev [.limit v.toNat]).finish
  -- simif.cc 478-491
  | .getlimit =>
    let v := s.limit
    s.upd k (·.setAnswerN [v &&& 0xff, (v >>> 8) &&& 0xff, (v >>> 16) &&& 0xff, (v >>> 24) &&& 0xff])

/-- simif.cc 227-237 `start_answer` -/
def Sif.startAnswer (s : Sif) (k : Kind) : Sif :=
  if (s.cmds k).alen ≠ 0 then s.upd k (fun o => { o with answering := true })
  else (s.upd k (fun o => { o with answering := false })).finish

/-- simif.cc 160-178 `start`, `need_params` -/
def Sif.startCmd (s : Sif) (e : Env) (k : Kind) : Sif :=
  let s := s.upd k Obj.clearParams
  let s := if needed k = 0 then (s.produce e k).startAnswer k else s
  s.upd k (fun o => { o with nuof := needed k, recv := 0, pars := some (List.replicate (needed k) 0) })

/-- simif.cc 142-157 `cl_sif_command::write` -/
def Sif.cmdWrite (s : Sif) (e : Env) (k : Kind) (v : Word) : Sif :=
  let o := s.cmds k
  match o.pars with
  | none => s
  | some ps =>
    if o.nuof ≠ 0 ∧ o.recv < o.nuof then
      let s := s.upd k (fun o => { o with pars := some (ps.set o.recv v), recv := o.recv + 1 })
      if o.recv + 1 ≥ o.nuof then (s.produce e k).startAnswer k else s
    else s

/-- simif.cc 121-139 `cl_sif_command::read` -/
def Sif.cmdRead (s : Sif) (k : Kind) : Sif × Word :=
  let o := s.cmds k
  match o.answering, o.answer with
  | true, some as =>
    let ret := if o.adone < o.alen then as.getD o.adone 0 else s.cell
    let d := if o.adone < o.alen then o.adone + 1 else o.adone
    let s := s.upd k (fun o => { o with adone := d })
    (if d ≥ o.alen then s.finish else s, ret)
  | _, _ => (s, s.cell)

/-- simif.cc 736-752 `cl_simulator_interface::read`: the program reads the cell -/
def Sif.rd (s : Sif) : Sif × Word :=
  match s.active with
  | none => (s, ~~~ s.cell &&& s.mask)
  | some k => s.cmdRead k

/-- simif.cc 754-781 `cl_simulator_interface::write`, then mem.cc 1252-1258: the program writes the
cell, which keeps the value -/
def Sif.wr (s : Sif) (e : Env) (v : Word) : Sif :=
  let s := match s.active with
    | none => match find v with
      | some k => { s with active := some k }.startCmd e k
      | none => s
    | some k => s.cmdWrite e k v
  { s with cell := v &&& s.mask }

/-- an access of the program to the cell -/
inductive Acc where
  | rd
  | wr (v : Word) (e : Env)

/-- the accesses of a program, and what it reads -/
def Sif.run (s : Sif) : List Acc → Sif × List Word
  | [] => (s, [])
  | .rd :: as => let (s, v) := s.rd; let (s, vs) := s.run as; (s, v :: vs)
  | .wr v e :: as => (s.wr e v).run as

end Ucsim.Simif
