import Verif.Cmd.Split
import Verif.Core.MemMisc
/-!
What arguments of commands mean, and `set memory`
(/repo/src/core/sim.src/arg.cc, /repo/src/core/cmd.src/cmdutil.cc,
/repo/src/core/cmd.src/command.cc, /repo/src/core/cmd.src/cmd_set.cc).
-/
namespace Ucsim.Cmd
open Ucsim

/-- A variable as arguments see it: `get_mem` (NULL for a variable that is a cell), `get_addr`,
`bitnr_high`, `bitnr_low` (-1: the whole location).  arg.cc 312-326, varcl.h. -/
structure VarInfo where
  mem : Option Nat
  addr : Nat
  hi : Int
  lo : Int
  deriving DecidableEq

/-- What a microcontroller offers to arguments: its variables by name (`vars->by_name.search`,
C16 is about that search), its memories by name (`cl_uc::memory`, uc.cc 1341-1368; address spaces
only, memory chips are not modelled), `bit2mem` with `rom` in place of NULL (arg.cc 256-258), and
the contents of `i_value` of an argument made from text, which the constructor leaves uninitialised
(arg.cc 51-55). -/
structure Names where
  vars : Text → Option VarInfo
  mems : Text → Option Nat
  bit2mem : Nat → Nat × Nat × Int × Int
  junk : Text → Int

/-- `spec[spec_c-spec_chars]` (cmdutil.cc 45-46, 82-88): `fnrtvab"`. -/
def escChar : Char → Char
  | 'f' => Char.ofNat 12
  | 'n' => Char.ofNat 10
  | 'r' => Char.ofNat 13
  | 't' => Char.ofNat 9
  | 'v' => Char.ofNat 11
  | 'a' => Char.ofNat 7
  | 'b' => Char.ofNat 8
  | x => x

/-- `proc_escape` (cmdutil.cc 42-97): the characters of a string, `\` sequences replaced; `isdigit`
is of the character after `\0`; `char data= strtol(...)` keeps the low byte and `strtol` stops at
LONG_MAX.  Fuel: the length of the text (every round consumes a character). -/
def procEscape : Nat → Text → Text
  | 0, _ => []
  | n + 1, s =>
    match s with
    | [] => []
    | [c] => [c]
    | c :: d :: t =>
      if c = '\\' then
        if d = '0' then
          if (t.head?.any fun x => decide (x.toNat ≥ 48 ∧ x.toNat ≤ 57)) = true then
            let ds := t.takeWhile fun x => decide (x.toNat ≥ 48 ∧ x.toNat ≤ 55)
            Char.ofNat (min (ds.foldl (fun a x => a * 8 + (x.toNat - 48)) 0) 0x7fffffffffffffff % 256) ::
              procEscape n (t.dropWhile fun x => decide (x.toNat ≥ 48 ∧ x.toNat ≤ 55))
          else Char.ofNat 0 :: procEscape n t
        else
          escChar d :: procEscape n t
      else c :: procEscape n (d :: t)

/-- `array[len]= s[j]` (command.cc 694): a `char`, which is signed, stored in a `t_mem`. -/
def charData (c : Char) : W := (BitVec.ofNat 8 c.toNat).signExtend 32

/-- The data of one argument (`set_data_list`, command.cc 675-721): strings by `as_string` (arg.cc
178-193), others by `as_data` (arg.cc 137-144) - `i_value` of a number, 0 for bits and elements
(their constructors, arg.cc 391, 464), whatever is there for names. -/
def argData (nm : Names) : Arg → List W
  | .str s => (procEscape s.length s).map charData
  | .int n => [BitVec.ofInt 32 n]
  | .sym s => [BitVec.ofInt 32 (nm.junk s)]
  | .bit _ _ | .bits _ _ _ | .array _ _ => [0#32]

/-- `cl_cmdline::set_data_list` (command.cc 664-728); memory does not run out. -/
def dataList (nm : Names) (l : List Arg) : List W := l.flatMap (argData nm)

/-- `get_address` (arg.cc 225-234, 293-305, 411-417, argcl.h 113): numbers modulo 2^32, variables
that are in a memory (`symbol2address`, uc.cc 2778-2801). -/
def argAddr (nm : Names) : Arg → Option Nat
  | .int n => some (BitVec.ofInt 32 n).toNat
  | .sym s => (nm.vars s).bind fun v => v.mem.map fun _ => v.addr
  | .bit p _ => argAddr nm p
  | .bits p _ _ => argAddr nm p
  | .str _ | .array _ _ => none

/-- `get_ivalue` (arg.cc 79-85). -/
def argInt (nm : Names) : Arg → Int
  | .int n => n
  | .sym s | .str s => nm.junk s
  | .bit _ _ | .bits _ _ _ | .array _ _ => 0

/-- A bit number (arg.cc 434-448): 0 to 31. -/
def bitNr (nm : Names) (a : Arg) : Option Int :=
  if argInt nm a < 0 ∨ argInt nm a ≥ 32 then none else some (argInt nm a)

/-- Where `get_bit_address` (arg.cc 236-261, 307-328, 419-456, 476-507; false for strings, argcl.h
60-64) leads: memory, address, high and low bit number. -/
structure BitPlace where
  mem : Option Nat
  addr : Nat
  hi : Int
  lo : Int
  deriving DecidableEq

def argBit (nm : Names) (w : World) : Arg → Option BitPlace
  | .int n =>
    let r := nm.bit2mem (BitVec.ofInt 32 n).toNat
    some ⟨some r.1, r.2.1, r.2.2.1, r.2.2.2⟩
  | .sym s => (nm.vars s).map fun v => ⟨v.mem, v.addr, v.hi, v.lo⟩
  | .str _ => none
  | .bit p b => do
    let r ← argBit nm w p
    let l ← bitNr nm b
    some ⟨r.mem, r.addr, l, l⟩
  | .bits p b h => do
    let r ← argBit nm w p
    let l ← bitNr nm b
    let k ← bitNr nm h
    if l > k then some ⟨r.mem, r.addr, l, k⟩ else some ⟨r.mem, r.addr, k, l⟩
  | .array p i =>
    match p with
    | .sym n => do
      let a ← argAddr nm i
      let m ← nm.mems n
      if validAddr (w.spaces m).start (w.spaces m).size a then some ⟨some m, a, -1, -1⟩ else none
    | .str n => do
      let a ← argAddr nm i
      let m ← nm.mems n
      if validAddr (w.spaces m).start (w.spaces m).size a then some ⟨some m, a, -1, -1⟩ else none
    | _ => none

/-- The messages of `set memory`. -/
inductive SetMsg
  | noData | startLess | excess | syntaxError
  deriving DecidableEq

/-- The loop of `set memory` (cmd_set.cc 117-123): `n` data are left, `addr` is a `t_addr`. -/
def setLoop (env : Env) (sp : Nat) : List W → Nat → World → World
  | [], _, w => w
  | v :: t, addr, w =>
    if validAddr (w.spaces sp).start (w.spaces sp).size addr = true ∧
        addr ≤ subU (u32 ((w.spaces sp).start + (w.spaces sp).size)) 1 then
      setLoop env sp t (u32 (addr + 1)) (w.write env sp addr v).1
    else w

/-- `cl_set_mem_cmd::do_work` after the syntax is matched (cmd_set.cc 90-129); `none`: the shift
`1U << 32`, or a negative one, which is undefined.  `check_errors` and the listing of the memory
are not modelled. -/
def setPlace (env : Env) (w : World) (sp start : Nat) (lo hi : Int) (data : List W) : Option (World × Option SetMsg) :=
  match data with
  | [] => some (w, some .noData)
  | v :: t =>
    if start < (w.spaces sp).start then some (w, some .startLess)
    else if lo ≥ 0 then
      if t ≠ [] then some (w, some .excess)
      else if hi - lo + 1 < 0 ∨ hi - lo + 1 > 31 ∨ lo > 31 then none
      else
        let mask : W := ((1#32 <<< (hi - lo + 1).toNat) - 1#32) <<< lo.toNat
        let (w1, old) := w.get sp start
        some ((w1.write env sp start ((old &&& ~~~mask) ||| ((v <<< lo.toNat) &&& mask))).1, none)
    else some (setLoop env sp data start w, none)

/-- `cl_set_mem_cmd::do_work` (cmd_set.cc 66-135) with `syntax_match` of BIT DATALIST and MEMORY
ADDRESS DATALIST (command.cc 580-662; `set_data_list` takes all the arguments left and never
fails). -/
def setMem (nm : Names) (env : Env) (w : World) (params : List Arg) : Option (World × Option SetMsg) :=
  match params with
  | [] | [_] => some (w, some .syntaxError)
  | p :: q :: r =>
    match argBit nm w p with
    | some b =>
      match b.mem with
      | none => some (w, some .syntaxError)
      | some m => setPlace env w m b.addr b.lo b.hi (dataList nm (q :: r))
    | none =>
      match r with
      | [] => some (w, some .syntaxError)
      | _ =>
        match p with
        | .sym n | .str n =>
          match nm.mems n, argAddr nm q with
          | some m, some a => setPlace env w m a (-1) (-1) (dataList nm r)
          | _, _ => some (w, some .syntaxError)
        | _ => some (w, some .syntaxError)

end Ucsim.Cmd
