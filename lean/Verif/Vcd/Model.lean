/-
Model of the value change dump: /repo/src/core/sim.src/vcd.cc and vcdcl.h.

Times are exact: a time is a number of units of the timescale of the dump, so that the rounding of
the doubles, `ULPs` (vcd.cc 52-75) and the choice of the timescale (767-774, timescale auto) are
not modelled.  A stamp written by fprintf("#%.0f") is read back by strtod as the same number.  The
header of the file (776-855, parse_header 383-463) is not modelled: the file begins with the first
stamp, and the reader knows the same variables with the same names.  The start time is not shifted
(set_cmd, starttime, 702-707).  The pipe to a viewer is not modelled.
-/
namespace Ucsim.Vcd

/-- The cells of the address spaces, numbered.  `slot`: the data the cell is decoded to; `bit`: the
bit of it that is the value of a cell of a bit space (cl_bit_cell8, mem.cc 938-958), none for the
other cells.  `post`: the operators of the cell that were appended after those of the dump. -/
structure World where
  slot : Nat → Nat
  bit : Nat → Option Nat
  width : Nat → Nat
  ro : Nat → Bool
  nodec : Nat → Bool
  post : Nat → Nat → Nat

abbrev Mem := Nat → Nat

/-- cl_memory_cell::get and d(), mem.cc 917-958, 1235-1239 -/
def get (W : World) (m : Mem) (c : Nat) : Nat := match W.bit c with
  | some b => if (m (W.slot c)).testBit b then 1 else 0
  | none => m (W.slot c)

/-- d(v), mem.cc 924-958 -/
def put (W : World) (c v : Nat) (m : Mem) : Mem := fun a =>
  if a = W.slot c then
    match W.bit c with
    | some b => if v ≠ 0 then m a ||| 1 <<< b else if (m a).testBit b then m a ^^^ 1 <<< b else m a
    | none => v
  else m a

/-- cl_memory_cell::set, mem.cc 1263-1273, and the last part of write, 1252-1258 -/
def set (W : World) (c v : Nat) (m : Mem) : Mem :=
  if W.ro c then m else if W.width c = 1 then put W c v m else put W c (v % 2 ^ W.width c) m

/-- cl_vcd_var, vcd.cc 97-109 -/
structure Var where
  cell : Nat
  hi : Nat
  lo : Nat
  id : Char
  deriving DecidableEq

/-- The file: its words, see read_word, vcd.cc 465-491. -/
inductive Word
  | stamp (t : Nat)
  | txt (w : List Char)
  deriving DecidableEq

/-- cl_vcd as a recorder (state is -1).  `now`: uc->ticks->get_rtime(); `pausetime` none: -1. -/
structure St where
  mem : Mem
  vars : List Var
  nextId : Nat
  now : Nat
  started : Bool
  paused : Bool
  starttime : Nat
  event : Nat
  pausetime : Option Nat
  file : List Word

/-! ### Variables -/

/-- get_next_var_id, vcdcl.h 62 -/
def idOf (n : Nat) : Char := Char.ofNat (n % 256)

/-- The messages of add_var and del_var. -/
inductive Msg
  | done | notDecoded | alreadyStarted | alreadyExists | notFound
  deriving DecidableEq

/-- add_var with the id 0, vcd.cc 179-217, and the constructor, 112-131; none is -1 -/
def addVar (W : World) (c : Nat) (hi lo : Option Nat) (s : St) : Msg × St :=
  if W.nodec c then (.notDecoded, s)
  else if s.started then (.alreadyStarted, s)
  else
    let hi := hi.getD (W.width c - 1)
    let lo := lo.getD 0
    if s.vars.any (fun x => x.cell = c ∧ x.hi = hi ∧ x.lo = lo) then (.alreadyExists, s)
    else (.done, { s with vars := s.vars ++ [⟨c, hi, lo, idOf s.nextId⟩], nextId := s.nextId + 1 })

/-- The first variable of the cell and the bits is left out. -/
def removeVar (c : Nat) (lo hi : Option Nat) : List Var → Option (List Var)
  | [] => none
  | x :: l => if x.cell = c ∧ some x.hi = hi ∧ some x.lo = lo then some l else (removeVar c lo hi l).map (x :: ·)

/-- del_var, vcd.cc 219-243 -/
def delVar (c : Nat) (lo hi : Option Nat) (s : St) : Msg × St :=
  match removeVar c lo hi s.vars with
  | none => (.notFound, s)
  | some l => (.done, { s with vars := l, nextId := if l = [] ∧ !s.started then 33 else s.nextId })

/-- What follows `add` or `del` in the command: a cell (or a memory and an address), that with a bit
number, that with two numbers, and a bit or bit range of the syntax cell.bit and cell[high:low]. -/
inductive Arg
  | cell (c : Nat)
  | cell1 (c b : Nat)
  | cell2 (c b1 b2 : Nat)
  | bits (c hi lo : Nat)

/-- set_cmd with `add`, vcd.cc 545-680 -/
def cmdAdd (W : World) : Arg → St → Msg × St
  | .cell c => addVar W c none none
  | .cell1 c b => addVar W c (some b) (some b)
  | .cell2 c b1 b2 => addVar W c (some b1) (some b2)
  | .bits c hi lo => addVar W c (some hi) (some lo)

/-- set_cmd with `del`, vcd.cc 545-680: the numbers are passed in the order of add, but the
parameters of del_var are low, high -/
def cmdDel : Arg → St → Msg × St
  | .cell c => delVar c none none
  | .cell1 c b => delVar c (some b) (some b)
  | .cell2 c b1 b2 => delVar c (some b1) (some b2)
  | .bits c hi lo => delVar c (some lo) (some hi)

/-! ### Recording -/

def bitChar (b : Bool) : Char := if b then '1' else '0'

/-- The text of a value, vcd.cc 1022-1031 -/
def valWords (x : Var) (v : Nat) : List Word :=
  if x.lo = x.hi then [.txt [bitChar (v.testBit x.lo), x.id]]
  else [.txt ('b' :: (List.range (x.hi + 1 - x.lo)).map (fun i => bitChar (v.testBit (x.hi - i)))), .txt [x.id]]

/-- The text of an unknown value, vcd.cc 922-931 -/
def unkWords (x : Var) : List Word :=
  if x.lo = x.hi then [.txt ['x', x.id]]
  else [.txt ('b' :: (List.range (x.hi + 1 - x.lo)).map (fun _ => 'x')), .txt [x.id]]

def emit (ws : List Word) (s : St) : St := { s with file := s.file ++ ws }

/-- report, vcd.cc 1010-1034 -/
def report (v : Nat) (s : St) (x : Var) : St :=
  let s := if s.event ≠ s.now then emit [.stamp (s.now - s.starttime)] { s with event := s.now } else s
  emit (valWords x v) s

/-- cl_memory_cell::write, mem.cc 1241-1259, of the value `v` the operators before those of the dump
leave; cl_vcd_var::write, vcd.cc 140-147 -/
def write (W : World) (c v : Nat) (s : St) : St :=
  let s := if s.started ∧ !s.paused then (s.vars.filter (fun x => x.cell = c)).foldl (report v) s else s
  { s with mem := set W c (W.post c v) s.mem }

def kw (w : String) : Word := .txt w.toList

/-- vcd.cc 870-878: the number of seconds is a text of this form -/
def realDuration : Word := kw "0.500000000000000"

/-- set_cmd with `start` or `restart`, vcd.cc 752-897, of a recorder -/
def start (W : World) (s : St) : St :=
  let s := if s.started then s else { s with starttime := s.starttime + s.now, event := s.event + s.now }
  let s := if !s.started ∨ s.paused then
      let d := s.now - s.event
      let d := s.event + (match s.pausetime with
        | some p => if d > p then p else d
        | none => d)
      let s := { s with starttime := s.now - (d - s.starttime) }
      let s := emit [.stamp (s.now - s.starttime)] s
      let s := emit (if s.started then
          [kw "$comment", if s.pausetime = none then kw "Unpaused" else kw "Unpaused."] ++
            (if s.pausetime = none then [] else [kw "Real", kw "duration", kw "was", realDuration, kw "seconds"]) ++
            [kw "$end", kw "$dumpon"]
        else [kw "$dumpvars"]) s
      let s := { s with event := s.now }
      let s := s.vars.foldl (fun s x => report (get W s.mem x.cell) s x) s
      emit [kw "$end"] s
    else s
  { s with started := true, paused := false }

/-- set_cmd with `pause`, vcd.cc 752-754, 899-949 -/
def pause (W : World) (s : St) : St :=
  if s.paused then start W s
  else if s.started then
    let s := { s with paused := true, event := s.now }
    let s := emit [.stamp (s.event - s.starttime), kw "$comment", kw "Paused", kw "$end", kw "$dumpoff"] s
    let s := emit (s.vars.flatMap unkWords) s
    emit [kw "$end"] s
  else s

/-- set_cmd with `stop`, vcd.cc 950-970 -/
def stop (s : St) : St :=
  let s := if s.started then
      let s := emit [.stamp (s.now - s.starttime)] s
      { s with starttime := 0, event := 0, nextId := if s.vars = [] then 33 else s.nextId }
    else s
  { s with started := false, paused := false }

/-- What happens during a recording.  `adv n`: the time passes (cl_uc::tick, uc.cc 3049-3078);
`write`: a cell is written by the program or a peripheral; `set`: it is changed with
cl_memory_cell::set, as many peripherals do. -/
inductive Op
  | adv (n : Nat)
  | write (c v : Nat)
  | set (c v : Nat)
  | start
  | pause
  deriving DecidableEq

def step (W : World) (s : St) : Op → St
  | .adv n => { s with now := s.now + n }
  | .write c v => write W c v s
  | .set c v => { s with mem := set W c v s.mem }
  | .start => start W s
  | .pause => pause W s

def run (W : World) (h : List Op) (s : St) : St := h.foldl (step W) s

/-- cl_vcd::cl_vcd, vcd.cc 150-166, of the memory `m` at the time `t` -/
def init (m : Mem) (t : Nat) : St :=
  { mem := m, vars := [], nextId := 33, now := t, started := false, paused := false, starttime := 0, event := 0,
    pausetime := none, file := [] }

/-! ### Playing a file -/

/-- cl_vcd as a player (state is not -1) and the rest of its file.  `pend`: state is 1. -/
structure Pl where
  mem : Mem
  event : Nat
  pend : Bool
  file : List Word

/-- The mask of a variable, vcd.cc 123 -/
def mask (x : Var) : Nat := ((1 <<< (x.hi - x.lo + 1)) - 1) <<< x.lo

/-- `cell->write((cell->get() & ~bitmask) | ((value << bitnr_low) & bitmask))`, vcd.cc 1124; the
variables of a player are not operators of the cell -/
def assign (W : World) (x : Var) (value : Nat) (m : Mem) : Mem :=
  let v := (get W m x.cell &&& (0xffffffff ^^^ mask x)) ||| ((value <<< x.lo) &&& mask x)
  set W x.cell (W.post x.cell v) m

/-- vcd.cc 1115-1129 -/
def assignId (W : World) (vars : List Var) (id : Char) (value : Nat) (m : Mem) : Mem :=
  match vars.find? (fun x => x.id = id) with
  | some x => assign W x value m
  | none => m

/-- vcd.cc 1083-1085: t_mem is 32 bits -/
def shiftIn (value : Nat) (w : List Char) : Nat :=
  w.foldl (fun a c => (2 * a + if c = '1' then 1 else 0) % 2 ^ 32) value

/-- vcd.cc 1098-1113: the value and the id of a word -/
def valId (value : Nat) (w : List Char) : Nat × Char :=
  let c := w.headD '\x00'
  if c = '1' then (1, w.tail.headD '\x00')
  else if c = '0' then (0, w.tail.headD '\x00')
  else (value, c)

/-- The inner loop of tick, vcd.cc 1063-1137; `p.file` is what is left of it. -/
def loop (W : World) (vars : List Var) (t0 now : Nat) : List Word → Nat → Pl → Pl
  | [], _, p => { p with file := [] }
  | .stamp t :: ws, value, p =>
    if !p.pend then
      let p := { p with event := t0 + t }
      if p.event < now then loop W vars t0 now ws value p else { p with file := ws }
    else loop W vars t0 now ws value { p with mem := assignId W vars '#' value p.mem, pend := false }
  | .txt w :: ws, value, p =>
    let c := w.headD '\x00'
    if !p.pend ∧ c ≠ '1' ∧ c ≠ '0' then
      if c = 'b' ∨ c = 'B' then loop W vars t0 now ws (shiftIn value w) { p with pend := true }
      else if c = 'r' ∨ c = 'R' then loop W vars t0 now ws value { p with pend := true }
      else loop W vars t0 now ws value p
    else
      let (value, id) := valId value w
      loop W vars t0 now ws value { p with mem := assignId W vars id value p.mem, pend := false }

/-- tick at the time `now`, vcd.cc 1036-1145; `t0`: starttime.  After the inner loop `event` is not
before `now` or the file is at its end. -/
def tick (W : World) (vars : List Var) (t0 now : Nat) (p : Pl) : Pl :=
  if p.event < now then loop W vars t0 now p.file 0 p else p

/-- `start` at the time `t0` with the file `ws`, vcd.cc 755-764, 887-891: the header up to the first
stamp is read -/
def play (m : Mem) (t0 : Nat) : List Word → Pl
  | .stamp t :: ws => { mem := m, event := t0 + t, pend := false, file := ws }
  | ws => { mem := m, event := t0, pend := false, file := ws }

end Ucsim.Vcd
