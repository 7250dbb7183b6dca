/-
Model of the buffered input of /repo/src/core/utils.src/fio.cc (class cl_f) and of the part of
/repo/src/core/utils.src/fuio.cc (class cl_io) below it, in raw mode: ring buffer, reading from
the operating system, `input_avail`, `read`, `eof`.

The operating system is an oracle: `Os` says what select()/read() do at a call.  Not modelled in
this file: cooked (line editing) mode (that is Fio/Edit.lean), `proc_escape` and `proc_telnet`
(both false unless set), echo of raw input, sockets, `unget`.
-/
namespace Ucsim.Fio

abbrev Byte := BitVec 8

/-- fiocl.h 128-129: `int buffer[1024]; int last_used, first_free;` -/
structure Ring where
  buf : Nat → Int
  lu : Nat
  ff : Nat

/-- fio.cc 142 (constructor): the buffer is empty; its content is not initialised -/
def Ring.init (junk : Nat → Int) : Ring := ⟨junk, 0, 0⟩

/-- fio.cc 393-405 `cl_f::put`: 0, or -1 (and a message) when the buffer is full -/
def Ring.put (r : Ring) (c : Int) : Ring × Int :=
  let n := (r.ff + 1) % 1024
  if n = r.lu then (r, -1)
  else ({ r with buf := fun i => if i = r.ff then c else r.buf i, ff := n }, 0)

/-- fio.cc 407-418 `cl_f::get`: -1 if the buffer is empty; positive values are cut to 8 bits -/
def Ring.get (r : Ring) : Ring × Int :=
  if r.lu = r.ff then (r, -1)
  else
    let c := r.buf r.lu
    let c := if 0 < c then c % 256 else c
    ({ r with lu := (r.lu + 1) % 1024 }, c)

/-- fio.cc 429-435 `cl_f::free_place` -/
def Ring.freePlace (r : Ring) : Nat :=
  if r.lu ≤ r.ff then 1024 - (r.ff - r.lu) - 1 else r.lu - r.ff - 1

/-- What the operating system does when the simulator looks for input.
`nothing`: nothing to read now (select() says no) or read() fails.
`data k`: read() returns; it gives `k + 1` bytes, or fewer if fewer were asked for or if the file
has no more, and 0 bytes exactly at the end of the file. -/
inductive Os where
  | nothing
  | data (k : Nat)
  deriving Repr, DecidableEq

/-- An opened file.  `rest` are the bytes the operating system has not given yet, `isFile` is
`type == F_FILE` (otherwise F_CHAR or F_PIPE). -/
structure Dev where
  ring : Ring
  atEnd : Bool
  rest : List Byte
  isFile : Bool

def Dev.init (junk : Nat → Int) (isFile : Bool) (file : List Byte) : Dev :=
  ⟨Ring.init junk, false, file, isFile⟩

/-- fio.cc 614-690 `cl_f::process` with `cooking == 0`: `return put(c)`, where `c` is a (signed)
`char` that becomes an `int` -/
def Ring.raw (r : Ring) (c : Byte) : Ring := (r.put c.toInt).1

/-- fio.cc 862-885 `cl_f::pick`: ask for at most 99 bytes and at most one less than the free
places (100 if just 101 are free), and `process` what came -/
def Dev.pick (d : Dev) (o : Os) : Dev :=
  let fp := d.ring.freePlace
  if fp < 5 then d
  else
    let n := if fp > 101 then 99 else fp - 1
    match o with
    | .nothing => d
    | .data k =>
      if d.rest = [] then { d with atEnd := true }
      else
        let m := min (k + 1) n
        { d with ring := (d.rest.take m).foldl Ring.raw d.ring, rest := d.rest.drop m }

/-- fuio.cc 186-231 `cl_io::check_dev` for F_FILE, F_CHAR, F_PIPE -/
def Dev.checkDev (d : Dev) (o : Os) : Dev × Bool :=
  if d.isFile then
    let d := d.pick o
    (d, decide (d.ring.lu ≠ d.ring.ff))
  else if d.ring.lu ≠ d.ring.ff then (d, true)
  else
    let d := d.pick o
    (d, decide (d.ring.lu ≠ d.ring.ff))

/-- fio.cc 905-912 `cl_f::input_avail` -/
def Dev.inputAvail (d : Dev) (o : Os) : Dev × Bool :=
  let (d, b) := d.checkDev o
  if b then (d, true) else (d, d.atEnd)

/-- the loop of fio.cc 966-996 `cl_f::read_dev`: `i` bytes were taken so far (`got`, in reverse),
`left` more are wanted -/
def Dev.readLoop (d : Dev) (got : List Int) : Nat → Dev × Int × List Int
  | 0 =>
    if got.length > 0 then (d, got.length, got.reverse)
    else if d.atEnd then (d, 0, [])
    else (d, -2, [])
  | left + 1 =>
    let (r, c) := d.ring.get
    let d := { d with ring := r }
    if c = -1 then
      if got.length > 0 then (d, got.length, got.reverse)
      else if d.atEnd then (d, 0, [])
      else (d, -1, [])
    else d.readLoop (c :: got) left

/-- fio.cc 914-918, 966-996 `cl_f::read`, `cl_f::read_dev`: the returned code and what was stored
in the caller's buffer -/
def Dev.read (d : Dev) (max : Nat) : Dev × Int × List Int :=
  if max = 0 then (d, -1, []) else d.readLoop [] max

/-- fio.cc 1065-1071 `cl_f::eof` (the file is open) -/
def Dev.eof (d : Dev) : Bool := d.atEnd && d.ring.lu == d.ring.ff

/-! ### A user of the file -/

/-- a call made on the file -/
inductive Op where
  | avail (o : Os)
  | read (max : Nat)
  deriving Repr, DecidableEq

/-- what the call returned -/
inductive Obs where
  | avail (b : Bool)
  | read (code : Int) (got : List Int)
  deriving Repr, DecidableEq

def Dev.op (d : Dev) : Op → Dev × Obs
  | .avail o => let (d, b) := d.inputAvail o; (d, .avail b)
  | .read max => let (d, c, g) := d.read max; (d, .read c g)

def Dev.run (d : Dev) : List Op → Dev × List Obs
  | [] => (d, [])
  | o :: os =>
    let (d, b) := d.op o
    let (d, bs) := d.run os
    (d, b :: bs)

end Ucsim.Fio
