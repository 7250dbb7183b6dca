import Verif.Fio.Dev

/-
Model of a console that takes its commands from a file, pipe or character device:
/repo/src/core/cmd.src/newcmdposix.cc `cl_console::read_line`, `cl_commander::proc_input` and the
input part of /repo/src/core/cmd.src/newcmd.cc `cl_console_base::proc_input`.

What a command does is not modelled: a line that is handed to the command interpreter is recorded
in `lines`.  The console is not frozen (no `run` is in progress) and no command closes it.
-/
namespace Ucsim.Fio

/-- newcmdcl.h 114-115 (`char nl; chars lbuf;`) and the input file; `closed`: the console was
deleted -/
structure Con where
  dev : Dev
  nl : Int
  lbuf : List Byte
  lines : List (List Byte)
  closed : Bool

/-- newcmd.cc 122-133 -/
def Con.init (d : Dev) : Con := ⟨d, 0, [], [], false⟩

/-- `char s[2]; s[0]= b[0]; s[1]= 0; lbuf+= s;` (newcmdposix.cc 306-311): a zero adds nothing -/
def addChar (lbuf : List Byte) (c : Int) : List Byte :=
  let b := BitVec.ofInt 8 c
  if b = 0 then lbuf else lbuf ++ [b]

/-- newcmdposix.cc 259-316 `cl_console::read_line`.  Every turn that goes on takes a value from
the buffer, so 1024 turns are enough; see `readLine_fuel`. -/
def Con.readLine (c : Con) : Nat → Con × Int
  | 0 => (c, 0)
  | fuel + 1 =>
    let (d, i, got) := c.dev.read 1
    let c := { c with dev := d }
    if i < -1 then (c, -1)
    else if i = 0 then
      if c.lbuf.length = 0 then (c, -1) else (c, 1)
    else if i > 0 then
      let b := got.headD 0
      if b = 3 then (c, -1)
      else if b = 10 ∨ b = 13 then
        if c.nl ≠ 0 ∧ c.nl ≠ b then Con.readLine { c with nl := 0 } fuel
        else ({ c with nl := b }, 1)
      else Con.readLine { c with lbuf := addChar c.lbuf b } fuel
    else (c, 0)

/-- newcmd.cc 660-750 `cl_console_base::proc_input`: no line yet, a line for the interpreter, or
the console is to be closed; `\004` at the beginning of a line closes it too -/
def Con.procInput (c : Con) : Con :=
  let (c, i) := c.readLine 1024
  if i < 0 then { c with closed := true }
  else if i = 0 then c
  else
    { c with lines := c.lines ++ [c.lbuf], lbuf := [], closed := c.lbuf.head? == some 4 }

/-- newcmdposix.cc 573-612 `cl_commander::proc_input` for one console: it is looked at, and if it
has input it is processed -/
def Con.poll (c : Con) (o : Os) : Con :=
  if c.closed then c
  else
    let (d, b) := c.dev.inputAvail o
    let c := { c with dev := d }
    if b then c.procInput else c

def Con.polls (c : Con) (os : List Os) : Con := os.foldl Con.poll c

end Ucsim.Fio
