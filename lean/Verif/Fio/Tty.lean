import Verif.Fio.Edit
import Verif.Fio.Console

/-
A console on a terminal: the line editor (Fio/Edit.lean) between the operating system and the
command reader (Fio/Console.lean).
-/
namespace Ucsim.Fio

/-- `rest` are the characters the terminal has sent and nobody has read yet; the buffer of the file
is `con.dev.ring` -/
structure Tty where
  ed : Ed
  rest : List Byte
  con : Con

/-- newcmdposix.cc 60-100: a console on a terminal, in cooked mode -/
def Tty.init (junk : Nat → Int) (mem : Nat → Byte) (typed : List Byte) : Tty :=
  ⟨Ed.init junk mem, typed, Con.init (Dev.init junk false [])⟩

/-- fio.cc 862-885 `cl_f::pick` with an empty buffer: at most 99 characters are read and edited.
Simplification: the terminal is never closed (read() does not return 0). -/
def Tty.pick (t : Tty) (o : Os) : Tty :=
  match o with
  | .nothing => t
  | .data k =>
    let m := min (k + 1) 99
    let e := Ed.feed { t.ed with ring := t.con.dev.ring } (t.rest.take m)
    { ed := e, rest := t.rest.drop m
      con := { t.con with dev := { t.con.dev with ring := e.ring } } }

/-- newcmdposix.cc 573-612 `cl_commander::proc_input`: fuio.cc 205-227 `cl_io::check_dev` (a
character device is read only if the buffer is empty), then the console as in `Con.poll` -/
def Tty.poll (t : Tty) (o : Os) : Tty :=
  let t := if t.con.dev.ring.lu = t.con.dev.ring.ff then t.pick o else t
  { t with con := t.con.poll .nothing }

def Tty.polls (t : Tty) (os : List Os) : Tty := os.foldl Tty.poll t

end Ucsim.Fio
