/-
Model of reading a regular file through `class cl_f` / `class cl_io`.
Source: /repo/src/core/utils.src/fio.cc and fuio.cc.

Simplifications: the ring buffer `buffer[1024]` with `last_used`, `first_free`
(fiocl.h) is the queue `buf` (it never holds more than 1023 items);
`read(2)` on a regular file of fixed content delivers as many bytes as asked
for, or what is left; `char` is signed (x86); no echo, no line editing
(`cooking`, `proc_escape`, `proc_telnet`, `echo_to` are off for loaded files,
constructor fio.cc 154-177).
-/
namespace Ucsim

/-- An opened regular file: bytes not read yet, bytes in the buffer, `at_end`. -/
structure File where
  rest : List Nat
  buf : List Nat
  atEnd : Bool
deriving DecidableEq, Repr

/-- A freshly opened file with the given content (fio.cc 154-177, 229-266). -/
def File.open (bytes : List Nat) : File := ⟨bytes, [], false⟩

/-- `cl_f::pick` (fio.cc 862-885) with `free_place` (429-435), `put` (393-404)
and `process` (614-690, not cooking). -/
def File.pick (f : File) : File :=
  let fp := 1023 - f.buf.length
  if fp < 5 then f
  else
    let n := if fp > 101 then 99 else fp - 1
    { rest := f.rest.drop n, buf := f.buf ++ f.rest.take n, atEnd := f.atEnd || f.rest.isEmpty }

/-- The value `cl_f::get` and `read_dev` (fio.cc 407-419, 966-997) make of a
buffered byte: bytes from 0x80 are negative; 0xff is -1, which `read_dev` takes
for an empty buffer. -/
def File.charVal (b : Nat) (atEnd : Bool) : Int :=
  if b < 128 then b else if b = 255 then (if atEnd then 0 else -1) else (b : Int) - 256

/-- `cl_f::get_c` (fio.cc 920-931) with `check_dev` (fuio.cc 186-228, F_FILE):
`while (!check_dev());` does not end when nothing is left (`none`). -/
def File.getC (f : File) : Option (Int × File) :=
  match f.pick with
  | ⟨_, [], _⟩ => none
  | ⟨r, b :: bs, e⟩ => some (File.charVal b e, ⟨r, bs, e⟩)

/-- `cl_f::eof` (fio.cc 1065-1071), opened file. -/
def File.eof (f : File) : Bool := f.atEnd && f.buf.isEmpty

/-- Bytes of the file not yet delivered. -/
def File.left (f : File) : List Nat := f.buf ++ f.rest

end Ucsim
