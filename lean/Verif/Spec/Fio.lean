import Verif.Fio.Dev

/- What a user of an opened file can say about the calls made on it. -/
namespace Ucsim.Fio

/-- the bytes a call gave -/
def Obs.bytes : Obs → List Byte
  | .avail _ => []
  | .read _ got => got.map (BitVec.ofInt 8)

/-- the bytes all the calls gave, in order -/
def received (os : List Obs) : List Byte := os.flatMap Obs.bytes

/-- all bytes a user gets who makes the calls `ops` on a newly opened file -/
def readAll (junk : Nat → Int) (isFile : Bool) (file : List Byte) (ops : List Op) : List Byte :=
  received ((Dev.init junk isFile file).run ops).2

/-! ### Command files -/

/-- the ways to end a line: LF, CR, CR LF, LF CR -/
inductive Eol where
  | lf | cr | crlf | lfcr
  deriving Repr, DecidableEq

def Eol.bytes : Eol → List Byte
  | .lf => [10]
  | .cr => [13]
  | .crlf => [13, 10]
  | .lfcr => [10, 13]

/-- a text of the lines `ls`, each ended with `e`, and a last line that is not ended -/
def text (e : Eol) (ls : List (List Byte)) (last : List Byte) : List Byte :=
  ls.flatMap (· ++ e.bytes) ++ last

/-- its lines; the unended one counts if there is anything in it -/
def linesOf (ls : List (List Byte)) (last : List Byte) : List (List Byte) :=
  if last = [] then ls else ls ++ [last]

/-- the bytes a command may have: not NUL, LF, CR, not the byte 255, not ^C which closes the
console; and it does not begin with ^D, which does so, too -/
def IsCmd (l : List Byte) : Prop :=
  (∀ b ∈ l, b ≠ 0 ∧ b ≠ 10 ∧ b ≠ 13 ∧ b ≠ 255 ∧ b ≠ 3) ∧ l.head? ≠ some 4

end Ucsim.Fio
