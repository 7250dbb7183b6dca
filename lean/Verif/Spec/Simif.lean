import Verif.Simif.Cmds

/-
The simulator interface as its documentation (docs/simif.html and the table of commands in
simifcl.h) tells it: what each command needs, what it answers and what it does.
-/
namespace Ucsim.Simif.Doc

def ch (c : Char) : Byte := BitVec.ofNat 8 c.toNat

/-- the character that selects the command -/
def letter : Kind → Byte
  | .detect => ch '_' | .commands => ch 'i' | .ifver => ch 'v' | .simver => ch 'V'
  | .ifreset => ch '@' | .cmdinfo => ch 'I' | .cmdhelp => ch 'h' | .stop => ch 's'
  | .print => ch 'p' | .hex => ch 'x' | .finCheck => ch 'f' | .read => ch 'r'
  | .write => ch 'w' | .reset => ch 'R' | .setlimit => ch 'L' | .getlimit => ch 'l'

/-- how many bytes have to follow it -/
def needs : Kind → Nat
  | .cmdinfo | .cmdhelp | .print | .hex | .write => 1
  | .setlimit => 4
  | _ => 0

/-- the type of the answer: 1 byte, 2 array, 3 string, 4 none, 8 four bytes of a number -/
def typeOf : Kind → Byte
  | .detect | .ifver | .stop | .finCheck | .read => 1
  | .commands | .cmdinfo => 2
  | .simver | .cmdhelp => 3
  | .ifreset | .print | .hex | .write | .reset | .setlimit => 4
  | .getlimit => 8

def help : Kind → String
  | .detect => "Detect existence of interface"
  | .commands => "Get information about known commands"
  | .ifver => "Get version of simulator interface"
  | .simver => "Get version of simulator"
  | .ifreset => "Reset interface to default state"
  | .cmdinfo => "Get information about a command"
  | .cmdhelp => "Get help about a command"
  | .stop => "Stop simulation"
  | .print => "Print character"
  | .hex => "Print character in hex"
  | .finCheck => "Check input file if input available"
  | .read => "Read character from input file"
  | .write => "Write character to output file"
  | .reset => "Reset CPU"
  | .setlimit => "Set execution limit for simulation"
  | .getlimit => "Get value of simulation execution limit"

def kinds : List Kind :=
  [.detect, .commands, .ifver, .simver, .ifreset, .cmdinfo, .cmdhelp, .stop, .print, .hex,
   .finCheck, .read, .write, .reset, .setlimit, .getlimit]

/-- the command a character selects -/
def byLetter (v : Byte) : Option Kind := kinds.find? (fun k => letter k == v)

/-- a string answer: length with the closing zero, characters, zero -/
def str (s : List Byte) : List Byte := BitVec.ofNat 8 (s.length + 1) :: s ++ [0]

/-- two hexadecimal digits -/
def hex2 (v : Byte) : List Byte :=
  let d (n : Nat) : Byte := ch ("0123456789abcdef".toList.getD n '?')
  [d (v.toNat / 16), d (v.toNat % 16)]

/-- the world around the interface -/
structure World where
  /-- what the program has not read yet of the input file (nothing if there is no such file) -/
  input : List Byte
  /-- an output file is set -/
  output : Bool
  /-- the execution limit -/
  limit : Nat
  /-- what happened so far -/
  log : List Ev
  deriving Repr, DecidableEq

def World.add (w : World) (es : List Ev) : World := { w with log := w.log ++ es }

/-- The answer of a command that got its arguments, and what it does.  `ver` is the version text
of the simulator. -/
def answer (ver : List Byte) (k : Kind) (args : List Byte) (w : World) : List Byte × World :=
  match k, args with
  | .detect, _ => ([ch '!'], w)
  | .commands, _ => (BitVec.ofNat 8 kinds.length :: kinds.map letter, w)
  | .ifver, _ => ([2], w)
  | .simver, _ => (str ver, w)
  | .ifreset, _ => ([], w)
  | .cmdinfo, c :: _ =>
    (2 :: (match byLetter c with
      | some a => [BitVec.ofNat 8 (needs a), typeOf a]
      | none => [0, 0]), w)
  | .cmdhelp, c :: _ =>
    (match byLetter c with
      | some a => str (chars (help a))
      | none => [0], w)
  | .stop, _ => ([ch 's'], w.add [.stop])
  | .print, c :: _ => ([], w.add [.con c])
  | .hex, c :: _ => ([], w.add ((hex2 c).map .con))
  | .finCheck, _ => ([if w.input = [] then 0 else 1], w)
  | .read, _ => (match w.input with
    | [] => ([0], w)
    | b :: bs => ([b], { w with input := bs }))
  | .write, c :: _ => ([], if w.output then w.add [.file c] else w)
  | .reset, _ => ([], w.add [.reset])
  | .setlimit, b0 :: b1 :: b2 :: b3 :: _ =>
    let n := b0.toNat + 256 * b1.toNat + 65536 * b2.toNat + 16777216 * b3.toNat
    ([], { w with limit := n }.add [.limit n])
  | .getlimit, _ =>
    ([4, BitVec.ofNat 8 w.limit, BitVec.ofNat 8 (w.limit / 256),
      BitVec.ofNat 8 (w.limit / 65536), BitVec.ofNat 8 (w.limit / 16777216)], w)
  | _, _ => ([], w)

/-- what the program does with the cell -/
inductive Step where
  | rd
  | wr (v : Byte)
  deriving Repr, DecidableEq

/-! ### Transactions -/

/-- a command with its arguments -/
structure Tx where
  k : Kind
  args : List Byte
  deriving Repr, DecidableEq

def Tx.Ok (t : Tx) : Prop := t.args.length = needs t.k

/-- A program that does transactions: it writes the command and the arguments and reads the whole
answer, then goes on with the next one.  Its accesses, what it must read, and the world then. -/
def script (ver : List Byte) : World → List Tx → List Step × List Byte × World
  | w, [] => ([], [], w)
  | w, t :: ts =>
    let a := answer ver t.k t.args w
    let r := script ver a.2 ts
    ((letter t.k :: t.args).map .wr ++ List.replicate a.1.length .rd ++ r.1, a.1 ++ r.2.1, r.2.2)

/-! ### Programs that do not keep to the protocol -/

/-- What the interface is doing: nothing, waiting for (more) arguments of a command, or giving an
answer. -/
inductive Phase where
  | idle
  | args (k : Kind) (got : List Byte)
  | ans (rest : List Byte)
  deriving Repr, DecidableEq

/-- the interface; `last` is the byte written last to the cell -/
structure Mach where
  ph : Phase
  w : World
  last : Byte
  deriving Repr, DecidableEq

/-- a command has got the arguments `got`: if these are all it answers -/
def Mach.feed (ver : List Byte) (m : Mach) (k : Kind) (got : List Byte) : Mach :=
  if got.length = needs k then
    let a := answer ver k got m.w
    { m with ph := if a.1 = [] then .idle else .ans a.1, w := a.2 }
  else { m with ph := .args k got }

/-- A write: of a command if the interface is idle (other characters have no effect), of an
argument if one is expected; it is ignored while an answer is given. -/
def Mach.write (ver : List Byte) (m : Mach) (v : Byte) : Mach :=
  { (match m.ph with
     | .idle => match byLetter v with
       | some k => m.feed ver k []
       | none => m
     | .args k got => m.feed ver k (got ++ [v])
     | .ans _ => m) with last := v }

/-- A read: the next byte of the answer, if one is given; the interface is idle after the last one.
Otherwise it does nothing and gives the byte written last, or its complement when idle. -/
def Mach.read (m : Mach) : Mach × Byte :=
  match m.ph with
  | .idle => (m, ~~~ m.last)
  | .args _ _ => (m, m.last)
  | .ans [] => (m, 0)
  | .ans [b] => ({ m with ph := .idle }, b)
  | .ans (b :: bs) => ({ m with ph := .ans bs }, b)

def Mach.run (ver : List Byte) (m : Mach) : List Step → Mach × List Byte
  | [] => (m, [])
  | .rd :: ss => let r := m.read; let q := r.1.run ver ss; (q.1, r.2 :: q.2)
  | .wr v :: ss => (m.write ver v).run ver ss

end Ucsim.Simif.Doc
