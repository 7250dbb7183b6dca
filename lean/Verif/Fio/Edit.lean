import Verif.Fio.Dev

/-
Model of the line editor of the interactive console: /repo/src/core/utils.src/fio.cc, cl_f in
cooked mode (`process`, `process_esc`, `process_csi`, `process_telnet`) and cl_history.

Simplifications: output to the terminal (echo) is recorded as a list of terminal operations instead
of the bytes of their escape sequences, colours are left out.  `oobLine` and `oobEsc` record that
the C++ code has written outside of `line` or `esc_buffer`, `badChar` that it has called isprint
with something that is not a character (undefined behaviour).  The locale is "C"; `char` is signed.
-/
namespace Ucsim.Fio

/-- what is sent to the terminal (fio.cc 1080-1148) -/
inductive Term where
  | save
  | restore
  | left (n : Int)
  | right (n : Int)
  | write (s : List Byte)
  deriving Repr, DecidableEq

/-- fiocl.h 118-135, 67-71 -/
structure Ed where
  /-- `char line[1024]` -/
  line : Nat → Byte
  cursor : Nat
  /-- the string in `char esc_buffer[100]` -/
  esc : List Byte
  /-- `char last_ln` -/
  lastLn : Int
  /-- cl_history: the strings and `nr` -/
  hist : List (List Byte)
  nr : Nat
  ring : Ring
  echo : List Term
  oobLine : Bool
  oobEsc : Bool
  badChar : Bool

/-- fio.cc 1188-1206 `cl_f::cooked` on a newly opened terminal -/
def Ed.init (junk : Nat → Int) (mem : Nat → Byte) : Ed :=
  { line := fun i => if i = 0 then 0 else mem i, cursor := 0, esc := [], lastLn := 0, hist := []
    nr := 0, ring := Ring.init junk, echo := []
    oobLine := false, oobEsc := false, badChar := false }

/-- strlen of what begins at `line[i]`, looking at no more than `fuel` characters -/
def strlenFrom (line : Nat → Byte) (i : Nat) : Nat → Nat
  | 0 => 0
  | fuel + 1 => if line i = 0 then 0 else strlenFrom line (i + 1) fuel + 1

def strlen (line : Nat → Byte) : Nat := strlenFrom line 0 1024

/-- the characters `line[i] ... line[i+n-1]` -/
def chars (line : Nat → Byte) (i n : Nat) : List Byte := (List.range n).map (fun j => line (i + j))

/-- the string that begins at `line[i]` -/
def str (line : Nat → Byte) (i : Nat) : List Byte := chars line i (strlenFrom line i 1024)

def setAt (line : Nat → Byte) (i : Nat) (c : Byte) : Nat → Byte := fun j => if j = i then c else line j

/-- `for (; line[i]; i++) line[i-1]= line[i];` -/
def shiftDown (line : Nat → Byte) (i : Nat) : Nat → (Nat → Byte)
  | 0 => line
  | fuel + 1 =>
    if line i = 0 then line else shiftDown (setAt line (i - 1) (line i)) (i + 1) fuel

/-- `for (j= l; j>=cursor; j--) line[j+1]= line[j];`, `n` turns: j = cursor+n-1 ... cursor -/
def shiftUp (line : Nat → Byte) (cursor : Nat) : Nat → (Nat → Byte)
  | 0 => line
  | n + 1 => shiftUp (setAt line (cursor + n + 1) (line (cursor + n))) cursor n

/-- strcpy(line, s) -/
def strcpy (line : Nat → Byte) (s : List Byte) : Nat → Byte :=
  fun i => if i < s.length then s.getD i 0 else if i = s.length then 0 else line i

/-- fio.cc 1083-1148 -/
def Ed.say (e : Ed) (ts : List Term) : Ed := { e with echo := e.echo ++ ts }

/-! ### Keys -/

def TU_UP : Int := -10
def TU_DOWN : Int := -11
def TU_LEFT : Int := -12
def TU_RIGHT : Int := -13
def TU_HOME : Int := -14
def TU_END : Int := -15
def TU_DEL : Int := -18

/-- fio.cc 444-461 `cl_f::process_telnet`: new esc_buffer and result -/
def processTelnet (esc : List Byte) (ci : Byte) : List Byte × Int :=
  let l := esc.length + 1
  let esc := if ci = 0 then esc else esc ++ [ci]
  if ci = 0xff ∧ l = 2 then ([], 0xff)
  else if l = 3 then ([], 0)
  else (esc, 0)

/-- the button codes of fio.cc 477-492 -/
def mouseCode (c : Byte) : Int :=
  if c = 32 then -50 else if c = 33 then -51 else if c = 34 then -52 else
  if c = 48 then -53 else if c = 49 then -54 else if c = 50 then -55 else
  if c = 40 then -56 else if c = 41 then -57 else if c = 42 then -58 else
  if c = 96 then -59 else if c = 97 then -60 else
  if c = 112 then -61 else if c = 113 then -62 else 0

/-- fio.cc 493-500: the code with the position of the mouse in it -/
def mouseKey (esc : List Byte) : Int :=
  let ret : BitVec 32 := BitVec.ofInt 32 (mouseCode (esc.getD 3 0))
  let x : BitVec 32 := (esc.getD 4 0 - 32).setWidth 32
  let y : BitVec 32 := (esc.getD 5 0 - 32).setWidth 32
  ((ret &&& ~~~ (0xffff00 : BitVec 32)) ||| (x <<< 16) ||| (y <<< 8)).toInt

/-- value of a digit in a number of the C library -/
def digitVal (c : Byte) : Nat :=
  if 48 ≤ c ∧ c ≤ 57 then c.toNat - 48
  else if 97 ≤ c ∧ c ≤ 122 then c.toNat - 87
  else if 65 ≤ c ∧ c ≤ 90 then c.toNat - 55
  else 99

def digits (base : Nat) (s : List Byte) (acc : Nat) : Nat :=
  match s with
  | [] => acc
  | c :: s => if digitVal c < base then digits base s (acc * base + digitVal c) else acc

def isSpace (c : Byte) : Bool := c = 32 ∨ (9 ≤ c ∧ c ≤ 13)

/-- strtol(s, 0, 0), stored in an int -/
def strtolInt (s : List Byte) : Int :=
  let s := s.dropWhile isSpace
  let neg := s.head? = some 45
  let s := if s.head? = some 45 ∨ s.head? = some 43 then s.tail else s
  let v : Nat :=
    if s.head? = some 48 then
      if (s.getD 1 0 = 120 ∨ s.getD 1 0 = 88) ∧ digitVal (s.getD 2 0) < 16 then digits 16 (s.drop 2) 0
      else digits 8 s 0
    else digits 10 s 0
  let v : Int := if neg then -(min v (2 ^ 63)) else min v (2 ^ 63 - 1)
  (BitVec.ofInt 32 v).toInt

/-- fio.cc 521-545: the numbered keys; an unknown number gives the `~` itself -/
def tildeKey (n : Int) : Int :=
  if n = 1 then TU_HOME else if n = 2 then -31 else if n = 3 then TU_DEL else if n = 4 then TU_END
  else if n = 5 then -16 else if n = 6 then -17
  else if n = 11 then -19 else if n = 12 then -20 else if n = 13 then -21 else if n = 14 then -22
  else if n = 15 then -23 else if n = 17 then -24 else if n = 18 then -25 else if n = 19 then -26
  else if n = 20 then -27 else if n = 21 then -28 else if n = 23 then -29 else if n = 24 then -30
  else 126

/-- fio.cc 463-546 `cl_f::process_csi` -/
def processCsi (esc : List Byte) : List Byte × Int :=
  let l := esc.length
  if l < 3 then (esc, 0)
  else
    let c := esc.getD (l - 1) 0
    if esc.getD 2 0 = 77 then
      if l = 6 then ([], mouseKey esc) else (esc, 0)
    else if c = 65 then ([], TU_UP)
    else if c = 66 then ([], TU_DOWN)
    else if c = 67 then ([], TU_RIGHT)
    else if c = 68 then ([], TU_LEFT)
    else if c = 72 then ([], TU_HOME)
    else if c = 70 then ([], TU_END)
    else if c = 69 then ([], 0)
    else if c = 126 then ([], tildeKey (strtolInt (esc.drop 2)))
    else (esc, 0)

/-- fio.cc 566-578: keys of the form ESC O x -/
def ss3Key (c : Byte) : Int :=
  if c = 80 then -19 else if c = 81 then -20 else if c = 82 then -21 else if c = 83 then -22
  else if c = 72 then TU_HOME else if c = 70 then TU_END else c.toInt

/-- fio.cc 548-611 `cl_f::process_esc`: new esc_buffer, the key (0: none yet), and whether it has
written outside of `esc_buffer` -/
def processEsc (esc : List Byte) (c : Byte) : List Byte × Int × Bool :=
  let b0 := esc.getD 0 0
  if b0 = 27 then
    let l := esc.length + 1
    let over := decide (100 ≤ l)
    let esc := if c = 0 then esc else esc ++ [c]
    let e1 := esc.getD 1 0
    if e1 = 79 then
      if l < 3 then (esc, 0, over) else ([], ss3Key c, over)
    else if e1 = 78 then
      if l < 3 then (esc, 0, over) else ([], c.toInt, over)
    else if e1 = 91 then
      let (esc, k) := processCsi esc
      (esc, k, over)
    else ([], c.toInt, over)
  else if b0 = 255 then
    let over := decide (100 ≤ esc.length + 1)
    let (esc, k) := processTelnet esc c
    (esc, k, over)
  else if c = 27 then ([27], 0, false)
  else if c = 255 then ([255], 0, false)
  else (esc, c.toInt, false)

/-! ### cl_history -/

/-- fio.cc 114-125 -/
def histReplace (hist : List (List Byte)) (nr : Nat) (line : List Byte) : List (List Byte) :=
  if nr < hist.length then hist.set nr line else hist

/-- fio.cc 80-89 `cl_history::up`: strings, nr, result -/
def histUp (hist : List (List Byte)) (nr : Nat) (line : List Byte) :
    List (List Byte) × Nat × Option (List Byte) :=
  let hist := histReplace hist nr line
  let nr := if nr > 0 then nr - 1 else nr
  (hist, nr, hist[nr]?)

/-- fio.cc 91-100 `cl_history::down` -/
def histDown (hist : List (List Byte)) (nr : Nat) (line : List Byte) :
    List (List Byte) × Nat × Option (List Byte) :=
  let hist := histReplace hist nr line
  let nr := if nr < hist.length then nr + 1 else nr
  (hist, nr, hist[nr]?)

/-- fio.cc 102-112 `cl_history::enter` -/
def histEnter (hist : List (List Byte)) (nr : Nat) (line : List Byte) : List (List Byte) × Nat :=
  let hist := if hist.length > 1000 then hist.tail else hist
  if line ≠ [] then (hist ++ [line], hist.length + 1) else (hist, nr)

/-! ### Editing -/

def spaces (n : Nat) : List Byte := List.replicate n 32

/-- fio.cc 825-832, 735-741, 751-757 (the same in all three): the line is blanked on the terminal
and emptied -/
def Ed.clear (e : Ed) : Ed :=
  let l := strlen e.line
  let e := if e.cursor > 0 then e.say [.left e.cursor] else e
  let e := e.say ([.save] ++ List.replicate l (.write [32]) ++ [.restore])
  { e with cursor := 0, line := setAt e.line 0 0 }

/-- fio.cc 732-766: a line comes from the history -/
def Ed.recall (e : Ed) (h : List (List Byte) × Nat × Option (List Byte)) : Ed :=
  let e := Ed.clear { e with hist := h.1, nr := h.2.1 }
  match h.2.2 with
  | none => e
  | some s => { e with line := strcpy e.line s, cursor := s.length, oobLine := e.oobLine || decide (1024 ≤ s.length) }.say
      [.write s]

/-- fio.cc 697-730: cursor movement -/
def Ed.goLeft (e : Ed) : Ed :=
  if e.cursor > 0 then { e with cursor := e.cursor - 1 }.say [.left 1] else e

def Ed.goRight (e : Ed) : Ed :=
  if e.line e.cursor ≠ 0 then { e with cursor := e.cursor + 1 }.say [.right 1] else e

def Ed.goHome (e : Ed) : Ed :=
  if e.cursor > 0 then { e with cursor := 0 }.say [.left e.cursor] else e

def Ed.goEnd (e : Ed) : Ed :=
  let l := strlen e.line
  if e.line e.cursor ≠ 0 then { e with cursor := l }.say [.right (l - e.cursor)] else e

/-- fio.cc 767-788: end of the line -/
def Ed.finish (e : Ed) (k : Int) : Ed :=
  if e.lastLn ≠ 0 ∧ e.lastLn ≠ k then { e with lastLn := 0 }
  else
    let s := chars e.line 0 (strlen e.line)
    let h := histEnter e.hist e.nr s
    { e with
      lastLn := k
      ring := (Ring.put (s.foldl Ring.raw e.ring) 10).1
      hist := h.1
      nr := h.2
      cursor := 0
      line := setAt e.line 0 0
      esc := [] }.say [.write [10]]

/-- fio.cc 789-807: backspace -/
def Ed.backspace (e : Ed) : Ed :=
  let l := strlen e.line
  if e.cursor > 0 then
    let line := shiftDown e.line e.cursor 1024
    let line := setAt line (l - 1) 0
    let cur := e.cursor - 1
    { e with line := line, cursor := cur }.say
      ([Term.left 1, .save] ++ (if line cur ≠ 0 then [Term.write (str line cur)] else []) ++
       [Term.write [32], .restore])
  else e

/-- fio.cc 808-822: delete -/
def Ed.delete (e : Ed) : Ed :=
  let l := strlen e.line
  if e.line e.cursor ≠ 0 then
    let line := shiftDown e.line (e.cursor + 1) 1024
    let line := setAt line (l - 1) 0
    { e with line := line }.say
      ([Term.save] ++ (if line e.cursor ≠ 0 then [Term.write (str line e.cursor)] else []) ++
       [Term.write [32], .restore])
  else e

/-- fio.cc 823-833: ^K -/
def Ed.kill (e : Ed) : Ed := e.clear

/-- fio.cc 836-858: a printable character `k`, `c` being the character that came -/
def Ed.insert (e : Ed) (k c : Byte) : Ed :=
  let l := strlen e.line
  if l < 1023 then
    if e.line e.cursor = 0 then
      { e with
        line := setAt (setAt e.line e.cursor k) (e.cursor + 1) 0
        cursor := e.cursor + 1
        oobLine := e.oobLine || decide (1024 ≤ e.cursor + 1) }.say [.write [c]]
    else
      let line := setAt (shiftUp e.line e.cursor (l + 1 - e.cursor)) e.cursor k
      { e with line := line, cursor := e.cursor + 1, oobLine := e.oobLine || decide (1024 ≤ l + 1) }.say
        [.save, .write (chars line e.cursor (l - (e.cursor + 1) + 2)), .restore, .right 1]
  else e

/-- fio.cc 697-859: what a key does; `c` is the character that completed it -/
def Ed.key (e : Ed) (k : Int) (c : Byte) : Ed :=
  if k = TU_LEFT then e.goLeft
  else if k = TU_RIGHT then e.goRight
  else if k = TU_HOME ∨ k = 1 then e.goHome
  else if k = TU_END ∨ k = 5 then e.goEnd
  else if k = TU_UP then e.recall (histUp e.hist e.nr (chars e.line 0 (strlen e.line)))
  else if k = TU_DOWN then e.recall (histDown e.hist e.nr (chars e.line 0 (strlen e.line)))
  else if k = 10 ∨ k = 13 ∨ k = 0 then e.finish k
  else if k = 127 ∨ k = 8 then e.backspace
  else if k = TU_DEL then e.delete
  else if k = 11 then e.kill
  else if k < 0 then e
  else if 255 < k then { e with badChar := true }
  else if 32 ≤ k ∧ k ≤ 126 then e.insert (BitVec.ofInt 8 k) c
  else e

/-- fio.cc 614-860 `cl_f::process` in cooked mode: a character came -/
def Ed.process (e : Ed) (c : Byte) : Ed :=
  let (esc, k, over) := processEsc e.esc c
  let e := { e with esc := esc, oobEsc := e.oobEsc || over }
  if k = 0 then { e with lastLn := 0 } else e.key k c

/-- characters coming one after the other -/
def Ed.feed (e : Ed) (cs : List Byte) : Ed := cs.foldl Ed.process e

end Ucsim.Fio
