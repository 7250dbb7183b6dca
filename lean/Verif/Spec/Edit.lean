import Verif.Fio.Edit

/-
What a line editor is for its user: keys, the text with a cursor in it, the history, and what a
terminal shows.  Written without looking at how the code does it.
-/
namespace Ucsim.Fio

/-! ### Keys and what they do -/

inductive Key where
  | char (c : Byte)
  | left | right | home | last | del | bs | kill | up | down | enter
  | ignored
  deriving Repr, DecidableEq

/-- An editing session: the text before and after the cursor, the history with the position in it,
and the lines entered so far.  A line has at most 1023 characters. -/
structure Sess where
  before : List Byte
  after : List Byte
  hist : List (List Byte)
  pos : Nat
  entered : List (List Byte)

def Sess.text (s : Sess) : List Byte := s.before ++ s.after

def Sess.new : Sess := ⟨[], [], [], 0, []⟩

/-- show history line `pos` (nothing beyond the last one); what was in the line is kept in the
history if it came from there -/
def Sess.recall (s : Sess) (pos : Nat) : Sess :=
  let h := s.hist.set s.pos s.text
  { s with hist := h, pos := pos, before := h.getD pos [], after := [] }

def Sess.key (s : Sess) : Key → Sess
  | .char c => if s.text.length < 1023 then { s with before := s.before ++ [c] } else s
  | .left =>
    match s.before.getLast? with
    | some c => { s with before := s.before.dropLast, after := c :: s.after }
    | none => s
  | .right =>
    match s.after with
    | c :: r => { s with before := s.before ++ [c], after := r }
    | [] => s
  | .home => { s with before := [], after := s.text }
  | .last => { s with before := s.text, after := [] }
  | .del => { s with after := s.after.tail }
  | .bs => { s with before := s.before.dropLast }
  | .kill => { s with before := [], after := [] }
  | .up => s.recall (s.pos - 1)
  | .down => s.recall (min (s.pos + 1) (max s.pos s.hist.length))
  | .enter =>
    let h := if s.hist.length > 1000 then s.hist.tail else s.hist
    { s with
      before := []
      after := []
      entered := s.entered ++ [s.text]
      hist := if s.text = [] then h else h ++ [s.text]
      pos := if s.text = [] then s.pos else h.length + 1 }
  | .ignored => s

def Sess.keys (s : Sess) (ks : List Key) : Sess := ks.foldl Sess.key s

/-- what terminals send for the keys; `nl` is what they send for Enter -/
def codes (nl : List Byte) : Key → List (List Byte)
  | .char c => if 32 ≤ c ∧ c ≤ 126 then [[c]] else []
  | .left => [[27, 91, 68]]
  | .right => [[27, 91, 67]]
  | .home => [[27, 91, 72], [27, 79, 72], [27, 91, 49, 126], [1]]
  | .last => [[27, 91, 70], [27, 79, 70], [27, 91, 52, 126], [5]]
  | .del => [[27, 91, 51, 126]]
  | .bs => [[8], [127]]
  | .kill => [[11]]
  | .up => [[27, 91, 65]]
  | .down => [[27, 91, 66]]
  | .enter => [nl]
  | .ignored => -- Insert, PageUp, PageDown, F1..F12, keypad 5
    [[27, 91, 50, 126], [27, 91, 53, 126], [27, 91, 54, 126], [27, 91, 69],
     [27, 79, 80], [27, 79, 81], [27, 79, 82], [27, 79, 83],
     [27, 91, 49, 49, 126], [27, 91, 49, 50, 126], [27, 91, 49, 51, 126], [27, 91, 49, 52, 126],
     [27, 91, 49, 53, 126], [27, 91, 49, 55, 126], [27, 91, 49, 56, 126], [27, 91, 49, 57, 126],
     [27, 91, 50, 48, 126], [27, 91, 50, 49, 126], [27, 91, 50, 51, 126], [27, 91, 50, 52, 126]]

/-- LF (a terminal), CR, CR LF or CR NUL (telnet), LF CR -/
def newlines : List (List Byte) := [[10], [13], [13, 10], [13, 0], [10, 13]]

/-! ### The terminal -/

/-- the row the cursor is in (unlimited width), the column and the saved column -/
structure Screen where
  row : Nat → Byte
  col : Nat
  saved : Nat

def Screen.char (s : Screen) (c : Byte) : Screen :=
  if c = 10 then { s with row := fun _ => 32, col := 0 }
  else { s with row := fun i => if i = s.col then c else s.row i, col := s.col + 1 }

/-- a terminal takes the count 0 for 1 -/
def Screen.op (s : Screen) : Term → Screen
  | .save => { s with saved := s.col }
  | .restore => { s with col := s.saved }
  | .left n => { s with col := s.col - (max n 1).toNat }
  | .right n => { s with col := s.col + (max n 1).toNat }
  | .write cs => cs.foldl Screen.char s

def Screen.ops (s : Screen) (ts : List Term) : Screen := ts.foldl Screen.op s

/-- from column `p` on the row shows `text` and nothing else, and the cursor is at position `cur`
of it -/
def Screen.Shows (s : Screen) (p : Nat) (text : List Byte) (cur : Nat) : Prop :=
  (∀ i, s.row (p + i) = text.getD i 32) ∧ s.col = p + cur

end Ucsim.Fio
