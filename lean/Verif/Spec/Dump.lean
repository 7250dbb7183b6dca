import Verif.Core.Dump
/-!
What a dump has to show, written without the loop of the program.  Of the model only the types of
the memory (`DMem`), of variables and of lines are used.
-/
namespace Ucsim.Dump.Spec
open Ucsim.Dump

/-- The last location of a memory. -/
def last (m : DMem) : Nat := m.lva + m.size - 1

/-- The locations from `a` to `b` (both included), upwards. -/
def upto (a b : Nat) : List Nat := List.range' a (b + 1 - a)

/-- The locations of the memory from `a` to `b`, in the order they are asked for. -/
def between (m : DMem) (a b : Nat) : List Nat :=
  if a ≤ b then upto (max a m.lva) (min b (last m))
  else (upto (max b m.lva) (min a (last m))).reverse

/-- The lines of a dump without names: at most `k` values on a line, fewer only on the last one;
every line has the address of its first value. -/
inductive Rows (rd : Nat → Nat) (k : Nat) : List Nat → List Line → Prop
  | done : Rows rd k [] []
  | row (a : Nat) (as bs : List Nat) (ls : List Line) :
      (as.length + 1 = k ∨ as.length + 1 < k ∧ bs = []) → Rows rd k bs ls →
      Rows rd k (a :: as ++ bs) (Line.row (some a) none ((a :: as).map rd) :: ls)

/-- How many values come on a line when it is not said: 8, or 4 of locations of more than 16 bits. -/
def perLine (m : DMem) : Nat := if m.width > 16 then 4 else 8

/-- All the values shown. -/
def shown : List Line → List Nat
  | [] => []
  | .row _ _ vs :: t => vs ++ shown t
  | _ :: t => shown t

/-- The address and the name on a line. -/
def heading : Line → Option Nat × Option String
  | .row a n _ => (a, n)
  | .label a n => (a, some n)
  | .bits a n _ _ _ => (a, n)
  | .inst a => (some a, none)

/-- The lines of the names at a location: each on a line of its own, only the first has the
address, and only the last one has the values `vs`. -/
def named (adr : Option Nat) (vs : List Nat) : List DVar → List Line
  | [] => [.row adr none vs]
  | [v] => [.row adr (some v.name) vs]
  | v :: t => .label adr v.name :: named none vs t

/-- The value of bits `hi` to `lo` of a number. -/
def bitsOf (x hi lo : Nat) : Nat := x % 2 ^ (hi + 1) / 2 ^ lo

/-- The lines for names of bits: names of the same bits that follow each other share the value. -/
def bitNames (x : Nat) : List DVar → List Line
  | [] => []
  | v :: t =>
    let b := v.bits.getD (0, 0)
    match t with
    | [] => [.bits none (some v.name) b.1 b.2 (bitsOf x b.1 b.2)]
    | u :: _ =>
      (if u.bits = v.bits then Line.label none v.name
       else .bits none (some v.name) b.1 b.2 (bitsOf x b.1 b.2)) :: bitNames x t

/-- The first line(s) of a location that has names of bits: the whole location with the names of
the whole location. -/
def wholeNames (adr : Option Nat) (w x : Nat) : List DVar → List Line
  | [] => [.bits adr none (w - 1) 0 (bitsOf x (w - 1) 0)]
  | [v] => [.bits adr (some v.name) (w - 1) 0 (bitsOf x (w - 1) 0)]
  | v :: t => .label adr v.name :: wholeNames none w x t

/-- The names at a location come in this order: names of the whole location (without bits first),
then names of some of its bits. -/
structure Names (w : Nat) (ws fs : List DVar) : Prop where
  whole : ∀ v ∈ ws, v.bits = none ∨ v.bits = some (w - 1, 0)
  order : ws.Pairwise fun v u => u.bits = none → v.bits = none
  part : ∀ v ∈ fs, ∃ h l, v.bits = some (h, l) ∧ l ≤ h ∧ (h, l) ≠ (w - 1, 0)

/-- The lines of a dump with names: a location with names starts a new line, and one with names of
bits has lines of its own. -/
inductive Labelled (m : DMem) (k : Nat) : List Nat → List Line → Prop
  | done : Labelled m k [] []
  | row (a : Nat) (as bs : List Nat) (ls : List Line) :
      (∀ v ∈ m.vars a, v.bits = none) → (∀ b ∈ as, m.vars b = []) →
      (as.length + 1 = k ∨ as.length + 1 < k ∧ (bs = [] ∨ ∃ b t, bs = b :: t ∧ m.vars b ≠ [])) →
      Labelled m k bs ls →
      Labelled m k (a :: as ++ bs) (named (some a) ((a :: as).map m.rd) (m.vars a) ++ ls)
  | bits (a : Nat) (ws fs : List DVar) (bs : List Nat) (ls : List Line) :
      m.vars a = ws ++ fs → Names m.width ws fs → (∃ v ∈ m.vars a, v.bits ≠ none) →
      Labelled m k bs ls →
      Labelled m k (a :: bs) (wholeNames (some a) m.width (m.rd a) ws ++ bitNames (m.rd a) fs ++ ls)

/-! ### strings -/

def isOctal (c : Char) : Bool := decide (48 ≤ c.toNat ∧ c.toNat ≤ 55)

/-- The character after a backslash in C. -/
def simpleEscape (c : Char) : Option Nat :=
  if c = '\'' then some 39
  else if c = '"' then some 34
  else if c = '?' then some 63
  else if c = '\\' then some 92
  else if c = 'a' then some 7
  else if c = 'b' then some 8
  else if c = 'f' then some 12
  else if c = 'n' then some 10
  else if c = 'r' then some 13
  else if c = 't' then some 9
  else if c = 'v' then some 11
  else none

/-- Text between the quotes of a C string literal, and the bytes it stands for: plain characters,
simple escapes, and up to three octal digits. -/
inductive CString : List Char → List Nat → Prop
  | done : CString [] []
  | plain (c : Char) (t : List Char) (bs : List Nat) : c ≠ '\\' → c ≠ '"' → c ≠ '\n' → CString t bs →
      CString (c :: t) (c.toNat :: bs)
  | simple (c : Char) (b : Nat) (t : List Char) (bs : List Nat) : simpleEscape c = some b → CString t bs →
      CString ('\\' :: c :: t) (b :: bs)
  | octal3 (c d e : Char) (t : List Char) (bs : List Nat) : isOctal c = true → isOctal d = true → isOctal e = true →
      (c.toNat - 48) * 64 + (d.toNat - 48) * 8 + (e.toNat - 48) < 256 → CString t bs →
      CString ('\\' :: c :: d :: e :: t) (((c.toNat - 48) * 64 + (d.toNat - 48) * 8 + (e.toNat - 48)) :: bs)

/-- The locations from `a` to the last one before a zero, or to the end of the memory. -/
inductive Str (m : DMem) : Nat → List Nat → Prop
  | zero (a : Nat) : m.rd a = 0 → Str m a []
  | top (a : Nat) : last m < a → Str m a []
  | char (a : Nat) (l : List Nat) : m.rd a ≠ 0 → a ≤ last m → Str m (a + 1) l → Str m a (a :: l)

/-- The addresses of consecutive instructions from `a` on, below `stop`. -/
inductive Code (len : Nat → Nat) (stop : Nat) : Nat → List Nat → Prop
  | done (a : Nat) : stop ≤ a → Code len stop a []
  | inst (a : Nat) (l : List Nat) : a < stop → Code len stop (a + len a) l → Code len stop a (a :: l)

end Ucsim.Dump.Spec
