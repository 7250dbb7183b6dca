import Verif.Spec.Cmd
import Verif.Cmd.Args
/-!
What data and places in commands mean.  Of the model only the type of arguments (`Arg`) and the
tables of names (`Names`) are used.
-/
namespace Ucsim.Cmd.Spec
open Ucsim Ucsim.Cmd

/-- Pieces of a string that is data. -/
inductive DPiece
  /-- a character -/
  | plain (c : Char)
  /-- `\n` and the like: the character and its code -/
  | special (c : Char) (code : Nat)
  /-- a backslash and any other character, which means itself -/
  | lit (c : Char)
  /-- `\0` and octal digits -/
  | oct (ds : Text)

/-- The sequences of C. -/
def specials : List (Char × Nat) := [('f', 12), ('n', 10), ('r', 13), ('t', 9), ('v', 11), ('a', 7), ('b', 8), ('"', 34)]

def DPiece.text : DPiece → Text
  | .plain c => [c]
  | .special c _ => ['\\', c]
  | .lit c => ['\\', c]
  | .oct ds => '\\' :: '0' :: ds

def dtext (l : List DPiece) : Text := l.flatMap DPiece.text

/-- The code it stands for. -/
def DPiece.code : DPiece → Nat
  | .plain c => c.toNat
  | .special _ n => n
  | .lit c => c.toNat
  | .oct ds => value 8 ds

/-- Codes are bytes; no octal digit follows a sequence of octal digits. -/
def DOk : List DPiece → Prop
  | [] => True
  | p :: r => p.code < 256 ∧
    (match p with
     | .plain c => c ≠ '\\'
     | .special c n => (c, n) ∈ specials
     | .lit c => c ≠ '0' ∧ ∀ n, (c, n) ∉ specials
     | .oct ds => (∀ c ∈ ds, c ∈ octDigits) ∧ ∀ c ∈ (dtext r).head?, c ∉ octDigits) ∧ DOk r

/-- Data as they are written: a number, or a string. -/
inductive Datum
  | num (n : Int)
  | str (l : List DPiece)

def Datum.Ok : Datum → Prop
  | .num _ => True
  | .str l => DOk l

def Datum.arg : Datum → Arg
  | .num n => .int n
  | .str l => .str (dtext l)

/-- The values: one for a number, one for every character. -/
def Datum.vals : Datum → List Int
  | .num n => [n]
  | .str l => l.map fun p => (p.code : Int)

/-- All the characters are ASCII. -/
def Datum.Ascii : Datum → Prop
  | .num _ => True
  | .str l => ∀ p ∈ l, p.code < 128

/-- What an address argument means: a number, or a variable that is in a memory. -/
inductive AddrOf (nm : Names) : Arg → Nat → Prop
  | num (n : Nat) : n < 2 ^ 32 → AddrOf nm (.int n) n
  | var (s : Text) (v : VarInfo) (m : Nat) : nm.vars s = some v → v.mem = some m → AddrOf nm (.sym s) v.addr

/-- The location an argument means: a variable, or an element of a memory (`inside` says which
addresses a memory has). -/
inductive LocOf (nm : Names) (inside : Nat → Nat → Prop) : Arg → Nat → Nat → Prop
  | var (s : Text) (v : VarInfo) (m : Nat) : nm.vars s = some v → v.mem = some m → LocOf nm inside (.sym s) m v.addr
  | elem (s : Text) (i : Arg) (m a : Nat) : nm.mems s = some m → AddrOf nm i a → inside m a →
      LocOf nm inside (.array (.sym s) i) m a

/-- The bits an argument means: location, lowest and highest bit; `x.b`, `x[h:l]`, or a variable
that is some bits of a location. -/
inductive BitsOf (nm : Names) (inside : Nat → Nat → Prop) : Arg → Nat → Nat → Nat → Nat → Prop
  | bit (p : Arg) (m a b : Nat) : LocOf nm inside p m a → b < 32 → BitsOf nm inside (.bit p (.int b)) m a b b
  | bits (p : Arg) (m a h l : Nat) : LocOf nm inside p m a → l ≤ h → h < 32 → BitsOf nm inside (.bits p (.int l) (.int h)) m a l h
  | swapped (p : Arg) (m a h l : Nat) : LocOf nm inside p m a → l ≤ h → h < 32 → BitsOf nm inside (.bits p (.int h) (.int l)) m a l h
  | var (s : Text) (v : VarInfo) (m l h : Nat) : nm.vars s = some v → v.mem = some m → v.lo = l → v.hi = h → l ≤ h → h < 32 →
      BitsOf nm inside (.sym s) m v.addr l h

end Ucsim.Cmd.Spec
