import Verif.Cmd.Split
/-!
How a user writes command lines: words, numbers, strings, elements, bits, redirections,
separated by blanks or commas, commands separated by `;`, comments after `#`.  Of the
model only the type of results (`Arg`, `Out`, `Act`) is used.
-/
namespace Ucsim.Cmd.Spec
open Ucsim.Cmd

/-- The characters that separate. -/
def seps : Text := [' ', '\t', '\x0b', '\r', ',']
/-- Only separators. -/
def Blank (s : Text) : Prop := ∀ c ∈ s, c ∈ seps
/-- A character of a word: no separator, no `;` and no `#`. -/
def WordChar (c : Char) : Prop := c ∉ seps ∧ c ≠ ';' ∧ c ≠ '#'

def decDigits : Text := "0123456789".toList
def octDigits : Text := "01234567".toList
def binDigits : Text := "01".toList
def hexDigits : Text := "0123456789abcdefABCDEF".toList

/-- The value of a digit. -/
def digit (c : Char) : Nat :=
  if c ∈ decDigits then c.toNat - '0'.toNat
  else if c.toNat < 'a'.toNat then c.toNat - 'A'.toNat + 10
  else c.toNat - 'a'.toNat + 10

/-- The value of a text of digits, most significant digit first. -/
def value (base : Nat) : Text → Nat
  | [] => 0
  | c :: t => digit c * base ^ t.length + value base t

/-- A number as it is written. -/
inductive Num
  /-- `123` -/
  | dec (ds : Text)
  /-- `0` and octal digits -/
  | oct (ds : Text)
  /-- `0x` and hexadecimal digits -/
  | hex (ds : Text)
  deriving DecidableEq

def Num.text : Num → Text
  | .dec ds => ds
  | .oct ds => '0' :: ds
  | .hex ds => '0' :: 'x' :: ds

def Num.val : Num → Nat
  | .dec ds => value 10 ds
  | .oct ds => value 8 ds
  | .hex ds => value 16 ds

/-- Properly written, and it fits in a `long`. -/
def Num.Ok (n : Num) : Prop :=
  n.val < 2 ^ 63 ∧
  match n with
  | .dec ds => (∀ c ∈ ds, c ∈ decDigits) ∧ ds ≠ [] ∧ ds.head? ≠ some '0'
  | .oct ds => ∀ c ∈ ds, c ∈ octDigits
  | .hex ds => (∀ c ∈ ds, c ∈ hexDigits) ∧ ds ≠ []

/-- A name: it neither looks like a number, a string, a redirection or an element, and has
none of the characters that expansion of commands knows. -/
structure Name (w : Text) : Prop where
  chars : ∀ c ∈ w, WordChar c ∧ c ≠ '[' ∧ c ≠ '$' ∧ c ≠ '\\'
  first : ∃ c t, w = c :: t ∧ c ∉ decDigits ∧ c ≠ '-' ∧ c ≠ '+' ∧ c ≠ '"' ∧ c ≠ '>' ∧
    (c ≠ '.' → '.' ∉ t)

/-- A name that is part of another argument. -/
structure PartName (w : Text) : Prop where
  name : Name w
  chars : ∀ c ∈ w, c ≠ ']' ∧ c ≠ '.' ∧ c ≠ ':'

/-- Parts of elements and bits. -/
inductive Part
  | name (w : Text)
  | num (n : Num)
  deriving DecidableEq

def Part.text : Part → Text
  | .name w => w
  | .num n => n.text

def Part.arg : Part → Arg
  | .name w => .sym w
  | .num n => .int n.val

def Part.Ok : Part → Prop
  | .name w => PartName w
  | .num n => n.Ok

/-- Pieces of a string. -/
inductive Piece
  | plain (c : Char)
  /-- a backslash and a character -/
  | esc (c : Char)
  deriving DecidableEq

def Piece.text : Piece → Text
  | .plain c => [c]
  | .esc c => ['\\', c]

def Piece.Ok : Piece → Prop
  | .plain c => c ≠ '"' ∧ c ≠ '\\' ∧ c ≠ '$'
  | .esc _ => True

/-- An argument as it is written. -/
inductive Item
  | name (w : Text)
  | num (n : Num)
  | neg (n : Num)
  | pos (n : Num)
  | bin (ds : Text)
  /-- `name[index]` -/
  | elem (p i : Part)
  /-- `name.bit` -/
  | bit (p i : Part)
  /-- `name[high:low]` -/
  | bits (p h l : Part)
  /-- `name[index].bit` -/
  | elemBit (p i b : Part)
  | str (ps : List Piece)
  /-- `>file` and `>>file` -/
  | out (append : Bool) (file : Text)
  /-- incomplete: `name.` -/
  | noBit (p : Part)
  /-- incomplete: `name[` -/
  | noElem (p : Part)
  /-- incomplete: `name[]` -/
  | noIndex (p : Part)
  /-- incomplete: `name[index` -/
  | noBracket (p i : Part)
  /-- incomplete: `name[:low]` -/
  | noHigh (p l : Part)
  /-- incomplete: `name[high:low` -/
  | noClose (p h l : Part)
  deriving DecidableEq

/-- The inside of a string. -/
def body (ps : List Piece) : Text := ps.flatMap Piece.text

/-- How it is written. -/
def Item.text : Item → Text
  | .name w => w
  | .num n => n.text
  | .neg n => '-' :: n.text
  | .pos n => '+' :: n.text
  | .bin ds => '0' :: 'b' :: ds
  | .elem p i => p.text ++ '[' :: i.text ++ [']']
  | .bit p i => p.text ++ '.' :: i.text
  | .bits p h l => p.text ++ '[' :: h.text ++ ':' :: l.text ++ [']']
  | .elemBit p i b => p.text ++ '[' :: i.text ++ ']' :: '.' :: b.text
  | .str ps => '"' :: body ps ++ ['"']
  | .out false f => '>' :: f
  | .out true f => '>' :: '>' :: f
  | .noBit p => p.text ++ ['.']
  | .noElem p => p.text ++ ['[']
  | .noIndex p => p.text ++ ['[', ']']
  | .noBracket p i => p.text ++ '[' :: i.text
  | .noHigh p l => p.text ++ '[' :: ':' :: l.text ++ [']']
  | .noClose p h l => p.text ++ '[' :: h.text ++ ':' :: l.text

/-- The argument that is meant: none if it is incomplete. -/
def Item.args : Item → List Arg
  | .name w => [.sym w]
  | .num n => [.int n.val]
  | .neg n => [.int (- (n.val : Int))]
  | .pos n => [.int n.val]
  | .bin ds => [.int (value 2 ds)]
  | .elem p i => [.array p.arg i.arg]
  | .bit p i => [.bit p.arg i.arg]
  | .bits p h l => [.bits p.arg l.arg h.arg]
  | .elemBit p i b => [.bit (.array p.arg i.arg) b.arg]
  | .str ps => [.str (body ps)]
  | .out _ _ => []
  | .noBit _ | .noElem _ | .noIndex _ | .noBracket _ _ | .noHigh _ _ | .noClose _ _ _ => []

/-- The text of the argument for commands that want the text (`tokens`). -/
def Item.toks : Item → List Text
  | .str ps => [body ps]
  | .out _ _ => []
  | i => [i.text]

/-- The redirection that is meant, the message for an incomplete argument. -/
def Item.outs : Item → List Out
  | .out a f => [.redirect f a]
  | .noBit _ | .noHigh _ _ | .noClose _ _ _ => [.err .incompleteBit]
  | .noElem _ => [.err .incompleteArray]
  | .noIndex _ => [.err .incompleteIndex]
  | .noBracket _ _ => [.err .missingBracket]
  | _ => []

def Item.Ok : Item → Prop
  | .name w => Name w
  | .num n => n.Ok
  | .neg n => n.Ok
  | .pos n => n.Ok
  | .bin ds => (∀ c ∈ ds, c ∈ binDigits) ∧ ds.length < 64
  | .elem p i => p.Ok ∧ i.Ok
  | .bit p i => p.Ok ∧ i.Ok
  | .bits p h l => p.Ok ∧ h.Ok ∧ l.Ok
  | .elemBit p i b => p.Ok ∧ i.Ok ∧ b.Ok
  | .str ps => ∀ p ∈ ps, p.Ok
  | .noBit p | .noElem p | .noIndex p => p.Ok
  | .noBracket p i | .noHigh p i => p.Ok ∧ i.Ok
  | .noClose p h l => p.Ok ∧ h.Ok ∧ l.Ok
  | .out _ f => (∀ c ∈ f, c ∉ seps ∧ c ≠ ';') ∧ f.head? ≠ some '>' ∧ f.head? ≠ some '"'

def Item.isStr : Item → Bool
  | .str _ => true
  | _ => false
def Item.isOut : Item → Bool
  | .out _ _ => true
  | _ => false

/-- How a command ends. -/
inductive End
  | eol
  /-- `#` and anything -/
  | comment (t : Text)
  /-- `;` and what follows -/
  | semi (t : Text)
  deriving DecidableEq

def End.text : End → Text
  | .eol => []
  | .comment t => '#' :: t
  | .semi t => ';' :: t

def End.rest : End → Option Text
  | .semi t => some t
  | _ => none

def End.isComment : End → Bool
  | .comment _ => true
  | _ => false

/-- The arguments with the separators after them. -/
def argsText : List (Item × Text) → Text
  | [] => []
  | (i, s) :: r => i.text ++ s ++ argsText r

/-- Arguments are separated.  Nothing is needed after a string and after the last one
(but a `#` would belong to the name of a file). -/
def ArgsOk (e : End) : List (Item × Text) → Prop
  | [] => True
  | (i, s) :: r => i.Ok ∧ Blank s ∧
      (s ≠ [] ∨ i.isStr = true ∨ (r = [] ∧ ¬ (i.isOut = true ∧ e.isComment = true))) ∧ ArgsOk e r

/-- A command as it is written. -/
structure Written where
  lead : Text
  name : Text
  sep : Text
  args : List (Item × Text)

/-- Its text without the end. -/
def Written.text (w : Written) : Text := w.lead ++ w.name ++ w.sep ++ argsText w.args

structure Written.Ok (w : Written) (e : End) : Prop where
  lead : Blank w.lead
  name : w.name ≠ [] ∧ (∀ c ∈ w.name, WordChar c) ∧ w.name.head? ≠ some '\n'
  sep : Blank w.sep ∧ (w.args ≠ [] → w.sep ≠ [])
  args : ArgsOk e w.args

/-- Commands separated by `;`, the last one ends with `e`. -/
def lineText (e : End) : List Written → Text
  | [] => e.text
  | [w] => w.text ++ e.text
  | w :: r => w.text ++ ';' :: lineText e r

/-- What is done when the lines are entered one after the other, and the last command
that can be repeated. -/
def enterAll (enter : Text → Option Nat → Option Input) : List Text → Option Nat → Option (List Act × Option Nat)
  | [], last => some ([], last)
  | t :: ts, last =>
    match enter t last with
    | some (.acts a l) => (enterAll enter ts l).map (fun r => (a ++ r.1, r.2))
    | _ => none

/-- The action without the text that follows the command. -/
def forget : Act → Act
  | .work p l => .work p { l with rest := none }
  | a => a

/-- One of the names of the command is `n`. -/
def Has (n : Text) (c : Command) : Prop := n ∈ c.names
/-- `n` abbreviates one of the names of the command. -/
def Abbr (n : Text) (c : Command) : Prop := ∃ m ∈ c.names, n <+: m

/-- The command meant by a name: the first that has this name, or else the only one that
has a name that starts so. -/
def Means (set : List Command) (n : Text) (i : Nat) : Prop :=
  (∃ c, set[i]? = some c ∧ Has n c ∧ ∀ j < i, ∀ d, set[j]? = some d → ¬ Has n d) ∨
  ((∀ c ∈ set, ¬ Has n c) ∧ ∃ c, set[i]? = some c ∧ Abbr n c ∧ ∀ j, j ≠ i → ∀ d, set[j]? = some d → ¬ Abbr n d)

/-- From the command `c` at `p` the words lead to the command `e` at `q`: every word means
one of the subcommands of the command before. -/
inductive Leads (tree : Tree) : List Nat → Command → List Text → List Nat → Command → Prop
  | here (p : List Nat) (c : Command) : Leads tree p c [] p c
  | sub {p q : List Nat} {c d e : Command} {n : Text} {ns : List Text} {i : Nat} :
      c.super = true → Means (tree p) n i → (tree p)[i]? = some d → Leads tree (p ++ [i]) d ns q e →
      Leads tree p c (n :: ns) q e

/-- What is asked of the commands of a sequence: `commands` takes what follows it for
itself, and no `;` may be hidden in a string of a command with subcommands. -/
def SeqOk (tree : Tree) (w : Written) : Prop :=
  (∀ c ∈ tree [], Abbr w.name c → c.takesRest = false ∧ (c.super = true → ';' ∉ w.text)) ∧ w.text.head? ≠ some '\x04'

end Ucsim.Cmd.Spec
