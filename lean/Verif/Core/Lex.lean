import Verif.Core.Expr
/-!
Model of the scanner of expressions: /repo/src/core/cmd.src/cmdlex.l.

flex takes the longest match, among equally long ones the first rule.  Texts are lists
of characters without NUL.  Simplifications: what `proc_escape` makes of a character
literal is a parameter, the decimal overflow of `long` (undefined in C++) wraps.
-/
namespace Ucsim.Expr

def isDigit (c : Char) : Bool := '0' ≤ c && c ≤ '9'
def isOct (c : Char) : Bool := '0' ≤ c && c ≤ '7'
def isHex (c : Char) : Bool := isDigit c || ('a' ≤ c && c ≤ 'f') || ('A' ≤ c && c ≤ 'F')
def isBin (c : Char) : Bool := c == '0' || c == '1'
/-- `[a-zA-Z_]`. -/
def isAlpha (c : Char) : Bool := ('a' ≤ c && c ≤ 'z') || ('A' ≤ c && c ≤ 'Z') || c == '_'
/-- `[0-9a-zA-Z_]`. -/
def isWord (c : Char) : Bool := isDigit c || isAlpha c
def isBlank (c : Char) : Bool := c == ' ' || c == '\t'

/-- Length of the longest prefix of characters with `p`. -/
def run (p : Char → Bool) (s : List Char) : Nat := (s.takeWhile p).length

/-- `p+`: 0 stands for no match. -/
def plus (before : Nat) (p : Char → Bool) (s : List Char) : Nat := if run p s = 0 then 0 else before + run p s

/-- The fixed texts, in the order of the rules (cmdlex.l 21-62). -/
def fixed : List (List Char × Tok) :=
  [(['i', 'n', 't'], .int), (['*', '='], .mulAsg), (['/', '='], .divAsg), (['%', '='], .modAsg), (['+', '='], .addAsg),
   (['-', '='], .subAsg), (['<', '<', '='], .leftAsg), (['>', '>', '='], .rightAsg), (['&', '='], .andAsg),
   (['^', '='], .xorAsg), (['|', '='], .orAsg), (['&', '&'], .andOp), (['|', '|'], .orOp), (['+', '+'], .incOp),
   (['-', '-'], .decOp), (['=', '='], .eqOp), (['!', '='], .neOp), (['>', '='], .geOp), (['<', '='], .leOp),
   (['>', '>'], .rightOp), (['<', '<'], .leftOp), (['+'], .plus), (['-'], .minus), (['*'], .asterix), (['/'], .slash),
   (['('], .lpar), ([')'], .rpar), (['['], .lbr), ([']'], .rbr), (['='], .equal), (['.'], .dot), (['&'], .ampersand),
   (['|'], .pipe), (['^'], .circum), (['%'], .percent), (['~'], .tilde), (['?'], .question), ([':'], .colon),
   (['<'], .less), (['>'], .greater), (['!'], .exclamation), ([','], .comma)]

/-- The longest of them, the first of equally long ones. -/
def fixedMatch (s : List Char) : Nat × Tok :=
  fixed.foldl (fun b (p : List Char × Tok) => if p.1.isPrefixOf s && b.1 < p.1.length then (p.1.length, p.2) else b) (0, .int)

/-- Hexadecimal numbers (cmdlex.l 64). -/
def hexMatch : List Char → Nat
  | '$' :: s => plus 1 isHex s
  | '0' :: 'x' :: s => plus 2 isHex s
  | '0' :: 'X' :: s => plus 2 isHex s
  | _ => 0
/-- Binary numbers (cmdlex.l 83). -/
def binMatch : List Char → Nat
  | '0' :: 'b' :: s => plus 2 isBin s
  | _ => 0
/-- Octal numbers (cmdlex.l 90). -/
def octMatch : List Char → Nat
  | '0' :: s => 1 + run isOct s
  | _ => 0
/-- Decimal numbers (cmdlex.l 101). -/
def decMatch : List Char → Nat
  | c :: s => if isDigit c && c != '0' then 1 + run isDigit s else 0
  | _ => 0
/-- `[0-9a-zA-Z_]*($[0-9]+)?` -/
def nameTail (s : List Char) : Nat :=
  run isWord s + (match s.dropWhile isWord with
    | '$' :: s => plus 1 isDigit s
    | _ => 0)
/-- Names (cmdlex.l 112). -/
def nameMatch : List Char → Nat
  | '.' :: c :: s => if isAlpha c then 2 + nameTail s else 0
  | c :: s => if isAlpha c then 1 + nameTail s else 0
  | [] => 0
/-- Character literals (cmdlex.l 114). -/
def chrMatch : List Char → Nat
  | '\'' :: s =>
    match s.dropWhile (· != '\'') with
    | '\'' :: _ => if run (· != '\'') s = 0 then 0 else run (· != '\'') s + 2
    | _ => 0
  | _ => 0

/-- Value of a hexadecimal digit (cmdlex.l 73-78). -/
def hexDigit (c : Char) : Long :=
  BitVec.ofNat 64 ((if '0' ≤ c && c ≤ '9' then c.toNat - 48 else if 'a' ≤ c && c ≤ 'f' then c.toNat - 97 + 10
    else if 'A' ≤ c && c ≤ 'F' then c.toNat - 65 + 10 else 0) &&& 0xf)
/-- cmdlex.l 65-80. -/
def hexVal (s : List Char) : Long :=
  (s.drop (if s.head? = some '$' then 1 else 2)).foldl (fun v c => (v <<< 4) ||| hexDigit c) 0#64
/-- cmdlex.l 84-87. -/
def binVal (s : List Char) : Long := (s.drop 2).foldl (fun v c => (v <<< 1) ||| (if c = '0' then 0#64 else 1#64)) 0#64
/-- cmdlex.l 91-98. -/
def octVal (s : List Char) : Long :=
  (s.drop 1).foldl (fun v c => (v <<< 3) ||| BitVec.ofNat 64 ((c.toNat - 48) &&& 7)) 0#64
/-- cmdlex.l 102-109. -/
def decVal (s : List Char) : Long := s.foldl (fun v c => v * 10#64 + BitVec.ofNat 64 ((c.toNat - 48) &&& 0xf)) 0#64

/-- What a rule does. -/
inductive Act
  | skip
  | tok (t : Tok)
  | name
  | bad

/-- The rules in order: length of the match and action on the matched text. -/
def rules (chr : List Char → Long) (s : List Char) : List (Nat × (List Char → Act)) :=
  [(run isBlank s, fun _ => .skip),
   ((fixedMatch s).1, fun _ => .tok (fixedMatch s).2),
   (hexMatch s, fun x => .tok (.number (hexVal x))),
   (binMatch s, fun x => .tok (.number (binVal x))),
   (octMatch s, fun x => .tok (.number (octVal x))),
   (decMatch s, fun x => .tok (.number (decVal x))),
   (nameMatch s, fun _ => .name),
   (chrMatch s, fun x => .tok (.number (chr x))),
   -- `.` (cmdlex.l 130); a newline is matched by flex's default rule only, which prints it
   (1, fun _ => if s.head? = some '\n' then .skip else .bad)]

/-- Longest match, first rule. -/
def best (l : List (Nat × (List Char → Act))) : Nat × (List Char → Act) :=
  l.foldl (fun b r => if b.1 < r.1 then r else b) (0, fun _ => .skip)

/-- How scanning ended: at the end of the text; at a name nobody knows, which the parser
takes for the end of the text (`uc_yy_check_id` returns 0, cmdlex.l 236); at a character
that is no token. -/
inductive End | text | unknown | bad
deriving DecidableEq, Repr

variable (chr : List Char → Long) (env : List Char → Option Tok)

/-- yylex until the parser sees an end.  `env` is `uc_yy_check_id` (cmdlex.l 190-237). -/
def scanN : Nat → List Char → List Tok × End
  | _, [] => ([], .text)
  | 0, _ => ([], .text)
  | n + 1, s =>
    let b := best (rules chr s)
    match b.2 (s.take b.1) with
    | .skip => scanN n (s.drop b.1)
    | .bad => ([], .bad)
    | .tok t => let r := scanN n (s.drop b.1); (t :: r.1, r.2)
    | .name =>
      match env (s.take b.1) with
      | none => ([], .unknown)
      | some t => let r := scanN n (s.drop b.1); (t :: r.1, r.2)

def scan (s : List Char) : List Tok × End := scanN chr env s.length s

end Ucsim.Expr
