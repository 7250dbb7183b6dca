import Verif.Core.Expr
/-!
The spelling of expressions: what a user writes for operators, numbers and names.
-/
namespace Ucsim.Expr.C

/-- The spelling of operators and punctuation. -/
def opText : List (List Char × Tok) :=
  [("+".toList, .plus), ("-".toList, .minus), ("*".toList, .asterix), ("/".toList, .slash), ("%".toList, .percent),
   ("(".toList, .lpar), (")".toList, .rpar), ("[".toList, .lbr), ("]".toList, .rbr), (".".toList, .dot),
   ("&".toList, .ampersand), ("|".toList, .pipe), ("^".toList, .circum), ("~".toList, .tilde), ("!".toList, .exclamation),
   ("?".toList, .question), (":".toList, .colon), ("<".toList, .less), (">".toList, .greater), (",".toList, .comma),
   ("&&".toList, .andOp), ("||".toList, .orOp), ("++".toList, .incOp), ("--".toList, .decOp), ("==".toList, .eqOp),
   ("!=".toList, .neOp), (">=".toList, .geOp), ("<=".toList, .leOp), ("<<".toList, .leftOp), (">>".toList, .rightOp),
   ("=".toList, .equal), ("*=".toList, .mulAsg), ("/=".toList, .divAsg), ("%=".toList, .modAsg), ("+=".toList, .addAsg),
   ("-=".toList, .subAsg), ("<<=".toList, .leftAsg), (">>=".toList, .rightAsg), ("&=".toList, .andAsg),
   ("^=".toList, .xorAsg), ("|=".toList, .orAsg), ("int".toList, .int)]

/-- Digits: a character for each value below 16 (capitals also count). -/
def digits : List Char := "0123456789abcdef".toList
def Digits : List Char := "0123456789ABCDEF".toList

/-- `c` is the digit of value `d`. -/
def IsDigit (c : Char) (d : Nat) : Prop := digits[d]? = some c ∨ Digits[d]? = some c

/-- `s` is the number `v` in base `b`, most significant digit first. -/
inductive Numeral (b : Nat) : List Char → Nat → Prop
  | one {c d} : d < b → IsDigit c d → Numeral b [c] d
  | more {s v c d} : Numeral b s v → d < b → IsDigit c d → Numeral b (s ++ [c]) (b * v + d)

/-- Letters, and the underscore. -/
def letter (c : Char) : Bool := c.isAlpha || c == '_'

/-- `Lexeme env s t`: `s` is a way to write the token `t`; `env` gives the meaning of names. -/
inductive Lexeme (env : List Char → Option Tok) : List Char → Tok → Prop
  | op {s t} : (s, t) ∈ opText → Lexeme env s t
  | hex {s v} : Numeral 16 s v → v < 2 ^ 63 → Lexeme env ('0' :: 'x' :: s) (.number (BitVec.ofNat 64 v))
  | dollar {s v} : Numeral 16 s v → v < 2 ^ 63 → Lexeme env ('$' :: s) (.number (BitVec.ofNat 64 v))
  | bin {s v} : Numeral 2 s v → v < 2 ^ 63 → Lexeme env ('0' :: 'b' :: s) (.number (BitVec.ofNat 64 v))
  | oct {s v} : Numeral 8 s v → v < 2 ^ 63 → Lexeme env ('0' :: s) (.number (BitVec.ofNat 64 v))
  | zero : Lexeme env ['0'] (.number 0#64)
  | dec {s v} : Numeral 10 s v → v < 2 ^ 63 → s.head? ≠ some '0' → Lexeme env s (.number (BitVec.ofNat 64 v))
  | name {c s t} : letter c = true → s.all (fun c => letter c || c.isDigit) = true → c :: s ≠ "int".toList →
      env (c :: s) = some t → Lexeme env (c :: s) t

/-- A character that may continue a number or a name. -/
def wordy (c : Char) : Bool := letter c || c.isDigit || c == '$'

/-- The text `s` may follow the lexeme `x` without a blank: words need something else
after them, operators anything that does not make a longer operator, and `.` no letter
(a name may begin with a dot). -/
def Apart (x s : List Char) : Prop :=
  match x.getLast?, s.head? with
  | some a, some c =>
    if wordy a then wordy c = false
    else c ∉ "=&|+-<>".toList ∧ (a = '.' → letter c = false)
  | _, _ => True

/-- Lexemes one after the other, with blanks where wanted, or needed. -/
inductive Spelled (env : List Char → Option Tok) : List Char → List Tok → Prop
  | nil : Spelled env [] []
  | blank {s ts} : Spelled env s ts → Spelled env (' ' :: s) ts
  | tok {x t s ts} : Lexeme env x t → Apart x s → Spelled env s ts → Spelled env (x ++ s) (t :: ts)

end Ucsim.Expr.C
