/-!
Model of the expression language of the command interpreter:
/repo/src/core/cmd.src/cmdpars.y (grammar and actions) and the tokens of
/repo/src/core/cmd.src/cmdlex.l.

The parser is generated by bison.  The model is the grammar itself: a `Tree` is a
derivation, `Tree.toks` the tokens it derives, `Tree.act` the semantic actions run in
the order of an LR parser (a node after its children, left to right).  Which derivation
bison takes for an ambiguous text is not part of the model; theorems speak about every
derivation.  `long` is a 64 bit two's complement word, `t_mem` and `t_addr` 32 bits
(stypes.h 56-61).  Undefined behaviour of C++ is `none`.
-/
namespace Ucsim.Expr

/-- `long` (cmdpars.y 65). -/
abbrev Long := BitVec 64
/-- `t_mem`, `t_addr` (stypes.h 60-61). -/
abbrev Word := BitVec 32

/-- Tokens: cmdpars.y 15-47.  `PTOK_BITS` is left out: the scanner never returns it
(cmdlex.l 204-221: `found` is false when that code is reached). -/
inductive Tok
  | plus | minus | asterix | slash | equal | lpar | rpar | lbr | rbr | dot
  | ampersand | pipe | circum | percent | tilde | question | colon | exclamation
  | less | greater | comma
  | andOp | orOp | incOp | decOp | eqOp | neOp | geOp | leOp | leftOp | rightOp
  | mulAsg | divAsg | modAsg | addAsg | subAsg | leftAsg | rightAsg | andAsg | xorAsg | orAsg
  | int
  | memObj (m : Nat)
  | memory (m : Nat) (a : Word)
  | number (v : Long)
  | cell (c : Nat)
deriving DecidableEq, Repr

/-- A place that can be read and written: memory and address, or a cell. -/
inductive Loc
  | mem (m : Nat) (a : Word)
  | cell (c : Nat)
deriving DecidableEq, Repr

/-- The machine below: `cl_memory::read`, `cl_memory::write`, `cl_memory_cell::read`,
`cl_memory_cell::write` and `cl_memory::width`.  Reads may have effects. -/
structure Mems (W : Type) where
  read : W → Loc → Word × W
  write : W → Loc → Word → W
  width : Nat → Nat

/-! ### Arithmetic of `long` in C++ -/

/-- `bool` to `long`. -/
def ofBool (b : Bool) : Long := if b then 1#64 else 0#64

/-- The binary operators, by nonterminal, tightest first:
0 multiplicative, 1 additive, 2 shift, 3 relational, 4 equality, 5 and, 6 exclusive or,
7 inclusive or, 8 logical and, 9 logical or (cmdpars.y 298-372). -/
def opTok : Nat → Tok → Bool
  | 0, .asterix | 0, .slash | 0, .percent => true
  | 1, .plus | 1, .minus => true
  | 2, .leftOp | 2, .rightOp => true
  | 3, .less | 3, .greater | 3, .leOp | 3, .geOp => true
  | 4, .eqOp | 4, .neOp => true
  | 5, .ampersand => true
  | 6, .circum => true
  | 7, .pipe => true
  | 8, .andOp => true
  | 9, .orOp => true
  | _, _ => false

/-- The action of a binary operator (cmdpars.y 298-372).  Signed overflow and division
by zero are undefined; shifting left is that of C++20. -/
def binAct (t : Tok) (a b : Long) : Option Long :=
  match t with
  | .asterix => if BitVec.smulOverflow a b then none else some (a * b)
  | .slash => if b = 0#64 ∨ (a = BitVec.intMin 64 ∧ b = -1#64) then none else some (a.sdiv b)
  | .percent => if b = 0#64 ∨ (a = BitVec.intMin 64 ∧ b = -1#64) then none else some (a.srem b)
  | .plus => if BitVec.saddOverflow a b then none else some (a + b)
  | .minus => if BitVec.ssubOverflow a b then none else some (a - b)
  | .leftOp => if b.toNat < 64 then some (a <<< b.toNat) else none
  | .rightOp => if b.toNat < 64 then some (a.sshiftRight b.toNat) else none
  | .less => some (ofBool (a.slt b))
  | .greater => some (ofBool (b.slt a))
  | .leOp => some (ofBool (a.sle b))
  | .geOp => some (ofBool (b.sle a))
  | .eqOp => some (ofBool (a == b))
  | .neOp => some (ofBool (a != b))
  | .ampersand => some (a &&& b)
  | .circum => some (a ^^^ b)
  | .pipe => some (a ||| b)
  | .andOp => some (ofBool (a != 0#64 && b != 0#64))
  | .orOp => some (ofBool (a != 0#64 || b != 0#64))
  | _ => none

/-- Prefix operators (cmdpars.y 257-260). -/
def unTok : Tok → Bool
  | .minus | .plus | .tilde | .exclamation => true
  | _ => false

/-- Actions of the prefix operators (cmdpars.y 257-260). -/
def unAct (t : Tok) (a : Long) : Option Long :=
  match t with
  | .minus => if a = BitVec.intMin 64 then none else some (-a)
  | .plus => some a
  | .tilde => some (~~~a)
  | .exclamation => some (if a != 0#64 then 0#64 else 1#64)
  | _ => none

/-- Assignment operators (cmdpars.y 469-481). -/
def asgTok : Tok → Bool
  | .equal | .mulAsg | .divAsg | .modAsg | .addAsg | .subAsg | .leftAsg | .rightAsg
  | .andAsg | .xorAsg | .orAsg => true
  | _ => false

/-- The value written by an assignment (cmdpars.y 389-424): `org` is `t_mem`, the right
side `long`. -/
def asgAct (t : Tok) (org : Word) (v : Long) : Option Word :=
  let o : Long := org.setWidth 64
  match t with
  | .equal => some (v.setWidth 32)
  | .mulAsg => if BitVec.smulOverflow o v then none else some ((o * v).setWidth 32)
  | .divAsg => if v = 0#64 then none else some ((o.sdiv v).setWidth 32)
  | .modAsg => if v = 0#64 then none else some ((o.srem v).setWidth 32)
  | .addAsg => if BitVec.saddOverflow o v then none else some ((o + v).setWidth 32)
  | .subAsg => if BitVec.ssubOverflow o v then none else some ((o - v).setWidth 32)
  | .leftAsg => if v.toNat < 32 then some (org <<< v.toNat) else none
  | .rightAsg => if v.toNat < 32 then some (org >>> v.toNat) else none
  | .andAsg => some ((o &&& v).setWidth 32)
  | .xorAsg => some ((o ^^^ v).setWidth 32)
  | .orAsg => some ((o ||| v).setWidth 32)
  | _ => none

/-- `for (i= low; i <= high; mask |= 1U << i++)` (cmdpars.y 149-150); a shift count
outside of 0..31 is undefined. -/
def maskOf (low high : Int) : Option Word :=
  if high < low then some 0#32
  else if 0 ≤ low ∧ high < 32 then
    some ((List.range 32).foldl (fun (m : Word) (i : Nat) => if low ≤ (i : Int) ∧ (i : Int) ≤ high then m ||| (1#32 <<< i) else m) 0#32)
  else none

/-- The value of nonterminal `bit` (cmdpars.y 71-75). -/
structure BitRef where
  loc : Nat × Word
  low : Int
  high : Int
deriving DecidableEq, Repr

/-- `long` to `int`. -/
def toInt32 (v : Long) : Int := (v.setWidth 32).toInt

/-- `memory DOT expr` (cmdpars.y 497-505). -/
def bitDotRef (p : Nat × Word) (n : Long) : BitRef := ⟨p, toInt32 n, toInt32 n⟩

/-- `memory [ expr : expr ]` (cmdpars.y 506-521). -/
def bitRangeRef (p : Nat × Word) (a b : Long) : BitRef :=
  if a.slt b then ⟨p, toInt32 a, toInt32 b⟩ else ⟨p, toInt32 b, toInt32 a⟩

variable {W : Type} (M : Mems W)

/-- Reading bits (cmdpars.y 147-152). -/
def bitRead (b : BitRef) (w : W) : Option (Long × W) := do
  let mask ← maskOf b.low b.high
  let (v, w) := M.read w (.mem b.loc.1 b.loc.2)
  if 0 ≤ b.low ∧ b.low < 32 then some (((v &&& mask) >>> b.low.toNat).setWidth 64, w) else none

/-- Assignment to bits (cmdpars.y 427-434). -/
def bitAssign (b : BitRef) (v : Long) (w : W) : Option (Long × W) := do
  let mask ← maskOf b.low b.high
  let (old, w) := M.read w (.mem b.loc.1 b.loc.2)
  if 0 ≤ b.low ∧ b.low < 64 then
    let new : Word := (old &&& ~~~mask) ||| ((v &&& mask.setWidth 64) <<< b.low.toNat).setWidth 32
    some (new.setWidth 64, M.write w (.mem b.loc.1 b.loc.2) new)
  else none

/-- `memory++`, `memory--` (cmdpars.y 170-190). -/
def postAct (inc : Bool) (l : Loc) (w : W) : Option (Long × W) :=
  let (v, w) := M.read w l
  let d : Long := v.setWidth 64
  some (d, M.write w l ((if inc then d + 1#64 else d - 1#64).setWidth 32))

/-- `++memory`, `--memory` (cmdpars.y 203-230). -/
def preAct (inc : Bool) (l : Loc) (w : W) : Option (Long × W) :=
  let (v, w) := M.read w l
  let d : Long := v.setWidth 64
  let w := M.write w l ((if inc then d + 1#64 else d - 1#64).setWidth 32)
  let (v, w) := M.read w l
  some (v.setWidth 64, w)

/-- Reading (cmdpars.y 146, 154). -/
def readAct (l : Loc) (w : W) : Option (Long × W) :=
  let (v, w) := M.read w l
  some (v.setWidth 64, w)

/-- `(int) memory` (cmdpars.y 278-290). -/
def castAct (m : Nat) (a : Word) (w : W) : Option (Long × W) :=
  let (v, w) := M.read w (.mem m a)
  let d : Long := v.setWidth 64
  if 1 ≤ M.width m ∧ M.width m ≤ 32 then
    let smask : Long := 1#64 <<< (M.width m - 1)
    some (if d &&& smask != 0#64 then d ||| ~~~(smask - 1#64) else d, w)
  else none

/-- Assignment (cmdpars.y 385-426, 435-467). -/
def assignAct (t : Tok) (l : Loc) (v : Long) (w : W) : Option (Long × W) := do
  let (org, w) := M.read w l
  let x ← asgAct t org v
  let w := M.write w l x
  let (r, w) := M.read w l
  some (r.setWidth 64, w)

/-! ### The grammar -/

/-- Nonterminals (cmdpars.y 49-61). -/
inductive NT
  | memory | bit | primary | postfix | unary | cast
  | bin (k : Nat)
  | cond | assignment | expr
deriving DecidableEq

/-- The operands of the binary level `k`. -/
def opnd : Nat → NT
  | 0 => .cast
  | k + 1 => .bin k

/-- Derivations. -/
inductive Tree : NT → Type
  -- memory: cmdpars.y 488-495
  | memTok (m : Nat) (a : Word) : Tree .memory
  | memIdx (m : Nat) (e : Tree .expr) : Tree .memory
  -- bit: cmdpars.y 497-521
  | bitDot (m : Tree .memory) (e : Tree .expr) : Tree .bit
  | bitRange (m : Tree .memory) (a b : Tree .expr) : Tree .bit
  -- primary_expr: cmdpars.y 144-158
  | primMem (m : Tree .memory) : Tree .primary
  | primBit (b : Tree .bit) : Tree .primary
  | primNum (v : Long) : Tree .primary
  | primCell (c : Nat) : Tree .primary
  | primPar (e : Tree .expr) : Tree .primary
  -- postfix_expr: cmdpars.y 160-191
  | postPrim (p : Tree .primary) : Tree .postfix
  | postMem (inc : Bool) (m : Tree .memory) : Tree .postfix
  | postCell (inc : Bool) (c : Nat) : Tree .postfix
  -- unary_expr: cmdpars.y 199-265
  | unPost (p : Tree .postfix) : Tree .unary
  | preMem (inc : Bool) (m : Tree .memory) : Tree .unary
  | preCell (inc : Bool) (c : Nat) : Tree .unary
  | addrMem (m : Tree .memory) : Tree .unary
  | addrBit (b : Tree .bit) : Tree .unary
  | unOp (t : Tok) (h : unTok t = true) (e : Tree .unary) : Tree .unary
  -- cast_expr: cmdpars.y 276-291
  | castUp (u : Tree .unary) : Tree .cast
  | castInt (m : Tree .memory) : Tree .cast
  -- multiplicative_expr ... logical_or_expr: cmdpars.y 297-372
  | binUp (k : Nat) (e : Tree (opnd k)) : Tree (.bin k)
  | binOp (k : Nat) (t : Tok) (h : opTok k t = true) (a : Tree (.bin k)) (b : Tree (opnd k)) : Tree (.bin k)
  -- conditional_expr: cmdpars.y 374-377
  | condUp (e : Tree (.bin 9)) : Tree .cond
  | condOp (c : Tree (.bin 9)) (a : Tree .expr) (b : Tree .cond) : Tree .cond
  -- assignment_expr: cmdpars.y 379-467
  | asgUp (e : Tree .cond) : Tree .assignment
  | asgMem (m : Tree .memory) (t : Tok) (h : asgTok t = true) (e : Tree .assignment) : Tree .assignment
  | asgBit (b : Tree .bit) (e : Tree .assignment) : Tree .assignment
  | asgCell (c : Nat) (t : Tok) (h : asgTok t = true) (e : Tree .assignment) : Tree .assignment
  -- expr: cmdpars.y 483-486
  | exprUp (e : Tree .assignment) : Tree .expr
  | exprComma (a : Tree .expr) (b : Tree .assignment) : Tree .expr

/-- `++` or `--`. -/
def incTok (inc : Bool) : Tok := if inc then .incOp else .decOp

/-- The tokens of a derivation. -/
def Tree.toks : {n : NT} → Tree n → List Tok
  | _, .memTok m a => [.memory m a]
  | _, .memIdx m e => .memObj m :: .lbr :: (e.toks ++ [.rbr])
  | _, .bitDot m e => m.toks ++ .dot :: e.toks
  | _, .bitRange m a b => m.toks ++ .lbr :: (a.toks ++ .colon :: (b.toks ++ [.rbr]))
  | _, .primMem m => m.toks
  | _, .primBit b => b.toks
  | _, .primNum v => [.number v]
  | _, .primCell c => [.cell c]
  | _, .primPar e => .lpar :: (e.toks ++ [.rpar])
  | _, .postPrim p => p.toks
  | _, .postMem inc m => m.toks ++ [incTok inc]
  | _, .postCell inc c => [.cell c, incTok inc]
  | _, .unPost p => p.toks
  | _, .preMem inc m => incTok inc :: m.toks
  | _, .preCell inc c => [incTok inc, .cell c]
  | _, .addrMem m => .ampersand :: m.toks
  | _, .addrBit b => .ampersand :: b.toks
  | _, .unOp t _ e => t :: e.toks
  | _, .castUp u => u.toks
  | _, .castInt m => .lpar :: .int :: .rpar :: m.toks
  | _, .binUp _ e => e.toks
  | _, .binOp _ t _ a b => a.toks ++ t :: b.toks
  | _, .condUp e => e.toks
  | _, .condOp c a b => c.toks ++ .question :: (a.toks ++ .colon :: b.toks)
  | _, .asgUp e => e.toks
  | _, .asgMem m t _ e => m.toks ++ t :: e.toks
  | _, .asgBit b e => b.toks ++ .equal :: e.toks
  | _, .asgCell c t _ e => .cell c :: t :: e.toks
  | _, .exprUp e => e.toks
  | _, .exprComma a b => a.toks ++ .comma :: b.toks

/-- Semantic values of the nonterminals (cmdpars.y 63-76).  A memory is kept with its
address as `long` (`&memory` yields it untruncated). -/
abbrev Sem : NT → Type
  | .memory => Nat × Long
  | .bit => BitRef
  | _ => Long

/-- The address handed to `read` and `write` is a `t_addr`. -/
def memLoc (p : Nat × Long) : Loc := .mem p.1 (p.2.setWidth 32)
/-- Likewise. -/
def memPos (p : Nat × Long) : Nat × Word := (p.1, p.2.setWidth 32)

/-- The semantic actions of a derivation, in the order of an LR parser. -/
def Tree.act : {n : NT} → Tree n → W → Option (Sem n × W)
  | _, .memTok m a, w => some ((m, a.setWidth 64), w)
  | _, .memIdx m e, w => do let (v, w) ← e.act w; some ((m, v), w)
  | _, .bitDot m e, w => do
      let (p, w) ← m.act w; let (v, w) ← e.act w; some (bitDotRef (memPos p) v, w)
  | _, .bitRange m a b, w => do
      let (p, w) ← m.act w; let (x, w) ← a.act w; let (y, w) ← b.act w
      some (bitRangeRef (memPos p) x y, w)
  | _, .primMem m, w => do let (p, w) ← m.act w; readAct M (memLoc p) w
  | _, .primBit b, w => do let (r, w) ← b.act w; bitRead M r w
  | _, .primNum v, w => some (v, w)
  | _, .primCell c, w => readAct M (.cell c) w
  | _, .primPar e, w => e.act w
  | _, .postPrim p, w => p.act w
  | _, .postMem inc m, w => do let (p, w) ← m.act w; postAct M inc (memLoc p) w
  | _, .postCell inc c, w => postAct M inc (.cell c) w
  | _, .unPost p, w => p.act w
  | _, .preMem inc m, w => do let (p, w) ← m.act w; preAct M inc (memLoc p) w
  | _, .preCell inc c, w => preAct M inc (.cell c) w
  | _, .addrMem m, w => do let (p, w) ← m.act w; some (p.2, w)
  -- cmdpars.y 247-256: bit_address is (t_addr)-1 stored into a long (uccl.h 550), not negative;
  -- for a range it is -1 and 0 is delivered with an error message
  | _, .addrBit (.bitDot m e), w => do
      let (_, w) ← m.act w; let (_, w) ← e.act w; some (0xffffffff#64, w)
  | _, .addrBit (.bitRange m a b), w => do
      let (_, w) ← m.act w; let (_, w) ← a.act w; let (_, w) ← b.act w; some (0#64, w)
  | _, .unOp t _ e, w => do let (v, w) ← e.act w; let r ← unAct t v; some (r, w)
  | _, .castUp u, w => u.act w
  | _, .castInt m, w => do let (p, w) ← m.act w; castAct M p.1 (p.2.setWidth 32) w
  | _, .binUp 0 e, w => e.act w
  | _, .binUp (_ + 1) e, w => e.act w
  | _, .binOp 0 t _ a b, w => do
      let (x, w) ← a.act w; let (y, w) ← b.act w; let r ← binAct t x y; some (r, w)
  | _, .binOp (_ + 1) t _ a b, w => do
      let (x, w) ← a.act w; let (y, w) ← b.act w; let r ← binAct t x y; some (r, w)
  | _, .condUp e, w => e.act w
  | _, .condOp c a b, w => do
      let (x, w) ← c.act w; let (y, w) ← a.act w; let (z, w) ← b.act w
      some (if x != 0#64 then y else z, w)
  | _, .asgUp e, w => e.act w
  | _, .asgMem m t _ e, w => do
      let (p, w) ← m.act w; let (v, w) ← e.act w; assignAct M t (memLoc p) v w
  | _, .asgBit b e, w => do
      let (r, w) ← b.act w; let (v, w) ← e.act w; bitAssign M r v w
  | _, .asgCell c t _ e, w => do let (v, w) ← e.act w; assignAct M t (.cell c) v w
  | _, .exprUp e, w => e.act w
  | _, .exprComma a b, w => do let (_, w) ← a.act w; b.act w

/-- `cl_app::eval` (/repo/src/core/utils.src/app.cc 1068-1076): the result is a `t_mem`. -/
def evalTree (t : Tree .expr) (w : W) : Option (Word × W) := do
  let (v, w) ← t.act M w
  some (v.setWidth 32, w)

end Ucsim.Expr
