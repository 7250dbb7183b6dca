import Verif.Spec.Expr
/-!
The expression a derivation of the grammar stands for.
-/
namespace Ucsim.Expr.C

/-- The kind of thing a nonterminal derives. -/
abbrev kindOf : NT → Kind
  | .memory => .place
  | .bit => .field
  | _ => .value

def bopOf : Tok → BOp
  | .asterix => .mul | .slash => .div | .percent => .mod | .plus => .add | .minus => .sub
  | .leftOp => .shl | .rightOp => .shr | .less => .lt | .greater => .gt | .leOp => .le | .geOp => .ge
  | .eqOp => .eq | .neOp => .ne | .ampersand => .and | .circum => .xor | .pipe => .or
  | .andOp => .land | _ => .lor
def uopOf : Tok → UOp
  | .minus => .neg | .plus => .plus | .tilde => .com | _ => .not
def aopOf : Tok → AOp
  | .equal => .set | .mulAsg => .mul | .divAsg => .div | .modAsg => .mod | .addAsg => .add | .subAsg => .sub
  | .leftAsg => .shl | .rightAsg => .shr | .andAsg => .and | .xorAsg => .xor | _ => .or

/-- The expression of a derivation: parentheses and unit steps vanish. -/
def _root_.Ucsim.Expr.Tree.ast : {n : NT} → Tree n → E (kindOf n)
  | _, .memTok m a => .name m a
  | _, .memIdx m e => .idx m e.ast
  | _, .bitDot m e => .dot m.ast e.ast
  | _, .bitRange m a b => .range m.ast a.ast b.ast
  | _, .primMem m => .get m.ast
  | _, .primBit b => .getF b.ast
  | _, .primNum v => .num v
  | _, .primCell c => .get (.cell c)
  | _, .primPar e => e.ast
  | _, .postPrim p => p.ast
  | _, .postMem inc m => .post inc m.ast
  | _, .postCell inc c => .post inc (.cell c)
  | _, .unPost p => p.ast
  | _, .preMem inc m => .pre inc m.ast
  | _, .preCell inc c => .pre inc (.cell c)
  | _, .addrMem m => .addr m.ast
  | _, .addrBit b => .addrF b.ast
  | _, .unOp t _ e => .un (uopOf t) e.ast
  | _, .castUp u => u.ast
  | _, .castInt m => .castInt m.ast
  | _, .binUp 0 e => e.ast
  | _, .binUp (_ + 1) e => e.ast
  | _, .binOp 0 t _ a b => .bin (bopOf t) a.ast b.ast
  | _, .binOp (_ + 1) t _ a b => .bin (bopOf t) a.ast b.ast
  | _, .condUp e => e.ast
  | _, .condOp c a b => .cond c.ast a.ast b.ast
  | _, .asgUp e => e.ast
  | _, .asgMem m t _ e => .asg (aopOf t) m.ast e.ast
  | _, .asgBit b e => .asgF b.ast e.ast
  | _, .asgCell c t _ e => .asg (aopOf t) (.cell c) e.ast
  | _, .exprUp e => e.ast
  | _, .exprComma a b => .comma a.ast b.ast

end Ucsim.Expr.C
