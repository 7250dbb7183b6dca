import Verif.Core.Expr
/-!
Expressions as in C: what they look like (precedence, associativity, parentheses) and
what they mean.  Only tokens, places and `Mems` (the memory interface) are taken from
the model.  Numbers are mathematical integers; a result that is not a 64 bit `long` is
undefined, as are division by zero and wrong shift counts.
-/
namespace Ucsim.Expr.C

inductive Kind | place | field | value

/-- Operators. -/
inductive BOp | mul | div | mod | add | sub | shl | shr | lt | gt | le | ge | eq | ne | and | xor | or | land | lor
deriving DecidableEq, Repr
inductive UOp | neg | plus | com | not
deriving DecidableEq, Repr
inductive AOp | set | mul | div | mod | add | sub | shl | shr | and | xor | or
deriving DecidableEq, Repr

/-- Expressions; places (what can be assigned to) and bit fields of places apart. -/
inductive E : Kind → Type
  | name (m : Nat) (a : Word) : E .place
  | idx (m : Nat) (e : E .value) : E .place
  | cell (c : Nat) : E .place
  | range (l : E .place) (a b : E .value) : E .field
  | dot (l : E .place) (n : E .value) : E .field
  | num (v : Long) : E .value
  | get (l : E .place) : E .value
  | getF (f : E .field) : E .value
  | post (inc : Bool) (l : E .place) : E .value
  | pre (inc : Bool) (l : E .place) : E .value
  | addr (l : E .place) : E .value
  | addrF (f : E .field) : E .value
  | un (o : UOp) (e : E .value) : E .value
  | castInt (l : E .place) : E .value
  | bin (o : BOp) (a b : E .value) : E .value
  | cond (c a b : E .value) : E .value
  | asg (o : AOp) (l : E .place) (e : E .value) : E .value
  | asgF (f : E .field) (e : E .value) : E .value
  | comma (a b : E .value) : E .value

/-! ### Writing -/

def BOp.tok : BOp → Tok
  | .mul => .asterix | .div => .slash | .mod => .percent | .add => .plus | .sub => .minus
  | .shl => .leftOp | .shr => .rightOp | .lt => .less | .gt => .greater | .le => .leOp | .ge => .geOp
  | .eq => .eqOp | .ne => .neOp | .and => .ampersand | .xor => .circum | .or => .pipe
  | .land => .andOp | .lor => .orOp
def UOp.tok : UOp → Tok
  | .neg => .minus | .plus => .plus | .com => .tilde | .not => .exclamation
def AOp.tok : AOp → Tok
  | .set => .equal | .mul => .mulAsg | .div => .divAsg | .mod => .modAsg | .add => .addAsg | .sub => .subAsg
  | .shl => .leftAsg | .shr => .rightAsg | .and => .andAsg | .xor => .xorAsg | .or => .orAsg

/-- C's precedence table, from `||` (3) to `*` (12); 0 comma, 1 assignment, 2 `?:`,
13 casts, 14 prefix, 15 postfix operators, 16 the rest. -/
def BOp.prec : BOp → Nat
  | .lor => 3 | .land => 4 | .or => 5 | .xor => 6 | .and => 7 | .eq | .ne => 8
  | .lt | .gt | .le | .ge => 9 | .shl | .shr => 10 | .add | .sub => 11 | .mul | .div | .mod => 12

/-- A place in memory (not a register cell). -/
def E.inMem : E .place → Bool
  | .cell _ => false
  | _ => true

def incTok (inc : Bool) : Tok := if inc then .incOp else .decOp

/-- `Text p e ts`: the tokens `ts` are a way to write `e` where an expression of
precedence `p` or higher is wanted.  Parentheses may be put around any expression. -/
inductive Text : {k : Kind} → Nat → E k → List Tok → Prop
  | name : Text p (.name m a) [.memory m a]
  | idx : Text 0 e ts → Text p (.idx m e) (.memObj m :: .lbr :: ts ++ [.rbr])
  | cell : Text p (.cell c) [.cell c]
  | range : l.inMem = true → Text 0 l tl → Text 0 a ta → Text 0 b tb →
      Text p (.range l a b) (tl ++ .lbr :: ta ++ .colon :: tb ++ [.rbr])
  | num : Text p (.num v) [.number v]
  | get : Text 0 l ts → Text p (.get l) ts
  | getF : Text 0 f ts → Text p (.getF f) ts
  | paren : Text 0 (e : E .value) ts → Text p e (.lpar :: ts ++ [.rpar])
  | post : p ≤ 15 → Text 0 l ts → Text p (.post inc l) (ts ++ [incTok inc])
  | pre : p ≤ 14 → Text 0 l ts → Text p (.pre inc l) (incTok inc :: ts)
  | addr : p ≤ 14 → l.inMem = true → Text 0 l ts → Text p (.addr l) (.ampersand :: ts)
  | addrF : p ≤ 14 → Text 0 f ts → Text p (.addrF f) (.ampersand :: ts)
  | un : p ≤ 14 → Text 14 e ts → Text p (.un o e) (o.tok :: ts)
  | castInt : p ≤ 13 → l.inMem = true → Text 0 l ts → Text p (.castInt l) (.lpar :: .int :: .rpar :: ts)
  | bin : p ≤ o.prec → Text o.prec a ta → Text (o.prec + 1) b tb → Text p (.bin o a b) (ta ++ o.tok :: tb)
  | cond : p ≤ 2 → Text 3 c tc → Text 0 a ta → Text 2 b tb →
      Text p (.cond c a b) (tc ++ .question :: ta ++ .colon :: tb)
  | asg : p ≤ 1 → Text 0 l tl → Text 1 e te → Text p (.asg o l e) (tl ++ o.tok :: te)
  | asgF : p ≤ 1 → Text 0 f tf → Text 1 e te → Text p (.asgF f e) (tf ++ .equal :: te)
  | comma : Text 0 a ta → Text 1 b tb → Text 0 (.comma a b) (ta ++ .comma :: tb)

/-! ### Meaning -/

/-- A `long`, or undefined. -/
def long (i : Int) : Option Int := if -2 ^ 63 ≤ i ∧ i < 2 ^ 63 then some i else none

def truth (b : Bool) : Int := if b then 1 else 0

/-- Bitwise operators on two's complement. -/
def bits (f : Long → Long → Long) (a b : Int) : Int := (f (BitVec.ofInt 64 a) (BitVec.ofInt 64 b)).toInt

/-- Binary operators but `&&` and `||`. -/
def BOp.apply (o : BOp) (a b : Int) : Option Int :=
  match o with
  | .mul => long (a * b)
  | .div => if b = 0 then none else long (a.tdiv b)
  | .mod => if b = 0 then none else (long (a.tdiv b)).map fun _ => a.tmod b
  | .add => long (a + b)
  | .sub => long (a - b)
  | .shl => if 0 ≤ b ∧ b < 64 then some ((a * 2 ^ b.toNat).bmod (2 ^ 64)) else none
  | .shr => if 0 ≤ b ∧ b < 64 then some (a / 2 ^ b.toNat) else none
  | .lt => some (truth (a < b))
  | .gt => some (truth (a > b))
  | .le => some (truth (a ≤ b))
  | .ge => some (truth (a ≥ b))
  | .eq => some (truth (a = b))
  | .ne => some (truth (a ≠ b))
  | .and => some (bits (· &&& ·) a b)
  | .xor => some (bits (· ^^^ ·) a b)
  | .or => some (bits (· ||| ·) a b)
  | .land => some (truth (a ≠ 0 ∧ b ≠ 0))
  | .lor => some (truth (a ≠ 0 ∨ b ≠ 0))

def UOp.apply (o : UOp) (a : Int) : Option Int :=
  match o with
  | .neg => long (-a)
  | .plus => some a
  | .com => some (-a - 1)
  | .not => some (truth (a = 0))

/-- What an assignment stores into an unsigned 32 bit object holding `old`. -/
def AOp.apply (o : AOp) (old : Nat) (v : Int) : Option Int :=
  match o with
  | .set => some v
  | .mul => long (old * v)
  | .div => if v = 0 then none else some ((old : Int).tdiv v)
  | .mod => if v = 0 then none else some ((old : Int).tmod v)
  | .add => long (old + v)
  | .sub => long (old - v)
  | .shl => if 0 ≤ v ∧ v < 32 then some (old * 2 ^ v.toNat) else none
  | .shr => if 0 ≤ v ∧ v < 32 then some (old / 2 ^ v.toNat) else none
  | .and => some (bits (· &&& ·) old v)
  | .xor => some (bits (· ^^^ ·) old v)
  | .or => some (bits (· ||| ·) old v)

/-- A place: memory and address (any `long`, the memory takes it modulo 2^32), or a cell. -/
inductive Place
  | mem (m : Nat) (i : Int)
  | cell (c : Nat)

def Place.loc : Place → Loc
  | .mem m i => .mem m (BitVec.ofInt 32 i)
  | .cell c => .cell c

abbrev Res : Kind → Type
  | .place => Place
  | .field => Place × Nat × Nat
  | .value => Int

variable {W : Type} (M : Mems W)

/-- Content of a place. -/
def look (w : W) (p : Place) : Nat := (M.read w p.loc).1.toNat
/-- Store into a place (an unsigned 32 bit object). -/
def store (w : W) (p : Place) (v : Int) : W := M.write w p.loc (BitVec.ofInt 32 v)

/-- The bits `lo..hi` of a word. -/
def fieldOf (v lo hi : Nat) : Nat := v / 2 ^ lo % 2 ^ (hi + 1 - lo)
/-- The word with the bits `lo..hi` replaced by the low bits of `x`. -/
def setField (v lo hi : Nat) (x : Int) : Nat :=
  v / 2 ^ (hi + 1) * 2 ^ (hi + 1) + (x % 2 ^ (hi + 1 - lo)).toNat * 2 ^ lo + v % 2 ^ lo

/-- `v`, of a memory of `n` bits, as a signed number. -/
def signed (n v : Nat) : Int := if v < 2 ^ (n - 1) then v else (v : Int) - 2 ^ n

/-- The field of bits `a` to `b` (in either order). -/
def mkField (p : Place) (a b : Int) : Option (Place × Nat × Nat) :=
  if 0 ≤ min a b ∧ max a b < 32 then some (p, (min a b).toNat, (max a b).toNat) else none

/-- Evaluation as in C: operands from left to right; `&&`, `||` and `?:` evaluate only
what they need.  `none`: undefined. -/
def E.eval : {k : Kind} → E k → W → Option (Res k × W)
  | _, .name m a, w => some (.mem m a.toNat, w)
  | _, .idx m e, w => do let (v, w) ← e.eval w; some (.mem m v, w)
  | _, .cell c, w => some (.cell c, w)
  | _, .range l a b, w => do
      let (p, w) ← l.eval w; let (x, w) ← a.eval w; let (y, w) ← b.eval w
      let r ← mkField p x y; some (r, w)
  | _, .dot l n, w => do
      let (p, w) ← l.eval w; let (x, w) ← n.eval w; let r ← mkField p x x; some (r, w)
  | _, .num v, w => some (v.toInt, w)
  | _, .get l, w => do let (p, w) ← l.eval w; some ((look M w p : Int), w)
  | _, .getF f, w => do let ((p, lo, hi), w) ← f.eval w; some ((fieldOf (look M w p) lo hi : Int), w)
  | _, .post inc l, w => do
      let (p, w) ← l.eval w
      some ((look M w p : Int), store M w p (look M w p + (if inc then 1 else -1)))
  | _, .pre inc l, w => do
      let (p, w) ← l.eval w
      let w := store M w p (look M w p + (if inc then 1 else -1))
      some ((look M w p : Int), w)
  | _, .addr l, w => do
      let (p, w) ← l.eval w
      match p with
      | .mem _ i => some (i, w)
      | .cell _ => none
  | _, .addrF _, _ => none
  | _, .un o e, w => do let (v, w) ← e.eval w; let r ← o.apply v; some (r, w)
  | _, .castInt l, w => do
      let (p, w) ← l.eval w
      match p with
      | .mem m i => if 1 ≤ M.width m ∧ M.width m ≤ 32 then some (signed (M.width m) (look M w (.mem m i)), w) else none
      | .cell _ => none
  | _, .bin .land a b, w => do
      let (x, w) ← a.eval w
      if x = 0 then some (0, w) else do let (y, w) ← b.eval w; some (truth (y ≠ 0), w)
  | _, .bin .lor a b, w => do
      let (x, w) ← a.eval w
      if x ≠ 0 then some (1, w) else do let (y, w) ← b.eval w; some (truth (y ≠ 0), w)
  | _, .bin o a b, w => do
      let (x, w) ← a.eval w; let (y, w) ← b.eval w; let r ← o.apply x y; some (r, w)
  | _, .cond c a b, w => do
      let (x, w) ← c.eval w
      if x ≠ 0 then a.eval w else b.eval w
  | _, .asg o l e, w => do
      let (p, w) ← l.eval w; let (v, w) ← e.eval w
      let x ← o.apply (look M w p) v
      let w := store M w p x
      some ((look M w p : Int), w)
  | _, .asgF f e, w => do
      let ((p, lo, hi), w) ← f.eval w; let (v, w) ← e.eval w
      let w := store M w p (setField (look M w p) lo hi v)
      some ((fieldOf (look M w p) lo hi : Int), w)
  | _, .comma a b, w => do let (_, w) ← a.eval w; b.eval w

/-! ### Kinds of expressions -/

/-- Nothing is assigned. -/
def E.pure : {k : Kind} → E k → Bool
  | _, .name _ _ | _, .cell _ | _, .num _ => true
  | _, .idx _ e | _, .get e | _, .getF e | _, .addr e | _, .addrF e | _, .un _ e | _, .castInt e => e.pure
  | _, .range l a b => l.pure && a.pure && b.pure
  | _, .cond l a b => l.pure && a.pure && b.pure
  | _, .dot l n => l.pure && n.pure
  | _, .bin _ a b => a.pure && b.pure
  | _, .comma a b => a.pure && b.pure
  | _, .post _ _ | _, .pre _ _ | _, .asg _ _ _ | _, .asgF _ _ => false

/-- No `&&`, `||`, `?:` (the operators of C that may skip an operand). -/
def E.eager : {k : Kind} → E k → Bool
  | _, .name _ _ | _, .cell _ | _, .num _ => true
  | _, .idx _ e | _, .get e | _, .getF e | _, .addr e | _, .addrF e | _, .un _ e | _, .castInt e
  | _, .post _ e | _, .pre _ e => e.eager
  | _, .range l a b => l.eager && a.eager && b.eager
  | _, .cond _ _ _ => false
  | _, .dot l n => l.eager && n.eager
  | _, .bin o a b => o != .land && o != .lor && a.eager && b.eager
  | _, .comma a b => a.eager && b.eager
  | _, .asg _ l e => l.eager && e.eager
  | _, .asgF f e => f.eager && e.eager

/-- No assignment to bit fields, and none inside of an operand C may skip. -/
def E.tame : {k : Kind} → E k → Bool
  | _, .name _ _ | _, .cell _ | _, .num _ => true
  | _, .idx _ e | _, .get e | _, .getF e | _, .addr e | _, .addrF e | _, .un _ e | _, .castInt e
  | _, .post _ e | _, .pre _ e => e.tame
  | _, .range l a b => l.tame && a.tame && b.tame
  | _, .cond c a b => c.tame && a.tame && b.tame && a.pure && b.pure
  | _, .dot l n => l.tame && n.tame
  | _, .bin o a b => a.tame && b.tame && (b.pure || (o != .land && o != .lor))
  | _, .comma a b => a.tame && b.tame
  | _, .asg _ l e => l.tame && e.tame
  | _, .asgF _ _ => false

/-- Reading has no effects. -/
def Quiet : Prop := ∀ w l, (M.read w l).2 = w
/-- Memories deliver what fits into their width. -/
def Fits : Prop := ∀ w m a, (M.read w (.mem m a)).1.toNat < 2 ^ M.width m

end Ucsim.Expr.C
