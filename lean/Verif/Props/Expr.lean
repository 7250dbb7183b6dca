import Verif.Proof.ExprText
import Verif.Proof.ExprSem
/-!
C52-C54: expressions of the command language.
-/
namespace Ucsim.Expr
open C

/-! ### A machine for the examples -/

/-- Memory 0 has 8 bit cells; any other place holds 32 bits. -/
def demo : Mems (Loc → Word) where
  read w l := (w l, w)
  write w l v := fun k => if k = l then (match l with | .mem 0 _ => v &&& 0xff#32 | _ => v) else w k
  width m := if m = 0 then 8 else 32

/-- Everything is zero. -/
def zero : Loc → Word := fun _ => 0#32
/-- Everything but the cell at address 4, holding `v`. -/
def at4 (v : Word) : Loc → Word := fun l => if l = .mem 0 4#32 then v &&& 0xff#32 else 0#32

theorem demo_quiet : Quiet demo := fun _ _ => rfl

/-! ### C52 precedence -/

/-- Precedence of what a nonterminal stands for. -/
def lev : NT → Nat
  | .memory | .bit | .primary => 16
  | .postfix => 15
  | .unary => 14
  | .cast => 13
  | .bin k => 12 - k
  | .cond => 2
  | .assignment => 1
  | .expr => 0

/-- C52: a text that C reads as `e` is accepted, and the parser groups it as `e`
whatever derivation it takes. -/
theorem c52_reads_partial {e : E .value} {ts : List Tok} (h : Text 0 e ts) :
    (∃ T : Tree .expr, T.toks = ts) ∧ ∀ T : Tree .expr, T.toks = ts → T.ast = e :=
  text_ast h

/-- C52: a text can be read in one way only. -/
theorem c52_one_reading {e e' : E .value} {ts : List Tok} (h : Text 0 e ts) (h' : Text 0 e' ts) : e = e' := by
  obtain ⟨⟨T, hT⟩, h1⟩ := text_ast h
  rw [← h1 T hT, ← (text_ast h').2 T hT]

theorem C.Text.mono {k : Kind} {p q : Nat} {e : E k} {ts : List Tok} (h : Text q e ts) (hpq : p ≤ q) : Text p e ts := by
  cases h with
  | name => exact .name
  | idx h => exact .idx h
  | cell => exact .cell
  | range a b c d => exact .range a b c d
  | num => exact .num
  | get h => exact .get h
  | getF h => exact .getF h
  | paren h => exact .paren h
  | post a b => exact .post (Nat.le_trans hpq a) b
  | pre a b => exact .pre (Nat.le_trans hpq a) b
  | addr a b c => exact .addr (Nat.le_trans hpq a) b c
  | addrF a b => exact .addrF (Nat.le_trans hpq a) b
  | un a b => exact .un (Nat.le_trans hpq a) b
  | castInt a b c => exact .castInt (Nat.le_trans hpq a) b c
  | bin a b c => exact .bin (Nat.le_trans hpq a) b c
  | cond a b c d => exact .cond (Nat.le_trans hpq a) b c d
  | asg a b c => exact .asg (Nat.le_trans hpq a) b c
  | asgF a b c => exact .asgF (Nat.le_trans hpq a) b c
  | comma a b => cases Nat.le_zero.mp hpq; exact .comma a b

theorem bop_tok {k : Nat} {t : Tok} (h : opTok k t = true) : (bopOf t).tok = t ∧ (bopOf t).prec = 12 - k := by
  unfold opTok at h
  split at h <;> first | exact ⟨rfl, rfl⟩ | cases h

theorem uop_tok_eq {t : Tok} (h : unTok t = true) : (uopOf t).tok = t := by
  cases t <;> first | rfl | cases h

theorem aop_tok {t : Tok} (h : asgTok t = true) : (aopOf t).tok = t := by
  cases t <;> first | rfl | cases h

theorem inMem_ast (m : Tree .memory) : m.ast.inMem = true := by cases m <;> rfl

theorem incTok_eq (b : Bool) : incTok b = C.incTok b := rfl

theorem ast_text {n : NT} (T : Tree n) (h : Tok.dot ∉ T.toks) : Text (lev n) T.ast T.toks := by
  induction T with
  | memTok => exact .name
  | memIdx m e ih => simp [Tree.toks] at h; exact .idx (ih h)
  | bitDot => simp [Tree.toks] at h
  | bitRange m a b ih1 ih2 ih3 =>
    simp [Tree.toks] at h
    have := Text.range (p := 16) (inMem_ast m) ((ih1 h.1).mono (Nat.zero_le _)) (ih2 h.2.1) (ih3 h.2.2)
    simpa [Tree.toks, Tree.ast, lev] using this
  | primMem m ih => exact .get ((ih h).mono (Nat.zero_le _))
  | primBit m ih => exact .getF ((ih h).mono (Nat.zero_le _))
  | primNum => exact .num
  | primCell => exact .get .cell
  | primPar e ih => simp [Tree.toks] at h; exact .paren (ih h)
  | postPrim e ih | unPost e ih | castUp e ih | condUp e ih | asgUp e ih | exprUp e ih => exact (ih h).mono (by simp [lev])
  | postMem inc m ih => simp [Tree.toks] at h; exact .post (Nat.le_refl _) ((ih h.1).mono (Nat.zero_le _))
  | postCell inc c => exact .post (ts := [.cell c]) (Nat.le_refl _) .cell
  | preMem inc m ih => simp [Tree.toks] at h; exact .pre (Nat.le_refl _) ((ih h.2).mono (Nat.zero_le _))
  | preCell inc c => exact .pre (ts := [.cell c]) (Nat.le_refl _) .cell
  | addrMem m ih => simp [Tree.toks] at h; exact .addr (Nat.le_refl _) (inMem_ast m) ((ih h).mono (Nat.zero_le _))
  | addrBit m ih => simp [Tree.toks] at h; exact .addrF (Nat.le_refl _) ((ih h).mono (Nat.zero_le _))
  | unOp t ht e ih =>
    simp [Tree.toks] at h
    have := Text.un (o := uopOf t) (Nat.le_refl _) (ih h.2)
    rw [uop_tok_eq ht] at this
    exact this
  | castInt m ih => simp [Tree.toks] at h; exact .castInt (Nat.le_refl _) (inMem_ast m) ((ih h).mono (Nat.zero_le _))
  | binUp k e ih =>
    cases k with
    | zero => exact (ih h).mono (by simp [lev, opnd])
    | succ k => exact (ih h).mono (by simp only [lev, opnd]; omega)
  | binOp k t ht a b ih1 ih2 =>
    obtain ⟨h1, h2⟩ := bop_tok ht
    simp only [Tree.toks, List.mem_append, List.mem_cons, not_or] at h
    cases k with
    | zero =>
      have := Text.bin (o := bopOf t) (Nat.le_refl _) (ta := a.toks) (tb := b.toks) (by rw [h2]; exact ih1 h.1) (by rw [h2]; exact ih2 h.2.2)
      rw [h1, h2] at this
      exact this
    | succ k =>
      have hk : k < 9 := by
        rcases Nat.lt_or_ge k 9 with h | h
        · exact h
        · obtain ⟨j, rfl⟩ : ∃ j, k = j + 9 := ⟨k - 9, by omega⟩
          cases t <;> cases ht
      have := Text.bin (o := bopOf t) (Nat.le_refl _) (ta := a.toks) (tb := b.toks) (by rw [h2]; exact ih1 h.1)
        (by rw [h2]; exact (ih2 h.2.2).mono (by simp only [lev, opnd]; omega))
      rw [h1, h2] at this
      exact this
  | condOp c a b ih1 ih2 ih3 =>
    simp [Tree.toks] at h
    have := Text.cond (Nat.le_refl _) (ih1 h.1) (ih2 h.2.1) (ih3 h.2.2)
    simpa [Tree.toks, Tree.ast, lev] using this
  | asgMem m t ht e ih1 ih2 =>
    simp [Tree.toks] at h
    have := Text.asg (o := aopOf t) (Nat.le_refl _) ((ih1 h.1).mono (Nat.zero_le _)) (ih2 h.2.2)
    rw [aop_tok ht] at this
    exact this
  | asgBit b e ih1 ih2 =>
    simp [Tree.toks] at h
    exact .asgF (Nat.le_refl _) ((ih1 h.1).mono (Nat.zero_le _)) (ih2 h.2)
  | asgCell c t ht e ih =>
    simp [Tree.toks] at h
    have := Text.asg (o := aopOf t) (tl := [.cell c]) (Nat.le_refl _) .cell (ih h.2)
    rw [aop_tok ht] at this
    exact this
  | exprComma a b ih1 ih2 =>
    simp [Tree.toks] at h
    exact .comma (ih1 h.1) (ih2 h.2)

/-- C52: nothing else is accepted (texts without the bit operator `.`). -/
theorem c52_accepts_partial {ts : List Tok} (hd : Tok.dot ∉ ts) :
    (∃ T : Tree .expr, T.toks = ts) ↔ ∃ e : E .value, Text 0 e ts := by
  constructor
  · rintro ⟨T, rfl⟩
    exact ⟨T.ast, ast_text T hd⟩
  · rintro ⟨e, h⟩
    exact (text_ast h).1

/-- `1 + 2 * 3 - 4`: the tree C has for it. -/
def exSum : E .value := .bin .sub (.bin .add (.num 1#64) (.bin .mul (.num 2#64) (.num 3#64))) (.num 4#64)

example : Text 0 exSum [.number 1#64, .plus, .number 2#64, .asterix, .number 3#64, .minus, .number 4#64] :=
  .bin (ta := [.number 1#64, .plus, .number 2#64, .asterix, .number 3#64]) (Nat.zero_le _)
    (.bin (ta := [.number 1#64]) (by decide) .num (.bin (ta := [.number 2#64]) (by decide) .num .num)) .num

/-- `x . 2 == 1` where `x` is the cell at address 4 of memory 0. -/
def dotText : List Tok := [.memory 0 4#32, .dot, .number 2#64, .eqOp, .number 1#64]

/-- A number as an operand of `==`. -/
def numRel (v : Long) : Tree (.bin 3) :=
  .binUp 3 (.binUp 2 (.binUp 1 (.binUp 0 (.castUp (.unPost (.postPrim (.primNum v)))))))
/-- Any primary as an operand. -/
def primRel (p : Tree .primary) : Tree (.bin 3) :=
  .binUp 3 (.binUp 2 (.binUp 1 (.binUp 0 (.castUp (.unPost (.postPrim p))))))
/-- Up to a whole expression. -/
def wholeEq (e : Tree (.bin 4)) : Tree .expr :=
  .exprUp (.asgUp (.condUp (.binUp 9 (.binUp 8 (.binUp 7 (.binUp 6 (.binUp 5 e)))))))

/-- `(x.2) == 1`. -/
def dotTight : Tree .expr :=
  wholeEq (.binOp 4 .eqOp rfl (.binUp 4 (primRel (.primBit (.bitDot (.memTok 0 4#32)
    (wholeEq (.binUp 4 (numRel 2#64))))))) (numRel 1#64))
/-- `x.(2 == 1)`. -/
def dotLoose : Tree .expr :=
  wholeEq (.binUp 4 (primRel (.primBit (.bitDot (.memTok 0 4#32)
    (wholeEq (.binOp 4 .eqOp rfl (.binUp 4 (numRel 2#64)) (numRel 1#64)))))))

/-- C52 is false of texts with the bit operator `.`: `x . 2 == 1` has two derivations,
which differ in value.  (bison resolves the conflict by shifting and takes `x.(2 == 1)`.) -/
theorem c52_false_dot : dotTight.toks = dotText ∧ dotLoose.toks = dotText ∧
    dotTight.ast ≠ dotLoose.ast ∧
    (evalTree demo dotTight (at4 4#32)).map (·.1) = some 1#32 ∧
    (evalTree demo dotLoose (at4 4#32)).map (·.1) = some 0#32 :=
  ⟨rfl, rfl, (by intro h; cases h), by decide +kernel, by decide +kernel⟩

/-! ### C53 evaluation -/

variable {W : Type} {M : Mems W}

/-- C53, for expressions that neither assign inside operands of `&&`, `||`, `?:` nor to
bit fields, when reading has no effects: if C gives the expression a value, the
simulator computes it with the same effects, or fails because it evaluates an operand C
skips. -/
theorem c53_eval_partial (hq : Quiet M) (hf : Fits M) {e : E .value} {ts : List Tok} (h : Text 0 e ts) (ht : e.tame = true)
    {w w' : W} {i : Int} (hv : e.eval M w = some (i, w')) (T : Tree .expr) (hT : T.toks = ts) :
    (T.act M w = none ∧ e.eager = false) ∨ ∃ v, T.act M w = some (v, w') ∧ v.toInt = i := by
  have hast := (text_ast h).2 T hT
  subst hast
  exact act_agree hq hf T ht w hv

/-- C53: without `&&`, `||`, `?:` the outcome is that of C; it is handed to commands as a
32 bit number. -/
theorem c53_eager_partial (hq : Quiet M) (hf : Fits M) {e : E .value} {ts : List Tok} (h : Text 0 e ts) (ht : e.tame = true)
    (he : e.eager = true) {w w' : W} {i : Int} (hv : e.eval M w = some (i, w')) (T : Tree .expr) (hT : T.toks = ts) :
    evalTree M T w = some (BitVec.ofInt 32 i, w') := by
  rcases c53_eval_partial hq hf h ht hv T hT with ⟨_, h2⟩ | ⟨v, h1, rfl⟩
  · rw [he] at h2; cases h2
  · unfold evalTree
    simp only [h1, Option.bind_eq_bind, Option.bind_some]
    rw [sw32]

/-- C53: a condition holds iff its value in C is not zero, if that is a 32 bit number. -/
theorem c53_condition_partial (hq : Quiet M) (hf : Fits M) {e : E .value} {ts : List Tok} (h : Text 0 e ts) (ht : e.tame = true)
    (he : e.eager = true) {w w' : W} {i : Int} (hv : e.eval M w = some (i, w')) (hr : -2 ^ 31 ≤ i ∧ i < 2 ^ 32)
    (T : Tree .expr) (hT : T.toks = ts) :
    ∃ r, evalTree M T w = some (r, w') ∧ (r ≠ 0#32 ↔ i ≠ 0) := by
  refine ⟨_, c53_eager_partial hq hf h ht he hv T hT, ?_⟩
  have : BitVec.ofInt 32 i = 0#32 ↔ i = 0 := by
    constructor
    · intro h
      have := congrArg BitVec.toNat h
      rw [BitVec.toNat_ofInt] at this
      simp at this
      omega
    · rintro rfl; rfl
  simp only [ne_eq, this]

/-- C53: evaluation without assignments changes nothing. -/
theorem c53_pure (hq : Quiet M) {e : E .value} {ts : List Tok} (h : Text 0 e ts) (hp : e.pure = true)
    {w w' : W} {v : Long} (T : Tree .expr) (hT : T.toks = ts) (hv : T.act M w = some (v, w')) : w' = w := by
  have hast := (text_ast h).2 T hT
  subst hast
  exact pure_act hq T hp w hv

/-- An operand of `&` from a primary. -/
def primEq (p : Tree .primary) : Tree (.bin 4) := .binUp 4 (primRel p)
/-- An operand of `&&`. -/
def upAnd (e : Tree (.bin 4)) : Tree (.bin 7) := .binUp 7 (.binUp 6 (.binUp 5 e))
/-- From `&&` to an expression. -/
def wholeAnd (e : Tree (.bin 8)) : Tree .expr := .exprUp (.asgUp (.condUp (.binUp 9 e)))

/-- The cell at address 4 of memory 0. -/
def x4 : E .place := .name 0 4#32

/-- `x != 0 && 10 / x`. -/
def guardText : List Tok := [.memory 0 4#32, .neOp, .number 0#64, .andOp, .number 10#64, .slash, .memory 0 4#32]
def guardE : E .value := .bin .land (.bin .ne (.get x4) (.num 0#64)) (.bin .div (.num 10#64) (.get x4))
def guardTree : Tree .expr :=
  wholeAnd (.binOp 8 .andOp rfl
    (.binUp 8 (upAnd (.binOp 4 .neOp rfl (primEq (.primMem (.memTok 0 4#32))) (numRel 0#64))))
    (upAnd (.binUp 4 (.binUp 3 (.binUp 2 (.binUp 1 (.binOp 0 .slash rfl (.binUp 0 (.castUp (.unPost (.postPrim (.primNum 10#64)))))
      (.castUp (.unPost (.postPrim (.primMem (.memTok 0 4#32))))))))))))

theorem guard_text : Text 0 guardE guardText :=
  .bin (ta := [.memory 0 4#32, .neOp, .number 0#64]) (Nat.zero_le _)
    (.bin (ta := [.memory 0 4#32]) (by decide) (.get .name) .num)
    (.bin (ta := [.number 10#64]) (by decide) .num (.get .name))

/-- C53 is false: `&&` evaluates both operands, so `x != 0 && 10 / x` divides by zero. -/
theorem c53_false_guard : Text 0 guardE guardText ∧ guardTree.toks = guardText ∧
    (guardE.eval demo zero).map (·.1) = some 0 ∧ guardTree.act demo zero = none :=
  ⟨guard_text, rfl, by decide +kernel, by
    have : (guardTree.act demo zero).isNone = true := by decide +kernel
    exact Option.isNone_iff_eq_none.mp this⟩

/-- `0 && ( x = 1 )`. -/
def skipText : List Tok := [.number 0#64, .andOp, .lpar, .memory 0 4#32, .equal, .number 1#64, .rpar]
def skipE : E .value := .bin .land (.num 0#64) (.asg .set x4 (.num 1#64))
def numAsg (v : Long) : Tree .assignment := .asgUp (.condUp (.binUp 9 (.binUp 8 (upAnd (.binUp 4 (numRel v))))))
def skipTree : Tree .expr :=
  wholeAnd (.binOp 8 .andOp rfl (.binUp 8 (upAnd (.binUp 4 (numRel 0#64))))
    (upAnd (primEq (.primPar (.exprUp (.asgMem (.memTok 0 4#32) .equal rfl (numAsg 1#64)))))))

/-- C53 is false: `0 && ( x = 1 )` assigns `x`. -/
theorem c53_false_skip : Text 0 skipE skipText ∧ skipTree.toks = skipText ∧
    (skipE.eval demo zero).map (fun r => (r.1, r.2 (.mem 0 4#32))) = some (0, 0#32) ∧
    (skipTree.act demo zero).map (fun r => (r.1, r.2 (.mem 0 4#32))) = some (0#64, 1#32) :=
  ⟨.bin (ta := [.number 0#64]) (Nat.zero_le _) .num
      (.paren (ts := [.memory 0 4#32, .equal, .number 1#64]) (.asg (tl := [.memory 0 4#32]) (o := .set) (Nat.zero_le _) .name .num)),
    rfl, by decide +kernel, by decide +kernel⟩

/-- `1 << 32`. -/
def bigText : List Tok := [.number 1#64, .leftOp, .number 32#64]
def bigE : E .value := .bin .shl (.num 1#64) (.num 32#64)
def numMul (v : Long) : Tree (.bin 0) := .binUp 0 (.castUp (.unPost (.postPrim (.primNum v))))
def bigTree : Tree .expr :=
  wholeEq (.binUp 4 (.binUp 3 (.binOp 2 .leftOp rfl (.binUp 2 (.binUp 1 (numMul 1#64))) (.binUp 1 (numMul 32#64)))))

/-- C53 is false: the outcome is cut to 32 bits, so `1 << 32` counts as false. -/
theorem c53_false_cut : Text 0 bigE bigText ∧ bigTree.toks = bigText ∧
    (bigE.eval demo zero).map (·.1) = some (2 ^ 32) ∧ (evalTree demo bigTree zero).map (·.1) = some 0#32 :=
  ⟨.bin (ta := [.number 1#64]) (Nat.zero_le _) .num .num, rfl, by decide +kernel, by decide +kernel⟩

/-- A machine with one register that counts how often it was read (as a peripheral may). -/
def counting : Mems (Word × Nat) where
  read w _ := (w.1, (w.1, w.2 + 1))
  write w _ v := (v, w.2)
  width _ := 32

/-- `x = 1`. -/
def setText : List Tok := [.memory 0 4#32, .equal, .number 1#64]
def setE : E .value := .asg .set x4 (.num 1#64)
def setTree : Tree .expr := .exprUp (.asgMem (.memTok 0 4#32) .equal rfl (numAsg 1#64))

/-- C53 is false: a plain assignment reads its target, before and after writing it. -/
theorem c53_false_reads : Text 0 setE setText ∧ setTree.toks = setText ∧
    (setE.eval counting (0#32, 0)).map (·.2) = some (1#32, 0) ∧
    (setTree.act counting (0#32, 0)).map (·.2) = some (1#32, 2) :=
  ⟨.asg (tl := [.memory 0 4#32]) (o := .set) (Nat.zero_le _) .name .num, rfl, by decide +kernel, by decide +kernel⟩

/-- `y = x ++ * 3 , - x` where `y` is the cell at address 5. -/
def seqE : E .value := .comma (.asg .set (.name 0 5#32) (.bin .mul (.post true x4) (.num 3#64))) (.un .neg (.get x4))
def seqText : List Tok := [.memory 0 5#32, .equal, .memory 0 4#32, .incOp, .asterix, .number 3#64, .comma, .minus, .memory 0 4#32]

/-- The hypotheses of the theorems above are met: C's value is -8 and `y` becomes 21. -/
example : Text 0 seqE seqText ∧ seqE.tame = true ∧ seqE.eager = true ∧
    (seqE.eval demo (at4 7#32)).map (fun r => (r.1, r.2 (.mem 0 5#32))) = some (-8, 21#32) :=
  ⟨.comma (ta := [.memory 0 5#32, .equal, .memory 0 4#32, .incOp, .asterix, .number 3#64])
      (.asg (tl := [.memory 0 5#32]) (o := .set) (Nat.zero_le _) .name
        (.bin (ta := [.memory 0 4#32, .incOp]) (by decide) (.post (ts := [.memory 0 4#32]) (inc := true) (by decide) .name) .num))
      (.un (o := .neg) (by decide) (.get .name)),
    rfl, rfl, by decide +kernel⟩

/-- A machine as in the theorems: every cell of memory 0 holds a byte. -/
def bytes : Mems (Loc → BitVec 8) where
  read w l := ((w l).setWidth 32, w)
  write w l v := fun k => if k = l then v.setWidth 8 else w k
  width _ := 8

example : Quiet bytes ∧ Fits bytes :=
  ⟨fun _ _ => rfl, fun w m a => by
    show ((w _).setWidth 32).toNat < 2 ^ 8
    rw [BitVec.toNat_setWidth]
    have := (w (.mem m a)).isLt
    omega⟩

/-! ### C54 assignment to bit fields -/

/-- Field and value of an assignment to bits. -/
def asgParts : {k : Kind} → E k → Option (E .field × E .value)
  | _, .asgF f e => some (f, e)
  | _, _ => none

/-- A derivation of an assignment to bits runs the action of that rule. -/
theorem asg_inv {n : NT} (T : Tree n) {f : E .field} {e : E .value} (h : asgParts T.ast = some (f, e)) :
    ∃ (F : Tree .bit) (G : Tree .assignment), F.ast = f ∧ G.ast = e ∧
      ∀ w : W, (T.act M w).map (·.2) = ((F.act M w).bind fun r => (G.act M r.2).bind fun v => bitAssign M r.1 v.1 v.2).map (·.2) := by
  induction T with
  | asgBit b g => cases h; exact ⟨b, g, rfl, rfl, fun w => rfl⟩
  | primPar e ih | postPrim e ih | unPost e ih | castUp e ih | condUp e ih | asgUp e ih | exprUp e ih => exact ih h
  | binUp k e ih =>
    cases k with
    | zero => exact ih h
    | succ k => exact ih h
  | binOp k t ht a b =>
    cases k with
    | zero => cases h
    | succ k => cases h
  | addrBit b => cases h
  | _ => cases h

theorem toInt_emod_pow (v : Long) {k : Nat} (hk : k ≤ 64) : (v.toInt % (2 ^ k : Int)).toNat = v.toNat % 2 ^ k := by
  have e : v.toInt % (2 ^ k : Int) = ((v.toNat % 2 ^ k : Nat) : Int) := by
    rw [BitVec.toInt_eq_toNat_cond]
    split
    · push_cast; rfl
    · rw [show ((2 ^ 64 : Nat) : Int) = 2 ^ k * 2 ^ (64 - k) by rw [← Int.pow_add, Nat.add_sub_cancel' hk]; rfl, Int.sub_mul_emod_self_left]
      push_cast; rfl
  rw [e]; rfl

theorem set_low (old mask : Word) (v : Long) {hi : Nat} (h2 : hi < 32) (hm : ∀ i, mask.getLsbD i = decide (0 ≤ i ∧ i ≤ hi)) :
    (old &&& ~~~mask) ||| ((v &&& mask.setWidth 64) <<< (0 : Nat)).setWidth 32 = BitVec.ofInt 32 (setField old.toNat 0 hi v.toInt : Nat) := by
  apply BitVec.eq_of_getLsbD_eq
  intro i hi'
  rw [show BitVec.ofInt 32 ((setField old.toNat 0 hi v.toInt : Nat) : Int) = BitVec.ofNat 32 (setField old.toNat 0 hi v.toInt) from BitVec.ofInt_natCast ..]
  rw [BitVec.getLsbD_ofNat]
  unfold setField
  simp only [Nat.sub_zero, Nat.pow_zero, Nat.mul_one, Nat.mod_one, Nat.add_zero]
  rw [toInt_emod_pow v (by omega), Nat.mul_comm, Nat.testBit_two_pow_mul_add _ (Nat.mod_lt _ (Nat.two_pow_pos _))]
  simp only [BitVec.getLsbD_or, BitVec.getLsbD_and, BitVec.getLsbD_not, hm, BitVec.getLsbD_setWidth, BitVec.shiftLeft_zero, hi', decide_true,
    Bool.true_and]
  split
  · next h =>
    rw [Nat.testBit_mod_two_pow]
    have h3 : i ≤ hi := by omega
    have h4 : i < 64 := by omega
    simp [h3, h4, h]
    rfl
  · next h =>
    have h3 : ¬ i ≤ hi := by omega
    rw [Nat.testBit_div_two_pow, show i - (hi + 1) + (hi + 1) = i by omega]
    simp [h3]
    rfl

theorem bit_store (hq : Quiet M) {m : Nat} {i : Int} {hi : Nat} (h2 : hi < 32) (v : Long) (w : W) :
    ∃ r, bitAssign M ⟨(m, BitVec.ofInt 32 i), ((0 : Nat) : Int), hi⟩ v w =
      some (r, store M w (.mem m i) (setField (look M w (.mem m i)) 0 hi v.toInt)) := by
  obtain ⟨mask, hm, hg⟩ := maskOf_get (Nat.zero_le hi) h2
  unfold bitAssign
  simp only [hm, Option.bind_eq_bind, Option.bind_some]
  rw [if_pos (by omega)]
  have e1 := hq w (.mem m (BitVec.ofInt 32 i))
  have e2 := set_low (M.read w (.mem m (BitVec.ofInt 32 i))).1 mask v h2 hg
  refine ⟨_, congrArg some (Prod.ext rfl ?_)⟩
  show M.write (M.read w (.mem m (BitVec.ofInt 32 i))).2 _ _ = _
  rw [e1]
  exact congrArg (M.write w (.mem m (BitVec.ofInt 32 i))) e2

/-- C54 for fields that begin at bit 0: the field is replaced by the low bits of the
value, all other bits keep theirs, and nothing else is written. -/
theorem c54_low_partial (hq : Quiet M) (hf : Fits M) {f : E .field} {e : E .value} {ts : List Tok} (h : Text 0 (E.asgF f e) ts)
    (ht : f.tame = true ∧ e.tame = true) (he : f.eager = true ∧ e.eager = true) {w w1 w' : W} {i : Int} {p : Place} {hi : Nat}
    (hfe : f.eval M w = some ((p, 0, hi), w1)) (hv : (E.asgF f e).eval M w = some (i, w')) (T : Tree .expr) (hT : T.toks = ts) :
    ∃ v, T.act M w = some (v, w') := by
  have hast := (text_ast h).2 T hT
  obtain ⟨F, G, rfl, rfl, hact⟩ := asg_inv (M := M) T (f := f) (e := e) (by rw [hast]; rfl)
  have hact := hact w
  simp only [E.eval, Option.bind_eq_bind, hfe, Option.bind_some, Option.bind_eq_some_iff] at hv
  obtain ⟨⟨x, w2⟩, hx, hv⟩ := hv
  cases hv
  rcases act_agree hq hf F ht.1 w hfe with ⟨_, h2⟩ | ⟨r, h1, m, j, lo, hi', h3, rfl, h4, h5⟩
  · rw [he.1] at h2; cases h2
  cases h3
  rcases act_agree hq hf G ht.2 w1 hx with ⟨_, h2⟩ | ⟨y, h6, h7⟩
  · rw [he.2] at h2; cases h2
  have h7 : BitVec.toInt y = x := h7
  subst h7
  obtain ⟨r, hr⟩ := bit_store hq (m := m) (i := j) h5 y w2
  rw [h1] at hact
  simp only [Option.bind_some, h6] at hact
  rw [hr] at hact
  simp only [Option.map_some, Option.map_eq_some_iff] at hact
  obtain ⟨⟨v, w3⟩, h8, h9⟩ := hact
  cases h9
  exact ⟨v, h8⟩

/-- C54: bits below the field keep their value. -/
theorem c54_below {b : BitRef} {v r : Long} {w w' : W} (h : bitAssign M b v w = some (r, w')) (i : Nat) (hi : (i : Int) < b.low) :
    ∃ x, w' = M.write (M.read w (.mem b.loc.1 b.loc.2)).2 (.mem b.loc.1 b.loc.2) x ∧
      x.getLsbD i = (M.read w (.mem b.loc.1 b.loc.2)).1.getLsbD i := by
  unfold bitAssign at h
  simp only [Option.bind_eq_bind, Option.bind_eq_some_iff] at h
  obtain ⟨mask, hm, h⟩ := h
  split at h
  · next hl =>
    cases h
    refine ⟨_, rfl, ?_⟩
    have hz : mask.getLsbD i = false := by
      unfold maskOf at hm
      split at hm
      · cases hm; simp
      · next hle =>
        split at hm
        · next hr =>
          have e := maskOf_get (lo := b.low.toNat) (hi := b.high.toNat) (by omega) (by omega)
          obtain ⟨m', e1, e2⟩ := e
          unfold maskOf at e1
          rw [show ((b.low.toNat : Nat) : Int) = b.low by omega, show ((b.high.toNat : Nat) : Int) = b.high by omega, if_neg hle, if_pos hr] at e1
          rw [e1] at hm
          cases hm
          rw [e2]
          simp only [decide_eq_false_iff_not]
          omega
        · cases hm
    have hlt : i < b.low.toNat := by omega
    simp only [BitVec.getLsbD_or, BitVec.getLsbD_and, BitVec.getLsbD_not, hz, BitVec.getLsbD_setWidth, BitVec.getLsbD_shiftLeft, hlt]
    by_cases h32 : i < 32
    · simp [h32]
    · simp [h32]
      exact (BitVec.getLsbD_of_ge (M.read w (.mem b.loc.1 b.loc.2)).1 i (by omega))
  · cases h

/-- `x [ 7 : 4 ] = 5`. -/
def fieldText (a b v : Long) : List Tok := [.memory 0 4#32, .lbr, .number a, .colon, .number b, .rbr, .equal, .number v]
def fieldE (a b v : Long) : E .value := .asgF (.range x4 (.num a) (.num b)) (.num v)
def numExpr (v : Long) : Tree .expr := .exprUp (numAsg v)
def fieldTree (a b v : Long) : Tree .expr :=
  .exprUp (.asgBit (.bitRange (.memTok 0 4#32) (numExpr a) (numExpr b)) (numAsg v))

theorem field_text (a b v : Long) : Text 0 (fieldE a b v) (fieldText a b v) :=
  .asgF (tf := [.memory 0 4#32, .lbr, .number a, .colon, .number b, .rbr]) (Nat.zero_le _)
    (.range (tl := [.memory 0 4#32]) (ta := [.number a]) (tb := [.number b]) rfl .name .num .num) .num

/-- C54 is false: `x[7:4] = 5` clears the field (C would store 0x5f). -/
theorem c54_false_lost : Text 0 (fieldE 7#64 4#64 5#64) (fieldText 7#64 4#64 5#64) ∧
    (fieldTree 7#64 4#64 5#64).toks = fieldText 7#64 4#64 5#64 ∧
    ((fieldE 7#64 4#64 5#64).eval demo (at4 0xff#32)).map (fun r => r.2 (.mem 0 4#32)) = some 0x5f#32 ∧
    ((fieldTree 7#64 4#64 5#64).act demo (at4 0xff#32)).map (fun r => r.2 (.mem 0 4#32)) = some 0x0f#32 :=
  ⟨field_text .., rfl, by decide +kernel, by decide +kernel⟩

/-- C54 is false: `x[3:3] = 8` changes bit 6 and not bit 3. -/
theorem c54_false_outside : Text 0 (fieldE 3#64 3#64 8#64) (fieldText 3#64 3#64 8#64) ∧
    (fieldTree 3#64 3#64 8#64).toks = fieldText 3#64 3#64 8#64 ∧
    ((fieldE 3#64 3#64 8#64).eval demo zero).map (fun r => r.2 (.mem 0 4#32)) = some 0#32 ∧
    ((fieldTree 3#64 3#64 8#64).act demo zero).map (fun r => r.2 (.mem 0 4#32)) = some 0x40#32 :=
  ⟨field_text .., rfl, by decide +kernel, by decide +kernel⟩

/-- C54 is false: the value of the assignment is the whole word, not the field. -/
theorem c54_false_value :
    ((fieldE 3#64 0#64 5#64).eval demo (at4 0xff#32)).map (·.1) = some 5 ∧
    ((fieldTree 3#64 0#64 5#64).act demo (at4 0xff#32)).map (·.1) = some 0xf5#64 :=
  ⟨by decide +kernel, by decide +kernel⟩

/-- `x[3:0] = 5` meets the hypotheses of `c54_low_partial`. -/
example : (E.range x4 (.num 3#64) (.num 0#64)).tame = true ∧ (E.range x4 (.num 3#64) (.num 0#64)).eager = true ∧
    ((E.range x4 (.num 3#64) (.num 0#64)).eval demo (at4 0xff#32)).map (·.1.2) = some (0, 3) ∧
    ((fieldE 3#64 0#64 5#64).eval demo (at4 0xff#32)).map (fun r => r.2 (.mem 0 4#32)) = some 0xf5#32 :=
  ⟨rfl, rfl, by decide +kernel, by decide +kernel⟩

end Ucsim.Expr
