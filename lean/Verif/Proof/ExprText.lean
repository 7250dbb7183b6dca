import Verif.Proof.ExprParse
/- Texts written by C's precedences have a derivation. -/
namespace Ucsim.Expr
open C

/-- A derivation for a place where precedence `p` is wanted. -/
def D (p : Nat) (e : E .value) (ts : List Tok) : Prop :=
  match p with
  | 0 => ∃ T : Tree .expr, T.toks = ts ∧ T.ast = e
  | 1 => ∃ T : Tree .assignment, T.toks = ts ∧ T.ast = e
  | 2 => ∃ T : Tree .cond, T.toks = ts ∧ T.ast = e
  | 3 => ∃ T : Tree (.bin 9), T.toks = ts ∧ T.ast = e
  | 4 => ∃ T : Tree (.bin 8), T.toks = ts ∧ T.ast = e
  | 5 => ∃ T : Tree (.bin 7), T.toks = ts ∧ T.ast = e
  | 6 => ∃ T : Tree (.bin 6), T.toks = ts ∧ T.ast = e
  | 7 => ∃ T : Tree (.bin 5), T.toks = ts ∧ T.ast = e
  | 8 => ∃ T : Tree (.bin 4), T.toks = ts ∧ T.ast = e
  | 9 => ∃ T : Tree (.bin 3), T.toks = ts ∧ T.ast = e
  | 10 => ∃ T : Tree (.bin 2), T.toks = ts ∧ T.ast = e
  | 11 => ∃ T : Tree (.bin 1), T.toks = ts ∧ T.ast = e
  | 12 => ∃ T : Tree (.bin 0), T.toks = ts ∧ T.ast = e
  | 13 => ∃ T : Tree .cast, T.toks = ts ∧ T.ast = e
  | 14 => ∃ T : Tree .unary, T.toks = ts ∧ T.ast = e
  | 15 => ∃ T : Tree .postfix, T.toks = ts ∧ T.ast = e
  | _ + 16 => ∃ T : Tree .primary, T.toks = ts ∧ T.ast = e

theorem D.down {p : Nat} {e : E .value} {ts : List Tok} (h : D (p + 1) e ts) : D p e ts := by
  rcases Nat.lt_or_ge p 16 with hp | hp
  · match p, hp, h with
    | 0, _, ⟨T, h⟩ => exact ⟨.exprUp T, h⟩
    | 1, _, ⟨T, h⟩ => exact ⟨.asgUp T, h⟩
    | 2, _, ⟨T, h⟩ => exact ⟨.condUp T, h⟩
    | 3, _, ⟨T, h⟩ => exact ⟨.binUp 9 T, h⟩
    | 4, _, ⟨T, h⟩ => exact ⟨.binUp 8 T, h⟩
    | 5, _, ⟨T, h⟩ => exact ⟨.binUp 7 T, h⟩
    | 6, _, ⟨T, h⟩ => exact ⟨.binUp 6 T, h⟩
    | 7, _, ⟨T, h⟩ => exact ⟨.binUp 5 T, h⟩
    | 8, _, ⟨T, h⟩ => exact ⟨.binUp 4 T, h⟩
    | 9, _, ⟨T, h⟩ => exact ⟨.binUp 3 T, h⟩
    | 10, _, ⟨T, h⟩ => exact ⟨.binUp 2 T, h⟩
    | 11, _, ⟨T, h⟩ => exact ⟨.binUp 1 T, h⟩
    | 12, _, ⟨T, h⟩ => exact ⟨.binUp 0 T, h⟩
    | 13, _, ⟨T, h⟩ => exact ⟨.castUp T, h⟩
    | 14, _, ⟨T, h⟩ => exact ⟨.unPost T, h⟩
    | 15, _, ⟨T, h⟩ => exact ⟨.postPrim T, h⟩
    | _ + 16, hp, _ => omega
  · obtain ⟨q, rfl⟩ : ∃ q, p = q + 16 := ⟨p - 16, by omega⟩
    exact h

theorem D.le {p q : Nat} {e : E .value} {ts : List Tok} (h : D q e ts) (hpq : p ≤ q) : D p e ts := by
  induction q with
  | zero => rw [Nat.le_zero.mp hpq]; exact h
  | succ q ih =>
    rcases Nat.lt_or_ge q p with h' | h'
    · rw [show p = q + 1 by omega]; exact h
    · exact ih h.down h'

theorem D.prim {p : Nat} {e : E .value} {ts : List Tok} (T : Tree .primary) (h : T.toks = ts ∧ T.ast = e) : D p e ts :=
  D.le (q := p + 16) ⟨T, h⟩ (by omega)

/-- What a text gives, by kind. -/
def TextOk : (k : Kind) → Nat → E k → List Tok → Prop
  | .place, _, l, ts => (∃ T : Tree .memory, T.toks = ts ∧ T.ast = l) ∨ ∃ c, l = .cell c ∧ ts = [.cell c]
  | .field, _, f, ts => ∃ T : Tree .bit, T.toks = ts ∧ T.ast = f
  | .value, p, e, ts => D p e ts

theorem TextOk.mem {p : Nat} {l : E .place} {ts : List Tok} (h : TextOk .place p l ts) (hm : l.inMem = true) :
    ∃ T : Tree .memory, T.toks = ts ∧ T.ast = l := by
  rcases h with h | ⟨c, rfl, _⟩
  · exact h
  · cases hm

theorem text_ok {k : Kind} {p : Nat} {e : E k} {ts : List Tok} (h : Text p e ts) : TextOk k p e ts := by
  induction h with
  | @name _ m a => exact .inl ⟨.memTok m a, rfl, rfl⟩
  | @idx _ _ _ m _ ih => obtain ⟨T, rfl, rfl⟩ := ih; exact .inl ⟨.memIdx m T, rfl, rfl⟩
  | cell => exact .inr ⟨_, rfl, rfl⟩
  | range hm _ _ _ ihl iha ihb =>
    obtain ⟨M, rfl, rfl⟩ := ihl.mem hm
    obtain ⟨A, rfl, rfl⟩ := iha
    obtain ⟨B, rfl, rfl⟩ := ihb
    exact ⟨.bitRange M A B, by simp [Tree.toks], rfl⟩
  | @num _ v => exact D.prim (.primNum v) ⟨rfl, rfl⟩
  | get _ ih =>
    rcases ih with ⟨T, rfl, rfl⟩ | ⟨c, rfl, rfl⟩
    · exact D.prim (.primMem T) ⟨rfl, rfl⟩
    · exact D.prim (.primCell c) ⟨rfl, rfl⟩
  | getF _ ih => obtain ⟨T, rfl, rfl⟩ := ih; exact D.prim (.primBit T) ⟨rfl, rfl⟩
  | paren _ ih => obtain ⟨T, rfl, rfl⟩ := ih; exact D.prim (.primPar T) ⟨by simp [Tree.toks], rfl⟩
  | @post _ _ _ inc hp _ ih =>
    rcases ih with ⟨T, rfl, rfl⟩ | ⟨c, rfl, rfl⟩
    · exact D.le (q := 15) ⟨.postMem inc T, rfl, rfl⟩ hp
    · exact D.le (q := 15) ⟨.postCell inc c, rfl, rfl⟩ hp
  | @pre _ _ _ inc hp _ ih =>
    rcases ih with ⟨T, rfl, rfl⟩ | ⟨c, rfl, rfl⟩
    · exact D.le (q := 14) ⟨.preMem inc T, rfl, rfl⟩ hp
    · exact D.le (q := 14) ⟨.preCell inc c, rfl, rfl⟩ hp
  | addr hp hm _ ih =>
    obtain ⟨T, rfl, rfl⟩ := ih.mem hm
    exact D.le (q := 14) ⟨.addrMem T, rfl, rfl⟩ hp
  | addrF hp _ ih =>
    obtain ⟨T, rfl, rfl⟩ := ih
    exact D.le (q := 14) ⟨.addrBit T, rfl, rfl⟩ hp
  | @un p _ _ o hp _ ih =>
    obtain ⟨T, rfl, rfl⟩ := ih
    refine D.le (q := 14) ⟨.unOp o.tok (by cases o <;> rfl) T, rfl, ?_⟩ hp
    cases o <;> rfl
  | castInt hp hm _ ih =>
    obtain ⟨T, rfl, rfl⟩ := ih.mem hm
    exact D.le (q := 13) ⟨.castInt T, rfl, rfl⟩ hp
  | @bin p _ _ _ _ o hp _ _ iha ihb =>
    refine D.le ?_ hp
    cases o with
    | mul => obtain ⟨A, rfl, rfl⟩ := iha; obtain ⟨B, rfl, rfl⟩ := ihb; exact ⟨.binOp 0 (BOp.tok .mul) rfl A B, rfl, rfl⟩
    | div => obtain ⟨A, rfl, rfl⟩ := iha; obtain ⟨B, rfl, rfl⟩ := ihb; exact ⟨.binOp 0 (BOp.tok .div) rfl A B, rfl, rfl⟩
    | mod => obtain ⟨A, rfl, rfl⟩ := iha; obtain ⟨B, rfl, rfl⟩ := ihb; exact ⟨.binOp 0 (BOp.tok .mod) rfl A B, rfl, rfl⟩
    | add => obtain ⟨A, rfl, rfl⟩ := iha; obtain ⟨B, rfl, rfl⟩ := ihb; exact ⟨.binOp 1 (BOp.tok .add) rfl A B, rfl, rfl⟩
    | sub => obtain ⟨A, rfl, rfl⟩ := iha; obtain ⟨B, rfl, rfl⟩ := ihb; exact ⟨.binOp 1 (BOp.tok .sub) rfl A B, rfl, rfl⟩
    | shl => obtain ⟨A, rfl, rfl⟩ := iha; obtain ⟨B, rfl, rfl⟩ := ihb; exact ⟨.binOp 2 (BOp.tok .shl) rfl A B, rfl, rfl⟩
    | shr => obtain ⟨A, rfl, rfl⟩ := iha; obtain ⟨B, rfl, rfl⟩ := ihb; exact ⟨.binOp 2 (BOp.tok .shr) rfl A B, rfl, rfl⟩
    | lt => obtain ⟨A, rfl, rfl⟩ := iha; obtain ⟨B, rfl, rfl⟩ := ihb; exact ⟨.binOp 3 (BOp.tok .lt) rfl A B, rfl, rfl⟩
    | gt => obtain ⟨A, rfl, rfl⟩ := iha; obtain ⟨B, rfl, rfl⟩ := ihb; exact ⟨.binOp 3 (BOp.tok .gt) rfl A B, rfl, rfl⟩
    | le => obtain ⟨A, rfl, rfl⟩ := iha; obtain ⟨B, rfl, rfl⟩ := ihb; exact ⟨.binOp 3 (BOp.tok .le) rfl A B, rfl, rfl⟩
    | ge => obtain ⟨A, rfl, rfl⟩ := iha; obtain ⟨B, rfl, rfl⟩ := ihb; exact ⟨.binOp 3 (BOp.tok .ge) rfl A B, rfl, rfl⟩
    | eq => obtain ⟨A, rfl, rfl⟩ := iha; obtain ⟨B, rfl, rfl⟩ := ihb; exact ⟨.binOp 4 (BOp.tok .eq) rfl A B, rfl, rfl⟩
    | ne => obtain ⟨A, rfl, rfl⟩ := iha; obtain ⟨B, rfl, rfl⟩ := ihb; exact ⟨.binOp 4 (BOp.tok .ne) rfl A B, rfl, rfl⟩
    | and => obtain ⟨A, rfl, rfl⟩ := iha; obtain ⟨B, rfl, rfl⟩ := ihb; exact ⟨.binOp 5 (BOp.tok .and) rfl A B, rfl, rfl⟩
    | xor => obtain ⟨A, rfl, rfl⟩ := iha; obtain ⟨B, rfl, rfl⟩ := ihb; exact ⟨.binOp 6 (BOp.tok .xor) rfl A B, rfl, rfl⟩
    | or => obtain ⟨A, rfl, rfl⟩ := iha; obtain ⟨B, rfl, rfl⟩ := ihb; exact ⟨.binOp 7 (BOp.tok .or) rfl A B, rfl, rfl⟩
    | land => obtain ⟨A, rfl, rfl⟩ := iha; obtain ⟨B, rfl, rfl⟩ := ihb; exact ⟨.binOp 8 (BOp.tok .land) rfl A B, rfl, rfl⟩
    | lor => obtain ⟨A, rfl, rfl⟩ := iha; obtain ⟨B, rfl, rfl⟩ := ihb; exact ⟨.binOp 9 (BOp.tok .lor) rfl A B, rfl, rfl⟩
  | cond hp _ _ _ ihc iha ihb =>
    obtain ⟨C, rfl, rfl⟩ := ihc
    obtain ⟨A, rfl, rfl⟩ := iha
    obtain ⟨B, rfl, rfl⟩ := ihb
    exact D.le (q := 2) ⟨.condOp C A B, by simp [Tree.toks], rfl⟩ hp
  | @asg p _ _ _ _ o hp _ _ ihl ihe =>
    obtain ⟨T, rfl, rfl⟩ := ihe
    refine D.le (q := 1) ?_ hp
    rcases ihl with ⟨L, rfl, rfl⟩ | ⟨c, rfl, rfl⟩
    · refine ⟨.asgMem L o.tok (by cases o <;> rfl) T, rfl, ?_⟩
      cases o <;> rfl
    · refine ⟨.asgCell c o.tok (by cases o <;> rfl) T, rfl, ?_⟩
      cases o <;> rfl
  | asgF hp _ _ ihf ihe =>
    obtain ⟨F, rfl, rfl⟩ := ihf
    obtain ⟨T, rfl, rfl⟩ := ihe
    exact D.le (q := 1) ⟨.asgBit F T, rfl, rfl⟩ hp
  | comma _ _ iha ihb =>
    obtain ⟨A, rfl, rfl⟩ := iha
    obtain ⟨B, rfl, rfl⟩ := ihb
    exact ⟨.exprComma A B, rfl, rfl⟩

theorem text_noDot {k : Kind} {p : Nat} {e : E k} {ts : List Tok} (h : Text p e ts) : Tok.dot ∉ ts := by
  induction h with
  | @post _ _ _ inc => cases inc <;> simp_all [C.incTok]
  | @pre _ _ _ inc => cases inc <;> simp_all [C.incTok]
  | @un _ _ _ o => cases o <;> simp_all [UOp.tok]
  | @bin _ _ _ _ _ o => cases o <;> simp_all [BOp.tok]
  | @asg _ _ _ _ _ o => cases o <;> simp_all [AOp.tok]
  | _ => simp_all

/-- A text has a derivation, and all its derivations stand for the expression. -/
theorem text_ast {e : E .value} {ts : List Tok} (h : Text 0 e ts) :
    (∃ T : Tree .expr, T.toks = ts) ∧ ∀ T : Tree .expr, T.toks = ts → T.ast = e := by
  obtain ⟨U, hU, he⟩ := text_ok h
  refine ⟨⟨U, hU⟩, fun T hT => ?_⟩
  rw [← he]
  exact ast_unique T U (hT.trans hU.symm) (by rw [hT]; exact text_noDot h)

end Ucsim.Expr
