import Verif.Proof.ExprArith
/- The actions of a derivation compute what C says. -/
namespace Ucsim.Expr
open C

variable {W : Type} {M : Mems W}

def Rel : (n : NT) → Sem n → Res (kindOf n) → Prop
  | .memory, p, r => r = .mem p.1 p.2.toInt
  | .bit, b, r => ∃ (m : Nat) (i : Int) (lo hi : Nat), r = (.mem m i, lo, hi) ∧ b = ⟨(m, BitVec.ofInt 32 i), lo, hi⟩ ∧ lo ≤ hi ∧ hi < 32
  | .primary, v, i => (v : Long).toInt = i
  | .postfix, v, i => (v : Long).toInt = i
  | .unary, v, i => (v : Long).toInt = i
  | .cast, v, i => (v : Long).toInt = i
  | .bin _, v, i => (v : Long).toInt = i
  | .cond, v, i => (v : Long).toInt = i
  | .assignment, v, i => (v : Long).toInt = i
  | .expr, v, i => (v : Long).toInt = i

theorem memLoc_eq (p : Nat × Long) : memLoc p = (Place.mem p.1 p.2.toInt).loc := by
  unfold memLoc Place.loc
  simp only [sw32]

theorem bit_read_quiet (hq : Quiet M) (b : BitRef) (w : W) {v : Long} {w' : W} (h : bitRead M b w = some (v, w')) : w' = w := by
  unfold bitRead at h
  simp only [Option.bind_eq_bind, Option.bind_eq_some_iff] at h
  obtain ⟨m, _, h⟩ := h
  split at h
  · cases h; exact hq _ _
  · cases h

theorem cast_quiet (hq : Quiet M) (m : Nat) (a : Word) (w : W) {v : Long} {w' : W} (h : castAct M m a w = some (v, w')) : w' = w := by
  unfold castAct at h
  simp only at h
  split at h
  · cases h; exact hq _ _
  · cases h

theorem read_quiet (hq : Quiet M) (l : Loc) (w : W) : readAct M l w = some ((M.read w l).1.setWidth 64, w) := by
  unfold readAct
  simp only [hq w l]

/-- Expressions without assignments leave the machine as it is. -/
theorem pure_act (hq : Quiet M) {n : NT} (T : Tree n) (hp : T.ast.pure = true) (w : W) {v : Sem n} {w' : W}
    (h : T.act M w = some (v, w')) : w' = w := by
  induction T generalizing w w' with
  | memTok | primNum => simp only [Tree.act] at h; cases h; rfl
  | primCell c => simp only [Tree.act, read_quiet hq] at h; cases h; rfl
  | memIdx m e ih | addrMem m ih =>
    simp only [Tree.act, Option.bind_eq_bind, Option.bind_eq_some_iff] at h
    obtain ⟨x, h1, h2⟩ := h
    cases h2; exact ih hp w h1
  | bitDot m e ih1 ih2 =>
    simp only [Tree.ast, E.pure, Bool.and_eq_true] at hp
    simp only [Tree.act, Option.bind_eq_bind, Option.bind_eq_some_iff] at h
    obtain ⟨⟨x, w1⟩, h1, ⟨y, w2⟩, h2, h3⟩ := h
    cases h3
    cases ih1 hp.1 w h1
    exact ih2 hp.2 _ h2
  | bitRange m a b ih1 ih2 ih3 =>
    simp only [Tree.ast, E.pure, Bool.and_eq_true] at hp
    simp only [Tree.act, Option.bind_eq_bind, Option.bind_eq_some_iff] at h
    obtain ⟨⟨x, w1⟩, h1, ⟨y, w2⟩, h2, ⟨z, w3⟩, h3, h4⟩ := h
    cases h4
    cases ih1 hp.1.1 w h1
    cases ih2 hp.1.2 _ h2
    exact ih3 hp.2 _ h3
  | primMem m ih =>
    simp only [Tree.act, Option.bind_eq_bind, Option.bind_eq_some_iff, read_quiet hq] at h
    obtain ⟨⟨x, w1⟩, h1, h2⟩ := h
    cases h2; exact ih hp w h1
  | primBit b ih =>
    simp only [Tree.act, Option.bind_eq_bind, Option.bind_eq_some_iff] at h
    obtain ⟨⟨x, w1⟩, h1, h2⟩ := h
    rw [bit_read_quiet hq _ _ h2]; exact ih hp w h1
  | primPar e ih | postPrim e ih | unPost e ih | castUp e ih | condUp e ih | asgUp e ih | exprUp e ih => exact ih hp w h
  | postMem | postCell | preMem | preCell | asgMem | asgBit | asgCell => simp [Tree.ast, E.pure] at hp
  | addrBit b ih =>
    cases b with
    | bitDot m e =>
      simp only [Tree.act, Option.bind_eq_bind, Option.bind_eq_some_iff] at h
      obtain ⟨⟨x, w1⟩, h1, ⟨y, w2⟩, h2, h3⟩ := h
      cases h3
      refine ih hp w (v := bitDotRef (memPos x) y) ?_
      simp only [Tree.act, h1, h2, Option.bind_eq_bind, Option.bind_some]
    | bitRange m a b =>
      simp only [Tree.act, Option.bind_eq_bind, Option.bind_eq_some_iff] at h
      obtain ⟨⟨x, w1⟩, h1, ⟨y, w2⟩, h2, ⟨z, w3⟩, h3, h4⟩ := h
      cases h4
      refine ih hp w (v := bitRangeRef (memPos x) y z) ?_
      simp only [Tree.act, h1, h2, h3, Option.bind_eq_bind, Option.bind_some]
  | unOp t ht e ih =>
    simp only [Tree.act, Option.bind_eq_bind, Option.bind_eq_some_iff] at h
    obtain ⟨⟨x, w1⟩, h1, y, h2, h3⟩ := h
    cases h3; exact ih hp w h1
  | castInt m ih =>
    simp only [Tree.act, Option.bind_eq_bind, Option.bind_eq_some_iff] at h
    obtain ⟨⟨x, w1⟩, h1, h2⟩ := h
    rw [cast_quiet hq _ _ _ h2]; exact ih hp w h1
  | binUp k e ih =>
    cases k with
    | zero => exact ih hp w h
    | succ k => exact ih hp w h
  | binOp k t ht a b ih1 ih2 =>
    cases k with
    | zero =>
      simp only [Tree.ast, E.pure, Bool.and_eq_true] at hp
      simp only [Tree.act, Option.bind_eq_bind, Option.bind_eq_some_iff] at h
      obtain ⟨⟨x, w1⟩, h1, ⟨y, w2⟩, h2, z, h3, h4⟩ := h
      cases h4
      cases ih1 hp.1 w h1
      exact ih2 hp.2 _ h2
    | succ k =>
      simp only [Tree.ast, E.pure, Bool.and_eq_true] at hp
      simp only [Tree.act, Option.bind_eq_bind, Option.bind_eq_some_iff] at h
      obtain ⟨⟨x, w1⟩, h1, ⟨y, w2⟩, h2, z, h3, h4⟩ := h
      cases h4
      cases ih1 hp.1 w h1
      exact ih2 hp.2 _ h2
  | condOp c a b ih1 ih2 ih3 =>
    simp only [Tree.ast, E.pure, Bool.and_eq_true] at hp
    simp only [Tree.act, Option.bind_eq_bind, Option.bind_eq_some_iff] at h
    obtain ⟨⟨x, w1⟩, h1, ⟨y, w2⟩, h2, ⟨z, w3⟩, h3, h4⟩ := h
    cases h4
    cases ih1 hp.1.1 w h1
    cases ih2 hp.1.2 _ h2
    exact ih3 hp.2 _ h3
  | exprComma a b ih1 ih2 =>
    simp only [Tree.ast, E.pure, Bool.and_eq_true] at hp
    simp only [Tree.act, Option.bind_eq_bind, Option.bind_eq_some_iff] at h
    obtain ⟨⟨x, w1⟩, h1, h2⟩ := h
    cases ih1 hp.1 w h1
    exact ih2 hp.2 _ h2

/-- The outcome agrees with C's, or is undefined because an operand was evaluated that
C skips. -/
def Agree (n : NT) (eager : Bool) (o : Option (Sem n × W)) (i : Res (kindOf n)) (w : W) : Prop :=
  (o = none ∧ eager = false) ∨ ∃ v, o = some (v, w) ∧ Rel n v i

theorem post_agree (hq : Quiet M) (p : Place) (inc : Bool) (w : W) :
    postAct M inc p.loc w = some ((M.read w p.loc).1.setWidth 64, store M w p (look M w p + (if inc then 1 else -1))) := by
  unfold postAct store look
  simp only [hq w p.loc]
  congr 2
  congr 1
  rw [sw32]
  apply BitVec.eq_of_toNat_eq
  have := (M.read w p.loc).1.isLt
  generalize (M.read w p.loc).1 = v at *
  rw [BitVec.toNat_ofInt, BitVec.toNat_ofInt]
  cases inc
  · simp only [Bool.false_eq_true, if_false]
    rw [BitVec.toInt_sub, toInt_sw64, show (1#64 : BitVec 64).toInt = 1 from rfl, Int.bmod_def]
    split <;> omega
  · simp only [if_true]
    rw [BitVec.toInt_add, toInt_sw64, show (1#64 : BitVec 64).toInt = 1 from rfl, Int.bmod_def]
    split <;> omega

theorem pre_agree (hq : Quiet M) (p : Place) (inc : Bool) (w : W) :
    let w1 := store M w p (look M w p + (if inc then 1 else -1))
    preAct M inc p.loc w = some ((M.read w1 p.loc).1.setWidth 64, w1) := by
  have h := post_agree hq p inc w
  unfold postAct at h
  unfold preAct
  simp only at h ⊢
  have e := (Prod.mk.inj (Option.some.inj h)).2
  rw [e, hq]

theorem tok_and {k : Nat} {t : Tok} (ht : opTok k t = true) (e : bopOf t = .land) : t = .andOp := by
  cases t <;> first | rfl | (exfalso; revert ht e; unfold bopOf; cases k <;> simp [opTok]; done) | cases e

theorem tok_or {k : Nat} {t : Tok} (ht : opTok k t = true) (e : bopOf t = .lor) : t = .orOp := by
  cases t <;> first | rfl | (exfalso; revert ht e; unfold bopOf opTok; simp; done) | cases e

/-- The binary operators. -/
theorem bin_case (hq : Quiet M) {k : Nat} {t : Tok} (ht : opTok k t = true) (ea eb : E .value) (fa fb : W → Option (Long × W))
    (ha : ∀ w i w', ea.eval M w = some (i, w') → (fa w = none ∧ ea.eager = false) ∨ ∃ v, fa w = some (v, w') ∧ v.toInt = i)
    (hb : ∀ w i w', eb.eval M w = some (i, w') → (fb w = none ∧ eb.eager = false) ∨ ∃ v, fb w = some (v, w') ∧ v.toInt = i)
    (hp : eb.pure = true → ∀ w v w', fb w = some (v, w') → w' = w)
    (htm : (E.bin (bopOf t) ea eb).tame = true) (w : W) {i : Int} {w' : W} (h : (E.bin (bopOf t) ea eb).eval M w = some (i, w')) :
    let o := (do let (x, w) ← fa w; let (y, w) ← fb w; let r ← binAct t x y; some (r, w) : Option (Long × W))
    (o = none ∧ (E.bin (bopOf t) ea eb).eager = false) ∨ ∃ v, o = some (v, w') ∧ v.toInt = i := by
  simp only
  simp only [E.tame, Bool.and_eq_true, Bool.or_eq_true, bne_iff_ne, ne_eq] at htm
  obtain ⟨⟨_, _⟩, htm⟩ := htm
  by_cases hl : bopOf t = .land ∨ bopOf t = .lor
  · have hpb : eb.pure = true := by
      rcases htm with h | h
      · exact h
      · rcases hl with e | e
        · exact absurd e h.1
        · exact absurd e h.2
    have he : (E.bin (bopOf t) ea eb).eager = false := by rcases hl with e | e <;> simp [e, E.eager]
    have hp := hp hpb
    rcases hl with e | e
    · rw [e] at h
      have ht' : t = .andOp := tok_and ht e
      subst ht'
      simp only [E.eval, Option.bind_eq_bind, Option.bind_eq_some_iff] at h
      obtain ⟨⟨x, w1⟩, h1, h2⟩ := h
      rcases ha w x w1 h1 with ⟨h3, _⟩ | ⟨v, h3, h4⟩
      · exact .inl ⟨by rw [h3]; rfl, he⟩
      · rw [h3]
        simp only [Option.bind_eq_bind, Option.bind_some]
        split at h2
        · next hx =>
          cases h2
          cases hf : fb w1 with
          | none => exact .inl ⟨rfl, he⟩
          | some q =>
            obtain ⟨y, w2⟩ := q
            refine .inr ⟨_, by simp only [Option.bind_some, binAct]; rw [hp _ _ _ hf], ?_⟩
            have hx : x = 0 := hx
            rw [toInt_ofBool, bne_zero v, h4, hx]; rfl
        · next hx =>
          simp only [Option.bind_eq_some_iff] at h2
          obtain ⟨⟨y, w2⟩, h5, h6⟩ := h2
          cases h6
          rcases hb _ _ _ h5 with ⟨h7, _⟩ | ⟨u, h7, h8⟩
          · exact .inl ⟨by rw [h7]; rfl, he⟩
          · rw [h7]
            refine .inr ⟨_, rfl, ?_⟩
            rw [toInt_ofBool, bne_zero v, bne_zero u, h4, h8]
            simp [hx]
    · rw [e] at h
      have ht' : t = .orOp := tok_or ht e
      subst ht'
      simp only [E.eval, Option.bind_eq_bind, Option.bind_eq_some_iff] at h
      obtain ⟨⟨x, w1⟩, h1, h2⟩ := h
      rcases ha w x w1 h1 with ⟨h3, _⟩ | ⟨v, h3, h4⟩
      · exact .inl ⟨by rw [h3]; rfl, he⟩
      · rw [h3]
        simp only [Option.bind_eq_bind, Option.bind_some]
        split at h2
        · next hx =>
          cases h2
          cases hf : fb w1 with
          | none => exact .inl ⟨rfl, he⟩
          | some q =>
            obtain ⟨y, w2⟩ := q
            refine .inr ⟨_, by simp only [Option.bind_some, binAct]; rw [hp _ _ _ hf], ?_⟩
            rw [toInt_ofBool, bne_zero v, h4]; simp [hx, truth]
        · next hx =>
          simp only [Option.bind_eq_some_iff] at h2
          obtain ⟨⟨y, w2⟩, h5, h6⟩ := h2
          cases h6
          rcases hb _ _ _ h5 with ⟨h7, _⟩ | ⟨u, h7, h8⟩
          · exact .inl ⟨by rw [h7]; rfl, he⟩
          · rw [h7]
            refine .inr ⟨_, rfl, ?_⟩
            rw [toInt_ofBool, bne_zero v, bne_zero u, h4, h8]
            simp [hx]
  · have hev : (E.bin (bopOf t) ea eb).eval M w = (do
        let (x, w) ← ea.eval M w; let (y, w) ← eb.eval M w; let r ← (bopOf t).apply x y; some (r, w)) := by
      rw [E.eval]
      · exact fun e => hl (.inl e)
      · exact fun e => hl (.inr e)
    rw [hev] at h
    simp only [Option.bind_eq_bind, Option.bind_eq_some_iff] at h
    obtain ⟨⟨x, w1⟩, h1, ⟨y, w2⟩, h2, r, h3, h4⟩ := h
    cases h4
    rcases ha w x w1 h1 with ⟨h5, h6⟩ | ⟨v, h5, rfl⟩
    · exact .inl ⟨by rw [h5]; rfl, by simp [E.eager, h6]⟩
    · rcases hb w1 y _ h2 with ⟨h7, h8⟩ | ⟨u, h7, rfl⟩
      · exact .inl ⟨by rw [h5]; simp only [Option.bind_eq_bind, Option.bind_some, h7]; rfl, by simp [E.eager, h8]⟩
      · obtain ⟨z, hz, rfl⟩ := bin_agree ht v u h3
        exact .inr ⟨z, by rw [h5]; simp only [Option.bind_eq_bind, Option.bind_some, h7, hz], rfl⟩

theorem bitRead_agree (hq : Quiet M) {m : Nat} {i : Int} {lo hi : Nat} (h1 : lo ≤ hi) (h2 : hi < 32) (w : W) :
    ∃ v, bitRead M ⟨(m, BitVec.ofInt 32 i), lo, hi⟩ w = some (v, w) ∧ v.toInt = fieldOf (look M w (.mem m i)) lo hi := by
  obtain ⟨mask, hm, hg⟩ := maskOf_get h1 h2
  refine ⟨_, by unfold bitRead; simp only [hm, Option.bind_eq_bind, Option.bind_some]; rw [if_pos (by omega), hq], ?_⟩
  rw [toInt_sw64]
  rw [show (lo : Int).toNat = lo from rfl, field_read _ _ h1 h2 hg]
  rfl

theorem assign_agree (hq : Quiet M) {t : Tok} (ht : asgTok t = true) (p : Place) (v : Long) (w : W) {x : Int}
    (h : (aopOf t).apply (look M w p) v.toInt = some x) :
    assignAct M t p.loc v w = some ((M.read (store M w p x) p.loc).1.setWidth 64, store M w p x) := by
  unfold assignAct
  have := asg_agree ht (M.read w p.loc).1 v h
  simp only [this, Option.bind_eq_bind, Option.bind_some]
  have e1 := hq w p.loc
  show some ((M.read (M.write (M.read w p.loc).2 p.loc _) p.loc).1.setWidth 64, (M.read (M.write (M.read w p.loc).2 p.loc _) p.loc).2) = _
  rw [e1, hq]
  rfl

theorem eager_of {e : Bool} (h : e = false) (f : Bool) : (e && f) = false := by rw [h]; rfl

theorem act_agree (hq : Quiet M) (hf : Fits M) {n : NT} (T : Tree n) (ht : T.ast.tame = true) (w : W) {i : Res (kindOf n)} {w' : W}
    (h : T.ast.eval M w = some (i, w')) : Agree n T.ast.eager (T.act M w) i w' := by
  induction T generalizing w w' with
  | memTok m a =>
    simp only [Tree.ast, E.eval] at h; cases h
    exact .inr ⟨_, rfl, by show Place.mem _ _ = _; rw [toInt_sw64]⟩
  | memIdx m e ih =>
    simp only [Tree.ast, E.eval, Option.bind_eq_bind, Option.bind_eq_some_iff] at h
    obtain ⟨⟨x, w1⟩, h1, h2⟩ := h
    cases h2
    rcases ih ht w h1 with ⟨h3, h4⟩ | ⟨v, h3, rfl⟩
    · exact .inl ⟨by simp only [Tree.act, h3]; rfl, h4⟩
    · exact .inr ⟨(m, v), by simp only [Tree.act, h3]; rfl, by show Place.mem _ _ = _; rfl⟩
  | bitDot m e ih1 ih2 =>
    simp only [Tree.ast, E.tame, Bool.and_eq_true] at ht
    simp only [Tree.ast, E.eval, Option.bind_eq_bind, Option.bind_eq_some_iff] at h
    obtain ⟨⟨p, w1⟩, h1, ⟨x, w2⟩, h2, r, h3, h4⟩ := h
    cases h4
    rcases ih1 ht.1 w h1 with ⟨h5, h6⟩ | ⟨q, h5, rfl⟩
    · exact .inl ⟨by simp only [Tree.act, h5]; rfl, by simp [Tree.ast, E.eager, h6]⟩
    · rcases ih2 ht.2 w1 h2 with ⟨h7, h8⟩ | ⟨v, h7, rfl⟩
      · exact .inl ⟨by simp only [Tree.act, h5, h7, Option.bind_eq_bind, Option.bind_some]; rfl, by simp [Tree.ast, E.eager, h8]⟩
      · obtain ⟨lo, hi, rfl, h9, h10, h11⟩ := dotRef_ok h3 (memPos q)
        refine .inr ⟨_, by simp only [Tree.act, h5, h7, Option.bind_eq_bind, Option.bind_some]; rfl, _, _, lo, hi, rfl, ?_, h9, h10⟩
        rw [h11]; unfold memPos; rw [sw32]
  | bitRange m a b ih1 ih2 ih3 =>
    simp only [Tree.ast, E.tame, Bool.and_eq_true] at ht
    simp only [Tree.ast, E.eval, Option.bind_eq_bind, Option.bind_eq_some_iff] at h
    obtain ⟨⟨p, w1⟩, h1, ⟨x, w2⟩, h2, ⟨y, w3⟩, h3, r, h4, h5⟩ := h
    cases h5
    rcases ih1 ht.1.1 w h1 with ⟨h5, h6⟩ | ⟨q, h5, rfl⟩
    · exact .inl ⟨by simp only [Tree.act, h5]; rfl, by simp [Tree.ast, E.eager, h6]⟩
    · rcases ih2 ht.1.2 w1 h2 with ⟨h7, h8⟩ | ⟨u, h7, rfl⟩
      · exact .inl ⟨by simp only [Tree.act, h5, h7, Option.bind_eq_bind, Option.bind_some]; rfl, by simp [Tree.ast, E.eager, h8]⟩
      · rcases ih3 ht.2 w2 h3 with ⟨h9, h10⟩ | ⟨v, h9, rfl⟩
        · exact .inl ⟨by simp only [Tree.act, h5, h7, h9, Option.bind_eq_bind, Option.bind_some]; rfl, by simp [Tree.ast, E.eager, h10]⟩
        · obtain ⟨lo, hi, rfl, h10, h11, h12⟩ := rangeRef_ok h4 (memPos q)
          refine .inr ⟨_, by simp only [Tree.act, h5, h7, h9, Option.bind_eq_bind, Option.bind_some]; rfl, _, _, lo, hi, rfl, ?_, h10, h11⟩
          rw [h12]; unfold memPos; rw [sw32]
  | primMem m ih =>
    simp only [Tree.ast, E.eval, Option.bind_eq_bind, Option.bind_eq_some_iff] at h
    obtain ⟨⟨p, w1⟩, h1, h2⟩ := h
    cases h2
    rcases ih ht w h1 with ⟨h3, h4⟩ | ⟨v, h3, rfl⟩
    · exact .inl ⟨by simp only [Tree.act, h3]; rfl, h4⟩
    · refine .inr ⟨_, by simp only [Tree.act, h3, Option.bind_eq_bind, Option.bind_some, read_quiet hq]; rfl, ?_⟩
      show BitVec.toInt _ = _
      rw [toInt_sw64, memLoc_eq]; rfl
  | primBit b ih =>
    simp only [Tree.ast, E.eval, Option.bind_eq_bind, Option.bind_eq_some_iff] at h
    obtain ⟨⟨⟨p, lo, hi⟩, w1⟩, h1, h2⟩ := h
    cases h2
    rcases ih ht w h1 with ⟨h3, h4⟩ | ⟨v, h3, m, i, lo', hi', e1, rfl, h5, h6⟩
    · exact .inl ⟨by simp only [Tree.act, h3]; rfl, h4⟩
    · cases e1
      obtain ⟨x, h7, h8⟩ := bitRead_agree hq (m := m) (i := i) h5 h6 _
      exact .inr ⟨x, by simp only [Tree.act, h3, Option.bind_eq_bind, Option.bind_some]; exact h7, h8⟩
  | primNum v => simp only [Tree.ast, E.eval] at h; cases h; exact .inr ⟨v, rfl, rfl⟩
  | primCell c =>
    simp only [Tree.ast, E.eval] at h; cases h
    refine .inr ⟨_, by simp only [Tree.act, read_quiet hq]; rfl, ?_⟩
    show BitVec.toInt _ = _
    rw [toInt_sw64]; rfl
  | primPar e ih | postPrim e ih | unPost e ih | castUp e ih | condUp e ih | asgUp e ih | exprUp e ih => exact ih ht w h
  | postMem inc m ih =>
    simp only [Tree.ast, E.eval, Option.bind_eq_bind, Option.bind_eq_some_iff] at h
    obtain ⟨⟨p, w1⟩, h1, h2⟩ := h
    cases h2
    rcases ih ht w h1 with ⟨h3, h4⟩ | ⟨v, h3, rfl⟩
    · exact .inl ⟨by simp only [Tree.act, h3]; rfl, h4⟩
    · refine .inr ⟨_, by simp only [Tree.act, h3, Option.bind_eq_bind, Option.bind_some]; rw [memLoc_eq, post_agree hq], ?_⟩
      exact toInt_sw64 _
  | postCell inc c =>
    simp only [Tree.ast, E.eval] at h; cases h
    refine .inr ⟨_, by simp only [Tree.act]; exact post_agree hq (.cell c) inc w, ?_⟩
    exact toInt_sw64 _
  | preMem inc m ih =>
    simp only [Tree.ast, E.eval, Option.bind_eq_bind, Option.bind_eq_some_iff] at h
    obtain ⟨⟨p, w1⟩, h1, h2⟩ := h
    cases h2
    rcases ih ht w h1 with ⟨h3, h4⟩ | ⟨v, h3, rfl⟩
    · exact .inl ⟨by simp only [Tree.act, h3]; rfl, h4⟩
    · refine .inr ⟨_, by simp only [Tree.act, h3, Option.bind_eq_bind, Option.bind_some]; rw [memLoc_eq, pre_agree hq], ?_⟩
      exact toInt_sw64 _
  | preCell inc c =>
    simp only [Tree.ast, E.eval] at h; cases h
    refine .inr ⟨_, by simp only [Tree.act]; exact pre_agree hq (.cell c) inc w, ?_⟩
    exact toInt_sw64 _
  | addrMem m ih =>
    simp only [Tree.ast, E.eval, Option.bind_eq_bind, Option.bind_eq_some_iff] at h
    obtain ⟨⟨p, w1⟩, h1, h2⟩ := h
    rcases ih ht w h1 with ⟨h3, h4⟩ | ⟨v, h3, rfl⟩
    · exact .inl ⟨by simp only [Tree.act, h3]; rfl, h4⟩
    · cases h2
      exact .inr ⟨_, by simp only [Tree.act, h3]; rfl, rfl⟩
  | addrBit b ih => simp only [Tree.ast, E.eval] at h; cases h
  | unOp t hu e ih =>
    simp only [Tree.ast, E.eval, Option.bind_eq_bind, Option.bind_eq_some_iff] at h
    obtain ⟨⟨p, w1⟩, h1, r, h2, h3⟩ := h
    cases h3
    rcases ih ht w h1 with ⟨h3, h4⟩ | ⟨v, h3, rfl⟩
    · exact .inl ⟨by simp only [Tree.act, h3]; rfl, h4⟩
    · obtain ⟨x, h5, rfl⟩ := un_agree hu v h2
      exact .inr ⟨x, by simp only [Tree.act, h3, h5, Option.bind_eq_bind, Option.bind_some], rfl⟩
  | castInt m ih =>
    simp only [Tree.ast, E.eval, Option.bind_eq_bind, Option.bind_eq_some_iff] at h
    obtain ⟨⟨p, w1⟩, h1, h2⟩ := h
    rcases ih ht w h1 with ⟨h3, h4⟩ | ⟨v, h3, rfl⟩
    · exact .inl ⟨by simp only [Tree.act, h3]; rfl, h4⟩
    · simp only at h2
      split at h2
      · next hw =>
        cases h2
        refine .inr ⟨_, by simp only [Tree.act, h3, Option.bind_eq_bind, Option.bind_some, castAct]; rw [if_pos hw, hq], ?_⟩
        show BitVec.toInt _ = _
        have := cast_agree (M.read w' (.mem v.1 (v.2.setWidth 32))).1 (M.width v.1) hw.1 hw.2 (hf _ _ _)
        rw [this]
        unfold look Place.loc
        simp only [sw32]
      · cases h2
  | binUp k e ih =>
    cases k with
    | zero => exact ih ht w h
    | succ k => exact ih ht w h
  | binOp k t hk a b ih1 ih2 =>
    have e1 := ht
    cases k with
    | zero =>
      simp only [Tree.ast, E.tame, Bool.and_eq_true] at e1
      exact bin_case hq hk a.ast b.ast (a.act M) (b.act M) (fun w i w' h => ih1 e1.1.1 w h) (fun w i w' h => ih2 e1.1.2 w h)
        (fun hp w v w' h => pure_act hq b hp w h) ht w h
    | succ k =>
      simp only [Tree.ast, E.tame, Bool.and_eq_true] at e1
      exact bin_case hq hk a.ast b.ast (a.act M) (b.act M) (fun w i w' h => ih1 e1.1.1 w h) (fun w i w' h => ih2 e1.1.2 w h)
        (fun hp w v w' h => pure_act hq b hp w h) ht w h
  | condOp c a b ih1 ih2 ih3 =>
    simp only [Tree.ast, E.tame, Bool.and_eq_true] at ht
    simp only [Tree.ast, E.eval, Option.bind_eq_bind, Option.bind_eq_some_iff] at h
    obtain ⟨⟨x, w1⟩, h1, h2⟩ := h
    have he : (Tree.condOp c a b).ast.eager = false := rfl
    rcases ih1 ht.1.1.1.1 w h1 with ⟨h3, _⟩ | ⟨v, h3, h4⟩
    · exact .inl ⟨by simp only [Tree.act, h3]; rfl, he⟩
    · have h4 : BitVec.toInt v = x := h4
      have hact : (Tree.condOp c a b).act M w = (do let (y, w) ← a.act M w1; let (z, w) ← b.act M w; some (if v != 0#64 then y else z, w)) := by
        simp only [Tree.act, h3, Option.bind_eq_bind, Option.bind_some]
      rw [hact]
      split at h2
      · next hx =>
        rcases ih2 ht.1.1.1.2 w1 h2 with ⟨h5, _⟩ | ⟨u, h5, h6⟩
        · exact .inl ⟨by rw [h5]; rfl, he⟩
        · cases hb : b.act M w' with
          | none => exact .inl ⟨by simp only [h5, Option.bind_eq_bind, Option.bind_some, hb]; rfl, he⟩
          | some q =>
            obtain ⟨z, w2⟩ := q
            have := pure_act hq b ht.2 _ hb
            subst this
            refine .inr ⟨_, by simp only [h5, Option.bind_eq_bind, Option.bind_some, hb]; rfl, ?_⟩
            rw [bne_zero, h4]; simp only [hx, ne_eq, not_false_eq_true, decide_true, if_true]; exact h6
      · next hx =>
        cases ha : a.act M w1 with
        | none => exact .inl ⟨by rfl, he⟩
        | some q =>
          obtain ⟨y, w2⟩ := q
          have := pure_act hq a ht.1.2 _ ha
          subst this
          rcases ih3 ht.1.1.2 w2 h2 with ⟨h5, _⟩ | ⟨u, h5, h6⟩
          · exact .inl ⟨by simp only [Option.bind_eq_bind, Option.bind_some, h5]; rfl, he⟩
          · refine .inr ⟨_, by simp only [Option.bind_eq_bind, Option.bind_some, h5]; rfl, ?_⟩
            rw [bne_zero, h4]; simp only [hx, decide_false, if_false, Bool.false_eq_true]; exact h6
  | asgMem m t hk e ih1 ih2 =>
    simp only [Tree.ast, E.tame, Bool.and_eq_true] at ht
    simp only [Tree.ast, E.eval, Option.bind_eq_bind, Option.bind_eq_some_iff] at h
    obtain ⟨⟨p, w1⟩, h1, ⟨x, w2⟩, h2, r, h3, h4⟩ := h
    cases h4
    rcases ih1 ht.1 w h1 with ⟨h5, h6⟩ | ⟨q, h5, rfl⟩
    · exact .inl ⟨by simp only [Tree.act, h5]; rfl, by simp [Tree.ast, E.eager, h6]⟩
    · rcases ih2 ht.2 w1 h2 with ⟨h7, h8⟩ | ⟨v, h7, rfl⟩
      · exact .inl ⟨by simp only [Tree.act, h5, h7, Option.bind_eq_bind, Option.bind_some]; rfl, by simp [Tree.ast, E.eager, h8]⟩
      · refine .inr ⟨_, by simp only [Tree.act, h5, h7, Option.bind_eq_bind, Option.bind_some]; rw [memLoc_eq, assign_agree hq hk _ _ _ h3], ?_⟩
        exact toInt_sw64 _
  | asgBit => simp [Tree.ast, E.tame] at ht
  | asgCell c t hk e ih =>
    simp only [Tree.ast, E.tame, Bool.and_eq_true] at ht
    simp only [Tree.ast, E.eval, Option.bind_eq_bind, Option.bind_eq_some_iff, Option.bind_some] at h
    obtain ⟨⟨x, w2⟩, h2, r, h3, h4⟩ := h
    cases h4
    rcases ih ht.2 w h2 with ⟨h7, h8⟩ | ⟨v, h7, rfl⟩
    · exact .inl ⟨by simp only [Tree.act, h7]; rfl, by simp [Tree.ast, E.eager, h8]⟩
    · refine .inr ⟨_, by simp only [Tree.act, h7, Option.bind_eq_bind, Option.bind_some]; exact assign_agree hq hk (.cell c) _ _ h3, ?_⟩
      exact toInt_sw64 _
  | exprComma a b ih1 ih2 =>
    simp only [Tree.ast, E.tame, Bool.and_eq_true] at ht
    simp only [Tree.ast, E.eval, Option.bind_eq_bind, Option.bind_eq_some_iff] at h
    obtain ⟨⟨x, w1⟩, h1, h2⟩ := h
    rcases ih1 ht.1 w h1 with ⟨h5, h6⟩ | ⟨q, h5, _⟩
    · exact .inl ⟨by simp only [Tree.act, h5]; rfl, by simp [Tree.ast, E.eager, h6]⟩
    · rcases ih2 ht.2 w1 h2 with ⟨h7, h8⟩ | ⟨v, h7, h8⟩
      · exact .inl ⟨by simp only [Tree.act, h5, h7, Option.bind_eq_bind, Option.bind_some], by simp [Tree.ast, E.eager, h8]⟩
      · exact .inr ⟨v, by simp only [Tree.act, h5, h7, Option.bind_eq_bind, Option.bind_some], h8⟩

end Ucsim.Expr
