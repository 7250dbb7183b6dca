import Verif.Spec.ExprTree
/- A deterministic reader for the expression grammar: every derivation of a text
without `.` stands for what the reader reads. -/
namespace Ucsim.Expr
open C

/-- What to read. -/
inductive G
  | place | lval | unary | cast | bin (k : Nat) | loop (k : Nat) (acc : E .value)
  | cond | asg | expr | commas (acc : E .value)

abbrev R : G → Type
  | .place => E .place
  | .lval => E .place ⊕ E .field
  | _ => E .value

def fromLval : (E .place ⊕ E .field) × List Tok → Option (E .value × List Tok)
  | (.inl l, .incOp :: r) => some (.post true l, r)
  | (.inl l, .decOp :: r) => some (.post false l, r)
  | (.inl l, r) => some (.get l, r)
  | (.inr f, r) => some (.getF f, r)

def isAsg : Option ((E .place ⊕ E .field) × List Tok) → Option ((E .place ⊕ E .field) × Tok × List Tok)
  | some (x, t :: r) => if asgTok t = true then some (x, t, r) else none
  | _ => none

def read : Nat → (g : G) → List Tok → Option (R g × List Tok)
  | 0, _, _ => none
  | f + 1, .place, ts =>
    match ts with
    | .memory m a :: r => some (.name m a, r)
    | .cell c :: r => some (.cell c, r)
    | .memObj m :: .lbr :: r => do
      let (e, r) ← read f .expr r
      match r with
      | .rbr :: r => some (.idx m e, r)
      | _ => none
    | _ => none
  | f + 1, .lval, ts => do
    let (l, r) ← read f .place ts
    match r with
    | .lbr :: r => do
      let (a, r) ← read f .expr r
      match r with
      | .colon :: r => do
        let (b, r) ← read f .expr r
        match r with
        | .rbr :: r => some (.inr (.range l a b), r)
        | _ => none
      | _ => none
    | r => some (.inl l, r)
  | f + 1, .unary, ts =>
    match ts with
    | .number v :: r => some (.num v, r)
    | .lpar :: r => do
      let (e, r) ← read f .expr r
      match r with
      | .rpar :: r => some (e, r)
      | _ => none
    | .incOp :: r => do let (l, r) ← read f .place r; some (.pre true l, r)
    | .decOp :: r => do let (l, r) ← read f .place r; some (.pre false l, r)
    | .ampersand :: r => do
      let (x, r) ← read f .lval r
      match x with
      | .inl l => some (.addr l, r)
      | .inr b => some (.addrF b, r)
    | .minus :: r => do let (e, r) ← read f .unary r; some (.un .neg e, r)
    | .plus :: r => do let (e, r) ← read f .unary r; some (.un .plus e, r)
    | .tilde :: r => do let (e, r) ← read f .unary r; some (.un .com e, r)
    | .exclamation :: r => do let (e, r) ← read f .unary r; some (.un .not e, r)
    | ts => (read f .lval ts).bind fromLval
  | f + 1, .cast, ts =>
    match ts with
    | .lpar :: .int :: .rpar :: r => do let (l, r) ← read f .place r; some (.castInt l, r)
    | ts => read f .unary ts
  | f + 1, .bin 0, ts => do let (e, r) ← read f .cast ts; read f (.loop 0 e) r
  | f + 1, .bin (k + 1), ts => do let (e, r) ← read f (.bin k) ts; read f (.loop (k + 1) e) r
  | f + 1, .loop 0 acc, ts =>
    match ts with
    | t :: r => if opTok 0 t = true then do let (b, r) ← read f .cast r; read f (.loop 0 (.bin (bopOf t) acc b)) r
                else some (acc, t :: r)
    | [] => some (acc, [])
  | f + 1, .loop (k + 1) acc, ts =>
    match ts with
    | t :: r => if opTok (k + 1) t = true then do let (b, r) ← read f (.bin k) r; read f (.loop (k + 1) (.bin (bopOf t) acc b)) r
                else some (acc, t :: r)
    | [] => some (acc, [])
  | f + 1, .cond, ts => do
    let (c, r) ← read f (.bin 9) ts
    match r with
    | .question :: r => do
      let (a, r) ← read f .expr r
      match r with
      | .colon :: r => do let (b, r) ← read f .cond r; some (.cond c a b, r)
      | _ => none
    | r => some (c, r)
  | f + 1, .asg, ts =>
    match isAsg (read f .lval ts) with
    | some (.inl l, t, r) => do let (e, r) ← read f .asg r; some (.asg (aopOf t) l e, r)
    | some (.inr b, _, r) => do let (e, r) ← read f .asg r; some (.asgF b e, r)
    | none => read f .cond ts
  | f + 1, .expr, ts => do let (e, r) ← read f .asg ts; read f (.commas e) r
  | f + 1, .commas acc, ts =>
    match ts with
    | .comma :: r => do let (b, r) ← read f .asg r; read f (.commas (.comma acc b)) r
    | ts => some (acc, ts)

/-- From some fuel on. -/
def Ev (P : Nat → Prop) : Prop := ∃ F, ∀ f, F ≤ f → P f

theorem Ev.succ {P Q : Nat → Prop} (h : Ev P) (h' : ∀ f, P f → Q (f + 1)) : Ev Q := by
  obtain ⟨F, h⟩ := h
  refine ⟨F + 1, fun f hf => ?_⟩
  obtain ⟨g, rfl⟩ : ∃ g, f = g + 1 := ⟨f - 1, by omega⟩
  exact h' g (h g (by omega))
theorem Ev.and {P Q : Nat → Prop} (h : Ev P) (h' : Ev Q) : Ev fun f => P f ∧ Q f := by
  obtain ⟨F, h⟩ := h
  obtain ⟨F', h'⟩ := h'
  exact ⟨max F F', fun f hf => ⟨h f (by omega), h' f (by omega)⟩⟩
theorem Ev.all {P : Nat → Prop} (h : ∀ f, P (f + 1)) : Ev P := (show Ev fun _ => True from ⟨0, fun _ _ => trivial⟩).succ fun f _ => h f

/-- No derivation step uses `.`. -/
def noDot : {n : NT} → Tree n → Bool
  | _, .bitDot _ _ => false
  | _, .memTok _ _ => true
  | _, .memIdx _ e => noDot e
  | _, .bitRange m a b => noDot m && noDot a && noDot b
  | _, .primMem m => noDot m
  | _, .primBit b => noDot b
  | _, .primNum _ => true
  | _, .primCell _ => true
  | _, .primPar e => noDot e
  | _, .postPrim p => noDot p
  | _, .postMem _ m => noDot m
  | _, .postCell _ _ => true
  | _, .unPost p => noDot p
  | _, .preMem _ m => noDot m
  | _, .preCell _ _ => true
  | _, .addrMem m => noDot m
  | _, .addrBit b => noDot b
  | _, .unOp _ _ e => noDot e
  | _, .castUp u => noDot u
  | _, .castInt m => noDot m
  | _, .binUp _ e => noDot e
  | _, .binOp _ _ _ a b => noDot a && noDot b
  | _, .condUp e => noDot e
  | _, .condOp c a b => noDot c && noDot a && noDot b
  | _, .asgUp e => noDot e
  | _, .asgMem m _ _ e => noDot m && noDot e
  | _, .asgBit b e => noDot b && noDot e
  | _, .asgCell _ _ _ e => noDot e
  | _, .exprUp e => noDot e
  | _, .exprComma a b => noDot a && noDot b

theorem noDot_of_toks {n : NT} (T : Tree n) (h : Tok.dot ∉ T.toks) : noDot T = true := by
  induction T <;> simp_all [Tree.toks, noDot]

/-- Tokens that cannot come after a place that is read. -/
def sticky : Tok → Bool
  | .incOp | .decOp | .lbr | .dot => true
  | _ => false

def Fol (r : List Tok) : Prop := ∀ t ts, r = t :: ts → sticky t = false
def FolB (k : Nat) (r : List Tok) : Prop := ∀ t ts, r = t :: ts → sticky t = false ∧ ∀ j, j < k → opTok j t = false
def anyOp (t : Tok) : Bool := (List.range 10).any fun j => opTok j t
def FolC (r : List Tok) : Prop := ∀ t ts, r = t :: ts → sticky t = false ∧ anyOp t = false ∧ t ≠ .question ∧ asgTok t = false

theorem FolB.fol {k : Nat} {r : List Tok} (h : FolB k r) : Fol r := fun t ts e => (h t ts e).1
theorem FolB.lower {k : Nat} {r : List Tok} (h : FolB (k + 1) r) : FolB k r := fun t ts e => ⟨(h t ts e).1, fun j hj => (h t ts e).2 j (by omega)⟩

theorem opTok_level {k j : Nat} {t : Tok} (h : opTok k t = true) (h' : opTok j t = true) : j = k := by
  cases t <;> simp only [opTok] at h h' <;>
    first
    | exact absurd h (by decide)
    | (split at h <;> first | contradiction | (split at h' <;> first | contradiction | rfl))

theorem opTok_plain {k : Nat} {t : Tok} (h : opTok k t = true) : sticky t = false ∧ asgTok t = false := by
  cases t <;> simp only [opTok] at h <;> first | exact absurd h (by decide) | exact ⟨rfl, rfl⟩

theorem opTok_any {k : Nat} {t : Tok} (h : anyOp t = false) : opTok k t = false := by
  cases t <;> first | (exact absurd h (by decide)) | (simp only [opTok])

theorem unTok_cases {t : Tok} (h : unTok t = true) : t = .minus ∨ t = .plus ∨ t = .tilde ∨ t = .exclamation := by
  cases t <;> simp_all [unTok]

/-- First tokens. -/
def Starts (P : Tok → Prop) (l : List Tok) : Prop := ∃ t r, l = t :: r ∧ P t
theorem Starts.app {P : Tok → Prop} {l r : List Tok} (h : Starts P l) : Starts P (l ++ r) := by
  obtain ⟨t, r', e, h⟩ := h; exact ⟨t, r' ++ r, by rw [e]; rfl, h⟩
theorem Starts.mk {P : Tok → Prop} {t : Tok} {r : List Tok} (h : P t) : Starts P (t :: r) := ⟨t, r, rfl, h⟩

theorem toks_head {n : NT} (T : Tree n) : Starts (· ≠ .int) T.toks := by
  induction T with
  | memTok | memIdx | primNum | primCell | primPar | postCell | addrMem | addrBit | castInt | asgCell => exact .mk (by simp)
  | preMem inc | preCell inc => exact .mk (by cases inc <;> simp [incTok])
  | unOp t h => exact .mk (by rintro rfl; simp [unTok] at h)
  | primMem _ ih | primBit _ ih | postPrim _ ih | unPost _ ih | castUp _ ih | binUp _ _ ih | condUp _ ih | asgUp _ ih | exprUp _ ih => exact ih
  | bitDot _ _ ih | bitRange _ _ _ ih | postMem _ _ ih | binOp _ _ _ _ _ ih | condOp _ _ _ ih | asgMem _ _ _ _ ih | asgBit _ _ ih | exprComma _ _ ih => exact ih.app

/-- Places start with a name. -/
def placeTok : Tok → Bool
  | .memory _ _ | .memObj _ => true
  | _ => false
theorem mem_head (T : Tree .memory) : Starts (placeTok · = true) T.toks := by
  cases T with
  | memTok m a => exact .mk rfl
  | memIdx m e => exact .mk rfl
theorem bit_head (T : Tree .bit) : Starts (placeTok · = true) T.toks := by
  cases T with
  | bitDot m e => exact (mem_head m).app
  | bitRange m a b => exact (mem_head m).app

/-- No cast. -/
def NoCast (l : List Tok) : Prop := ∀ r, l ≠ .lpar :: .int :: r
theorem Starts.noCast {l : List Tok} (h : Starts (· ≠ .lpar) l) : NoCast l := by
  obtain ⟨t, r, rfl, h⟩ := h; intro r' e; exact h (List.cons.inj e).1
theorem placeTok.ne {l : List Tok} (h : Starts (placeTok · = true) l) : Starts (· ≠ .lpar) l := by
  obtain ⟨t, r, rfl, h⟩ := h; exact .mk (by rintro rfl; cases h)

/-- What a unary expression starts with. -/
def UnaryLike (n : NT) : Prop := n = .memory ∨ n = .bit ∨ n = .primary ∨ n = .postfix ∨ n = .unary
theorem noCast_unary {n : NT} (T : Tree n) (hn : UnaryLike n) (rest : List Tok) : NoCast (T.toks ++ rest) := by
  induction T with
  | primPar e ih =>
    obtain ⟨t, r, h, hp⟩ := toks_head e
    intro r' e'
    simp only [Tree.toks, h, List.cons_append] at e'
    simp only [List.cons.injEq, true_and] at e'
    exact hp e'.1
  | primMem m ih => exact ih (.inl rfl)
  | primBit m ih => exact ih (.inr (.inl rfl))
  | postPrim m ih => exact ih (.inr (.inr (.inl rfl)))
  | unPost m ih => exact ih (.inr (.inr (.inr (.inl rfl))))
  | memTok | memIdx | primNum | primCell | postCell | addrMem | addrBit => exact Starts.noCast (.mk (by simp))
  | bitDot m e => exact Starts.noCast (placeTok.ne (mem_head m).app.app)
  | bitRange m a b => exact Starts.noCast (placeTok.ne (mem_head m).app.app)
  | postMem _ m => exact Starts.noCast (placeTok.ne (mem_head m).app.app)
  | preMem inc | preCell inc => exact Starts.noCast (.mk (by cases inc <;> simp [incTok]))
  | unOp t h => exact Starts.noCast (.mk (by rintro rfl; simp [unTok] at h))
  | _ => simp [UnaryLike] at hn

/-! ### The reader, step by step -/

theorem read_unary_place {t : Tok} {r : List Tok} (f : Nat) (h : placeTok t = true ∨ ∃ c, t = .cell c) :
    read (f + 1) .unary (t :: r) = (read f .lval (t :: r)).bind fromLval := by
  rcases h with h | ⟨c, rfl⟩
  · cases t with
    | memory m a => rfl
    | memObj m => rfl
    | _ => cases h
  · rfl

theorem read_cast_unary {l : List Tok} (f : Nat) (h : NoCast l) : read (f + 1) .cast l = read f .unary l := by
  rw [read]
  intro r e
  exact h _ e

theorem read_loop_stop (k : Nat) (acc : E .value) (l : List Tok) (f : Nat) (h : ∀ t ts, l = t :: ts → opTok k t = false) :
    read (f + 1) (.loop k acc) l = some (acc, l) := by
  cases l with
  | nil => cases k <;> rfl
  | cons t ts =>
    have := h t ts rfl
    cases k <;> simp only [read, this, Bool.false_eq_true, if_false]

theorem lval_of_place {f : Nat} {ts rest : List Tok} {l : E .place} (h : read f .place ts = some (l, rest)) (hf : Fol rest) :
    read (f + 1) .lval ts = some (.inl l, rest) := by
  rw [read]
  simp only [h, Option.bind_eq_bind, Option.bind_some]
  split
  · exact absurd (hf _ _ rfl) (by simp [sticky])
  · rfl

theorem fromLval_get {l : E .place} {rest : List Tok} (hf : Fol rest) : fromLval (.inl l, rest) = some (.get l, rest) := by
  unfold fromLval
  split
  · next e => cases e; exact absurd (hf _ _ rfl) (by simp [sticky])
  · next e => cases e; exact absurd (hf _ _ rfl) (by simp [sticky])
  · next e => cases e; rfl
  · next e => cases e

theorem isAsg_none {x : E .place ⊕ E .field} {rest : List Tok} (h : ∀ t ts, rest = t :: ts → asgTok t = false) :
    isAsg (some (x, rest)) = none := by
  cases rest with
  | nil => rfl
  | cons t ts => simp only [isAsg, h t ts rfl, Bool.false_eq_true, if_false]

def FolA (r : List Tok) : Prop := ∀ t ts, r = t :: ts → sticky t = false ∧ asgTok t = false
theorem FolA.fol {r : List Tok} (h : FolA r) : Fol r := fun t ts e => (h t ts e).1
theorem FolA.asg {r : List Tok} (h : FolA r) : ∀ t ts, r = t :: ts → asgTok t = false := fun t ts e => (h t ts e).2
theorem FolC.a {r : List Tok} (h : FolC r) : FolA r := fun t ts e => ⟨(h t ts e).1, (h t ts e).2.2.2⟩
theorem FolC.b {r : List Tok} (h : FolC r) (k : Nat) : FolB k r := fun t ts e => ⟨(h t ts e).1, fun _ _ => opTok_any (h t ts e).2.1⟩

/-- Not the start of an assignment. -/
def NoAsg (ts : List Tok) : Prop := Ev fun f => isAsg (read f .lval ts) = none

theorem noAsg_of_tok {t : Tok} {r : List Tok} (h : placeTok t = false) (h' : ∀ c, t ≠ .cell c) : NoAsg (t :: r) := by
  have h1 : ∀ f, read f .place (t :: r) = none := by
    intro f
    cases f with
    | zero => rfl
    | succ f =>
      cases t with
      | memory m a => cases h
      | memObj m => cases h
      | cell c => exact absurd rfl (h' c)
      | _ => rfl
  refine Ev.all fun f => ?_
  rw [read, h1]; rfl

/-- What the reader does with the tokens of a derivation. -/
def Good : (n : NT) → Tree n → Prop
  | .memory, T => ∀ rest, Ev fun f => read f .place (T.toks ++ rest) = some (T.ast, rest)
  | .bit, T => ∀ rest, Ev fun f => read f .lval (T.toks ++ rest) = some (.inr T.ast, rest)
  | .primary, T => (∀ rest, Fol rest → Ev fun f => read f .unary (T.toks ++ rest) = some (T.ast, rest)) ∧ ∀ rest, FolA rest → NoAsg (T.toks ++ rest)
  | .postfix, T => (∀ rest, Fol rest → Ev fun f => read f .unary (T.toks ++ rest) = some (T.ast, rest)) ∧ ∀ rest, FolA rest → NoAsg (T.toks ++ rest)
  | .unary, T => (∀ rest, Fol rest → Ev fun f => read f .unary (T.toks ++ rest) = some (T.ast, rest)) ∧ ∀ rest, FolA rest → NoAsg (T.toks ++ rest)
  | .cast, T => (∀ rest, Fol rest → Ev fun f => read f .cast (T.toks ++ rest) = some (T.ast, rest)) ∧ ∀ rest, FolA rest → NoAsg (T.toks ++ rest)
  | .bin k, T => (∀ rest r, FolB k rest → (Ev fun f => read f (.loop k T.ast) rest = r) → Ev fun f => read f (.bin k) (T.toks ++ rest) = r) ∧
      ∀ rest, FolA rest → NoAsg (T.toks ++ rest)
  | .cond, T => (∀ rest, FolC rest → Ev fun f => read f .cond (T.toks ++ rest) = some (T.ast, rest)) ∧ ∀ rest, FolA rest → NoAsg (T.toks ++ rest)
  | .assignment, T => ∀ rest, FolC rest → Ev fun f => read f .asg (T.toks ++ rest) = some (T.ast, rest)
  | .expr, T => ∀ rest r, FolC rest → (Ev fun f => read f (.commas T.ast) rest = r) → Ev fun f => read f .expr (T.toks ++ rest) = r

/-- An operand of level `k` is read completely. -/
theorem opnd_full (k : Nat) (T : Tree (opnd k)) (h : Good (opnd k) T) (rest : List Tok) (hf : FolB k rest) :
    match k, T with
    | 0, T => Ev fun f => read f .cast (T.toks ++ rest) = some (T.ast, rest)
    | k + 1, T => Ev fun f => read f (.bin k) (T.toks ++ rest) = some (T.ast, rest) := by
  cases k with
  | zero => exact h.1 rest hf.fol
  | succ k =>
    refine h.1 rest _ hf.lower (Ev.all fun f => ?_)
    exact read_loop_stop k _ rest f fun t ts e => (hf t ts e).2 k (by omega)

theorem opnd_noAsg (k : Nat) (T : Tree (opnd k)) (h : Good (opnd k) T) (rest : List Tok) (hf : FolA rest) : NoAsg (T.toks ++ rest) := by
  cases k with
  | zero => exact h.2 rest hf
  | succ k => exact h.2 rest hf

/-- A whole expression up to a token that ends it. -/
theorem expr_full (T : Tree .expr) (h : Good .expr T) (rest : List Tok) (hf : FolC rest) (hc : ∀ ts, rest ≠ .comma :: ts) :
    Ev fun f => read f .expr (T.toks ++ rest) = some (T.ast, rest) := by
  refine h rest _ hf (Ev.all fun f => ?_)
  rw [read]
  intro r e
  exact hc _ e

theorem bin9_full (T : Tree (.bin 9)) (h : Good (.bin 9) T) (rest : List Tok) (hf : FolB 10 rest) :
    Ev fun f => read f (.bin 9) (T.toks ++ rest) = some (T.ast, rest) := opnd_full 10 T h rest hf

theorem folC_tok {t : Tok} {ts : List Tok} (h : sticky t = false ∧ anyOp t = false ∧ t ≠ .question ∧ asgTok t = false) : FolC (t :: ts) := by
  intro t' ts' e; obtain ⟨rfl, _⟩ := List.cons.inj e; exact h
theorem folA_tok {t : Tok} {ts : List Tok} (h : sticky t = false ∧ asgTok t = false) : FolA (t :: ts) := by
  intro t' ts' e; obtain ⟨rfl, _⟩ := List.cons.inj e; exact h
theorem fol_tok {t : Tok} {ts : List Tok} (h : sticky t = false) : Fol (t :: ts) := by
  intro t' ts' e; obtain ⟨rfl, _⟩ := List.cons.inj e; exact h

theorem ev_lval {ts rest : List Tok} {l : E .place} (h : Ev fun f => read f .place ts = some (l, rest)) (hf : Fol rest) :
    Ev fun f => read f .lval ts = some (.inl l, rest) := h.succ fun _ h => lval_of_place h hf

/-- A place followed by `++` or `--`. -/
theorem ev_lval_inc {ts rest : List Tok} {l : E .place} {i : Bool} (h : Ev fun f => read f .place ts = some (l, incTok i :: rest)) :
    Ev fun f => read f .lval ts = some (.inl l, incTok i :: rest) := by
  refine h.succ fun f h => ?_
  rw [read]
  simp only [h, Option.bind_eq_bind, Option.bind_some]
  cases i <;> rfl

def lvTok (t : Tok) : Prop := placeTok t = true ∨ ∃ c, t = .cell c

theorem ev_unary {ts : List Tok} {x : (E .place ⊕ E .field) × List Tok} (hs : Starts lvTok ts)
    (h : Ev fun f => read f .lval ts = some x) : Ev fun f => read f .unary ts = fromLval x := by
  refine h.succ fun f h => ?_
  obtain ⟨t, r, rfl, hp⟩ := hs
  rw [read_unary_place f hp, h]; rfl

theorem Starts.lv {l : List Tok} (h : Starts (placeTok · = true) l) : Starts lvTok l := by
  obtain ⟨t, r, e, h⟩ := h; exact ⟨t, r, e, .inl h⟩

theorem fromLval_inc {l : E .place} {rest : List Tok} {i : Bool} : fromLval (.inl l, incTok i :: rest) = some (.post i l, rest) := by
  cases i <;> rfl

theorem noAsg_lval {ts rest : List Tok} {x : E .place ⊕ E .field} (h : Ev fun f => read f .lval ts = some (x, rest))
    (hf : ∀ t ts, rest = t :: ts → asgTok t = false) : NoAsg ts := by
  obtain ⟨F, h⟩ := h
  exact ⟨F, fun f hF => by show isAsg (read f .lval ts) = none; rw [h f hF]; exact isAsg_none hf⟩

theorem incTok_asg (i : Bool) (rest : List Tok) : ∀ t ts, incTok i :: rest = t :: ts → asgTok t = false := by
  intro t ts e; obtain ⟨rfl, _⟩ := List.cons.inj e; cases i <;> rfl

theorem ev_cell {c : Nat} {rest : List Tok} : Ev fun f => read f .place (.cell c :: rest) = some (.cell c, rest) := Ev.all fun _ => rfl

/-- An assignment. -/
theorem ev_asg {ts : List Tok} {l : E .place} {t : Tok} {es rest : List Tok} {e : E .value} (h : asgTok t = true)
    (hl : Ev fun f => read f .place ts = some (l, t :: es)) (he : Ev fun f => read f .asg es = some (e, rest)) :
    Ev fun f => read f .asg ts = some (.asg (aopOf t) l e, rest) := by
  have h1 : Ev fun f => read f .lval ts = some (.inl l, t :: es) := by
    refine ev_lval hl (fol_tok ?_)
    cases t <;> first | rfl | (exact absurd h (by decide))
  refine (h1.and he).succ fun f h' => ?_
  rw [read, h'.1]
  simp only [isAsg, h, if_true, h'.2, Option.bind_eq_bind, Option.bind_some]

theorem uop_tok (t : Tok) (h : unTok t = true) (f : Nat) (ts rest : List Tok) (e : E .value) (hr : read f .unary ts = some (e, rest)) :
    read (f + 1) .unary (t :: ts) = some (.un (uopOf t) e, rest) := by
  rcases unTok_cases h with rfl | rfl | rfl | rfl <;> (rw [read]; simp only [hr, Option.bind_eq_bind, Option.bind_some]; rfl)

theorem good {n : NT} (T : Tree n) (hd : noDot T = true) : Good n T := by
  induction T with
  | memTok m a => exact fun rest => Ev.all fun f => rfl
  | memIdx m e ih =>
    intro rest
    have := expr_full e (ih hd) (.rbr :: rest) (folC_tok (by decide)) (by simp)
    refine this.succ fun f h => ?_
    show read (f + 1) .place (.memObj m :: .lbr :: ((e.toks ++ [.rbr]) ++ rest)) = _
    rw [read, List.append_assoc]
    simp only [List.singleton_append, h, Option.bind_eq_bind, Option.bind_some]
    rfl
  | bitDot => simp [noDot] at hd
  | bitRange m a b ihm iha ihb =>
    simp only [noDot, Bool.and_eq_true] at hd
    intro rest
    have h1 := ihm hd.1.1 (.lbr :: (a.toks ++ .colon :: (b.toks ++ .rbr :: rest)))
    have h2 := expr_full a (iha hd.1.2) (.colon :: (b.toks ++ .rbr :: rest)) (folC_tok (by decide)) (by simp)
    have h3 := expr_full b (ihb hd.2) (.rbr :: rest) (folC_tok (by decide)) (by simp)
    refine (h1.and (h2.and h3)).succ fun f h => ?_
    obtain ⟨h1, h2, h3⟩ := h
    rw [show (Tree.bitRange m a b).toks ++ rest = m.toks ++ .lbr :: (a.toks ++ .colon :: (b.toks ++ .rbr :: rest)) by simp [Tree.toks]]
    rw [read]
    simp only [h1, Option.bind_eq_bind, Option.bind_some, h2, h3]
    rfl
  | primMem m ih =>
    refine ⟨fun rest hf => ?_, fun rest hf => noAsg_lval (ev_lval (ih hd rest) hf.fol) hf.asg⟩
    have := ev_unary (mem_head m).app.lv (ev_lval (ih hd rest) hf)
    rwa [fromLval_get hf] at this
  | primBit b ih =>
    refine ⟨fun rest hf => ?_, fun rest hf => noAsg_lval (ih hd rest) hf.asg⟩
    exact ev_unary (bit_head b).app.lv (ih hd rest)
  | primNum v => exact ⟨fun rest _ => Ev.all fun f => rfl, fun rest _ => noAsg_of_tok rfl (by simp)⟩
  | primCell c =>
    refine ⟨fun rest hf => ?_, fun rest hf => noAsg_lval (ev_lval ev_cell hf.fol) hf.asg⟩
    have := ev_unary (.mk (.inr ⟨c, rfl⟩)) (ev_lval (ev_cell (c := c)) hf)
    rwa [fromLval_get hf] at this
  | primPar e ih =>
    refine ⟨fun rest _ => ?_, fun rest _ => noAsg_of_tok rfl (by simp)⟩
    have := expr_full e (ih hd) (.rpar :: rest) (folC_tok (by decide)) (by simp)
    refine this.succ fun f h => ?_
    show read (f + 1) .unary (.lpar :: ((e.toks ++ [.rpar]) ++ rest)) = _
    rw [read, List.append_assoc]
    simp only [List.singleton_append, h, Option.bind_eq_bind, Option.bind_some]
    rfl
  | postPrim p ih => exact ih hd
  | postMem inc m ih =>
    have key : ∀ rest, Ev fun f => read f .lval ((m.toks ++ [incTok inc]) ++ rest) = some (.inl m.ast, incTok inc :: rest) := by
      intro rest
      rw [List.append_assoc]
      exact ev_lval_inc (ih hd (incTok inc :: rest))
    refine ⟨fun rest _ => ?_, fun rest _ => noAsg_lval (key rest) (incTok_asg _ _)⟩
    have := ev_unary (ts := (m.toks ++ [incTok inc]) ++ rest) (mem_head m).app.app.lv (key rest)
    rwa [fromLval_inc] at this
  | postCell inc c =>
    refine ⟨fun rest _ => ?_, fun rest _ => noAsg_lval (ev_lval_inc ev_cell) (incTok_asg _ _)⟩
    have := ev_unary (.mk (.inr ⟨c, rfl⟩)) (ev_lval_inc (i := inc) (rest := rest) (ev_cell (c := c)))
    rwa [fromLval_inc] at this
  | unPost p ih => exact ih hd
  | preMem inc m ih =>
    refine ⟨fun rest _ => (ih hd rest).succ fun f h => ?_, fun rest _ => noAsg_of_tok (by cases inc <;> rfl) (by cases inc <;> simp [incTok])⟩
    show read (f + 1) .unary (incTok inc :: (m.toks ++ rest)) = _
    cases inc <;> (simp only [incTok, Bool.false_eq_true, if_false, if_true]; rw [read]; simp only [h, Option.bind_eq_bind, Option.bind_some]; rfl)
  | preCell inc c =>
    refine ⟨fun rest _ => (ev_cell (c := c) (rest := rest)).succ fun f h => ?_, fun rest _ => noAsg_of_tok (by cases inc <;> rfl) (by cases inc <;> simp [incTok])⟩
    show read (f + 1) .unary (incTok inc :: (.cell c :: rest)) = _
    cases inc <;> (simp only [incTok, Bool.false_eq_true, if_false, if_true]; rw [read]; simp only [h, Option.bind_eq_bind, Option.bind_some]; rfl)
  | addrMem m ih =>
    refine ⟨fun rest hf => (ev_lval (ih hd rest) hf).succ fun f h => ?_, fun rest _ => noAsg_of_tok rfl (by simp)⟩
    show read (f + 1) .unary (.ampersand :: (m.toks ++ rest)) = _
    rw [read]; simp only [h, Option.bind_eq_bind, Option.bind_some]; rfl
  | addrBit b ih =>
    refine ⟨fun rest hf => (ih hd rest).succ fun f h => ?_, fun rest _ => noAsg_of_tok rfl (by simp)⟩
    show read (f + 1) .unary (.ampersand :: (b.toks ++ rest)) = _
    rw [read]; simp only [h, Option.bind_eq_bind, Option.bind_some]; rfl
  | unOp t ht e ih =>
    refine ⟨fun rest hf => ((ih hd).1 rest hf).succ fun f h => uop_tok t ht f _ _ _ h, fun rest _ => noAsg_of_tok ?_ ?_⟩
    · rcases unTok_cases ht with rfl | rfl | rfl | rfl <;> rfl
    · rcases unTok_cases ht with rfl | rfl | rfl | rfl <;> simp
  | castUp u ih =>
    refine ⟨fun rest hf => ((ih hd).1 rest hf).succ fun f h => ?_, (ih hd).2⟩
    rw [show (Tree.castUp u).toks = u.toks from rfl, read_cast_unary f (noCast_unary u (.inr (.inr (.inr (.inr rfl)))) rest)]
    exact h
  | castInt m ih =>
    refine ⟨fun rest hf => (ih hd rest).succ fun f h => ?_, fun rest _ => noAsg_of_tok rfl (by simp)⟩
    show read (f + 1) .cast (.lpar :: .int :: .rpar :: (m.toks ++ rest)) = _
    rw [read]; simp only [h, Option.bind_eq_bind, Option.bind_some]; rfl
  | binUp k e ih =>
    refine ⟨fun rest r hf hl => ?_, fun rest hf => opnd_noAsg k e (ih hd) rest hf⟩
    have h1 := opnd_full k e (ih hd) rest hf
    cases k with
    | zero =>
      refine (h1.and hl).succ fun f h => ?_
      show read (f + 1) (.bin 0) (e.toks ++ rest) = _
      rw [read, h.1]; exact h.2
    | succ k =>
      refine (h1.and hl).succ fun f h => ?_
      show read (f + 1) (.bin (k + 1)) (e.toks ++ rest) = _
      rw [read, h.1]; exact h.2
  | binOp k t ht a b iha ihb =>
    simp only [noDot, Bool.and_eq_true] at hd
    have ha := iha hd.1
    refine ⟨fun rest r hf hl => ?_, fun rest hf => ?_⟩
    · have h1 := opnd_full k b (ihb hd.2) rest hf
      rw [show (Tree.binOp k t ht a b).toks ++ rest = a.toks ++ t :: (b.toks ++ rest) by simp [Tree.toks]]
      refine ha.1 _ r ?_ ?_
      · intro t' ts' e
        obtain ⟨rfl, _⟩ := List.cons.inj e
        refine ⟨(opTok_plain ht).1, fun j hj => ?_⟩
        cases hj' : opTok j t with
        | false => rfl
        | true => have := opTok_level ht hj'; omega
      · cases k with
        | zero =>
          refine (h1.and hl).succ fun f h => ?_
          rw [read]
          simp only [ht, if_true]
          rw [h.1]; exact h.2
        | succ k =>
          refine (h1.and hl).succ fun f h => ?_
          rw [read]
          simp only [ht, if_true]
          rw [h.1]; exact h.2
    · rw [show (Tree.binOp k t ht a b).toks ++ rest = a.toks ++ t :: (b.toks ++ rest) by simp [Tree.toks]]
      exact ha.2 _ (folA_tok (opTok_plain ht))
  | condUp e ih =>
    refine ⟨fun rest hf => (bin9_full e (ih hd) rest (hf.b 10)).succ fun f h => ?_, (ih hd).2⟩
    show read (f + 1) .cond (e.toks ++ rest) = _
    rw [read, h]
    simp only [Option.bind_eq_bind, Option.bind_some]
    split
    · exact absurd rfl (hf _ _ rfl).2.2.1
    · rfl
  | condOp c a b ihc iha ihb =>
    simp only [noDot, Bool.and_eq_true] at hd
    have e : ∀ rest, (Tree.condOp c a b).toks ++ rest = c.toks ++ .question :: (a.toks ++ .colon :: (b.toks ++ rest)) := by
      intro rest; simp [Tree.toks]
    refine ⟨fun rest hf => ?_, fun rest hf => ?_⟩
    · have h1 := bin9_full c (ihc hd.1.1) (.question :: (a.toks ++ .colon :: (b.toks ++ rest))) (by
        intro t ts e; obtain ⟨rfl, _⟩ := List.cons.inj e; exact ⟨rfl, fun j _ => opTok_any (by decide)⟩)
      have h2 := expr_full a (iha hd.1.2) (.colon :: (b.toks ++ rest)) (folC_tok (by decide)) (by simp)
      have h3 := (ihb hd.2).1 rest hf
      refine (h1.and (h2.and h3)).succ fun f h => ?_
      rw [e, read, h.1]
      simp only [Option.bind_eq_bind, Option.bind_some, h.2.1, h.2.2]
      rfl
    · rw [e]
      exact (ihc hd.1.1).2 _ (folA_tok (by decide))
  | asgUp e ih =>
    intro rest hf
    refine (((ih hd).1 rest hf).and ((ih hd).2 rest hf.a)).succ fun f h => ?_
    show read (f + 1) .asg (e.toks ++ rest) = _
    rw [read, h.2]
    exact h.1
  | asgMem m t ht e ihm ihe =>
    simp only [noDot, Bool.and_eq_true] at hd
    intro rest hf
    rw [show (Tree.asgMem m t ht e).toks ++ rest = m.toks ++ t :: (e.toks ++ rest) by simp [Tree.toks]]
    exact ev_asg ht (ihm hd.1 _) (ihe hd.2 rest hf)
  | asgBit b e ihb ihe =>
    simp only [noDot, Bool.and_eq_true] at hd
    intro rest hf
    rw [show (Tree.asgBit b e).toks ++ rest = b.toks ++ .equal :: (e.toks ++ rest) by simp [Tree.toks]]
    refine ((ihb hd.1 (.equal :: (e.toks ++ rest))).and (ihe hd.2 rest hf)).succ fun f h => ?_
    rw [read, h.1]
    simp only [isAsg, show asgTok .equal = true from rfl, if_true, h.2, Option.bind_eq_bind, Option.bind_some]
    rfl
  | asgCell c t ht e ih =>
    intro rest hf
    exact ev_asg ht ev_cell (ih hd rest hf)
  | exprUp e ih =>
    intro rest r hf hl
    refine ((ih hd rest hf).and hl).succ fun f h => ?_
    show read (f + 1) .expr (e.toks ++ rest) = _
    rw [read, h.1]; exact h.2
  | exprComma a b iha ihb =>
    simp only [noDot, Bool.and_eq_true] at hd
    intro rest r hf hl
    rw [show (Tree.exprComma a b).toks ++ rest = a.toks ++ .comma :: (b.toks ++ rest) by simp [Tree.toks]]
    refine iha hd.1 _ r (folC_tok (by decide)) (((ihb hd.2 rest hf).and hl).succ fun f h => ?_)
    rw [read, h.1]; exact h.2

/-- All derivations of a text without `.` stand for the same expression. -/
theorem ast_unique (T U : Tree .expr) (h : T.toks = U.toks) (hd : Tok.dot ∉ T.toks) : T.ast = U.ast := by
  have e : FolC [] := fun t ts e => by cases e
  obtain ⟨F, hF⟩ := expr_full T (good T (noDot_of_toks T hd)) [] e (by simp)
  obtain ⟨G, hG⟩ := expr_full U (good U (noDot_of_toks U (h ▸ hd))) [] e (by simp)
  have h1 := hF (max F G) (by omega)
  have h2 := hG (max F G) (by omega)
  rw [h, h2] at h1
  exact (Prod.mk.inj (Option.some.inj h1)).1.symm

end Ucsim.Expr
