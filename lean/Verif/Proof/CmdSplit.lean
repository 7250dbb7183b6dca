import Verif.Proof.Cmd
/-! Splitting of command lines. -/
namespace Ucsim.Cmd
open Spec

def Acc.add (a : Acc) (i : Item) : Acc :=
  { params := a.params ++ i.args, tokens := a.tokens ++ i.toks, outs := a.outs ++ i.outs }

theorem word_step {w r : Text} (a : Acc) (h1 : ∃ c t, w = c :: t ∧ c ≠ '"' ∧ c ≠ '>')
    (h2 : ∀ c ∈ w, WordChar c ∧ c ≠ '$' ∧ c ≠ '\\') (hr : ∀ c t, r = c :: t → isEnd c = true)
    (args : List Arg) (os : List Out) (hw : wordArg w = (args, os)) :
    argStep (w ++ r) a = some (r, { params := a.params ++ args, tokens := a.tokens ++ [w], outs := a.outs ++ os }) := by
  obtain ⟨c, t, rfl, n1, n2⟩ := h1
  have sp := span_append (p := fun c => !isEnd c) (w := c :: t) (r := r)
    (fun d hd => by simp [isEnd_false (h2 d hd).1]) (fun d u e => by simp [hr d u e])
  have ex := expand_quiet (w := c :: t) (fun d hd => (h2 d hd).2)
  have : argStep (c :: (t ++ r)) a =
      match expand ((c :: (t ++ r)).takeWhile (fun c => !isEnd c)) with
      | none => none
      | some o =>
        some ((c :: (t ++ r)).dropWhile (fun c => !isEnd c),
          { params := a.params ++ (wordArg ((c :: (t ++ r)).takeWhile (fun c => !isEnd c))).1,
            tokens := a.tokens ++ [(c :: (t ++ r)).takeWhile (fun c => !isEnd c)],
            outs := a.outs ++ o ++ (wordArg ((c :: (t ++ r)).takeWhile (fun c => !isEnd c))).2 }) := by
    unfold argStep
    split
    · simp_all
    · simp_all
    · rfl
  rw [List.cons_append, this, ← List.cons_append, sp.1, sp.2, ex]
  simp [hw]

/-- The texts of words: their first character, their characters and their meaning. -/
theorem item_word {i : Item} (h : i.Ok) (hs : i.isStr = false) (ho : i.isOut = false) :
    (∃ c t, i.text = c :: t ∧ c ≠ '"' ∧ c ≠ '>') ∧
    (∀ c ∈ i.text, WordChar c ∧ c ≠ '$' ∧ c ≠ '\\') ∧ wordArg i.text = (i.args, i.outs) ∧
    i.toks = [i.text] := by
  have hd : ∀ c ∈ decDigits, c ≠ '"' ∧ c ≠ '>' := by decide
  have pc : ∀ {p : Part}, p.Ok → ∀ c ∈ p.text, WordChar c ∧ c ≠ '$' ∧ c ≠ '\\' :=
    fun hp c hc => ⟨(part_chars hp c hc).1, (part_chars hp c hc).2.2.1, (part_chars hp c hc).2.2.2.1⟩
  have nc : ∀ {n : Num}, n.Ok → ∀ c ∈ n.text, WordChar c ∧ c ≠ '$' ∧ c ≠ '\\' :=
    fun hp c hc => ⟨(numChars_ok c (num_chars hp c hc)).1, (numChars_ok c (num_chars hp c hc)).2.2.1, (numChars_ok c (num_chars hp c hc)).2.2.2.1⟩
  have lit : ∀ c ∈ "[]:.-+0b".toList, WordChar c ∧ c ≠ '$' ∧ c ≠ '\\' := by
    unfold WordChar; decide +kernel
  cases i with
  | name w =>
    have h : Name w := h
    refine ⟨?_, fun c hc => ⟨(h.chars c hc).1, (h.chars c hc).2.2.1, (h.chars c hc).2.2.2⟩, wordArg_name h, rfl⟩
    obtain ⟨c, t, e, h1, h2, h3, h4, h5, h6⟩ := h.first
    exact ⟨c, t, e, h4, h5⟩
  | num n =>
    have h : n.Ok := h
    refine ⟨?_, nc h, wordArg_num h, rfl⟩
    obtain ⟨c, t, e, hc⟩ := num_first h
    exact ⟨c, t, e, hd c hc⟩
  | neg n =>
    have h : n.Ok := h
    refine ⟨⟨'-', _, rfl, by decide, by decide⟩, ?_, wordArg_neg h, rfl⟩
    intro c hc
    rcases List.mem_cons.1 hc with rfl | hc
    · exact lit _ (by decide)
    · exact nc h c hc
  | pos n =>
    have h : n.Ok := h
    refine ⟨⟨'+', _, rfl, by decide, by decide⟩, ?_, wordArg_pos h, rfl⟩
    intro c hc
    rcases List.mem_cons.1 hc with rfl | hc
    · exact lit _ (by decide)
    · exact nc h c hc
  | bin ds =>
    have h : (∀ c ∈ ds, c ∈ binDigits) ∧ ds.length < 64 := h
    refine ⟨⟨'0', _, rfl, by decide, by decide⟩, ?_, wordArg_bin h.1 h.2, rfl⟩
    have hb : ∀ c ∈ binDigits, WordChar c ∧ c ≠ '$' ∧ c ≠ '\\' := by unfold WordChar; decide +kernel
    intro c hc
    rcases List.mem_cons.1 hc with rfl | hc
    · exact lit _ (by decide)
    rcases List.mem_cons.1 hc with rfl | hc
    · exact lit _ (by decide)
    · exact hb c (h.1 c hc)
  | elem p i =>
    have h : p.Ok ∧ i.Ok := h
    refine ⟨?_, ?_, wordArg_elem h.1 h.2, rfl⟩
    · obtain ⟨c, t, e, hc⟩ := part_first h.1
      exact ⟨c, _, by simp only [Item.text, e, List.cons_append]; rfl, hc⟩
    · intro c hc
      simp only [Item.text, List.mem_append, List.mem_cons, List.not_mem_nil, or_false] at hc
      rcases hc with (hc | rfl | hc) | rfl
      · exact pc h.1 c hc
      · exact lit _ (by decide)
      · exact pc h.2 c hc
      · exact lit _ (by decide)
  | bit p i =>
    have h : p.Ok ∧ i.Ok := h
    refine ⟨?_, ?_, wordArg_bit h.1 h.2, rfl⟩
    · obtain ⟨c, t, e, hc⟩ := part_first h.1
      exact ⟨c, _, by simp only [Item.text, e, List.cons_append]; rfl, hc⟩
    · intro c hc
      simp only [Item.text, List.mem_append, List.mem_cons] at hc
      rcases hc with hc | rfl | hc
      · exact pc h.1 c hc
      · exact lit _ (by decide)
      · exact pc h.2 c hc
  | bits p hi l =>
    have h : p.Ok ∧ hi.Ok ∧ l.Ok := h
    refine ⟨?_, ?_, wordArg_bits h.1 h.2.1 h.2.2, rfl⟩
    · obtain ⟨c, t, e, hc⟩ := part_first h.1
      exact ⟨c, _, by simp only [Item.text, e, List.cons_append]; rfl, hc⟩
    · intro c hc
      simp only [Item.text, List.mem_append, List.mem_cons, List.not_mem_nil, or_false] at hc
      rcases hc with ((hc | rfl | hc) | rfl | hc) | rfl
      · exact pc h.1 c hc
      · exact lit _ (by decide)
      · exact pc h.2.1 c hc
      · exact lit _ (by decide)
      · exact pc h.2.2 c hc
      · exact lit _ (by decide)
  | elemBit p i b =>
    have h : p.Ok ∧ i.Ok ∧ b.Ok := h
    refine ⟨?_, ?_, wordArg_elemBit h.1 h.2.1 h.2.2, rfl⟩
    · obtain ⟨c, t, e, hc⟩ := part_first h.1
      exact ⟨c, _, by simp only [Item.text, e, List.cons_append]; rfl, hc⟩
    · intro c hc
      simp only [Item.text, List.mem_append, List.mem_cons] at hc
      rcases hc with (hc | rfl | hc) | rfl | rfl | hc
      · exact pc h.1 c hc
      · exact lit _ (by decide)
      · exact pc h.2.1 c hc
      · exact lit _ (by decide)
      · exact lit _ (by decide)
      · exact pc h.2.2 c hc
  | noBit p =>
    have h : p.Ok := h
    refine ⟨?_, ?_, wordArg_noBit h, rfl⟩
    · obtain ⟨c, t, e, hc⟩ := part_first h
      exact ⟨c, _, by simp only [Item.text, e, List.cons_append]; rfl, hc⟩
    · intro c hc
      simp only [Item.text, List.mem_append, List.mem_cons, List.not_mem_nil, or_false] at hc
      rcases hc with hc | rfl
      · exact pc h c hc
      · exact lit _ (by decide)
  | noElem p =>
    have h : p.Ok := h
    refine ⟨?_, ?_, wordArg_noElem h, rfl⟩
    · obtain ⟨c, t, e, hc⟩ := part_first h
      exact ⟨c, _, by simp only [Item.text, e, List.cons_append]; rfl, hc⟩
    · intro c hc
      simp only [Item.text, List.mem_append, List.mem_cons, List.not_mem_nil, or_false] at hc
      rcases hc with hc | rfl
      · exact pc h c hc
      · exact lit _ (by decide)
  | noIndex p =>
    have h : p.Ok := h
    refine ⟨?_, ?_, wordArg_noIndex h, rfl⟩
    · obtain ⟨c, t, e, hc⟩ := part_first h
      exact ⟨c, _, by simp only [Item.text, e, List.cons_append]; rfl, hc⟩
    · intro c hc
      simp only [Item.text, List.mem_append, List.mem_cons, List.not_mem_nil, or_false] at hc
      rcases hc with hc | rfl | rfl
      · exact pc h c hc
      · exact lit _ (by decide)
      · exact lit _ (by decide)
  | noBracket p i =>
    have h : p.Ok ∧ i.Ok := h
    refine ⟨?_, ?_, wordArg_noBracket h.1 h.2, rfl⟩
    · obtain ⟨c, t, e, hc⟩ := part_first h.1
      exact ⟨c, _, by simp only [Item.text, e, List.cons_append]; rfl, hc⟩
    · intro c hc
      simp only [Item.text, List.mem_append, List.mem_cons, List.not_mem_nil, or_false] at hc
      rcases hc with hc | rfl | hc
      · exact pc h.1 c hc
      · exact lit _ (by decide)
      · exact pc h.2 c hc
  | noHigh p l =>
    have h : p.Ok ∧ l.Ok := h
    refine ⟨?_, ?_, wordArg_noHigh h.1 h.2, rfl⟩
    · obtain ⟨c, t, e, hc⟩ := part_first h.1
      exact ⟨c, _, by simp only [Item.text, e, List.cons_append]; rfl, hc⟩
    · intro c hc
      simp only [Item.text, List.mem_append, List.mem_cons, List.not_mem_nil, or_false] at hc
      rcases hc with (hc | rfl | rfl | hc) | rfl
      · exact pc h.1 c hc
      · exact lit _ (by decide)
      · exact lit _ (by decide)
      · exact pc h.2 c hc
      · exact lit _ (by decide)
  | noClose p hi l =>
    have h : p.Ok ∧ hi.Ok ∧ l.Ok := h
    refine ⟨?_, ?_, wordArg_noClose h.1 h.2.1 h.2.2, rfl⟩
    · obtain ⟨c, t, e, hc⟩ := part_first h.1
      exact ⟨c, _, by simp only [Item.text, e, List.cons_append]; rfl, hc⟩
    · intro c hc
      simp only [Item.text, List.mem_append, List.mem_cons, List.not_mem_nil, or_false] at hc
      rcases hc with (hc | rfl | hc) | rfl | hc
      · exact pc h.1 c hc
      · exact lit _ (by decide)
      · exact pc h.2.1 c hc
      · exact lit _ (by decide)
      · exact pc h.2.2 c hc
  | str ps => cases hs
  | out a f => cases ho

theorem str_step {ps : List Piece} (h : ∀ p ∈ ps, p.Ok) (r : Text) (a : Acc) :
    argStep ('"' :: body ps ++ ['"'] ++ r) a = some (r, a.add (.str ps)) := by
  have s := scanStr_body ps r h
  rw [show '"' :: body ps ++ ['"'] ++ r = '"' :: (body ps ++ '"' :: r) by simp]
  unfold argStep
  simp [s, expand_body h, Acc.add, Item.args, Item.toks, Item.outs]

theorem isFileEnd_false {c : Char} (h : c ∉ seps ∧ c ≠ ';') : isFileEnd c = false := by
  obtain ⟨h1, h2⟩ := h
  rw [← isDelim_iff] at h1
  simp [isFileEnd, h1, h2]

theorem redir_plain {f r : Text} (app : Bool) (a : Acc) (h : ∀ c ∈ f, c ∉ seps ∧ c ≠ ';') (h1 : f.head? ≠ some '>')
    (h2 : f.head? ≠ some '"') (hr : ∀ c t, r = c :: t → isFileEnd c = true) :
    argStep ((Item.out app f).text ++ r) a = some (r, a.add (.out app f)) := by
  have sp := span_append (p := fun c => !isFileEnd c) (w := f) (r := r)
    (fun d hd => by simp [isFileEnd_false (h d hd)]) (fun d u e => by simp [hr d u e])
  have q1 : (f ++ r).head? ≠ some '>' := by
    cases f with
    | nil =>
      cases r with
      | nil => simp
      | cons d u =>
        have := hr d u rfl
        rintro e
        simp at e
        subst e
        exact absurd this (by decide)
    | cons d u => simpa using h1
  have q2 : (f ++ r).head? ≠ some '"' := by
    cases f with
    | nil =>
      cases r with
      | nil => simp
      | cons d u =>
        have := hr d u rfl
        rintro e
        simp at e
        subst e
        exact absurd this (by decide)
    | cons d u => simpa using h2
  have fin : redirectTo app (f ++ r) a = some (r, a.add (.out app f)) := by
    unfold redirectTo
    split
    · rename_i heq
      rw [heq] at q2
      simp at q2
    · rw [sp.1, sp.2]
      simp [Acc.add, Item.args, Item.toks, Item.outs]
  cases app with
  | false =>
    show redirection (f ++ r) a = _
    unfold redirection
    split
    · rename_i heq
      rw [heq] at q1
      simp at q1
    · exact fin
  | true => exact fin

/-- One argument. -/
theorem item_step {i : Item} (h : i.Ok) (r : Text) (a : Acc)
    (hr : i.isStr = true ∨ ∀ c t, r = c :: t → isEnd c = true ∧ (i.isOut = true → isFileEnd c = true)) :
    argStep (i.text ++ r) a = some (r, a.add i) := by
  by_cases hs : i.isStr = true
  · cases i <;> simp only [Item.isStr, Bool.false_eq_true] at hs
    exact str_step h r a
  · have hr := hr.resolve_left hs
    by_cases ho : i.isOut = true
    · cases i <;> simp only [Item.isOut, Bool.false_eq_true] at ho
      exact redir_plain _ a h.1 h.2.1 h.2.2 (fun c t e => (hr c t e).2 rfl)
    · obtain ⟨h1, h2, h3, h4⟩ := item_word h (by simpa using hs) (by simpa using ho)
      rw [word_step a h1 h2 (fun c t e => (hr c t e).1) _ _ h3]
      simp [Acc.add, h4]

/-- No argument starts with a separator, a `#` or a `;`. -/
theorem item_first {i : Item} (h : i.Ok) : ∃ c t, i.text = c :: t ∧ isEnd c = false := by
  by_cases hs : i.isStr = true
  · cases i <;> simp only [Item.isStr, Bool.false_eq_true] at hs
    exact ⟨'"', _, rfl, by decide⟩
  · by_cases ho : i.isOut = true
    · cases i with
      | out a f => cases a <;> exact ⟨'>', _, rfl, by decide⟩
      | _ => simp [Item.isOut] at ho
    · obtain ⟨⟨c, t, e, _⟩, h2, _⟩ := item_word h (by simpa using hs) (by simpa using ho)
      exact ⟨c, t, e, isEnd_false (h2 c (by rw [e]; exact List.mem_cons_self)).1⟩

def Acc.adds (a : Acc) (l : List (Item × Text)) : Acc := l.foldl (fun a p => a.add p.1) a

theorem end_first (e : End) : ∀ c t, e.text = c :: t → isEnd c = true ∧ isDelim c = false ∧ (c = '#' ∨ c = ';') := by
  intro c t h
  cases e with
  | eol => simp [End.text] at h
  | comment u => simp only [End.text, List.cons.injEq] at h; obtain ⟨rfl, _⟩ := h; decide
  | semi u => simp only [End.text, List.cons.injEq] at h; obtain ⟨rfl, _⟩ := h; decide

theorem isEnd_of_delim {c : Char} (h : isDelim c = true) : isEnd c = true := by simp [isEnd, h]
theorem isFileEnd_of_delim {c : Char} (h : isDelim c = true) : isFileEnd c = true := by simp [isFileEnd, h]

theorem args_first {e : End} {l : List (Item × Text)} (h : ArgsOk e l) :
    ∀ c t, argsText l ++ e.text = c :: t → isDelim c = false := by
  intro c t he
  cases l with
  | nil => exact (end_first e c t he).2.1
  | cons p r =>
    obtain ⟨i, s⟩ := p
    obtain ⟨d, u, ei, hd⟩ := item_first h.1
    rw [argsText, ei] at he
    simp only [List.cons_append, List.cons.injEq] at he
    obtain ⟨rfl, _⟩ := he
    have := hd
    simp [isEnd] at this
    simpa using this.1.1

theorem argLoop_args (e : End) : ∀ (l : List (Item × Text)) (fuel : Nat) (a : Acc), ArgsOk e l →
    (argsText l ++ e.text).length ≤ fuel → argLoop fuel (argsText l ++ e.text) a = some (e.text, a.adds l)
  | [], fuel, a, _, _ => by
    simp only [argsText, List.nil_append, Acc.adds, List.foldl_nil]
    cases ht : e.text with
    | nil => cases fuel <;> rfl
    | cons c t =>
      cases fuel with
      | zero => rfl
      | succ n =>
        have := (end_first e c t ht).2.2
        simp [argLoop, this]
  | (i, s) :: r, fuel, a, h, hf => by
    obtain ⟨hi, hs, hsep, hr⟩ := h
    obtain ⟨c, t, ei, hc⟩ := item_first hi
    have st := item_step hi (s ++ argsText r ++ e.text) a (by
      by_cases hstr : i.isStr = true
      · exact Or.inl hstr
      right
      intro d u hd
      cases s with
      | nil =>
        rcases hsep with hsep | hsep | ⟨rfl, hsep⟩
        · exact absurd rfl hsep
        · exact absurd hsep hstr
        · simp only [argsText, List.nil_append] at hd
          refine ⟨(end_first e d u hd).1, fun ho => ?_⟩
          cases e with
          | eol => simp [End.text] at hd
          | comment v => exact absurd ⟨ho, rfl⟩ hsep
          | semi v => simp only [End.text, List.cons.injEq] at hd; obtain ⟨rfl, _⟩ := hd; decide
      | cons x s =>
        simp only [List.cons_append, List.cons.injEq] at hd
        obtain ⟨rfl, _⟩ := hd
        have := (isDelim_iff x).2 (hs x List.mem_cons_self)
        exact ⟨isEnd_of_delim this, fun _ => isFileEnd_of_delim this⟩)
    have e1 : argsText ((i, s) :: r) ++ e.text = c :: (t ++ (s ++ argsText r ++ e.text)) := by
      simp [argsText, ei]
    have e2 : i.text ++ (s ++ argsText r ++ e.text) = c :: (t ++ (s ++ argsText r ++ e.text)) := by
      simp [ei]
    rw [e1] at hf ⊢
    rw [e2] at st
    have sk : skipDelims (s ++ argsText r ++ e.text) = argsText r ++ e.text := by
      rw [List.append_assoc]
      exact skip_blank hs (args_first hr)
    have nd : ¬ (c = '#' ∨ c = ';') := by
      have := hc
      simp [isEnd] at this
      rintro (h | h)
      · exact this.2 h
      · exact this.1.2 h
    cases fuel with
    | zero => simp at hf
    | succ n =>
      rw [argLoop, if_neg (by simpa using nd), st]
      dsimp only
      rw [sk, argLoop_args e r n (a.add i) hr ?_]
      · rfl
      · simp at hf ⊢
        omega

theorem adds_eq (l : List (Item × Text)) (a : Acc) : a.adds l =
    { params := a.params ++ l.flatMap (·.1.args), tokens := a.tokens ++ l.flatMap (·.1.toks),
      outs := a.outs ++ l.flatMap (·.1.outs) } := by
  induction l generalizing a with
  | nil => simp [Acc.adds]
  | cons p r ih =>
    have : a.adds (p :: r) = (a.add p.1).adds r := rfl
    rw [this, ih]
    simp [Acc.add]

/-- The command line that is meant. -/
theorem split_written {w : Written} {e : End} (h : w.Ok e) :
    split (w.text ++ e.text) = some
      { name := some w.name, cmd := w.text, rest := e.rest, params := w.args.flatMap (·.1.args),
        tokens := w.args.flatMap (·.1.toks), outs := w.args.flatMap (·.1.outs) } := by
  obtain ⟨hl, ⟨hn, hnc, hnl⟩, ⟨hs, hs'⟩, ha⟩ := h
  obtain ⟨lead, name, sep, args⟩ := w
  dsimp only at *
  cases name with
  | nil => exact absurd rfl hn
  | cons c n =>
    have hc := hnc c List.mem_cons_self
    have ce := isEnd_false hc
    have cd : isDelim c = false := by
      have := ce; simp [isEnd] at this; simpa using this.1.1
    have n1 : c ≠ '\n' := by simpa using hnl
    have n2 : c ≠ '#' := hc.2.2
    have n3 : c ≠ ';' := hc.2.1
    have eT : (Written.mk lead (c :: n) sep args).text ++ e.text = lead ++ (c :: (n ++ (sep ++ (argsText args ++ e.text)))) := by
      simp [Written.text]
    have sk : skipDelims (lead ++ (c :: (n ++ (sep ++ (argsText args ++ e.text))))) = c :: (n ++ (sep ++ (argsText args ++ e.text))) :=
      skip_blank hl (fun d t h => by simp only [List.cons.injEq] at h; rw [← h.1]; exact cd)
    have sp := span_append (p := fun c => !isEnd c) (w := c :: n) (r := sep ++ (argsText args ++ e.text))
      (fun d hd => by simp [isEnd_false (hnc d hd)]) (by
        intro d u hd
        cases sep with
        | nil =>
          cases args with
          | nil =>
            simp only [argsText, List.nil_append] at hd
            simp [(end_first e d u hd).1]
          | cons p r => exact absurd rfl (hs' (by simp))
        | cons x s =>
          simp only [List.cons_append, List.cons.injEq] at hd
          obtain ⟨rfl, _⟩ := hd
          simp [isEnd_delim (hs x List.mem_cons_self)])
    rw [List.cons_append] at sp
    have sk2 : skipDelims (sep ++ (argsText args ++ e.text)) = argsText args ++ e.text := skip_blank hs (args_first ha)
    have lo := argLoop_args e args _ {} ha (Nat.le_refl _)
    have cutq : cutAt (lead ++ (c :: (n ++ (sep ++ (argsText args ++ e.text))))) e.text = (Written.mk lead (c :: n) sep args).text := by
      rw [← eT]
      unfold cutAt
      rw [List.length_append, Nat.add_sub_cancel]
      exact List.take_left
    have er : restOf e.text = e.rest := by cases e <;> rfl
    rw [eT]
    have : split (lead ++ (c :: (n ++ (sep ++ (argsText args ++ e.text))))) =
        (let s := c :: (n ++ (sep ++ (argsText args ++ e.text)))
        let m := s.takeWhile (fun c => !isEnd c)
        let r := skipDelims (s.dropWhile (fun c => !isEnd c))
        match argLoop r.length r {} with
        | none => none
        | some (tail, a) =>
          some { name := some m, cmd := cutAt (lead ++ (c :: (n ++ (sep ++ (argsText args ++ e.text))))) tail, rest := restOf tail,
                 params := a.params, tokens := a.tokens, outs := a.outs }) := by
      unfold split
      split
      · simp_all
      · rw [sk]
        split <;> simp_all
    rw [this]
    dsimp only
    rw [sp.1, sp.2, sk2, lo]
    dsimp only
    rw [cutq, er, adds_eq]
    simp

end Ucsim.Cmd
