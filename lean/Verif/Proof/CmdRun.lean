import Verif.Proof.CmdSeq
/-! Sequences of commands, subcommands, repetition. -/
namespace Ucsim.Cmd
open Spec

/-- The line of a written command. -/
def lineOf (w : Written) (rest : Option Text) : Line :=
  { name := some w.name, cmd := w.text, rest := rest, params := w.args.flatMap (·.1.args),
    tokens := w.args.flatMap (·.1.toks), outs := w.args.flatMap (·.1.outs) }

theorem argsOk_eol {e : End} : ∀ {l : List (Item × Text)}, ArgsOk e l → ∀ {e' : End}, (e'.isComment = true → e.isComment = true) → ArgsOk e' l
  | [], _, _, _ => trivial
  | (i, s) :: r, h, e', he => by
    obtain ⟨h1, h2, h3, h4⟩ := h
    refine ⟨h1, h2, ?_, argsOk_eol h4 he⟩
    rcases h3 with h3 | h3 | ⟨h3, h5⟩
    · exact Or.inl h3
    · exact Or.inr (Or.inl h3)
    · exact Or.inr (Or.inr ⟨h3, fun hh => h5 ⟨hh.1, he hh.2⟩⟩)

theorem written_end {w : Written} {e e' : End} (h : w.Ok e) (he : e'.isComment = true → e.isComment = true) : w.Ok e' :=
  ⟨h.lead, h.name, h.sep, argsOk_eol h.args he⟩

theorem name_ne {w : Written} {e : End} (h : w.Ok e) : w.name ≠ ['\n'] := by
  intro hn
  exact h.name.2.2 (by rw [hn]; rfl)

theorem round_alone (tree : Tree) (inter : Bool) (last : Option Nat) (l : Line) (n : Text) (hn : l.name = some n) (hne : n ≠ ['\n'])
    (hs : ∀ c ∈ tree [], Abbr n c → c.takesRest = false ∧ (c.super = true → ';' ∉ l.cmd)) :
    (round tree inter last l).map (fun r => (r.acts.map forget, r.rest, r.last)) =
    (round tree inter last l.alone).map (fun r => (r.acts.map forget, l.rest, r.last)) := by
  unfold round
  have e1 : l.alone.name = l.name := rfl
  have e2 : l.alone.cmd = l.cmd := rfl
  rw [e1, e2, hn]
  simp only [Option.some.injEq, hne, false_and, if_false]
  cases hg : getCmd (tree []) (some n) with
  | none => simp [forget]
  | some i =>
    obtain ⟨c, hc, hab⟩ := means_abbr ((getCmd_iff _ _ _).1 hg)
    obtain ⟨h1, h2⟩ := hs c (List.mem_of_getElem? hc) hab
    have := workCmd_alone tree l.cmd.length [i] c l h2
    simp only [Option.bind_some, hc, Option.map_some]
    cases hw : workCmd tree l.cmd.length [i] c l with
    | none =>
      rw [hw] at this
      cases hw' : workCmd tree l.cmd.length [i] c l.alone with
      | none => rfl
      | some q => rw [hw'] at this; cases this
    | some q =>
      rw [hw] at this
      cases hw' : workCmd tree l.cmd.length [i] c l.alone with
      | none => rw [hw'] at this; cases this
      | some q' =>
        rw [hw'] at this
        simp only [Option.map_some, Option.some.injEq, Prod.mk.injEq] at this
        simp [h1, this.1, this.2]

theorem enter_one {tree : Tree} {inter : Bool} {w : Written} {e : End} {last : Option Nat} (h : w.Ok e) (hs : SeqOk tree w) (he : e.rest = none) (fuel : Nat) :
    procLoop tree inter fuel (w.text ++ e.text) last = (round tree inter last (lineOf w none)).map (fun r => (r.acts, r.last)) := by
  unfold procLoop
  rw [split_written h]
  dsimp only
  rw [he]
  have hr := round_alone tree inter last (lineOf w none) w.name rfl (name_ne h) hs.1
  have ea : (lineOf w none).alone = lineOf w none := rfl
  rw [ea] at hr
  show (match round tree inter last (lineOf w none) with | none => none | some r => _) = _
  cases hq : round tree inter last (lineOf w none) with
  | none => rfl
  | some r =>
    rw [hq] at hr
    simp only [Option.map_some, Option.some.injEq, Prod.mk.injEq, true_and, and_true] at hr
    have hr : r.rest = none := hr
    dsimp only
    rw [hr]
    rfl

theorem lineText_len (e : End) (w : Written) (ws : List Written) (h : ws ≠ []) : (lineText e (w :: ws)).length = w.text.length + 1 + (lineText e ws).length := by
  cases ws with
  | nil => exact absurd rfl h
  | cons a r => simp [lineText]; omega

theorem written_cons {w : Written} {e : End} (h : w.Ok e) : ∃ c t, w.text = c :: t := by
  cases hw : w.text with
  | nil =>
    have := h.name.1
    simp only [Written.text, List.append_eq_nil_iff] at hw
    exact absurd hw.1.1.2 this
  | cons c t => exact ⟨c, t, rfl⟩

theorem lineText_cons {e : End} {w : Written} {ws : List Written} (h : w.Ok .eol) : ∃ c t, lineText e (w :: ws) = c :: t := by
  obtain ⟨c, t, hc⟩ := written_cons h
  cases ws with
  | nil => exact ⟨c, _, by simp only [lineText, hc]; rfl⟩
  | cons a r => exact ⟨c, _, by simp only [lineText, hc]; rfl⟩

/-- Commands separated by `;` do what they do on lines of their own. -/
theorem seq_ok (tree : Tree) (inter : Bool) (e : End) (he : e.rest = none) : ∀ (ws : List Written) (w : Written) (fuel : Nat) (last : Option Nat),
    (∀ x ∈ w :: ws, x.Ok e ∧ SeqOk tree x) → (lineText e (w :: ws)).length ≤ fuel →
    (procLoop tree inter fuel (lineText e (w :: ws)) last).map (fun r => (r.1.map forget, r.2)) =
    (enterAll (procInput tree inter false) ((w :: ws).map Written.text) last).map (fun r => (r.1.map forget, r.2))
  | [], w, fuel, last, hw, hf => by
    obtain ⟨h1, h2⟩ := hw w List.mem_cons_self
    have h1' : w.Ok .eol := written_end h1 (by simp [End.isComment])
    have a := enter_one (inter := inter) (last := last) h1 h2 he fuel
    have b := enter_one (inter := inter) (last := last) h1' h2 rfl w.text.length
    rw [show w.text ++ End.eol.text = w.text by simp [End.text]] at b
    rw [show lineText e [w] = w.text ++ e.text from rfl, a]
    simp only [List.map_cons, List.map_nil, enterAll, procInput, Bool.false_eq_true, if_false, if_neg h2.2, b]
    cases round tree inter last (lineOf w none) with
    | none => rfl
    | some r => simp
  | v :: ws, w, fuel, last, hw, hf => by
    obtain ⟨h1, h2⟩ := hw w List.mem_cons_self
    have h1' : w.Ok .eol := written_end h1 (by simp [End.isComment])
    have h1s : w.Ok (.semi (lineText e (v :: ws))) := written_end h1 (by simp [End.isComment])
    have hv : v.Ok .eol := written_end (hw v (by simp)).1 (by simp [End.isComment])
    have b := enter_one (inter := inter) (last := last) h1' h2 rfl w.text.length
    rw [show w.text ++ End.eol.text = w.text by simp [End.text]] at b
    have sp := split_written h1s
    have hr := round_alone tree inter last (lineOf w (some (lineText e (v :: ws)))) w.name rfl (name_ne h1) h2.1
    have ea : (lineOf w (some (lineText e (v :: ws)))).alone = lineOf w none := rfl
    rw [ea] at hr
    have ih := seq_ok tree inter e he ws v
    obtain ⟨c, t, hc⟩ := lineText_cons (e := e) (ws := ws) hv
    have step : enterAll (procInput tree inter false) (w.text :: (v :: ws).map Written.text) last =
        (round tree inter last (lineOf w none)).bind (fun r =>
          (enterAll (procInput tree inter false) ((v :: ws).map Written.text) r.last).map (fun x => (r.acts ++ x.1, x.2))) := by
      rw [enterAll]
      unfold procInput
      rw [if_neg (by simp), if_neg h2.2, b]
      cases round tree inter last (lineOf w none) with
      | none => rfl
      | some r => rfl
    rw [lineText_len e w (v :: ws) (by simp)] at hf
    cases fuel with
    | zero => omega
    | succ n =>
      rw [show lineText e (w :: v :: ws) = w.text ++ (End.semi (lineText e (v :: ws))).text from rfl]
      unfold procLoop
      rw [sp]
      dsimp only [End.rest]
      rw [List.map_cons (f := Written.text) (a := w), step]
      change (match round tree inter last (lineOf w (some (lineText e (v :: ws)))) with | none => none | some r => _).map _ = _
      cases hq : round tree inter last (lineOf w (some (lineText e (v :: ws)))) with
      | none =>
        rw [hq] at hr
        cases hq' : round tree inter last (lineOf w none) with
        | none => rfl
        | some q => rw [hq'] at hr; cases hr
      | some r =>
        rw [hq] at hr
        cases hq' : round tree inter last (lineOf w none) with
        | none => rw [hq'] at hr; cases hr
        | some q =>
          rw [hq'] at hr
          simp only [Option.map_some, Option.some.injEq, Prod.mk.injEq] at hr
          obtain ⟨hr1, hr2, hr3⟩ := hr
          have hr2 : r.rest = some (lineText e (v :: ws)) := hr2
          have ih := ih n q.last (fun x hx => hw x (List.mem_cons_of_mem _ hx)) (by omega)
          dsimp only
          rw [hr2, hc]
          dsimp only
          rw [← hc, hr3]
          simp only [Option.bind_some]
          generalize enterAll (procInput tree inter false) ((v :: ws).map Written.text) q.last = z at ih ⊢
          cases hp : procLoop tree inter n (lineText e (v :: ws)) q.last with
          | none =>
            rw [hp] at ih
            cases z with
            | none => rfl
            | some z => simp at ih
          | some p =>
            rw [hp] at ih
            cases z with
            | none => simp at ih
            | some z => simp at ih ⊢; simp [hr1, ih.1, ih.2]

/-! ### subcommands -/

/-- The command that is left when the first argument becomes the name. -/
def shifted (n s : Text) (r : List (Item × Text)) : Written := { lead := [], name := n, sep := s, args := r }

theorem shifted_ok {w : Written} {e : End} {n s : Text} {r : List (Item × Text)} (h : w.Ok e) (ha : w.args = (.name n, s) :: r)
    (hn : n.head? ≠ some '\n') : (shifted n s r).Ok .eol := by
  have hb := h.args
  rw [ha] at hb
  obtain ⟨h1, h2, h3, h4⟩ := hb
  have h1 : Name n := h1
  refine ⟨by simp [shifted, Blank], ⟨?_, fun c hc => (h1.chars c hc).1, hn⟩, ⟨h2, ?_⟩, argsOk_eol h4 (by simp [End.isComment])⟩
  · obtain ⟨c, t, e, _⟩ := h1.first
    simp [shifted, e]
  · intro hr
    rcases h3 with h3 | h3 | ⟨h3, _⟩
    · exact h3
    · simp [Item.isStr] at h3
    · exact absurd h3 hr

theorem shift_written {w : Written} {e : End} {n s : Text} {r : List (Item × Text)} (h : w.Ok e) (ha : w.args = (.name n, s) :: r)
    (hn : n.head? ≠ some '\n') (l : Line) (hl : l.cmd = w.text) :
    shift l = some ({ lineOf (shifted n s r) l.rest with outs := l.outs ++ r.flatMap (·.1.outs) }, true) := by
  have ok := shifted_ok h ha hn
  have sp := split_written ok
  obtain ⟨lead, name, sep, args⟩ := w
  dsimp only at ha
  subst ha
  have hb := h.args
  obtain ⟨hl1, ⟨hn1, hn2, hn3⟩, ⟨hs1, hs2⟩, ha⟩ := h
  dsimp only at *
  have hne : sep ≠ [] := hs2 (by simp)
  cases name with
  | nil => exact absurd rfl hn1
  | cons c m =>
    have ce := isEnd_false (hn2 c List.mem_cons_self)
    have cd : isDelim c = false := by
      have := ce; simp [isEnd] at this; simpa using this.1.1
    have sk : skipDelims (Written.mk lead (c :: m) sep ((.name n, s) :: r)).text = c :: (m ++ (sep ++ (n ++ s ++ argsText r))) := by
      rw [show (Written.mk lead (c :: m) sep ((.name n, s) :: r)).text = lead ++ (c :: (m ++ (sep ++ (n ++ s ++ argsText r)))) by
        simp [Written.text, argsText, Item.text]]
      exact skip_blank hl1 (fun d t h => by simp only [List.cons.injEq] at h; rw [← h.1]; exact cd)
    have dr := (span_append (p := fun c => !isEnd c) (w := c :: m) (r := sep ++ (n ++ s ++ argsText r))
      (fun d hd => by simp [isEnd_false (hn2 d hd)]) (by
        intro d u hd
        cases sep with
        | nil => exact absurd rfl hne
        | cons x y =>
          simp only [List.cons_append, List.cons.injEq] at hd
          obtain ⟨rfl, _⟩ := hd
          simp [isEnd_delim (hs1 x List.mem_cons_self)])).2
    have sk2 : skipDelims (sep ++ (n ++ s ++ argsText r)) = n ++ s ++ argsText r := by
      refine skip_blank hs1 ?_
      have hN : Name n := ha.1
      obtain ⟨d, u, rfl, _⟩ := hN.first
      intro x t hx
      simp only [List.cons_append, List.cons.injEq] at hx
      obtain ⟨rfl, _⟩ := hx
      have := isEnd_false (hN.chars d List.mem_cons_self).1
      simp [isEnd] at this; simpa using this.1.1
    unfold shift
    rw [hl, sk]
    dsimp only
    rw [← List.cons_append, dr, sk2]
    have tx : (shifted n s r).text ++ End.eol.text = n ++ s ++ argsText r := by simp [shifted, Written.text, End.text]
    rw [tx] at sp
    rw [sp]
    dsimp only
    have nn : (shifted n s r).name ≠ ['\n'] := name_ne ok
    rw [if_neg nn]
    simp [End.rest, lineOf, shifted]

theorem work_path (tree : Tree) : ∀ (ns : List (Text × Text)) (p q : List Nat) (c c0 : Command) (w : Written) (e : End) (l : Line) (r : List (Item × Text)) (fuel : Nat),
    Leads tree p c0 (ns.map (·.1)) q c → (∀ x ∈ ns, x.1.head? ≠ some '\n') → c.super = false →
    w.Ok e → w.args = ns.map (fun x => (Item.name x.1, x.2)) ++ r → l.cmd = w.text → l.params = w.args.flatMap (·.1.args) →
    l.name = some w.name → l.tokens = w.args.flatMap (·.1.toks) → ns.length ≤ fuel →
    ∃ m : Line, workCmd tree fuel p c0 l = some (.work q m, m.rest) ∧ m.rest = l.rest ∧ m.name = some ((ns.map (·.1)).getLastD w.name) ∧
      m.params = r.flatMap (·.1.args) ∧ m.tokens = r.flatMap (·.1.toks)
  | [], p, q, c, c0, w, e, l, r, fuel, hp, _, hc, hw, ha, hl, hpa, hn, ht, _ => by
    cases hp
    simp only [List.map_nil, List.nil_append] at ha
    refine ⟨l, ?_, rfl, by simp [hn], by rw [hpa, ha], by rw [ht, ha]⟩
    unfold workCmd
    rw [if_neg (by simp [hc])]
  | (n, s) :: ns, p, q, c, c0, w, e, l, r, fuel, hp, hnl, hc, hw, ha, hl, hpa, hn, ht, hf => by
    cases hp with
    | sub hs hm hd hp =>
      rename_i i d
      have hn1 : n.head? ≠ some '\n' := hnl (n, s) List.mem_cons_self
      have hm : Means (tree p) n d := hm
      have ha' : w.args = (.name n, s) :: (ns.map (fun x => (Item.name x.1, x.2)) ++ r) := by simpa using ha
      have sw := shift_written hw ha' hn1 l hl
      have ok := shifted_ok hw ha' hn1
      cases fuel with
      | zero => simp at hf
      | succ k =>
        obtain ⟨m, h1, h2, h3, h4, h5⟩ := work_path tree ns _ q c i (shifted n s (ns.map (fun x => (Item.name x.1, x.2)) ++ r)) .eol
          { lineOf (shifted n s (ns.map (fun x => (Item.name x.1, x.2)) ++ r)) l.rest with
            outs := l.outs ++ (ns.map (fun x => (Item.name x.1, x.2)) ++ r).flatMap (·.1.outs) } r k hp
          (fun x hx => hnl x (List.mem_cons_of_mem _ hx)) hc ok rfl rfl rfl rfl rfl (by simpa using hf)
        refine ⟨m, ?_, by rw [h2]; rfl, ?_, h4, h5⟩
        · unfold workCmd
          rw [if_pos hs, sw]
          dsimp only
          have hg := (getCmd_iff (tree p) n d).2 hm
          rw [show (lineOf (shifted n s (ns.map (fun x => (Item.name x.1, x.2)) ++ r)) l.rest).name = some n from rfl, hg]
          dsimp only
          rw [hd]
          exact h1
        · rw [h3, List.map_cons, List.getLastD_cons]
          rfl

end Ucsim.Cmd
