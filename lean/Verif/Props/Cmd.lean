import Verif.Proof.CmdSafe
/-!
Command lines: C92 (arguments), C93 (sequences of commands), C94 (names of commands,
subcommands, repetition).
-/
namespace Ucsim.Cmd
open Spec

/-! ## C92: arguments -/

/-- C92.  However a command is written - any names, numbers in any base, elements, bits,
strings and redirections, any separators, with or without a comment or another command
after it - it gets exactly the arguments that are meant, in this order, and the output
goes where it is meant to go; of an incomplete element or bit (`x.`, `x[`, `x[]`, `x[1`, `x[:0]`,
`x[7:0`) no argument is made and a message is given.
Missing: numbers of 2^63 and more, `$` and backslashes outside of strings. -/
theorem c92_arguments_partial {w : Written} {e : End} (h : w.Ok e) :
    ∃ l, split (w.text ++ e.text) = some l ∧ l.name = some w.name ∧
      l.params = w.args.flatMap (·.1.args) ∧ l.outs = w.args.flatMap (·.1.outs) ∧
      l.tokens = w.args.flatMap (·.1.toks) ∧ l.cmd = w.text ∧ l.rest = e.rest :=
  ⟨_, split_written h, rfl, rfl, rfl, rfl, rfl, rfl⟩

/-- C92.  Splitting a line without `$` and backslash, and without quoted file names, never
reads outside the line. -/
theorem c92_safe_partial {s : Text} (h : '$' ∉ s ∧ '\\' ∉ s ∧ ('>' ∉ s ∨ '"' ∉ s)) : split s ≠ none := by
  obtain ⟨l, hl⟩ := split_safe h
  simp [hl]

/-- Two ways of writing the same arguments have the same effect. -/
theorem c92_separators {v w : Written} {e f : End} (hv : v.Ok e) (hw : w.Ok f) (hn : v.name = w.name)
    (ha : v.args.map (·.1) = w.args.map (·.1)) :
    (split (v.text ++ e.text)).map (fun l => (l.name, l.params, l.outs)) =
    (split (w.text ++ f.text)).map (fun l => (l.name, l.params, l.outs)) := by
  rw [split_written hv, split_written hw]
  have m {α : Type} (g : Item → List α) (l : List (Item × Text)) : l.flatMap (fun p => g p.1) = (l.map (·.1)).flatMap g := by
    rw [List.flatMap_map]
  simp only [Option.map_some, hn, m, ha]

/-- `  set mem, xram[0x1f] P1.3 x[7:4] -12 017 0b101 "a\"b"c >>log ; pc` -/
def exW : Written :=
  { lead := "  ".toList, name := "set".toList, sep := " ".toList,
    args := [(.name "mem".toList, ", ".toList), (.elem (.name "xram".toList) (.num (.hex "1f".toList)), " ".toList),
      (.bit (.name "P1".toList) (.num (.dec "3".toList)), " ".toList),
      (.bits (.name "x".toList) (.num (.dec "7".toList)) (.num (.dec "4".toList)), "\t".toList),
      (.neg (.dec "12".toList), " ".toList), (.num (.oct "17".toList), " ".toList), (.bin "101".toList, " ".toList),
      (.str [.plain 'a', .esc '"', .plain ';'], []), (.name "c".toList, " ".toList), (.out true "log".toList, " ".toList)] }

instance (s : Text) : Decidable (Blank s) := by unfold Blank; infer_instance
instance (c : Char) : Decidable (WordChar c) := by unfold WordChar; infer_instance
instance (n : Num) : Decidable n.Ok := by unfold Num.Ok; cases n <;> infer_instance
instance (p : Piece) : Decidable p.Ok := by cases p <;> (unfold Piece.Ok; infer_instance)

/-- A test for names. -/
def nameB (w : Text) : Bool :=
  w.all (fun c => decide (WordChar c ∧ c ≠ '[' ∧ c ≠ '$' ∧ c ≠ '\\')) &&
  match w with
  | [] => false
  | c :: t => decide (c ∉ decDigits ∧ c ≠ '-' ∧ c ≠ '+' ∧ c ≠ '"' ∧ c ≠ '>' ∧ (c ≠ '.' → '.' ∉ t))

theorem name_of {w : Text} (h : nameB w = true) : Name w := by
  unfold nameB at h
  simp only [Bool.and_eq_true, List.all_eq_true, decide_eq_true_eq] at h
  cases w with
  | nil => simp at h
  | cons c t =>
    obtain ⟨h1, h2⟩ := h
    have h2 := of_decide_eq_true h2
    exact ⟨h1, c, t, rfl, h2⟩

theorem part_of {w : Text} (h : nameB w = true) (h2 : ∀ c ∈ w, c ≠ ']' ∧ c ≠ '.' ∧ c ≠ ':') : PartName w := ⟨name_of h, h2⟩

theorem exW_ok : exW.Ok (.semi " pc".toList) := by
  refine ⟨by decide, ⟨by decide, by decide, by decide⟩, ⟨by decide, fun _ => by decide⟩, ?_⟩
  refine ⟨name_of (by decide), by decide, by decide, ?_⟩
  refine ⟨⟨part_of (by decide) (by decide), (by decide : (Num.hex "1f".toList).Ok)⟩, by decide, by decide, ?_⟩
  refine ⟨⟨part_of (by decide) (by decide), (by decide : (Num.dec "3".toList).Ok)⟩, by decide, by decide, ?_⟩
  refine ⟨⟨part_of (by decide) (by decide), (by decide : (Num.dec "7".toList).Ok), (by decide : (Num.dec "4".toList).Ok)⟩, by decide, by decide, ?_⟩
  refine ⟨(by decide : (Num.dec "12".toList).Ok), by decide, by decide, ?_⟩
  refine ⟨(by decide : (Num.oct "17".toList).Ok), by decide, by decide, ?_⟩
  refine ⟨⟨by decide, by decide⟩, by decide, by decide, ?_⟩
  refine ⟨by unfold Item.Ok; decide, by decide, by decide, ?_⟩
  refine ⟨name_of (by decide), by decide, by decide, ?_⟩
  exact ⟨by unfold Item.Ok; decide, by decide, by decide, trivial⟩

example : exW.text ++ (End.semi " pc".toList).text =
    "  set mem, xram[0x1f] P1.3 x[7:4]\t-12 017 0b101 \"a\\\";\"c >>log ; pc".toList := by decide +kernel

example : ∃ l, split "  set mem, xram[0x1f] P1.3 x[7:4]\t-12 017 0b101 \"a\\\";\"c >>log ; pc".toList = some l ∧
    l.params = [.sym "mem".toList, .array (.sym "xram".toList) (.int 31), .bit (.sym "P1".toList) (.int 3),
      .bits (.sym "x".toList) (.int 4) (.int 7), .int (-12), .int 15, .int 5, .str "a\\\";".toList, .sym "c".toList] ∧
    l.outs = [.redirect "log".toList true] ∧ l.rest = some " pc".toList := by
  obtain ⟨l, h1, _, h2, h3, _, _, h4⟩ := c92_arguments_partial exW_ok
  refine ⟨l, ?_, ?_, ?_, h4⟩
  · rw [← h1]; exact congrArg _ (by decide +kernel)
  · rw [h2]; decide +kernel
  · rw [h3]; decide +kernel

/-- C92 is false of the program: these lines make it read past the end of a string - a
word or a string that ends in a backslash, a word that ends in `$`, a quoted file name
without the closing quote, or with an escaped last character. -/
theorem c92_safe_false : split "echo a\\".toList = none ∧ split "echo \"a\\".toList = none ∧ split "echo $".toList = none ∧
    split "pc >\"f".toList = none ∧ split "pc >\"a\\b\"".toList = none := by
  decide +kernel

/-- C92 is false of the program: what is not a number is taken for one - `12ab` is 12, `0b12` is
1, `+` is 0, `1e3` is 1 - and large numbers are silently replaced. -/
theorem c92_numbers_false :
    (split "dump 12ab 0b12 + 1e3 0x8000000000000000".toList).map (·.params) =
      some [.int 12, .int 1, .int 0, .int 1, .int 0x7fffffffffffffff] := by decide +kernel

/-- C92 is false of the program: a wrong argument is dropped, the others move to its place (a
message is printed): `set mem xram[ 5 6` is read as `set mem 5 6`. -/
theorem c92_dropped_false :
    (split "set mem xram[ 5 6".toList).map (fun l => (l.params, l.outs)) =
      some ([.sym "mem".toList, .int 5, .int 6], [.err .incompleteArray]) := by decide +kernel

/-- C92 is false of the program: the end of a quoted file name with an escape is not looked
for where the name ends, so text after it is swallowed: `x"` is lost here. -/
theorem c92_quoted_false :
    (split "pc >\"a\\n\"x\" y".toList).map (fun l => (l.params, l.outs)) = some ([.sym "y".toList], [.redirect "a\n".toList false]) := by
  decide +kernel

/-! ## C93: sequences of commands -/

/-- C93.  Commands separated by `;`, with or without a comment at the end, do exactly what
they do when they are entered on lines of their own, one after the other, each once and
in this order; afterwards the same command is ready for repetition.
Missing: the command `commands`, and strings with a `;` as arguments of commands with
subcommands. -/
theorem c93_sequence_partial (tree : Tree) (inter : Bool) (e : End) (he : e.rest = none) (w : Written) (ws : List Written)
    (last : Option Nat) (h : ∀ x ∈ w :: ws, x.Ok e ∧ SeqOk tree x) :
    (match procInput tree inter false (lineText e (w :: ws)) last with
     | some (.acts a l) => some (a.map forget, l)
     | _ => none) =
    (enterAll (procInput tree inter false) ((w :: ws).map Written.text) last).map (fun r => (r.1.map forget, r.2)) := by
  rw [← seq_ok tree inter e he ws w (lineText e (w :: ws)).length last h (Nat.le_refl _)]
  unfold procInput
  have hd : (lineText e (w :: ws)).head? ≠ some '\x04' := by
    have := (h w List.mem_cons_self).2.2
    obtain ⟨c, t, hc⟩ := written_cons (h w List.mem_cons_self).1
    rw [hc] at this
    have e1 : ∃ u, lineText e (w :: ws) = c :: u := by
      cases ws with
      | nil => exact ⟨_, by simp only [lineText, hc]; rfl⟩
      | cons a r => exact ⟨_, by simp only [lineText, hc]; rfl⟩
    obtain ⟨u, hu⟩ := e1
    rw [hu]
    simpa using this
  rw [if_neg (by simp), if_neg hd]
  cases procLoop tree inter (lineText e (w :: ws)).length (lineText e (w :: ws)) last <;> rfl

/-- A line that is only a comment, or blank, does nothing. -/
theorem c93_comment (tree : Tree) (inter : Bool) (last : Option Nat) (b t : Text) (hb : Blank b)
    (hn : ∀ c ∈ tree [], c.names ≠ []) :
    procInput tree inter false (b ++ '#' :: t) last = some (.acts [] none) ∧
    (b ≠ [] → procInput tree inter false b last = some (.acts [] none)) := by
  have g : getCmd (tree []) none = none := by
    unfold getCmd
    have : firstWith (fun c => nameMatch c none true) 0 (tree []) = none := by
      rw [firstWith_none]
      intro c hc
      simp [nameMatch, hn c hc]
    rw [this]
    dsimp only
    have ml : ∀ (s : List Command) (k : Nat), (∀ c ∈ s, c.names ≠ []) → matchLoop none k s none = none := by
      intro s
      induction s with
      | nil => intro k _; rfl
      | cons c cs ih =>
        intro k h
        rw [matchLoop, if_neg (by simp [nameMatch, h c List.mem_cons_self])]
        exact ih _ (fun d hd => h d (List.mem_cons_of_mem _ hd))
    exact ml _ _ hn
  have sk1 : skipDelims (b ++ '#' :: t) = '#' :: t := skip_blank hb (fun c u h => by cases h; decide)
  have h4 : ∀ c ∈ b, c ≠ '\x04' := fun c hc => by
    have := hb c hc
    have d : ∀ c ∈ seps, c ≠ '\x04' := by decide
    exact d c this
  constructor
  · have hd : (b ++ '#' :: t).head? ≠ some '\x04' := by
      cases b with
      | nil => simp
      | cons c u => simpa using h4 c List.mem_cons_self
    unfold procInput
    rw [if_neg (by simp), if_neg hd]
    have : split (b ++ '#' :: t) = some { cmd := cutAt (b ++ '#' :: t) ('#' :: t) } := by
      unfold split
      split
      · simp_all
      · rw [sk1]
        simp
    unfold procLoop
    rw [this]
    simp [round, g]
  · intro hbn
    have sk2 : skipDelims b = [] := by
      have := skip_blank (r := []) hb (by simp)
      simpa using this
    have hd : b.head? ≠ some '\x04' := by
      cases b with
      | nil => simp
      | cons c u => simpa using h4 c List.mem_cons_self
    unfold procInput
    rw [if_neg (by simp), if_neg hd]
    have : split b = some { cmd := b } := by
      unfold split
      split
      · exact absurd rfl hbn
      · rw [sk2]
    unfold procLoop
    rw [this]
    simp [round, g]

/-- Some commands of ucsim: `quit`, `pc`, `step`, `info` with `registers` and `breakpoints`. -/
def exTree : Tree
  | [] => [{ names := ["quit".toList] }, { names := ["pc".toList] }, { names := ["step".toList, "s".toList], canRepeat := true },
      { names := ["info".toList], super := true }, { names := ["commands".toList], takesRest := true },
      { names := ["print".toList] }]
  | [3] => [{ names := ["registers".toList] }, { names := ["breakpoints".toList] }]
  | _ => []

def exA : Written := { lead := [], name := "step".toList, sep := " ".toList, args := [(.num (.dec "2".toList), " ".toList)] }
def exB : Written := { lead := " ".toList, name := "inf".toList, sep := " ".toList, args := [(.name "reg".toList, [])] }
def exC : Written := { lead := [], name := "p".toList, sep := [], args := [] }

theorem exABC_ok : ∀ x ∈ [exA, exB, exC], x.Ok (.comment "x".toList) ∧ SeqOk exTree x := by
  have ab (n : Text) (c : Command) : Abbr n c ↔ c.names.any (fun m => n.isPrefixOf m) = true := by simp [Abbr]
  intro x hx
  simp only [List.mem_cons, List.not_mem_nil, or_false] at hx
  rcases hx with rfl | rfl | rfl
  · refine ⟨⟨by decide, ⟨by decide, by decide, by decide⟩, ⟨by decide, fun _ => by decide⟩, ?_⟩, ?_, by decide⟩
    · exact ⟨(by decide : (Num.dec "2".toList).Ok), by decide, by decide, trivial⟩
    · simp only [ab]; decide
  · refine ⟨⟨by decide, ⟨by decide, by decide, by decide⟩, ⟨by decide, fun _ => by decide⟩, ?_⟩, ?_, by decide⟩
    · exact ⟨name_of (by decide), by decide, by decide, trivial⟩
    · simp only [ab]; decide
  · refine ⟨⟨by decide, ⟨by decide, by decide, by decide⟩, ⟨by decide, fun h => absurd rfl h⟩, trivial⟩, ?_, by decide⟩
    simp only [ab]; decide

example : lineText (.comment "x".toList) [exA, exB, exC] = "step 2 ; inf reg;p#x".toList := by decide +kernel

/-- What that line does: step, then list the registers; `p` is no command (it could be `pc` or
`print`), so it is evaluated. -/
example : (match procInput exTree true false "step 2 ; inf reg;p#x".toList none with
    | some (.acts a l) => some (a.map (fun x => match x with
        | .work p l => (p, l.params)
        | .eval t => ([], [.sym t])
        | _ => ([], [])), l)
    | _ => none) = some ([([2], [.int 2]), ([3, 0], []), ([], [.sym "p".toList])], none) := by decide +kernel

/-- C93 is false of the program: a `;` in a string ends the command when the string is the
first argument of a command with subcommands; the text after it is executed. -/
theorem c93_string_false :
    (match procInput exTree true false "info \"a;step\"".toList none with
     | some (.acts a _) => a.map (fun x => match x with
        | .work p _ => p
        | .undefined p _ => 99 :: p
        | _ => [])
     | _ => []) = [[99, 3], []] ∧
    (match procInput exTree true false "info \"a;s;\"".toList none with
     | some (.acts a _) => a.map (fun x => match x with
        | .work p _ => p
        | .undefined p _ => 99 :: p
        | _ => [])
     | _ => []) = [[99, 3], [2], []] := by
  decide +kernel

/-- C93 is false of the program: the value of a command that ends the session is overwritten
by the next command of the line: after `quit;pc` the session goes on. -/
theorem c93_quit_false :
    let ret := fun (p : List Nat) (_ : Line) => if p = [0] then (1 : Int) else 0
    (match procInput exTree true false "quit".toList none with
     | some (.acts a _) => retval ret a 0
     | _ => 0) = 1 ∧
    (match procInput exTree true false "quit;pc".toList none with
     | some (.acts a _) => retval ret a 0
     | _ => 1) = 0 := by
  decide +kernel

/-! ## C94: names of commands -/

/-- C94.  A name finds a command exactly when it is the name of it (the first one with this
name), or else abbreviates the name of this command and of no other. -/
theorem c94_lookup (set : List Command) (n : Text) (i : Nat) : getCmd set (some n) = some i ↔ Means set n i :=
  getCmd_iff set n i

/-- C94.  A command with its arguments is run, and nothing else; words that lead to a
subcommand run that, with the rest of the arguments. -/
theorem c94_run (tree : Tree) (inter : Bool) (last : Option Nat) (w : Written) (e : End) (h : w.Ok e) (he : e.rest = none)
    (hd : w.text.head? ≠ some '\x04')
    (i : Nat) (c d : Command) (hm : Means (tree []) w.name i) (hc : (tree [])[i]? = some c) (ns : List (Text × Text))
    (hns : ∀ x ∈ ns, x.1.head? ≠ some '\n') (r : List (Item × Text))
    (ha : w.args = ns.map (fun x => (Item.name x.1, x.2)) ++ r) (q : List Nat) (hl : Leads tree [i] c (ns.map (·.1)) q d) (hs : d.super = false) :
    ∃ m : Line, procInput tree inter false (w.text ++ e.text) last = some (.acts [.work q m] (if c.canRepeat then some i else none)) ∧
      m.name = some ((ns.map (·.1)).getLastD w.name) ∧ m.params = r.flatMap (·.1.args) := by
  have hdd : (w.text ++ e.text).head? ≠ some '\x04' := by
    obtain ⟨c, t, hc⟩ := written_cons h
    rw [hc] at hd ⊢
    simpa using hd
  have hlen : ns.length ≤ w.text.length := by
    have l1 : ∀ (l : List (Item × Text)), ArgsOk e l → l.length ≤ (argsText l).length := by
      intro l
      induction l with
      | nil => intro _; simp
      | cons p q ih =>
        intro ho
        obtain ⟨x, s⟩ := p
        have := ih ho.2.2.2
        obtain ⟨c, t, hx, _⟩ := item_first ho.1
        simp [argsText, hx]; omega
    have := l1 _ h.args
    rw [ha] at this
    simp only [Written.text, List.length_append, List.length_map] at this ⊢
    rw [ha]
    omega
  obtain ⟨m, h1, h2, h3, h4, h5⟩ := work_path tree ns [i] q d c w e (lineOf w none) r w.text.length hl hns hs h ha rfl rfl rfl rfl hlen
  refine ⟨m, ?_, h3, h4⟩
  have hr : round tree inter last (lineOf w none) =
      some { acts := [.work q m], rest := none, last := if c.canRepeat then some i else none } := by
    unfold round
    rw [show (lineOf w none).name = some w.name from rfl, show (lineOf w none).cmd = w.text from rfl]
    simp only [Option.some.injEq, name_ne h, false_and, if_false, (getCmd_iff _ _ _).2 hm, Option.bind_some, hc, Option.map_some, h1]
    have : m.rest = none := by rw [h2]; rfl
    rw [this]
    simp
  unfold procInput
  rw [if_neg (by simp), if_neg hdd]
  unfold procLoop
  rw [split_written h, he]
  show Option.map _ (match round tree inter last (lineOf w none) with | none => none | some r => _) = _
  rw [hr]
  rfl

/-- C94.  An empty line at an interactive console runs the last command again, without
arguments, if that can be repeated; it does nothing otherwise. -/
theorem c94_repeat (tree : Tree) (hn : ∀ c ∈ tree [], ∀ m ∈ c.names, m.head? ≠ some '\n') (i : Nat) (c : Command)
    (hc : (tree [])[i]? = some c) (hs : c.super = false) (hr : c.canRepeat = true) :
    (∃ m : Line, procInput tree true false [] (some i) = some (.acts [.work [i] m] (some i)) ∧ m.params = []) ∧
    (∀ inter, procInput tree inter false [] none = some (.acts [] none)) ∧
    procInput tree false false [] (some i) = some (.acts [] none) := by
  have g : getCmd (tree []) (some ['\n']) = none := by
    cases hg : getCmd (tree []) (some ['\n']) with
    | none => rfl
    | some k =>
      obtain ⟨d, hd, m, hm, hp⟩ := means_abbr ((getCmd_iff _ _ _).1 hg)
      have := hn d (List.mem_of_getElem? hd) m hm
      obtain ⟨u, rfl⟩ := hp
      simp at this
  refine ⟨⟨{ name := some ['\n'] }, ?_, rfl⟩, ?_, ?_⟩
  · unfold procInput procLoop
    simp [split, round, hc, workCmd, hs, hr]
  · intro inter
    unfold procInput procLoop
    simp [split, round, g]
  · unfold procInput procLoop
    simp [split, round, g]

/-- The commands of the example. -/
example : Means (exTree []) "st".toList 2 ∧ Means (exTree []) "s".toList 2 ∧ (∀ i, ¬ Means (exTree []) "p".toList i) := by
  refine ⟨?_, ?_, fun i => ?_⟩
  · rw [← getCmd_iff]; decide +kernel
  · rw [← getCmd_iff]; decide +kernel
  · rw [← getCmd_iff]
    rw [show getCmd (exTree []) (some "p".toList) = none by decide +kernel]
    simp

example : ∃ m : Line, procInput exTree true false " inf reg".toList (some 2) = some (.acts [.work [3, 0] m] none) ∧ m.params = [] := by
  have ok := (exABC_ok exB (by simp)).1
  have hm : Means (exTree []) exB.name 3 := by rw [← getCmd_iff]; decide +kernel
  have hm2 : Means (exTree [3]) "reg".toList 0 := by rw [← getCmd_iff]; decide +kernel
  obtain ⟨m, h, _, h2⟩ := c94_run exTree true (some 2) exB .eol (written_end ok (by decide)) rfl (by decide) 3 _ _ hm rfl
    [("reg".toList, [])] (by decide) [] rfl [3, 0] (.sub rfl hm2 rfl (.here _ _)) rfl
  refine ⟨m, ?_, h2⟩
  rw [← show exB.text ++ End.eol.text = " inf reg".toList by decide +kernel]
  exact h

example : ∃ m : Line, procInput exTree true false [] (some 2) = some (.acts [.work [2] m] (some 2)) ∧ m.params = [] :=
  (c94_repeat exTree (by decide) 2 _ rfl rfl rfl).1

/-- C94 is false of the program: an empty line with a blank in it does not repeat the command,
and makes the console forget it; so does a comment, and a blank after the last `;`. -/
theorem c94_blank_false :
    procInput exTree true false " ".toList (some 2) = some (.acts [] none) ∧
    (match procInput exTree true false "step; ".toList none with
     | some (.acts _ l) => l
     | _ => some 77) = none ∧
    (match procInput exTree true false "step;".toList none with
     | some (.acts _ l) => l
     | _ => some 77) = some 2 := by
  decide +kernel

/-- C94 is false of the program: a line entered while the simulation runs stops it, whatever
it says, and is not executed. -/
theorem c94_frozen (tree : Tree) (inter : Bool) (t : Text) (last : Option Nat) :
    procInput tree inter true t last = some .stopSim := rfl

end Ucsim.Cmd
