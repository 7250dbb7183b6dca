import Verif.Proof.EditHist

/-
C80 .. C83: the command line of an interactive console.

C80  What the user types and edits is what the console gets: whatever keys are pressed, on every
     kind of terminal, the line has the text and the cursor the keys call for, and every line ended
     with Enter is handed to the command interpreter, once, in order, unchanged, however the
     operating system cuts the characters into pieces.
C81  The terminal always shows the line that is being edited, with the cursor at its place.
C82  Up and Down show the lines entered before, and Down comes back to the line that was being
     typed; looking does not change the history.
C83  No sequence of characters makes the editor write outside of its buffers.
-/
namespace Ucsim.Fio

/-! ### C80 -/

/-- editing: `s` is the session of Spec/Edit.lean -/
theorem c80_edit_partial (junk : Nat → Int) (mem : Nat → Byte) (nl : List Byte) (hn : nl ∈ newlines)
    (ks : List Key) (bs : List Byte) (hs : Sends nl ks bs) :
    str ((Ed.init junk mem).feed bs).line 0 = (Sess.new.keys ks).text ∧
    ((Ed.init junk mem).feed bs).cursor = (Sess.new.keys ks).before.length := by
  have h := (inv_init nl junk mem).feeds hn hs
  refine ⟨?_, h.core.rep.cur⟩
  have := h.core.rep.line.str 0 (Nat.zero_le _)
  rw [this]
  rfl

/-- a session of up to 1023 characters in all (with the newlines), with any keys -/
theorem c80_lines_partial (junk : Nat → Int) (mem : Nat → Byte) (nl : List Byte) (hn : nl ∈ newlines)
    (ks : List Key) (bs : List Byte) (hs : Sends nl ks bs)
    (hl : ((Sess.new.keys ks).entered.flatMap (· ++ [10])).length ≤ 1023) (os : List Os) :
    ((Tty.init junk mem bs).polls os).con.lines <+: (Sess.new.keys ks).entered ∧
    (bs.length + (Sess.new.keys ks).entered.length ≤ (os.filter (· ≠ .nothing)).length →
      ((Tty.init junk mem bs).polls os).con.lines = (Sess.new.keys ks).entered) := by
  have he : (Sess.new.keys ks).entered = emitLs (Ed.init junk mem) bs := (inv_init nl junk mem).emits hn hs
  rw [he] at hl ⊢
  exact tty_lines junk mem bs (fits_short _ _ hl) os

/-- a session of any length, without the history, with lines of up to 924 characters -/
theorem c80_long_partial (junk : Nat → Int) (mem : Nat → Byte) (nl : List Byte) (hn : nl ∈ newlines)
    (ks : List Key) (bs : List Byte) (hs : Sends nl ks bs) (hu : Key.up ∉ ks) (hd : Key.down ∉ ks)
    (ht : ∀ ks1 ks2, ks = ks1 ++ ks2 → (Sess.new.keys ks1).text.length ≤ 924) (os : List Os) :
    ((Tty.init junk mem bs).polls os).con.lines <+: (Sess.new.keys ks).entered ∧
    (bs.length + (Sess.new.keys ks).entered.length ≤ (os.filter (· ≠ .nothing)).length →
      ((Tty.init junk mem bs).polls os).con.lines = (Sess.new.keys ks).entered) := by
  have he : (Sess.new.keys ks).entered = emitLs (Ed.init junk mem) bs := (inv_init nl junk mem).emits hn hs
  rw [he]
  exact tty_lines junk mem bs (quiet_fits junk mem bs ((inv_init nl junk mem).quiet hn hs hu hd ht)) os

/-- "rum", Backspace, "n", Home, Del, Insert, "R", Enter (CR LF) enters "Run"; typed and then read
in pieces of two characters -/
def demoKeys : List Key :=
  [.char 114, .char 117, .char 109, .bs, .char 110, .home, .del, .ignored, .char 82, .enter]
def demoBytes : List Byte :=
  [114, 117, 109, 127, 110, 27, 91, 72, 27, 91, 51, 126, 27, 91, 50, 126, 82, 13, 10]

theorem demo_sends : Sends [13, 10] demoKeys demoBytes := by
  refine .cons (cs := [114]) (by decide) <| .cons (cs := [117]) (by decide) <| .cons (cs := [109]) (by decide) <|
    .cons (cs := [127]) (by decide) <| .cons (cs := [110]) (by decide) <| .cons (cs := [27, 91, 72]) (by decide) <|
    .cons (cs := [27, 91, 51, 126]) (by decide) <| .cons (cs := [27, 91, 50, 126]) (by decide) <|
    .cons (cs := [82]) (by decide) <| .cons (cs := [13, 10]) (bs := []) (by decide) .nil

example : (Sess.new.keys demoKeys).entered = [[82, 117, 110]] := by decide
example : ((Tty.init (fun _ => 7) (fun _ => 9) demoBytes).polls (List.replicate 11 (.data 1))).con.lines =
    [[82, 117, 110]] := by decide +kernel
example : [13, 10] ∈ newlines ∧ Key.up ∉ demoKeys ∧ Key.down ∉ demoKeys := by decide
example : ((Sess.new.keys demoKeys).entered.flatMap (· ++ [10])).length ≤ 1023 := by decide
example : ∀ ks1 ks2, demoKeys = ks1 ++ ks2 → (Sess.new.keys ks1).text.length ≤ 924 := by
  intro k1 k2 h
  have : ∀ n ≤ 10, (Sess.new.keys (demoKeys.take n)).text.length ≤ 924 := by decide
  have hk : k1 = demoKeys.take k1.length := by rw [h]; simp
  have hl : k1.length ≤ 10 := by
    have := congrArg List.length h
    rw [List.length_append] at this
    have h10 : demoKeys.length = 10 := rfl
    omega
  rw [hk]
  exact this _ hl

/-- the code takes characters above 0x7f for keys: 0xf6 is Up, and the line is gone -/
theorem c80_false_high : ∃ bs : List Byte, bs = [97, 0xf6] ∧
    str ((Ed.init (fun _ => 0) (fun _ => 0)).feed [97]).line 0 = [97] ∧
    str ((Ed.init (fun _ => 0) (fun _ => 0)).feed bs).line 0 = [] :=
  ⟨_, rfl, by decide +kernel, by decide +kernel⟩

/-- Enter is not noticed if it comes as CR after a line that was ended with LF -/
theorem c80_false_newline :
    ((Tty.init (fun _ => 0) (fun _ => 0) [97, 10, 98, 13]).polls (List.replicate 9 (.data 0))).con.lines =
      [[97]] ∧
    str ((Ed.init (fun _ => 0) (fun _ => 0)).feed [97, 10, 98, 13]).line 0 = [98] := by
  constructor <;> decide +kernel

/-- an escape sequence that the editor does not know (Shift-Tab is ESC [ Z) swallows what is typed
after it -/
theorem c80_false_escape :
    str ((Ed.init (fun _ => 0) (fun _ => 0)).feed [27, 91, 90, 97, 98]).line 0 = [] := by decide +kernel

/-- the newline of a line of 1023 characters is lost: the console does not get the line until the
next one is ended, and then they are one line -/
theorem c80_false_full (junk : Nat → Int) (mem : Nat → Byte) (l : List Byte) (hl : l.length = 1023)
    (hc : ∀ c ∈ l, 32 ≤ c ∧ c ≤ 126) : ∃ ks bs, Sends [10] ks bs ∧
    (Sess.new.keys ks).entered = [l] ∧
    ((Ed.init junk mem).feed bs).ring.items = l.map BitVec.toInt := by
  have hs : Sends [10] (l.map .char ++ [.enter]) (l ++ [10]) :=
    (sends_chars _ hc).append (.cons (cs := [10]) (bs := []) (by decide) .nil)
  have he : (Sess.new.keys (l.map .char ++ [.enter])).entered = [l] := by
    rw [keys_append, keys_chars l Sess.new rfl (by rw [hl]; exact Nat.le_refl _)]
    show [[] ++ l ++ []] = [l]
    simp
  refine ⟨_, _, hs, he, ?_⟩
  have h := ((inv_init [10] junk mem).feeds (by decide) hs).ring
  rw [h, he, full_line (Ring.ok_init _) (Ring.items_init _) _ hl]

example : ∃ l : List Byte, l.length = 1023 ∧ ∀ c ∈ l, 32 ≤ c ∧ c ≤ 126 :=
  ⟨List.replicate 1023 120, List.length_replicate, fun c hc => by
    rw [(List.mem_replicate.1 hc).2]; decide⟩

/-! ### C81 -/

/-- as long as no line is ended: the screen shows the line after the prompt (`p` columns), the
cursor is at its place, and the prompt is untouched.  The characters are any characters. -/
theorem c81_shows (junk : Nat → Int) (mem : Nat → Byte) (bs : List Byte) (h : ∀ b ∈ bs, b ≠ 10 ∧ b ≠ 13)
    (sc : Screen) (p : Nat) (hp : sc.Shows p [] 0) :
    (sc.ops ((Ed.init junk mem).feed bs).echo).Shows p
      (str ((Ed.init junk mem).feed bs).line 0) ((Ed.init junk mem).feed bs).cursor ∧
    ∀ i, i < p → (sc.ops ((Ed.init junk mem).feed bs).echo).row i = sc.row i := by
  obtain ⟨s, ts, p', h1, h2, h3, h4, h5⟩ := feed_any (safe_init junk mem) bs p
  have hpp := h5 h
  subst hpp
  obtain ⟨a1, a2⟩ := h3 sc hp
  have e1 : str ((Ed.init junk mem).feed bs).line 0 = s.text := by
    rw [h1.core.rep.line.str 0 (Nat.zero_le _)]; rfl
  have e2 : ((Ed.init junk mem).feed bs).echo = ts := h2
  rw [e1, h1.core.rep.cur, e2]
  exact ⟨a1, a2 rfl⟩

/-- any characters, with ends of lines too: the line begins after the prompt or, if a line was
ended, at the left margin of a new row -/
theorem c81_shows_any (junk : Nat → Int) (mem : Nat → Byte) (bs : List Byte) (sc : Screen) (p : Nat)
    (hp : sc.Shows p [] 0) : ∃ p', (p' = p ∨ p' = 0) ∧
    (sc.ops ((Ed.init junk mem).feed bs).echo).Shows p'
      (str ((Ed.init junk mem).feed bs).line 0) ((Ed.init junk mem).feed bs).cursor := by
  obtain ⟨s, ts, p', h1, h2, h3, h4, h5⟩ := feed_any (safe_init junk mem) bs p
  have e1 : str ((Ed.init junk mem).feed bs).line 0 = s.text := by
    rw [h1.core.rep.line.str 0 (Nat.zero_le _)]; rfl
  have e2 : ((Ed.init junk mem).feed bs).echo = ts := h2
  refine ⟨p', h4, ?_⟩
  rw [e1, h1.core.rep.cur, e2]
  exact (h3 sc hp).1

/-- the prompt "> " is on the screen; "rum" Left Backspace "a" gives "> ram" with the cursor on m -/
def prompt : Screen := ⟨fun i => if i = 0 then 62 else 32, 2, 0⟩
example : prompt.Shows 2 [] 0 := ⟨fun i => by simp [prompt], rfl⟩
def demoScreen : Screen :=
  prompt.ops ((Ed.init (fun _ => 0) (fun _ => 0)).feed [114, 117, 109, 27, 91, 68, 127, 97]).echo
example : (List.range 6).map demoScreen.row = [62, 32, 114, 97, 109, 32] ∧ demoScreen.col = 4 := by decide +kernel

/-! ### C82 -/

/-- After any session of typing, editing and entering (without Up and Down, up to 1000 lines that
are not empty) whose current line is empty, any sequence of Up (`true`) and Down (`false`) shows the
lines entered before: position `nav`, clamped between the oldest line and the empty line after the
newest one.  The history itself remains as it was. -/
theorem c82_browse_partial (junk : Nat → Int) (mem : Nat → Byte) (nl : List Byte) (hn : nl ∈ newlines)
    (ks : List Key) (us : List Bool) (bs : List Byte) (hs : Sends nl (ks ++ us.map udKey) bs)
    (hu : Key.up ∉ ks) (hd : Key.down ∉ ks) (he : (Sess.new.keys ks).text = [])
    (hl : ((Sess.new.keys ks).entered.filter (· ≠ [])).length ≤ 1000) :
    let past := (Sess.new.keys ks).entered.filter (· ≠ [])
    str ((Ed.init junk mem).feed bs).line 0 = past.getD (nav past.length past.length us) [] ∧
    ((Ed.init junk mem).feed bs).hist = past := by
  have hp := hist_plain ks Sess.new hu hd rfl rfl hl
  have hb := browse us (Sess.new.keys ks) (by rw [hp.2]; exact Nat.le_refl _) (by
    rw [he, hp.2]; simp [List.getD])
  have h := (inv_init nl junk mem).feeds hn hs
  have ht := (c80_edit_partial junk mem nl hn _ bs hs).1
  rw [keys_append] at h ht
  refine ⟨?_, ?_⟩
  · rw [ht, hb.2.2.2, hp.2, hp.1]; rfl
  · rw [h.core.hist, hb.1, hp.1]; rfl

/-- "a" Enter "b" Enter, Up Up Down -/
example : (Sess.new.keys [.char 97, .enter, .char 98, .enter]).text = [] := by decide
example : str ((Ed.init (fun _ => 0) (fun _ => 0)).feed
    [97, 10, 98, 10, 27, 91, 65, 27, 91, 65]).line 0 = [97] := by decide +kernel
example : nav 2 2 [true, true] = 0 ∧ nav 2 2 [true, true, false] = 1 := by decide

/-- what was being typed is lost: "a" Enter "b" Up Down -/
theorem c82_false_draft :
    str ((Ed.init (fun _ => 0) (fun _ => 0)).feed [97, 10, 98]).line 0 = [98] ∧
    str ((Ed.init (fun _ => 0) (fun _ => 0)).feed [97, 10, 98, 27, 91, 65, 27, 91, 66]).line 0 = [] := by
  constructor <;> decide +kernel

/-- a line that was looked at and edited but not entered replaces the one in the history:
"a" Enter Up "b" Down, Enter leaves "ab" there -/
theorem c82_false_edit :
    ((Ed.init (fun _ => 0) (fun _ => 0)).feed [97, 10, 27, 91, 65, 98, 27, 91, 66, 10]).hist = [[97, 98]] ∧
    ((Tty.init (fun _ => 0) (fun _ => 0) [97, 10, 27, 91, 65, 98, 27, 91, 66, 10]).polls
      (List.replicate 9 (.data 9))).con.lines = [[97], []] := by
  constructor <;> decide +kernel

/-! ### C83 -/

/-- the line buffer is safe whatever characters come -/
theorem c83_line_partial (junk : Nat → Int) (mem : Nat → Byte) (bs : List Byte) :
    ((Ed.init junk mem).feed bs).oobLine = false ∧
    ((Ed.init junk mem).feed bs).cursor ≤ (str ((Ed.init junk mem).feed bs).line 0).length ∧
    (str ((Ed.init junk mem).feed bs).line 0).length ≤ 1023 := by
  obtain ⟨s, ts, p', h1, h2, h3, h4, h5⟩ := feed_any (safe_init junk mem) bs 0
  have e1 : str ((Ed.init junk mem).feed bs).line 0 = s.before ++ s.after := by
    rw [h1.core.rep.line.str 0 (Nat.zero_le _)]; rfl
  refine ⟨h1.bad, ?_, ?_⟩
  · rw [e1, h1.core.rep.cur, List.length_append]; omega
  · rw [e1]; exact h1.core.rep.line.len

/-- the keys of terminals are safe -/
theorem c83_keys_partial (junk : Nat → Int) (mem : Nat → Byte) (nl : List Byte) (hn : nl ∈ newlines)
    (ks : List Key) (bs : List Byte) (hs : Sends nl ks bs) :
    ((Ed.init junk mem).feed bs).oobLine = false ∧ ((Ed.init junk mem).feed bs).oobEsc = false ∧
    ((Ed.init junk mem).feed bs).badChar = false := by
  have h := (inv_init nl junk mem).feeds hn hs
  exact ⟨h.bad, h.badE, h.badC⟩

example : str ((Ed.init (fun _ => 0) (fun _ => 0)).feed [97, 255, 251, 31, 98, 0, 27, 97, 128]).line 0 =
    [97, 98, 97] := by decide +kernel

/-- ESC [ and 98 more characters overrun the buffer for escape sequences -/
theorem c83_false_escape :
    ((Ed.init (fun _ => 0) (fun _ => 0)).feed ([27, 91] ++ List.replicate 98 49)).oobEsc = true := by
  decide +kernel

/-- a mouse report with an unknown button makes the editor call isprint() with a value that is not
a character -/
theorem c83_false_mouse :
    ((Ed.init (fun _ => 0) (fun _ => 0)).feed [27, 91, 77, 35, 33, 33]).badChar = true := by
  decide +kernel

end Ucsim.Fio
