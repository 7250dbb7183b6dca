import Verif.Proof.EditOps

/- Keys as sequences of characters; the editor follows the session of Spec/Edit.lean. -/
namespace Ucsim.Fio

/-- `cs` is a complete key: its code and its last character -/
def runEsc (esc : List Byte) : List Byte → Option (Int × Byte)
  | [] => none
  | c :: cs =>
    let r := processEsc esc c
    if r.2.2 = true then none
    else if cs = [] then (if r.1 = [] then some (r.2.1, c) else none)
    else if r.2.1 = 0 then runEsc r.1 cs else none

theorem process_eq (e : Ed) (c : Byte) : e.process c =
    if (processEsc e.esc c).2.1 = 0 then
      { e with esc := (processEsc e.esc c).1, oobEsc := e.oobEsc || (processEsc e.esc c).2.2, lastLn := 0 }
    else Ed.key { e with esc := (processEsc e.esc c).1,
                         oobEsc := e.oobEsc || (processEsc e.esc c).2.2 } (processEsc e.esc c).2.1 c := rfl

theorem feed_cons (e : Ed) (c : Byte) (cs : List Byte) : e.feed (c :: cs) = (e.process c).feed cs := rfl
theorem feed_nil (e : Ed) : e.feed [] = e := rfl
theorem feed_append (e : Ed) (a b : List Byte) : e.feed (a ++ b) = (e.feed a).feed b := by
  simp [Ed.feed]

/-- the state in which the key is acted on -/
def Ed.ready (e : Ed) (cs : List Byte) : Ed :=
  { e with esc := [], lastLn := if cs.length = 1 then e.lastLn else 0 }

theorem feed_run (cs : List Byte) (e : Ed) {k c} (h : runEsc e.esc cs = some (k, c)) :
    e.feed cs = if k = 0 then { e with esc := [], lastLn := 0 } else (e.ready cs).key k c := by
  induction cs generalizing e with
  | nil => simp [runEsc] at h
  | cons x cs ih =>
    unfold runEsc at h
    simp only [] at h
    rw [feed_cons, process_eq]
    generalize hr : processEsc e.esc x = r at h ⊢
    obtain ⟨esc', k', over⟩ := r
    simp only [] at h ⊢
    by_cases ho : over = true
    · rw [if_pos ho] at h; cases h
    rw [if_neg ho] at h
    have ho : over = false := by simpa using ho
    subst ho
    simp only [Bool.or_false]
    by_cases hc : cs = []
    · subst hc
      rw [if_pos rfl] at h
      by_cases he : esc' = []
      · subst he
        rw [if_pos rfl] at h
        cases h
        simp only [feed_nil]
        split
        · rfl
        · rfl
      · rw [if_neg he] at h; cases h
    · rw [if_neg hc] at h
      by_cases hk : k' = 0
      · rw [if_pos hk] at h
        rw [if_pos hk]
        rw [ih _ h]
        have : (x :: cs).length ≠ 1 := by
          cases cs with
          | nil => exact absurd rfl hc
          | cons y ys => simp
        simp only [Ed.ready, if_neg this]
        split
        · rfl
        · congr 2
          simp
      · rw [if_neg hk] at h; cases h

/-- the code of a key (newline and characters apart) -/
def keyCode : Key → Int → Prop
  | .left, k => k = TU_LEFT
  | .right, k => k = TU_RIGHT
  | .home, k => k = TU_HOME ∨ k = 1
  | .last, k => k = TU_END ∨ k = 5
  | .up, k => k = TU_UP
  | .down, k => k = TU_DOWN
  | .del, k => k = TU_DEL
  | .bs, k => k = 127 ∨ k = 8
  | .kill, k => k = 11
  | .ignored, k => k = 0 ∨ (-31 ≤ k ∧ k ≤ -16 ∧ k ≠ -18)
  | .char b, k => k = b.toInt ∧ 32 ≤ k ∧ k ≤ 126
  | .enter, _ => False

instance (key k) : Decidable (keyCode key k) := by
  cases key <;> unfold keyCode <;> infer_instance

theorem runEsc_codes (nl : List Byte) (key : Key) (hk : key ≠ .enter) (cs : List Byte)
    (h : cs ∈ codes nl key) : ∃ k c, runEsc [] cs = some (k, c) ∧ keyCode key k := by
  have gen : ∀ (l : List (List Byte)), (l.all fun cs =>
      match runEsc [] cs with
      | some (k, _) => decide (keyCode key k)
      | none => false) = true → cs ∈ l → ∃ k c, runEsc [] cs = some (k, c) ∧ keyCode key k := by
    intro l hl hm
    have := List.all_eq_true.1 hl cs hm
    revert this
    cases hr : runEsc [] cs with
    | none => simp
    | some r =>
      obtain ⟨k, c⟩ := r
      intro this
      exact ⟨k, c, rfl, by simpa using this⟩
  cases key with
  | enter => exact absurd rfl hk
  | char c =>
    change cs ∈ (if 32 ≤ c ∧ c ≤ 126 then [[c]] else []) at h
    by_cases hc : 32 ≤ c ∧ c ≤ 126
    · rw [if_pos hc] at h
      have : cs = [c] := by simpa using h
      subst this
      have : ∀ c : Byte, (32 ≤ c ∧ c ≤ 126) → runEsc [] [c] = some (c.toInt, c) ∧
          keyCode (.char c) c.toInt := by decide +kernel
      exact ⟨_, _, this c hc⟩
    · rw [if_neg hc] at h; cases h
  | left => exact gen (codes [] .left) (by decide +kernel) h
  | right => exact gen (codes [] .right) (by decide +kernel) h
  | home => exact gen (codes [] .home) (by decide +kernel) h
  | last => exact gen (codes [] .last) (by decide +kernel) h
  | del => exact gen (codes [] .del) (by decide +kernel) h
  | bs => exact gen (codes [] .bs) (by decide +kernel) h
  | kill => exact gen (codes [] .kill) (by decide +kernel) h
  | up => exact gen (codes [] .up) (by decide +kernel) h
  | down => exact gen (codes [] .down) (by decide +kernel) h
  | ignored => exact gen (codes [] .ignored) (by decide +kernel) h

/-- the newline state between keys of a terminal that sends `nl` for Enter -/
def LnOk (nl : List Byte) (l : Int) : Prop :=
  l = 0 ∨ (nl = [10] ∧ l = 10) ∨ (nl = [13] ∧ l = 13)

/-- what reaches the reader of the terminal -/
def outBytes (ls : List (List Byte)) : List Byte := ls.flatMap (· ++ [10])

theorem left_same (e : Ed) : e.goLeft.hist = e.hist ∧ e.goLeft.nr = e.nr := by
  unfold Ed.goLeft; split <;> exact ⟨rfl, rfl⟩
theorem right_same (e : Ed) : e.goRight.hist = e.hist ∧ e.goRight.nr = e.nr := by
  unfold Ed.goRight; split <;> exact ⟨rfl, rfl⟩
theorem home_same (e : Ed) : e.goHome.hist = e.hist ∧ e.goHome.nr = e.nr := by
  unfold Ed.goHome; split <;> exact ⟨rfl, rfl⟩
theorem end_same (e : Ed) : e.goEnd.hist = e.hist ∧ e.goEnd.nr = e.nr := by
  unfold Ed.goEnd; simp only []; split <;> exact ⟨rfl, rfl⟩
theorem bs_same (e : Ed) : e.backspace.hist = e.hist ∧ e.backspace.nr = e.nr := by
  unfold Ed.backspace; simp only []; split <;> exact ⟨rfl, rfl⟩
theorem del_same (e : Ed) : e.delete.hist = e.hist ∧ e.delete.nr = e.nr := by
  unfold Ed.delete; simp only []; split <;> exact ⟨rfl, rfl⟩
theorem insert_same (e : Ed) (k c) : (e.insert k c).hist = e.hist ∧ (e.insert k c).nr = e.nr := by
  unfold Ed.insert; simp only []; split
  · split <;> exact ⟨rfl, rfl⟩
  · exact ⟨rfl, rfl⟩

/-- the editor is in the state of the session -/
structure Core (e : Ed) (s : Sess) : Prop where
  rep : Rep e s.before s.after
  hist : e.hist = s.hist
  nr : e.nr = s.pos
  hok : HistOk s.hist

/-- a key that edits -/
structure Step (e : Ed) (s : Sess) (e' : Ed) (s' : Sess) : Prop where
  core : Core e' s'
  eff : Eff e e' s.before s.after s'.before s'.after
  ent : s'.entered = s.entered

theorem Core.step {e s} (h : Core e s) {e' : Ed} {s' : Sess}
    (he : Eff e e' s.before s.after s'.before s'.after) (hs : e'.hist = e.hist ∧ e'.nr = e.nr)
    (h1 : s'.hist = s.hist) (h2 : s'.pos = s.pos) (hen : s'.entered = s.entered) : Step e s e' s' :=
  ⟨⟨he.rep, by rw [hs.1, h1, h.hist], by rw [hs.2, h2, h.nr], by rw [h1]; exact h.hok⟩, he, hen⟩

theorem histOk_set {h : List (List Byte)} (hh : HistOk h) {l : List Byte} (n : Nat)
    (hl : l.length ≤ 1023 ∧ ∀ c ∈ l, Printable c) : HistOk (h.set n l) := by
  intro x hx
  rcases List.mem_or_eq_of_mem_set hx with h1 | h1
  · exact hh x h1
  · rw [h1]; exact hl

theorem histReplace_eq (h : List (List Byte)) (n : Nat) (l : List Byte) : histReplace h n l = h.set n l := by
  unfold histReplace
  split
  · rfl
  · rw [List.set_eq_of_length_le (by omega)]

theorem Core.recall {e s} (h : Core e s) (pos : Nat) :
    Step e s (e.recall (s.hist.set s.pos s.text, pos, (s.hist.set s.pos s.text)[pos]?)) (s.recall pos) := by
  have hok : HistOk (s.hist.set s.pos s.text) := histOk_set h.hok _ ⟨h.rep.line.len, h.rep.line.pr⟩
  obtain ⟨e1, e2, e3⟩ := eff_recall h.rep
    (s.hist.set s.pos s.text, pos, (s.hist.set s.pos s.text)[pos]?)
    (fun l hl => hok l (List.mem_of_getElem? hl))
  have : (s.recall pos).before = ((s.hist.set s.pos s.text)[pos]?).getD [] := by
    simp [Sess.recall, List.getD]
  rw [← this] at e1
  exact ⟨⟨e1.rep, e2, e3, hok⟩, e1, rfl⟩

theorem Core.text {e s} (h : Core e s) : chars e.line 0 (strlen e.line) = s.text := h.rep.line.all

theorem key_left {e s} (h : Core e s) : Step e s e.goLeft (s.key .left) := by
  obtain ⟨b, a, hi, po, en⟩ := s
  have hr : Rep e b a := h.rep
  rcases hb : b.getLast? with _ | x
  · have hb0 : b = [] := by simpa using hb
    subst hb0
    exact h.step (eff_left0 hr) (left_same e) rfl rfl rfl
  · obtain ⟨b', hb'⟩ : ∃ b', b = b' ++ [x] := by
      have := List.getLast?_eq_some_iff.1 hb
      exact this
    subst hb'
    have : Sess.key ⟨b' ++ [x], a, hi, po, en⟩ .left = ⟨b', x :: a, hi, po, en⟩ := by
      simp [Sess.key]
    rw [this]
    exact h.step (eff_left hr) (left_same e) rfl rfl rfl

theorem key_right {e s} (h : Core e s) : Step e s e.goRight (s.key .right) := by
  obtain ⟨b, a, hi, po, en⟩ := s
  have hr : Rep e b a := h.rep
  cases a with
  | nil => exact h.step (eff_right0 hr) (right_same e) rfl rfl rfl
  | cons x a => exact h.step (eff_right hr) (right_same e) rfl rfl rfl

theorem key_bs {e s} (h : Core e s) : Step e s e.backspace (s.key .bs) := by
  obtain ⟨b, a, hi, po, en⟩ := s
  have hr : Rep e b a := h.rep
  rcases hb : b.getLast? with _ | x
  · have hb0 : b = [] := by simpa using hb
    subst hb0
    exact h.step (eff_bs0 hr) (bs_same e) rfl rfl rfl
  · obtain ⟨b', hb'⟩ : ∃ b', b = b' ++ [x] := List.getLast?_eq_some_iff.1 hb
    subst hb'
    have : Sess.key ⟨b' ++ [x], a, hi, po, en⟩ .bs = ⟨b', a, hi, po, en⟩ := by
      simp [Sess.key]
    rw [this]
    exact h.step (eff_bs hr) (bs_same e) rfl rfl rfl

theorem key_del {e s} (h : Core e s) : Step e s e.delete (s.key .del) := by
  obtain ⟨b, a, hi, po, en⟩ := s
  have hr : Rep e b a := h.rep
  cases a with
  | nil => exact h.step (eff_del0 hr) (del_same e) rfl rfl rfl
  | cons x a => exact h.step (eff_del hr) (del_same e) rfl rfl rfl

theorem key_home {e s} (h : Core e s) : Step e s e.goHome (s.key .home) :=
  h.step (s' := s.key .home) (eff_home h.rep) (home_same e) rfl rfl rfl

theorem key_end {e s} (h : Core e s) : Step e s e.goEnd (s.key .last) :=
  h.step (s' := s.key .last) (eff_end h.rep) (end_same e) rfl rfl rfl

theorem key_kill {e s} (h : Core e s) : Step e s e.clear (s.key .kill) := by
  obtain ⟨h1, h2, h3⟩ := eff_clear h.rep
  exact h.step (s' := s.key .kill) h1 ⟨h2, h3⟩ rfl rfl rfl

theorem key_char {e s} (h : Core e s) {k : Byte} (hk : Printable k) :
    Step e s (e.insert k k) (s.key (.char k)) := by
  by_cases hl : s.text.length < 1023
  · have : s.key (.char k) = { s with before := s.before ++ [k] } := by
      simp only [Sess.key, hl, if_true]
    rw [this]
    exact h.step (s' := { s with before := s.before ++ [k] }) (eff_insert h.rep hk hl)
      (insert_same e k k) rfl rfl rfl
  · have : s.key (.char k) = s := by
      simp only [Sess.key, hl, if_false]
    rw [this]
    exact h.step (eff_insert_full h.rep hl) (insert_same e k k) rfl rfl rfl

theorem key_up {e s} (h : Core e s) :
    Step e s (e.recall (histUp e.hist e.nr (chars e.line 0 (strlen e.line)))) (s.key .up) := by
  have : histUp e.hist e.nr (chars e.line 0 (strlen e.line)) =
      (s.hist.set s.pos s.text, s.pos - 1, (s.hist.set s.pos s.text)[s.pos - 1]?) := by
    rw [h.text, h.hist, h.nr]
    simp only [histUp, histReplace_eq]
    have : (if s.pos > 0 then s.pos - 1 else s.pos) = s.pos - 1 := by split <;> omega
    rw [this]
  rw [this]
  exact h.recall _

theorem key_down {e s} (h : Core e s) :
    Step e s (e.recall (histDown e.hist e.nr (chars e.line 0 (strlen e.line)))) (s.key .down) := by
  have : histDown e.hist e.nr (chars e.line 0 (strlen e.line)) =
      (s.hist.set s.pos s.text, min (s.pos + 1) (max s.pos s.hist.length),
        (s.hist.set s.pos s.text)[min (s.pos + 1) (max s.pos s.hist.length)]?) := by
    rw [h.text, h.hist, h.nr]
    simp only [histDown, histReplace_eq, List.length_set]
    have : (if s.pos < s.hist.length then s.pos + 1 else s.pos) =
        min (s.pos + 1) (max s.pos s.hist.length) := by split <;> omega
    rw [this]
  rw [this]
  exact h.recall _

theorem Core.refl {e s} (h : Core e s) : Step e s e s := ⟨h, Eff.refl h.rep, rfl⟩

theorem key_step {e s} (h : Core e s) (key : Key) (k : Int) (c : Byte) (hk : keyCode key k)
    (h0 : k ≠ 0) (hc : key = .char c ∨ ∀ b, key ≠ .char b) : Step e s (e.key k c) (s.key key) := by
  cases key with
  | enter => exact absurd hk (by simp [keyCode])
  | left =>
    have hk : k = TU_LEFT := hk
    subst hk
    exact key_left h
  | right =>
    have hk : k = TU_RIGHT := hk
    subst hk
    exact key_right h
  | home =>
    have hk : k = TU_HOME ∨ k = 1 := hk
    rcases hk with hk | hk <;> subst hk <;> exact key_home h
  | last =>
    have hk : k = TU_END ∨ k = 5 := hk
    rcases hk with hk | hk <;> subst hk <;> exact key_end h
  | up =>
    have hk : k = TU_UP := hk
    subst hk
    exact key_up h
  | down =>
    have hk : k = TU_DOWN := hk
    subst hk
    exact key_down h
  | bs =>
    have hk : k = 127 ∨ k = 8 := hk
    rcases hk with hk | hk <;> subst hk <;> exact key_bs h
  | del =>
    have hk : k = TU_DEL := hk
    subst hk
    exact key_del h
  | kill =>
    have hk : k = 11 := hk
    subst hk
    exact key_kill h
  | ignored =>
    have hk : k = 0 ∨ (-31 ≤ k ∧ k ≤ -16 ∧ k ≠ -18) := hk
    have : e.key k c = e := by
      unfold Ed.key TU_LEFT TU_RIGHT TU_HOME TU_END TU_UP TU_DOWN TU_DEL
      repeat rw [if_neg (by omega)]
      rw [if_pos (by omega)]
    rw [this]
    exact h.refl
  | char b =>
    have hb : b = c := by
      rcases hc with hc | hc
      · injection hc
      · exact absurd rfl (hc b)
    subst hb
    have hk : k = b.toInt ∧ 32 ≤ k ∧ k ≤ 126 := hk
    have : e.key k b = e.insert b b := by
      unfold Ed.key TU_LEFT TU_RIGHT TU_HOME TU_END TU_UP TU_DOWN TU_DEL
      repeat rw [if_neg (by omega)]
      rw [if_pos (by omega), hk.1, BitVec.ofInt_toInt]
    rw [this]
    have : ∀ b : Byte, 32 ≤ b.toInt ∧ b.toInt ≤ 126 → Printable b := by
      unfold Printable; decide +kernel
    exact key_char h (this b (by rw [← hk.1]; exact hk.2))

end Ucsim.Fio
