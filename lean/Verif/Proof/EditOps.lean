import Verif.Proof.EditLine
import Verif.Proof.FioRing
import Verif.Spec.Edit

namespace Ucsim.Fio

/-! ### the screen -/

theorem write_row (cs : List Byte) (h : ∀ c ∈ cs, c ≠ 10) (s : Screen) :
    (∀ i, (cs.foldl Screen.char s).row i =
      if s.col ≤ i ∧ i < s.col + cs.length then cs.getD (i - s.col) 32 else s.row i) ∧
    (cs.foldl Screen.char s).col = s.col + cs.length ∧
    (cs.foldl Screen.char s).saved = s.saved := by
  induction cs generalizing s with
  | nil =>
    refine ⟨fun i => ?_, rfl, rfl⟩
    rw [if_neg (by simp)]
    rfl
  | cons c cs ih =>
    have hc : c ≠ 10 := h c (by simp)
    obtain ⟨h1, h2, h3⟩ := ih (fun x hx => h x (by simp [hx])) (s.char c)
    have hs : s.char c =
        { s with row := fun i => if i = s.col then c else s.row i, col := s.col + 1 } := by
      unfold Screen.char; rw [if_neg hc]
    refine ⟨fun i => ?_, ?_, ?_⟩
    · rw [List.foldl_cons, h1 i, hs]
      simp only [List.length_cons]
      by_cases hi : s.col + 1 ≤ i ∧ i < s.col + 1 + cs.length
      · rw [if_pos hi, if_pos (by omega), show i - s.col = (i - (s.col + 1)) + 1 by omega]
        rfl
      · rw [if_neg hi]
        by_cases he : i = s.col
        · rw [if_pos he, if_pos (by omega), he]; simp
        · rw [if_neg he, if_neg (by omega)]
    · rw [List.foldl_cons, h2, hs]; simp only [List.length_cons]; omega
    · rw [List.foldl_cons, h3, hs]

theorem blanks_row (n : Nat) (s : Screen) :
    (∀ i, (s.ops (List.replicate n (.write [32]))).row i =
      if s.col ≤ i ∧ i < s.col + n then 32 else s.row i) ∧
    (s.ops (List.replicate n (.write [32]))).col = s.col + n ∧
    (s.ops (List.replicate n (.write [32]))).saved = s.saved := by
  induction n generalizing s with
  | zero =>
    refine ⟨fun i => ?_, rfl, rfl⟩
    rw [if_neg (by omega)]; rfl
  | succ n ih =>
    obtain ⟨h1, h2, h3⟩ := ih (s.op (.write [32]))
    have hs : s.op (.write [32]) =
        { s with row := fun i => if i = s.col then 32 else s.row i, col := s.col + 1 } := rfl
    have hr : s.ops (List.replicate (n+1) (.write [32])) =
        (s.op (.write [32])).ops (List.replicate n (.write [32])) := rfl
    rw [hr]
    refine ⟨fun i => ?_, ?_, ?_⟩
    · rw [h1 i, hs]
      by_cases hi : s.col + 1 ≤ i ∧ i < s.col + 1 + n
      · simp only []; rw [if_pos hi, if_pos (by omega)]
      · simp only []; rw [if_neg hi]
        by_cases he : i = s.col
        · rw [if_pos he, if_pos (by omega)]
        · rw [if_neg he, if_neg (by omega)]
    · rw [h2, hs]; simp only []; omega
    · rw [h3, hs]

theorem ops_append (s : Screen) (a b : List Term) : s.ops (a ++ b) = (s.ops a).ops b := by
  simp [Screen.ops]

/-! ### the editor and the screen together -/

structure Rep (e : Ed) (b a : List Byte) : Prop where
  line : RepL e.line (b ++ a)
  cur : e.cursor = b.length

/-- the terminal operations `ts` turn what is shown from (b, a) into (b', a') -/
def Draws (ts : List Term) (b a b' a' : List Byte) : Prop :=
  ∀ (s : Screen) (p : Nat), s.Shows p (b ++ a) b.length →
    (s.ops ts).Shows p (b' ++ a') b'.length ∧ ∀ i, i < p → (s.ops ts).row i = s.row i

theorem Draws.nil (b a : List Byte) : Draws [] b a b a := fun _ _ h => ⟨h, fun _ _ => rfl⟩

structure Eff (e e' : Ed) (b a b' a' : List Byte) : Prop where
  rep : Rep e' b' a'
  ech : ∃ ts, e'.echo = e.echo ++ ts ∧ Draws ts b a b' a'
  bad : e'.oobLine = e.oobLine
  badE : e'.oobEsc = e.oobEsc
  badC : e'.badChar = e.badChar
  esc : e'.esc = e.esc
  lastLn : e'.lastLn = e.lastLn
  ring : e'.ring = e.ring

theorem Eff.refl {e : Ed} {b a} (h : Rep e b a) : Eff e e b a b a :=
  ⟨h, ⟨[], by simp, Draws.nil b a⟩, rfl, rfl, rfl, rfl, rfl, rfl⟩

/-- moves that do not change the text -/
theorem draws_left {b a b' a' : List Byte} (ht : b ++ a = b' ++ a') (n : Nat)
    (hn : b.length = b'.length + n) (h0 : 0 < n) : Draws [.left n] b a b' a' := by
  intro s p ⟨h1, h2⟩
  refine ⟨⟨fun i => by rw [← ht]; exact h1 i, ?_⟩, fun _ _ => rfl⟩
  show s.col - (max (n : Int) 1).toNat = p + b'.length
  omega

theorem draws_right {b a b' a' : List Byte} (ht : b ++ a = b' ++ a') (n : Int)
    (hn : (b'.length : Int) = b.length + n) (h0 : 0 < n) : Draws [.right n] b a b' a' := by
  intro s p ⟨h1, h2⟩
  refine ⟨⟨fun i => by rw [← ht]; exact h1 i, ?_⟩, fun _ _ => rfl⟩
  show s.col + (max n 1).toNat = p + b'.length
  omega

theorem eff_left {e : Ed} {b a : List Byte} {x : Byte} (h : Rep e (b ++ [x]) a) :
    Eff e e.goLeft (b ++ [x]) a b (x :: a) := by
  have hc : e.cursor > 0 := by rw [h.cur]; simp
  have ht : (b ++ [x]) ++ a = b ++ x :: a := by simp
  unfold Ed.goLeft
  rw [if_pos hc]
  refine ⟨⟨?_, ?_⟩, ⟨[.left 1], rfl, ?_⟩, rfl, rfl, rfl, rfl, rfl, rfl⟩
  · rw [← ht]; exact h.line
  · show e.cursor - 1 = b.length
    rw [h.cur]; simp
  · exact draws_left ht 1 (by simp) (by omega)

theorem eff_left0 {e : Ed} {a : List Byte} (h : Rep e [] a) : Eff e e.goLeft [] a [] a := by
  unfold Ed.goLeft
  rw [if_neg (by rw [h.cur]; simp)]
  exact Eff.refl h

theorem eff_right {e : Ed} {b a : List Byte} {x : Byte} (h : Rep e b (x :: a)) :
    Eff e e.goRight b (x :: a) (b ++ [x]) a := by
  have hc : e.line e.cursor ≠ 0 := by rw [h.cur]; exact h.line.nz (by simp)
  have ht : b ++ x :: a = (b ++ [x]) ++ a := by simp
  unfold Ed.goRight
  rw [if_pos hc]
  refine ⟨⟨?_, ?_⟩, ⟨[.right 1], rfl, ?_⟩, rfl, rfl, rfl, rfl, rfl, rfl⟩
  · rw [← ht]; exact h.line
  · show e.cursor + 1 = _
    rw [h.cur]; simp
  · exact draws_right ht 1 (by simp) (by omega)

theorem eff_right0 {e : Ed} {b : List Byte} (h : Rep e b []) : Eff e e.goRight b [] b [] := by
  have : e.line e.cursor = 0 := by
    rw [h.cur]; have := h.line.zero; simpa using this
  unfold Ed.goRight
  rw [if_neg (by simp [this])]
  exact Eff.refl h

theorem eff_home {e : Ed} {b a : List Byte} (h : Rep e b a) : Eff e e.goHome b a [] (b ++ a) := by
  unfold Ed.goHome
  by_cases hc : e.cursor > 0
  · rw [if_pos hc]
    refine ⟨⟨h.line, rfl⟩, ⟨[.left e.cursor], rfl, ?_⟩, rfl, rfl, rfl, rfl, rfl, rfl⟩
    exact draws_left (b := b) (a := a) (b' := []) (a' := b ++ a) rfl e.cursor (by rw [h.cur]; simp) hc
  · rw [if_neg hc]
    have hb : b = [] := by
      have := h.cur
      have : b.length = 0 := by omega
      exact List.length_eq_zero_iff.1 this
    subst hb
    exact Eff.refl h

theorem eff_end {e : Ed} {b a : List Byte} (h : Rep e b a) : Eff e e.goEnd b a (b ++ a) [] := by
  unfold Ed.goEnd
  simp only [h.line.strlen]
  by_cases ha : a = []
  · subst ha
    have : e.line e.cursor = 0 := by
      rw [h.cur]; have := h.line.zero; simpa using this
    rw [if_neg (by simp [this])]
    rw [List.append_nil]
    exact Eff.refl h
  · have hl : 0 < a.length := by
      cases a with
      | nil => exact absurd rfl ha
      | cons _ _ => simp
    have : e.line e.cursor ≠ 0 := by
      rw [h.cur]; exact h.line.nz (by simp; exact hl)
    rw [if_pos this]
    refine ⟨⟨by rw [List.append_nil]; exact h.line, rfl⟩, ⟨[.right ((b ++ a).length - e.cursor)], rfl, ?_⟩, rfl, rfl, rfl, rfl, rfl, rfl⟩
    refine draws_right (by simp) _ ?_ ?_
    · rw [h.cur]; omega
    · rw [h.cur, List.length_append]; omega

/-- the text after the cursor is written anew, one shorter, with a blank after it -/
theorem draws_tail {b a : List Byte} {x : Byte} (hp : ∀ c ∈ a, c ≠ 10) :
    Draws ([.save] ++ (if a ≠ [] then [.write a] else []) ++ [.write [32], .restore])
      b (x :: a) b a := by
  intro s p ⟨h1, h2⟩
  have key : ∀ t : Screen, t.col = s.col → t.row = s.row → t.saved = s.col →
      (t.ops ([.write a] ++ [.write [32], .restore])).Shows p (b ++ a) b.length ∧
        ∀ i, i < p → (t.ops ([.write a] ++ [.write [32], .restore])).row i = s.row i := by
    intro t t1 t2 t3
    obtain ⟨w1, w2, w3⟩ := write_row a hp t
    have hrow : ∀ i, (t.ops ([.write a] ++ [.write [32], .restore])).row i =
        if i = t.col + a.length then 32 else
          if t.col ≤ i ∧ i < t.col + a.length then a.getD (i - t.col) 32 else t.row i := by
      intro i
      show (if i = (a.foldl Screen.char t).col then (32 : Byte) else (a.foldl Screen.char t).row i) = _
      rw [w2, w1 i]
    have hcol : (t.ops ([.write a] ++ [.write [32], .restore])).col = t.saved := by
      show (a.foldl Screen.char t).saved = _
      exact w3
    refine ⟨⟨fun i => ?_, ?_⟩, fun i hi => ?_⟩
    · rw [hrow, t1, h2, t2]
      by_cases e1 : p + i = p + b.length + a.length
      · rw [if_pos e1, getD_out _ _ (by simp; omega)]
      · rw [if_neg e1]
        by_cases e2 : p + b.length ≤ p + i ∧ p + i < p + b.length + a.length
        · rw [if_pos e2, getD_append, if_neg (by omega)]
          congr 1; omega
        · rw [if_neg e2, h1 i, getD_append, getD_append]
          by_cases e3 : i < b.length
          · rw [if_pos e3, if_pos e3]
          · rw [if_neg e3, if_neg e3, getD_out _ _ (by simp; omega), getD_out _ _ (by omega)]
    · rw [hcol, t3, h2]
    · rw [hrow, t1, h2, t2, if_neg (by omega), if_neg (by omega)]
  by_cases ha : a = []
  · rw [if_neg (by simpa using ha), List.append_nil]
    have := key (s.op .save) rfl rfl rfl
    subst ha
    exact this
  · rw [if_pos ha, List.append_assoc]
    exact key (s.op .save) rfl rfl rfl

theorem eff_bs {e : Ed} {b a : List Byte} {x : Byte} (h : Rep e (b ++ [x]) a) :
    Eff e e.backspace (b ++ [x]) a b a := by
  have hc : e.cursor > 0 := by rw [h.cur]; simp
  have ht : (b ++ [x]) ++ a = b ++ x :: a := by simp
  have hline : RepL e.line (b ++ x :: a) := by rw [← ht]; exact h.line
  have hrem := repL_remove hline
  have hcur : e.cursor = b.length + 1 := by rw [h.cur]; simp
  have hstr : strlen e.line = (b ++ x :: a).length := hline.strlen
  unfold Ed.backspace
  simp only []
  rw [if_pos hc]
  simp only [hstr, hcur, Nat.add_sub_cancel]
  generalize hL : setAt (shiftDown e.line (b.length + 1) 1024) ((b ++ x :: a).length - 1) 0 = L at hrem ⊢
  have hz : L b.length ≠ 0 ↔ a ≠ [] := by
    rw [ne_eq, hrem.eq0 (by simp)]
    simp
  have hs : str L b.length = a := by rw [hrem.str b.length (by simp)]; simp
  refine ⟨⟨hrem, rfl⟩, ⟨[.left 1] ++ ([.save] ++ (if a ≠ [] then [.write a] else []) ++ [.write [32], .restore]), ?_, ?_⟩, rfl, rfl, rfl, rfl, rfl, rfl⟩
  · show e.echo ++ _ = e.echo ++ _
    congr 1
    rw [hs]
    by_cases ha : a ≠ []
    · rw [if_pos (hz.2 ha), if_pos ha]; rfl
    · rw [if_neg (fun x => ha (hz.1 x)), if_neg ha]; rfl
  · intro s p hsh
    obtain ⟨d1, d2⟩ := draws_left (b := b ++ [x]) (a := a) (b' := b) (a' := x :: a) ht 1 (by simp) (by omega) s p hsh
    obtain ⟨d3, d4⟩ := draws_tail (b := b) (a := a) (x := x)
      (fun c hc => (hline.pr c (by simp [hc])).ne.2) _ p d1
    rw [ops_append]
    exact ⟨d3, fun i hi => (d4 i hi).trans (d2 i hi)⟩

theorem eff_bs0 {e : Ed} {a : List Byte} (h : Rep e [] a) : Eff e e.backspace [] a [] a := by
  unfold Ed.backspace
  simp only []
  rw [if_neg (by rw [h.cur]; simp)]
  exact Eff.refl h

theorem eff_del {e : Ed} {b a : List Byte} {x : Byte} (h : Rep e b (x :: a)) :
    Eff e e.delete b (x :: a) b a := by
  have hc : e.line e.cursor ≠ 0 := by rw [h.cur]; exact h.line.nz (by simp)
  have hrem := repL_remove h.line
  have hcur : e.cursor = b.length := h.cur
  have hstr : strlen e.line = (b ++ x :: a).length := h.line.strlen
  unfold Ed.delete
  simp only []
  rw [if_pos hc]
  simp only [hstr, hcur]
  generalize hL : setAt (shiftDown e.line (b.length + 1) 1024) ((b ++ x :: a).length - 1) 0 = L at hrem ⊢
  have hz : L b.length ≠ 0 ↔ a ≠ [] := by
    rw [ne_eq, hrem.eq0 (by simp)]
    simp
  have hs : str L b.length = a := by rw [hrem.str b.length (by simp)]; simp
  refine ⟨⟨hrem, rfl⟩, ⟨([.save] ++ (if a ≠ [] then [.write a] else []) ++ [.write [32], .restore]), ?_, ?_⟩, rfl, rfl, rfl, rfl, rfl, rfl⟩
  · show e.echo ++ _ = e.echo ++ _
    congr 1
    rw [hs]
    by_cases ha : a ≠ []
    · rw [if_pos (hz.2 ha), if_pos ha]
    · rw [if_neg (fun x => ha (hz.1 x)), if_neg ha]
  · exact draws_tail (fun c hc => (h.line.pr c (by simp [hc])).ne.2)

theorem eff_del0 {e : Ed} {b : List Byte} (h : Rep e b []) : Eff e e.delete b [] b [] := by
  have : e.line e.cursor = 0 := by
    rw [h.cur]; have := h.line.zero; simpa using this
  unfold Ed.delete
  simp only []
  rw [if_neg (by simp [this])]
  exact Eff.refl h

/-- the whole line is blanked and the cursor goes to its beginning -/
theorem draws_clear (b a : List Byte) :
    Draws ((if b.length > 0 then [.left b.length] else []) ++
      ([.save] ++ List.replicate (b ++ a).length (.write [32]) ++ [.restore])) b a [] [] := by
  intro s p hsh
  have key : ∀ t : Screen, t.Shows p (b ++ a) 0 →
      (t.ops ([.save] ++ List.replicate (b ++ a).length (.write [32]) ++ [.restore])).Shows p [] 0 ∧
      ∀ i, i < p → (t.ops ([.save] ++ List.replicate (b ++ a).length (.write [32]) ++ [.restore])).row i
        = t.row i := by
    intro t ⟨h1, h2⟩
    obtain ⟨w1, w2, w3⟩ := blanks_row (b ++ a).length (t.op .save)
    rw [List.append_assoc, ops_append, ops_append]
    have hrow : ∀ i, (((t.ops [.save]).ops (List.replicate (b ++ a).length (.write [32]))).ops [.restore]).row i
        = if t.col ≤ i ∧ i < t.col + (b ++ a).length then 32 else t.row i := w1
    have hcol : (((t.ops [.save]).ops (List.replicate (b ++ a).length (.write [32]))).ops [.restore]).col
        = t.col := w3
    refine ⟨⟨fun i => ?_, ?_⟩, fun i hi => ?_⟩
    · rw [hrow, h2]
      by_cases e : p + 0 ≤ p + i ∧ p + i < p + 0 + (b ++ a).length
      · rw [if_pos e]; rfl
      · rw [if_neg e, h1 i, getD_out _ _ (by omega)]; rfl
    · rw [hcol, h2]
    · rw [hrow, h2, if_neg (by omega)]
  by_cases hb : b.length > 0
  · rw [if_pos hb, ops_append]
    obtain ⟨d1, d2⟩ := draws_left (b := b) (a := a) (b' := []) (a' := b ++ a) rfl b.length (by simp) hb s p hsh
    obtain ⟨d3, d4⟩ := key _ d1
    exact ⟨d3, fun i hi => by rw [d4 i hi, d2 i hi]⟩
  · rw [if_neg hb, List.nil_append]
    have : b.length = 0 := by omega
    rw [this] at hsh
    exact key s hsh

theorem eff_clear {e : Ed} {b a : List Byte} (h : Rep e b a) :
    Eff e e.clear b a [] [] ∧ e.clear.hist = e.hist ∧ e.clear.nr = e.nr := by
  refine ⟨?_, by unfold Ed.clear; simp only []; split <;> rfl, by unfold Ed.clear; simp only []; split <;> rfl⟩
  unfold Ed.clear
  simp only [h.line.strlen]
  refine ⟨⟨?_, rfl⟩, ⟨_, ?_, draws_clear b a⟩, ?_, ?_, ?_, ?_, ?_, ?_⟩
  · exact repL_nil _
  · by_cases hb : e.cursor > 0
    · rw [if_pos hb, if_pos (by rw [← h.cur]; exact hb)]
      simp only [Ed.say, h.cur, List.append_assoc]
    · rw [if_neg hb, if_neg (by rw [← h.cur]; exact hb)]
      simp only [Ed.say, List.nil_append]
  all_goals (split <;> rfl)

theorem eff_insert {e : Ed} {b a : List Byte} {k : Byte} (h : Rep e b a) (hk : Printable k)
    (hl : (b ++ a).length < 1023) : Eff e (e.insert k k) b a (b ++ [k]) a := by
  unfold Ed.insert
  simp only [h.line.strlen]
  rw [if_pos hl]
  have hcur := h.cur
  cases a with
  | nil =>
    have hz : e.line e.cursor = 0 := by
      rw [hcur]; have := h.line.zero; simpa using this
    have hline : RepL e.line b := by simpa using h.line
    have hlb : b.length < 1023 := by simpa using hl
    rw [if_pos hz]
    simp only [hcur]
    refine ⟨⟨?_, ?_⟩, ⟨[.write [k]], rfl, ?_⟩, ?_, rfl, rfl, rfl, rfl, rfl⟩
    · rw [List.append_nil]; exact repL_append hline hk hlb
    · simp [Ed.say]
    · intro s p ⟨h1, h2⟩
      obtain ⟨w1, w2, w3⟩ := write_row [k] (by intro c hc; rw [List.mem_singleton] at hc; rw [hc]; exact hk.ne.2) s
      have hrow : ∀ i, (s.ops [.write [k]]).row i = _ := w1
      have hcol : (s.ops [.write [k]]).col = _ := w2
      refine ⟨⟨fun i => ?_, ?_⟩, fun i hi => ?_⟩
      · rw [hrow, h2, h1 i, List.append_nil, List.append_nil, getD_append]
        simp only [List.length_cons, List.length_nil]
        by_cases e1 : i < b.length
        · rw [if_neg (by omega), if_pos e1]
        · rw [if_neg e1]
          by_cases e2 : i = b.length
          · rw [if_pos (by omega)]; congr 1; omega
          · rw [if_neg (by omega), getD_out _ _ (by omega), getD_out _ _ (by simp; omega)]
      · rw [hcol, h2]; simp; omega
      · rw [hrow, if_neg (by rw [h2]; omega)]
    · simp only [Ed.say]
      rw [show decide (1024 ≤ b.length + 1) = false by simp; omega, Bool.or_false]
  | cons x a =>
    have hz : e.line e.cursor ≠ 0 := by rw [hcur]; exact h.line.nz (by simp)
    rw [if_neg hz]
    have hins := repL_insert h.line hk hl
    simp only [hcur]
    have hlen : (b ++ x :: a).length = b.length + a.length + 1 := by simp; omega
    generalize hL : setAt (shiftUp e.line b.length ((b ++ x :: a).length + 1 - b.length)) b.length k = L at hins ⊢
    have hch : chars L b.length ((b ++ x :: a).length - (b.length + 1) + 2) = k :: x :: a := by
      rw [hins.chars _ _ (by simp; omega)]
      rw [List.drop_left]
      rw [List.take_of_length_le (by simp; omega)]
    rw [hch]
    refine ⟨⟨?_, ?_⟩, ⟨_, rfl, ?_⟩, ?_, rfl, rfl, rfl, rfl, rfl⟩
    · have : b ++ [k] ++ x :: a = b ++ k :: x :: a := by simp
      rw [this]; exact hins
    · simp [Ed.say]
    · intro s p ⟨h1, h2⟩
      have hp : ∀ c ∈ k :: x :: a, c ≠ 10 := by
        intro c hc
        rw [List.mem_cons] at hc
        rcases hc with hc | hc
        · rw [hc]; exact hk.ne.2
        · exact (h.line.pr c (List.mem_append_right _ hc)).ne.2
      obtain ⟨w1, w2, w3⟩ := write_row (k :: x :: a) hp (s.op .save)
      have hrow : ∀ i, (s.ops [.save, .write (k :: x :: a), .restore, .right 1]).row i = _ := w1
      have hcol : (s.ops [.save, .write (k :: x :: a), .restore, .right 1]).col =
          ((k :: x :: a).foldl Screen.char (s.op .save)).saved + 1 := rfl
      have hsc : (s.op .save).col = s.col := rfl
      have hsr : (s.op .save).row = s.row := rfl
      have hss : (s.op .save).saved = s.col := rfl
      refine ⟨⟨fun i => ?_, ?_⟩, fun i hi => ?_⟩
      · rw [hrow, hsc, hsr, h2, h1 i, show b ++ [k] ++ x :: a = b ++ k :: x :: a by simp, getD_append, getD_append]
        simp only [List.length_cons]
        by_cases e1 : i < b.length
        · rw [if_neg (by omega), if_pos e1, if_pos e1]
        · rw [if_neg e1, if_neg e1]
          by_cases e2 : i < b.length + (a.length + 1 + 1)
          · rw [if_pos (by omega)]; congr 1; omega
          · rw [if_neg (by omega), getD_out _ _ (by simp; omega), getD_out _ _ (by simp; omega)]
      · rw [hcol, w3, hss, h2]; simp; omega
      · rw [hrow, hsc, hsr, if_neg (by rw [h2]; omega)]
    · simp only [Ed.say]
      rw [show decide (1024 ≤ (b ++ x :: a).length + 1) = false by simp; simp at hl; omega, Bool.or_false]

theorem eff_insert_full {e : Ed} {b a : List Byte} {k c : Byte} (h : Rep e b a)
    (hl : ¬ (b ++ a).length < 1023) : Eff e (e.insert k c) b a b a := by
  unfold Ed.insert
  simp only [h.line.strlen]
  rw [if_neg hl]
  exact Eff.refl h

/-- history lines are as the editor makes them -/
def HistOk (h : List (List Byte)) : Prop := ∀ l ∈ h, l.length ≤ 1023 ∧ ∀ c ∈ l, Printable c

theorem eff_recall {e : Ed} {b a : List Byte} (h : Rep e b a)
    (r : List (List Byte) × Nat × Option (List Byte))
    (hr : ∀ s, r.2.2 = some s → s.length ≤ 1023 ∧ ∀ c ∈ s, Printable c) :
    Eff e (e.recall r) b a (r.2.2.getD []) [] ∧
      (e.recall r).hist = r.1 ∧ (e.recall r).nr = r.2.1 := by
  obtain ⟨hist, nr, res⟩ := r
  have h0 : Rep { e with hist := hist, nr := nr } b a := ⟨h.line, h.cur⟩
  obtain ⟨⟨q9, ⟨ts, q1, qd⟩, q4, q4a, q4b, q5, q6, q7⟩, q2, q3⟩ := eff_clear h0
  unfold Ed.recall
  simp only []
  generalize Ed.clear { e with hist := hist, nr := nr } = e1 at *
  cases res with
  | none =>
    exact ⟨⟨q9, ⟨ts, q1, qd⟩, q4, q4a, q4b, q5, q6, q7⟩, q2, q3⟩
  | some s =>
    obtain ⟨s1, s2⟩ := hr s rfl
    simp only [Option.getD_some]
    refine ⟨⟨⟨?_, rfl⟩, ⟨ts ++ [.write s], ?_, ?_⟩, ?_, q4a, q4b, q5, q6, q7⟩, q2, q3⟩
    · rw [List.append_nil]; exact repL_strcpy _ s2 s1
    · show e1.echo ++ [.write s] = _
      rw [q1, List.append_assoc]
    · intro sc p hsh
      obtain ⟨⟨h1, h2⟩, d2⟩ := qd sc p hsh
      rw [ops_append]
      generalize sc.ops _ = t at h1 h2 d2
      obtain ⟨w1, w2, w3⟩ := write_row s (fun c hc => (s2 c hc).ne.2) t
      have hrow : ∀ i, (t.ops [.write s]).row i = _ := w1
      have hcol : (t.ops [.write s]).col = _ := w2
      simp only [List.length_nil, Nat.add_zero] at h2
      refine ⟨⟨fun i => ?_, ?_⟩, fun i hi => ?_⟩
      · rw [hrow, h2, h1 i, List.append_nil s]
        by_cases e1 : p ≤ p + i ∧ p + i < p + s.length
        · rw [if_pos e1]; congr 1; omega
        · rw [if_neg e1, getD_out _ _ (by simp), getD_out _ _ (by omega)]
      · rw [hcol, h2]
      · rw [hrow, h2, if_neg (by omega), d2 i hi]
    · simp only [Ed.say]
      rw [show decide (1024 ≤ s.length) = false by simp; omega, Bool.or_false, q4]

end Ucsim.Fio
