import Verif.Proof.EditKeys

/- Whole sessions: the editor follows the session of Spec/Edit.lean for every list of keys. -/
namespace Ucsim.Fio

structure Inv (nl : List Byte) (r0 : Ring) (e : Ed) (s : Sess) : Prop where
  core : Core e s
  esc : e.esc = []
  ln : LnOk nl e.lastLn
  bad : e.oobLine = false
  badE : e.oobEsc = false
  badC : e.badChar = false
  ring : e.ring = (outBytes s.entered).foldl Ring.raw r0

theorem Inv.ready {nl r0 e s} (h : Inv nl r0 e s) (cs) : Inv nl r0 (e.ready cs) s :=
  ⟨⟨⟨h.core.rep.line, h.core.rep.cur⟩, h.core.hist, h.core.nr, h.core.hok⟩, rfl, by
    unfold Ed.ready; simp only []; split
    · exact h.ln
    · exact Or.inl rfl, h.bad, h.badE, h.badC, h.ring⟩

theorem Inv.step {nl r0 e s} (h : Inv nl r0 e s) {e' s'} (hs : Step e s e' s') : Inv nl r0 e' s' :=
  ⟨hs.core, hs.eff.esc.trans h.esc, by rw [hs.eff.lastLn]; exact h.ln, hs.eff.bad.trans h.bad,
   hs.eff.badE.trans h.badE, hs.eff.badC.trans h.badC, by rw [hs.eff.ring, hs.ent]; exact h.ring⟩

/-- Enter -/
theorem finish_core {e s} (h : Core e s) {k : Int} (hl : e.lastLn = 0 ∨ e.lastLn = k) :
    Core (e.finish k) (s.key .enter) ∧ (e.finish k).esc = [] ∧ (e.finish k).lastLn = k ∧
    (e.finish k).oobLine = e.oobLine ∧ (e.finish k).oobEsc = e.oobEsc ∧
    (e.finish k).badChar = e.badChar ∧
    (e.finish k).ring = (s.text ++ [10]).foldl Ring.raw e.ring ∧
    (e.finish k).echo = e.echo ++ [.write [10]] := by
  have hn : ¬ (e.lastLn ≠ 0 ∧ e.lastLn ≠ k) := by
    rcases hl with hl | hl <;> simp [hl]
  unfold Ed.finish
  simp only [hn, if_false, h.text]
  refine ⟨⟨⟨?_, rfl⟩, ?_, ?_, ?_⟩, rfl, rfl, rfl, rfl, rfl, ?_, rfl⟩
  · exact repL_nil _
  · show (histEnter e.hist e.nr s.text).1 = _
    rw [h.hist, h.nr]
    unfold histEnter Sess.key
    by_cases ht : s.text = [] <;> simp [ht]
  · show (histEnter e.hist e.nr s.text).2 = _
    rw [h.hist, h.nr]
    unfold histEnter Sess.key
    by_cases ht : s.text = [] <;> simp [ht]
  · have h1 : HistOk (if s.hist.length > 1000 then s.hist.tail else s.hist) := by
      intro l hl
      split at hl
      · exact h.hok l (List.mem_of_mem_tail hl)
      · exact h.hok l hl
    show HistOk (if s.text = [] then (if s.hist.length > 1000 then s.hist.tail else s.hist)
      else (if s.hist.length > 1000 then s.hist.tail else s.hist) ++ [s.text])
    by_cases ht : s.text = []
    · simp only [ht, if_true]; exact h1
    · simp only [ht, if_false]
      intro l hl
      rcases List.mem_append.1 hl with hl | hl
      · exact h1 l hl
      · have : l = s.text := by simpa using hl
        rw [this]; exact ⟨h.rep.line.len, h.rep.line.pr⟩
  · show (Ring.put (s.text.foldl Ring.raw e.ring) 10).1 = _
    rw [List.foldl_append]
    rfl

theorem outBytes_append (a b : List (List Byte)) : outBytes (a ++ b) = outBytes a ++ outBytes b := by
  simp [outBytes]

theorem Inv.enter {nl r0 e s} (h : Inv nl r0 e s) {k : Int} (hl : e.lastLn = 0 ∨ e.lastLn = k) :
    Core (e.finish k) (s.key .enter) ∧ (e.finish k).esc = [] ∧ (e.finish k).lastLn = k ∧
    (e.finish k).oobLine = false ∧ (e.finish k).oobEsc = false ∧
    (e.finish k).badChar = false ∧
    (e.finish k).ring = (outBytes (s.key .enter).entered).foldl Ring.raw r0 := by
  obtain ⟨a1, a2, a3, a4, a5, a6, a7, a8⟩ := finish_core h.core hl
  refine ⟨a1, a2, a3, a4.trans h.bad, a5.trans h.badE, a6.trans h.badC, ?_⟩
  rw [a7, h.ring]
  show _ = (outBytes (s.entered ++ [s.text])).foldl Ring.raw r0
  rw [outBytes_append, List.foldl_append]
  simp [outBytes]

theorem key10 (e : Ed) (c : Byte) : e.key 10 c = e.finish 10 := rfl
theorem key13 (e : Ed) (c : Byte) : e.key 13 c = e.finish 13 := rfl

theorem Ed.esc_eta {e : Ed} (h : e.esc = []) : ({ e with esc := [] } : Ed) = e := by
  cases e; cases h; rfl

theorem Ed.ready_eta {e : Ed} (h : e.esc = []) (c : Byte) : e.ready [c] = e := by
  cases e; cases h; rfl

theorem feed10 {e : Ed} (h : e.esc = []) : e.process 10 = e.finish 10 := by
  have := feed_run [10] e (k := 10) (c := 10) (by rw [h]; decide +kernel)
  rw [feed_cons, feed_nil, Ed.ready_eta h, if_neg (by decide), key10] at this
  exact this

theorem feed13 {e : Ed} (h : e.esc = []) : e.process 13 = e.finish 13 := by
  have := feed_run [13] e (k := 13) (c := 13) (by rw [h]; decide +kernel)
  rw [feed_cons, feed_nil, Ed.ready_eta h, if_neg (by decide), key13] at this
  exact this

theorem feed0 {e : Ed} (h : e.esc = []) : e.process 0 = { e with lastLn := 0 } := by
  have := feed_run [0] e (k := 0) (c := 0) (by rw [h]; decide +kernel)
  rw [feed_cons, feed_nil, if_pos rfl] at this
  rw [this]
  cases e; cases h; rfl

theorem Inv.mk' {nl r0 e s} (a : Core e s ∧ e.esc = [] ∧ e.oobLine = false ∧ e.oobEsc = false ∧
    e.badChar = false ∧ e.ring = (outBytes s.entered).foldl Ring.raw r0) (hl : LnOk nl e.lastLn) :
    Inv nl r0 e s :=
  ⟨a.1, a.2.1, hl, a.2.2.1, a.2.2.2.1, a.2.2.2.2.1, a.2.2.2.2.2⟩

/-- the second half of a two-character newline -/
theorem finish_other {e : Ed} {k : Int} (h0 : e.lastLn ≠ 0) (hk : e.lastLn ≠ k) :
    e.finish k = { e with lastLn := 0 } := by
  unfold Ed.finish
  rw [if_pos ⟨h0, hk⟩]

theorem Inv.nl {nl r0 e s} (h : Inv nl r0 e s) (hn : nl ∈ newlines) :
    Inv nl r0 (e.feed nl) (s.key .enter) := by
  have hl := h.ln
  have two : ∀ k : Int, e.lastLn = 0 → LnOk nl 0 →
      Inv nl r0 { e.finish k with lastLn := 0 } (s.key .enter) := by
    intro k hz _
    obtain ⟨a1, a2, a3, a4, a5, a6, a7⟩ := h.enter (k := k) (Or.inl hz)
    exact ⟨⟨⟨a1.rep.line, a1.rep.cur⟩, a1.hist, a1.nr, a1.hok⟩, a2, Or.inl rfl, a4, a5, a6, a7⟩
  simp only [newlines, List.mem_cons, List.mem_nil_iff, or_false] at hn
  rcases hn with hn | hn | hn | hn | hn <;> subst hn
  · have hl' : e.lastLn = 0 ∨ e.lastLn = 10 := by
      rcases hl with hl | ⟨_, hl⟩ | ⟨hq, _⟩
      · exact Or.inl hl
      · exact Or.inr hl
      · exact absurd hq (by decide)
    obtain ⟨a1, a2, a3, a4, a5, a6, a7⟩ := h.enter hl'
    rw [feed_cons, feed_nil, feed10 h.esc]
    exact Inv.mk' ⟨a1, a2, a4, a5, a6, a7⟩ (by rw [a3]; exact Or.inr (Or.inl ⟨rfl, rfl⟩))
  · have hl' : e.lastLn = 0 ∨ e.lastLn = 13 := by
      rcases hl with hl | ⟨hq, _⟩ | ⟨_, hl⟩
      · exact Or.inl hl
      · exact absurd hq (by decide)
      · exact Or.inr hl
    obtain ⟨a1, a2, a3, a4, a5, a6, a7⟩ := h.enter hl'
    rw [feed_cons, feed_nil, feed13 h.esc]
    exact Inv.mk' ⟨a1, a2, a4, a5, a6, a7⟩ (by rw [a3]; exact Or.inr (Or.inr ⟨rfl, rfl⟩))
  · have hz : e.lastLn = 0 := by
      rcases hl with hl | ⟨hq, _⟩ | ⟨hq, _⟩
      · exact hl
      · exact absurd hq (by decide)
      · exact absurd hq (by decide)
    obtain ⟨a1, a2, a3, a4, a5, a6, a7⟩ := h.enter (k := 13) (Or.inl hz)
    rw [feed_cons, feed_cons, feed_nil, feed13 h.esc, feed10 a2,
      finish_other (by rw [a3]; decide) (by rw [a3]; decide)]
    exact two 13 hz (Or.inl rfl)
  · have hz : e.lastLn = 0 := by
      rcases hl with hl | ⟨hq, _⟩ | ⟨hq, _⟩
      · exact hl
      · exact absurd hq (by decide)
      · exact absurd hq (by decide)
    obtain ⟨a1, a2, a3, a4, a5, a6, a7⟩ := h.enter (k := 13) (Or.inl hz)
    rw [feed_cons, feed_cons, feed_nil, feed13 h.esc, feed0 a2]
    exact two 13 hz (Or.inl rfl)
  · have hz : e.lastLn = 0 := by
      rcases hl with hl | ⟨hq, _⟩ | ⟨hq, _⟩
      · exact hl
      · exact absurd hq (by decide)
      · exact absurd hq (by decide)
    obtain ⟨a1, a2, a3, a4, a5, a6, a7⟩ := h.enter (k := 10) (Or.inl hz)
    rw [feed_cons, feed_cons, feed_nil, feed10 h.esc, feed13 a2,
      finish_other (by rw [a3]; decide) (by rw [a3]; decide)]
    exact two 10 hz (Or.inl rfl)

theorem codes_char {nl : List Byte} {b : Byte} {cs} (h : cs ∈ codes nl (.char b)) : cs = [b] := by
  change cs ∈ (if 32 ≤ b ∧ b ≤ 126 then [[b]] else []) at h
  split at h
  · simpa using h
  · cases h

theorem Inv.feed1 {nl r0 e s} (h : Inv nl r0 e s) (hn : nl ∈ newlines) (key : Key) (cs : List Byte)
    (hc : cs ∈ codes nl key) : Inv nl r0 (e.feed cs) (s.key key) := by
  by_cases hk : key = .enter
  · subst hk
    have : cs = nl := by simpa [codes] using hc
    subst this
    exact h.nl hn
  · obtain ⟨k, c, h1, h2⟩ := runEsc_codes nl key hk cs hc
    rw [feed_run cs e (by rw [h.esc]; exact h1)]
    by_cases h0 : k = 0
    · rw [if_pos h0]
      subst h0
      have : key = .ignored := by
        cases key <;> simp [keyCode, TU_LEFT, TU_RIGHT, TU_UP, TU_DOWN, TU_DEL, TU_HOME, TU_END] at h2 ⊢
      subst this
      exact ⟨⟨⟨h.core.rep.line, h.core.rep.cur⟩, h.core.hist, h.core.nr, h.core.hok⟩, rfl, Or.inl rfl,
        h.bad, h.badE, h.badC, h.ring⟩
    · rw [if_neg h0]
      refine (h.ready cs).step (key_step (h.ready cs).core key k c h2 h0 ?_)
      cases key with
      | char b =>
        left
        have := codes_char hc
        subst this
        unfold runEsc at h1
        simp only [if_true] at h1
        split at h1
        · cases h1
        · split at h1
          · simp only [Option.some.injEq, Prod.mk.injEq] at h1
            rw [h1.2]
          · cases h1
      | _ => right; intro b hb; cases hb

/-- Keys and what the terminal sends for them. -/
inductive Sends (nl : List Byte) : List Key → List Byte → Prop
  | nil : Sends nl [] []
  | cons {key cs ks bs} : cs ∈ codes nl key → Sends nl ks bs → Sends nl (key :: ks) (cs ++ bs)

theorem Inv.feeds {nl r0 e s} (h : Inv nl r0 e s) (hn : nl ∈ newlines) {ks bs} (hs : Sends nl ks bs) :
    Inv nl r0 (e.feed bs) (s.keys ks) := by
  induction hs generalizing e s with
  | nil => exact h
  | cons hc _ ih =>
    rw [feed_append]
    exact ih (h.feed1 hn _ _ hc)

theorem inv_init (nl : List Byte) (junk mem) : Inv nl (Ring.init junk) (Ed.init junk mem) Sess.new :=
  ⟨⟨⟨⟨by simp [Sess.new], by simp [Sess.new], by
      intro i hi
      have : i = 0 := by simpa [Sess.new] using hi
      subst this; rfl⟩, rfl⟩, rfl, rfl, by intro l hl; cases hl⟩, rfl, Or.inl rfl, rfl, rfl, rfl, rfl⟩

end Ucsim.Fio
