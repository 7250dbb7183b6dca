import Verif.Proof.EditTty

namespace Ucsim.Fio

/-- what the console's reading leaves alone -/
structure SameCon (c c' : Con) : Prop where
  lines : c'.lines = c.lines
  closed : c'.closed = c.closed
  atEnd : c'.dev.atEnd = c.dev.atEnd
  isFile : c'.dev.isFile = c.dev.isFile

theorem read1_cons {d : Dev} (h : d.ring.Ok) {b : Byte} {bs : List Byte} (hb : b ≠ 255)
    (hi : d.ring.items = (b :: bs).map BitVec.toInt) :
    d.read 1 = ({ d with ring := d.ring.get.1 }, 1, [b.toInt]) ∧ d.ring.get.1.Ok ∧
      d.ring.get.1.items = bs.map BitVec.toInt := by
  obtain ⟨g1, g2, g3⟩ := Ring.get_cons h (c := b.toInt) (cs := bs.map BitVec.toInt) hi
  rw [cut_toInt] at g3
  refine ⟨?_, g1, g2⟩
  have hm : b.toInt ≠ -1 := fun q => hb ((toInt_ff b).1 q)
  unfold Dev.read
  rw [if_neg (by decide)]
  unfold Dev.readLoop
  simp only [g3]
  rw [if_neg hm]
  rfl

theorem pr_facts {b : Byte} (h : Printable b) :
    b ≠ 255 ∧ b.toInt ≠ 3 ∧ ¬ (b.toInt = 10 ∨ b.toInt = 13) ∧ b ≠ 0 ∧ b ≠ 4 := by
  unfold Printable at h
  revert b; decide +kernel

theorem readLine_line (fuel : Nat) (l r : List Byte) (c : Con) (hp : ∀ b ∈ l, Printable b)
    (ok : c.dev.ring.Ok) (hi : c.dev.ring.items = (l ++ 10 :: r).map BitVec.toInt)
    (hnl : c.nl = 0 ∨ c.nl = 10) (hf : l.length < fuel) :
    (c.readLine fuel).2 = 1 ∧ (c.readLine fuel).1.lbuf = c.lbuf ++ l ∧ (c.readLine fuel).1.nl = 10 ∧
    (c.readLine fuel).1.dev.ring.Ok ∧ (c.readLine fuel).1.dev.ring.items = r.map BitVec.toInt ∧
    SameCon c (c.readLine fuel).1 := by
  induction l generalizing fuel c with
  | nil =>
    cases fuel with
    | zero => simp at hf
    | succ fuel =>
      obtain ⟨r1, r2, r3⟩ := read1_cons ok (b := 10) (bs := r) (by decide) hi
      have hn : ¬ (c.nl ≠ 0 ∧ c.nl ≠ (10 : Byte).toInt) := by
        rcases hnl with h | h <;> rw [h] <;> decide
      unfold Con.readLine
      rw [r1]
      simp only []
      rw [if_neg (by decide), if_neg (by decide), if_pos (by decide), List.headD_cons, if_neg (by decide),
        if_pos (by decide), if_neg hn]
      exact ⟨rfl, by simp, by show (10 : Byte).toInt = 10; decide, r2, r3, ⟨rfl, rfl, rfl, rfl⟩⟩
  | cons b l ih =>
    cases fuel with
    | zero => simp at hf
    | succ fuel =>
      obtain ⟨p1, p2, p3, p4, _⟩ := pr_facts (hp b (by simp))
      obtain ⟨r1, r2, r3⟩ := read1_cons ok (b := b) (bs := l ++ 10 :: r) p1 hi
      unfold Con.readLine
      rw [r1]
      simp only []
      rw [if_neg (by decide), if_neg (by decide), if_pos (by decide), List.headD_cons, if_neg p2,
        if_neg p3, addChar_toInt, if_neg p4]
      obtain ⟨q1, q2, q3, q4, q5, q6⟩ := ih fuel
        { c with dev := { c.dev with ring := c.dev.ring.get.1 }, lbuf := c.lbuf ++ [b] }
        (fun x hx => hp x (by simp [hx])) r2 r3 hnl (by simp at hf; omega)
      refine ⟨q1, ?_, q3, q4, q5, ⟨q6.lines, q6.closed, q6.atEnd, q6.isFile⟩⟩
      rw [q2]; simp

/-- `pend` are the lines in the buffer -/
structure ConOk (c : Con) (pend : List (List Byte)) : Prop where
  ok : c.dev.ring.Ok
  items : c.dev.ring.items = (outBytes pend).map BitVec.toInt
  pr : ∀ l ∈ pend, ∀ x ∈ l, Printable x
  nl : c.nl = 0 ∨ c.nl = 10
  lbuf : c.lbuf = []
  closed : c.closed = false
  atEnd : c.dev.atEnd = false
  isFile : c.dev.isFile = false

theorem ConOk.poll0 {c} (h : ConOk c []) : c.poll .nothing = c := by
  have he : c.dev.ring.lu = c.dev.ring.ff := (Ring.empty_iff h.ok).2 (by rw [h.items]; rfl)
  unfold Con.poll
  rw [if_neg (by rw [h.closed]; decide)]
  unfold Dev.inputAvail Dev.checkDev Dev.pick
  simp [h.isFile, he, h.atEnd]

theorem ConOk.poll1 {c l pend} (h : ConOk c (l :: pend)) :
    ConOk (c.poll .nothing) pend ∧ (c.poll .nothing).lines = c.lines ++ [l] := by
  have hi : c.dev.ring.items = (l ++ 10 :: outBytes pend).map BitVec.toInt := by
    rw [h.items]; simp [outBytes]
  have he : c.dev.ring.lu ≠ c.dev.ring.ff := by
    intro q
    have := (Ring.empty_iff h.ok).1 q
    rw [hi] at this
    simp at this
  have hlen : l.length < 1024 := by
    have h1 := items_len (d := c.dev)
    rw [hi] at h1
    simp at h1
    omega
  obtain ⟨q1, q2, q3, q4, q5, q6⟩ := readLine_line 1024 l (outBytes pend) c (h.pr l (by simp)) h.ok hi h.nl hlen
  have hp : c.poll .nothing = c.procInput := by
    unfold Con.poll
    rw [if_neg (by rw [h.closed]; decide)]
    unfold Dev.inputAvail Dev.checkDev
    simp [h.isFile, he]
  rw [hp]
  unfold Con.procInput
  generalize c.readLine 1024 = r at q1 q2 q3 q4 q5 q6
  obtain ⟨c', i⟩ := r
  simp only [] at q1 q2 q3 q4 q5 q6 ⊢
  subst q1
  rw [if_neg (by decide), if_neg (by decide)]
  rw [h.lbuf, List.nil_append] at q2
  refine ⟨⟨q4, q5, fun x hx => h.pr x (by simp [hx]), Or.inr q3, rfl, ?_, ?_, ?_⟩, ?_⟩
  · show (c'.lbuf.head? == some 4) = false
    rw [q2]
    cases hl : l with
    | nil => rfl
    | cons b bs =>
      have := (pr_facts (h.pr l (by simp) b (by rw [hl]; simp))).2.2.2.2
      simp only [List.head?_cons, beq_eq_false_iff_ne, ne_eq, Option.some.injEq]
      exact this
  · exact q6.atEnd.trans h.atEnd
  · exact q6.isFile.trans h.isFile
  · show c'.lines ++ [c'.lbuf] = _
    rw [q6.lines, q2]

/-- `done` was read from the terminal, which had sent `bs` in all -/
structure TInv (junk mem) (bs : List Byte) (t : Tty) (done : List Byte) (pend : List (List Byte)) : Prop where
  all : done ++ t.rest = bs
  ed : ∃ r, t.ed = withRing ((Ed.init junk mem).feed done) r
  con : ConOk t.con pend
  lines : t.con.lines ++ pend = emitLs (Ed.init junk mem) done

/-- nothing is lost in the buffer whatever batches of up to 99 characters are read -/
def Fits (e0 : Ed) (bs : List Byte) : Prop :=
  ∀ a b c, bs = a ++ b ++ c → b.length ≤ 99 → (outBytes (emitLs (e0.feed a) b)).length ≤ 1023

/-- how far from the end -/
def Tty.mu (t : Tty) (n : Nat) : Nat := t.rest.length + (n - t.con.lines.length)

theorem TInv.prefix {junk mem bs t done pend} (h : TInv junk mem bs t done pend) :
    ∃ more, t.con.lines ++ pend ++ more = emitLs (Ed.init junk mem) bs := by
  refine ⟨emitLs ((Ed.init junk mem).feed done) t.rest, ?_⟩
  rw [h.lines, ← emitLs_append, h.all]

/-- reading a batch -/
theorem TInv.pick {junk mem bs t done} (h : TInv junk mem bs t done [])
    (hf : Fits (Ed.init junk mem) bs) (o : Os) :
    ∃ done' pend', TInv junk mem bs (t.pick o) done' pend' ∧ (t.pick o).con.lines = t.con.lines ∧
      (t.pick o).rest.length ≤ t.rest.length - (if o = .nothing then 0 else 1) := by
  cases o with
  | nothing => exact ⟨done, [], h, rfl, by simp [Tty.pick]⟩
  | data k =>
    obtain ⟨r, hr⟩ := h.ed
    generalize hm : min (k + 1) 99 = m
    have hb : (t.rest.take m).length ≤ 99 := by rw [List.length_take]; omega
    have hfit := hf done (t.rest.take m) (t.rest.drop m)
      (by rw [List.append_assoc, List.take_append_drop, h.all]) hb
    have h0 : t.con.dev.ring.items = [] := h.con.items
    have hlen0 : t.con.dev.ring.len = 0 := by rw [← Ring.length_items, h0]; rfl
    have hfeed : Ed.feed { t.ed with ring := t.con.dev.ring } (t.rest.take m) =
        withRing ((Ed.init junk mem).feed (done ++ t.rest.take m))
          ((outBytes (emitLs ((Ed.init junk mem).feed done) (t.rest.take m))).foldl Ring.raw
            t.con.dev.ring) := by
      have : ({ t.ed with ring := t.con.dev.ring } : Ed) =
          withRing ((Ed.init junk mem).feed done) t.con.dev.ring := by rw [hr]; rfl
      rw [this, feed_ring, feed_append]
    obtain ⟨o1, o2⟩ := raw_fold h.con.ok (outBytes (emitLs ((Ed.init junk mem).feed done) (t.rest.take m)))
      (by rw [hlen0]; omega)
    obtain ⟨s1, _, _, hsafe, _⟩ := feed_any (safe_init junk mem) done 0
    refine ⟨done ++ t.rest.take m, emitLs ((Ed.init junk mem).feed done) (t.rest.take m), ?_, rfl, ?_⟩
    · unfold Tty.pick
      simp only [hm, hfeed]
      refine ⟨?_, ⟨_, rfl⟩, ⟨o1, ?_, emitLs_pr hsafe _, h.con.nl, h.con.lbuf, h.con.closed, h.con.atEnd,
        h.con.isFile⟩, ?_⟩
      · rw [List.append_assoc, List.take_append_drop, h.all]
      · rw [h0, List.nil_append] at o2
        exact o2
      · show t.con.lines ++ _ = _
        rw [emitLs_append, ← h.lines, List.append_nil]
    · unfold Tty.pick
      simp only [hm]
      rw [if_neg (by intro q; cases q), List.length_drop]
      omega

theorem TInv.poll {junk mem bs t done pend} (h : TInv junk mem bs t done pend)
    (hf : Fits (Ed.init junk mem) bs) (o : Os) :
    ∃ done' pend', TInv junk mem bs (t.poll o) done' pend' ∧
      (t.poll o).mu (emitLs (Ed.init junk mem) bs).length ≤
        t.mu (emitLs (Ed.init junk mem) bs).length - (if o = .nothing then 0 else 1) := by
  have deliver : ∀ (t : Tty) done pend, TInv junk mem bs t done pend →
      ∃ pend', TInv junk mem bs { t with con := t.con.poll .nothing } done pend' ∧
        (pend = [] → (t.con.poll .nothing).lines = t.con.lines) ∧
        (pend ≠ [] → (t.con.poll .nothing).lines.length = t.con.lines.length + 1 ∧
          t.con.lines.length + 1 ≤ (emitLs (Ed.init junk mem) bs).length) := by
    intro t done pend h
    cases pend with
    | nil =>
      refine ⟨[], ⟨h.all, h.ed, ?_, ?_⟩, ?_, ?_⟩
      · rw [h.con.poll0]; exact h.con
      · rw [h.con.poll0]; exact h.lines
      · intro _; rw [h.con.poll0]
      · intro q; exact absurd rfl q
    | cons l pend =>
      obtain ⟨c1, c2⟩ := h.con.poll1
      refine ⟨pend, ⟨h.all, h.ed, c1, ?_⟩, ?_, ?_⟩
      · show (t.con.poll .nothing).lines ++ pend = _
        rw [c2, ← h.lines, List.append_assoc]; rfl
      · intro q; cases q
      · intro _
        rw [c2, List.length_append]
        obtain ⟨more, hm⟩ := h.prefix
        refine ⟨rfl, ?_⟩
        rw [← hm]
        simp only [List.length_append, List.length_cons]
        omega
  unfold Tty.poll Tty.mu
  simp only []
  by_cases he : t.con.dev.ring.lu = t.con.dev.ring.ff
  · rw [if_pos he]
    have hp : pend = [] := by
      have := (Ring.empty_iff h.con.ok).1 he
      rw [h.con.items] at this
      cases pend with
      | nil => rfl
      | cons l ls => simp [outBytes] at this
    subst hp
    obtain ⟨d1, p1, i1, l1, r1⟩ := h.pick hf o
    obtain ⟨p2, i2, e2, n2⟩ := deliver _ _ _ i1
    refine ⟨d1, p2, i2, ?_⟩
    have hl : t.con.lines.length ≤ ((t.pick o).con.poll .nothing).lines.length := by
      by_cases hq : p1 = []
      · rw [e2 hq, l1]; exact Nat.le_refl _
      · rw [(n2 hq).1, l1]; omega
    by_cases hz : t.rest = []
    · have hall : t.con.lines.length = (emitLs (Ed.init junk mem) bs).length := by
        have h1 := h.lines
        have h2 := h.all
        rw [hz, List.append_nil] at h2
        rw [← h2, ← h1, List.append_nil]
      rw [hz] at r1 ⊢
      simp only [List.length_nil] at r1 ⊢
      omega
    · have : 0 < t.rest.length := by
        cases hr : t.rest with
        | nil => exact absurd hr hz
        | cons x xs => simp
      have hx : (if o = Os.nothing then 0 else 1) ≤ 1 := by split <;> decide
      generalize (if o = Os.nothing then 0 else 1) = x at r1 hx ⊢
      omega
  · rw [if_neg he]
    have hp : pend ≠ [] := by
      intro q
      subst q
      exact he ((Ring.empty_iff h.con.ok).2 h.con.items)
    obtain ⟨p2, i2, e2, n2⟩ := deliver _ _ _ h
    refine ⟨done, p2, i2, ?_⟩
    obtain ⟨n3, n4⟩ := n2 hp
    rw [n3]
    split <;> omega

theorem TInv.polls {junk mem bs t done pend} (h : TInv junk mem bs t done pend)
    (hf : Fits (Ed.init junk mem) bs) (os : List Os) :
    ∃ done' pend', TInv junk mem bs (t.polls os) done' pend' ∧
      (t.polls os).mu (emitLs (Ed.init junk mem) bs).length ≤
        t.mu (emitLs (Ed.init junk mem) bs).length - (os.filter (· ≠ .nothing)).length := by
  induction os generalizing t done pend with
  | nil => exact ⟨done, pend, h, Nat.le_refl _⟩
  | cons o os ih =>
    obtain ⟨d1, p1, i1, m1⟩ := h.poll hf o
    obtain ⟨d2, p2, i2, m2⟩ := ih i1
    refine ⟨d2, p2, i2, Nat.le_trans m2 ?_⟩
    by_cases ho : o = .nothing
    · rw [if_pos ho] at m1
      rw [List.filter_cons_of_neg (by simp [ho])]
      omega
    · rw [if_neg ho] at m1
      rw [List.filter_cons_of_pos (by simp [ho]), List.length_cons]
      omega

theorem tinv_init (junk mem bs) : TInv junk mem bs (Tty.init junk mem bs) [] [] :=
  ⟨rfl, ⟨Ring.init junk, rfl⟩, ⟨Ring.ok_init _, by simp [Tty.init, Con.init, Dev.init, Ring.items_init, outBytes],
    (fun l hl => nomatch hl), Or.inl rfl, rfl, rfl, rfl, rfl⟩, rfl⟩

/-- safety and progress of the whole console -/
theorem tty_lines (junk mem) (bs : List Byte) (hf : Fits (Ed.init junk mem) bs) (os : List Os) :
    ((Tty.init junk mem bs).polls os).con.lines <+: emitLs (Ed.init junk mem) bs ∧
    (bs.length + (emitLs (Ed.init junk mem) bs).length ≤ (os.filter (· ≠ .nothing)).length →
      ((Tty.init junk mem bs).polls os).con.lines = emitLs (Ed.init junk mem) bs) := by
  obtain ⟨d, p, i, m⟩ := (tinv_init junk mem bs).polls hf os
  obtain ⟨more, hm⟩ := i.prefix
  refine ⟨⟨p ++ more, by rw [← List.append_assoc]; exact hm⟩, fun hl => ?_⟩
  have h0 : (Tty.init junk mem bs).mu (emitLs (Ed.init junk mem) bs).length =
      bs.length + (emitLs (Ed.init junk mem) bs).length := rfl
  rw [h0] at m
  unfold Tty.mu at m
  have hlen : (emitLs (Ed.init junk mem) bs).length =
      ((Tty.init junk mem bs).polls os).con.lines.length + (p ++ more).length := by
    rw [← hm]; simp only [List.length_append]; omega
  have : p ++ more = [] := List.length_eq_zero_iff.1 (by omega)
  rw [← hm, List.append_assoc, this, List.append_nil]

end Ucsim.Fio
