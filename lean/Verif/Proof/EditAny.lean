import Verif.Proof.EditSess

/- Any characters at all: the terminal shows the line, nothing is written outside of `line`. -/
namespace Ucsim.Fio

theorem mouse_low (esc : List Byte) : (mouseKey esc) ≤ 0 ∨ 126 < mouseKey esc := by
  unfold mouseKey
  simp only []
  generalize esc.getD 4 0 - 32 = x
  generalize esc.getD 5 0 - 32 = y
  generalize hv : (BitVec.ofInt 32 (mouseCode (esc.getD 3 0)) &&& ~~~ (0xffff00 : BitVec 32) |||
    BitVec.setWidth 32 x <<< 16 ||| BitVec.setWidth 32 y <<< 8) = v
  have low : v.setWidth 8 = (BitVec.ofInt 32 (mouseCode (esc.getD 3 0))).setWidth 8 := by
    subst hv
    apply BitVec.eq_of_getLsbD_eq
    intro i hi
    have h1 : i < 16 := by omega
    have h3 : i < 32 := by omega
    simp only [BitVec.getLsbD_setWidth, BitVec.getLsbD_or, BitVec.getLsbD_and, BitVec.getLsbD_not,
      BitVec.getLsbD_shiftLeft, hi, h1, h3, decide_true, Bool.true_and, Bool.not_true, Bool.false_and,
      Bool.or_false]
    have : ∀ i : Nat, i < 8 → (0xffff00 : BitVec 32).getLsbD i = false := by decide
    rw [this i hi]
    simp
  have hm : ∀ c : Byte, ((BitVec.ofInt 32 (mouseCode c)).setWidth 8).toNat = 0 ∨
      127 < ((BitVec.ofInt 32 (mouseCode c)).setWidth 8).toNat := by decide +kernel
  have hc := hm (esc.getD 3 0)
  rw [← low] at hc
  rw [BitVec.toNat_setWidth] at hc
  rw [BitVec.toInt_eq_toNat_cond]
  have := v.isLt
  split <;> omega

/-- an escape sequence that is not complete does not end with `~` (except in a mouse report) -/
def EscOk (esc : List Byte) : Prop :=
  esc.getD 0 0 = 27 → esc.getD 2 0 ≠ 77 → esc.getD (esc.length - 1) 0 ≠ 126

theorem escOk_nil : EscOk [] := by unfold EscOk; decide

theorem ss3_pos (c : Byte) : ss3Key c ≤ 0 ∨ ss3Key c = c.toInt := by revert c; decide +kernel

theorem tilde_pos (n : Int) : tildeKey n ≤ 0 ∨ tildeKey n = 126 := by
  generalize hm : tildeKey n = m
  unfold tildeKey TU_HOME TU_DEL TU_END at hm
  by_cases h : m = 126
  · exact Or.inr h
  left
  omega

theorem getD_last (l : List Byte) (c : Byte) : (l ++ [c]).getD ((l ++ [c]).length - 1) 0 = c := by
  rw [getD_append]
  simp

/-- the key of a CSI sequence -/
theorem csi_key (esc : List Byte) :
    ((processCsi esc).2 ≤ 0 ∨ 126 < (processCsi esc).2 ∨
      ((processCsi esc).2 = 126 ∧ esc.getD (esc.length - 1) 0 = 126 ∧ esc.getD 2 0 ≠ 77)) := by
  unfold processCsi
  simp only []
  split
  · left; exact Int.le_refl _
  split
  · split
    · rcases mouse_low esc with h | h
      · exact Or.inl h
      · exact Or.inr (Or.inl h)
    · left; exact Int.le_refl _
  rename_i hm
  by_cases h1 : esc.getD (esc.length - 1) 0 = 65
  · rw [if_pos h1]; left; decide
  rw [if_neg h1]
  by_cases h2 : esc.getD (esc.length - 1) 0 = 66
  · rw [if_pos h2]; left; decide
  rw [if_neg h2]
  by_cases h3 : esc.getD (esc.length - 1) 0 = 67
  · rw [if_pos h3]; left; decide
  rw [if_neg h3]
  by_cases h4 : esc.getD (esc.length - 1) 0 = 68
  · rw [if_pos h4]; left; decide
  rw [if_neg h4]
  by_cases h5 : esc.getD (esc.length - 1) 0 = 72
  · rw [if_pos h5]; left; decide
  rw [if_neg h5]
  by_cases h6 : esc.getD (esc.length - 1) 0 = 70
  · rw [if_pos h6]; left; decide
  rw [if_neg h6]
  by_cases h7 : esc.getD (esc.length - 1) 0 = 69
  · rw [if_pos h7]; left; decide
  rw [if_neg h7]
  split
  · rename_i h126
    rcases tilde_pos (strtolInt (esc.drop 2)) with h | h
    · exact Or.inl h
    · exact Or.inr (Or.inr ⟨h, h126, hm⟩)
  · left; exact Int.le_refl _

theorem csi_esc (esc : List Byte) : (processCsi esc).1 = [] ∨
    ((processCsi esc).1 = esc ∧ (esc.length < 3 ∨ esc.getD 2 0 = 77 ∨ esc.getD (esc.length - 1) 0 ≠ 126)) := by
  unfold processCsi
  simp only []
  by_cases h3 : esc.length < 3
  · rw [if_pos h3]; exact Or.inr ⟨rfl, Or.inl h3⟩
  rw [if_neg h3]
  by_cases h2 : esc.getD 2 0 = 77
  · rw [if_pos h2]
    split
    · left; rfl
    · exact Or.inr ⟨rfl, Or.inr (Or.inl h2)⟩
  rw [if_neg h2]
  repeat (split; · left; rfl)
  rename_i h126
  exact Or.inr ⟨rfl, Or.inr (Or.inr h126)⟩

theorem processEsc_key {esc : List Byte} (h : EscOk esc) (c : Byte) :
    ((processEsc esc c).2.1 ≤ 0 ∨ 126 < (processEsc esc c).2.1 ∨ (processEsc esc c).2.1 = c.toInt) ∧
    EscOk (processEsc esc c).1 := by
  unfold processEsc
  simp only []
  by_cases h27 : esc.getD 0 0 = 27
  · rw [if_pos h27]
    have hl0 : 0 < esc.length := by
      cases esc with
      | nil => simp at h27
      | cons x xs => simp
    generalize hesc' : (if c = 0 then esc else esc ++ [c]) = esc'
    have hb : esc'.getD 0 0 = 27 := by
      subst hesc'
      split
      · exact h27
      · rw [getD_append, if_pos hl0]; exact h27
    by_cases hO : esc'.getD 1 0 = 79
    · rw [if_pos hO]
      split
      · rename_i hl
        refine ⟨Or.inl (Int.le_refl _), ?_⟩
        intro _ _
        have hl1 : esc.length = 1 := by omega
        subst hesc'
        split
        · rw [hl1, show 1 - 1 = 0 from rfl, h27]; decide
        · rename_i hc
          rw [if_neg hc, getD_append, if_neg (by omega), hl1] at hO
          rw [getD_last]
          have : c = 79 := hO
          rw [this]; decide
      · refine ⟨?_, escOk_nil⟩
        rcases ss3_pos c with h | h
        · exact Or.inl h
        · exact Or.inr (Or.inr h)
    rw [if_neg hO]
    by_cases hN : esc'.getD 1 0 = 78
    · rw [if_pos hN]
      split
      · rename_i hl
        refine ⟨Or.inl (Int.le_refl _), ?_⟩
        intro _ _
        have hl1 : esc.length = 1 := by omega
        subst hesc'
        split
        · rw [hl1, show 1 - 1 = 0 from rfl, h27]; decide
        · rename_i hc
          rw [if_neg hc, getD_append, if_neg (by omega), hl1] at hN
          rw [getD_last]
          have : c = 78 := hN
          rw [this]; decide
      · exact ⟨Or.inr (Or.inr rfl), escOk_nil⟩
    rw [if_neg hN]
    by_cases hC : esc'.getD 1 0 = 91
    · rw [if_pos hC]
      refine ⟨?_, ?_⟩
      · show (processCsi esc').2 ≤ 0 ∨ 126 < (processCsi esc').2 ∨ (processCsi esc').2 = c.toInt
        rcases csi_key esc' with h' | h' | ⟨h1, h2, h3⟩
        · exact Or.inl h'
        · exact Or.inr (Or.inl (by omega))
        · right; right
          rw [h1]
          subst hesc'
          by_cases hc : c = 0
          · simp only [hc, if_true] at h2 h3
            exact absurd h2 (h h27 h3)
          · simp only [hc, if_false] at h2
            rw [getD_last] at h2
            rw [h2]; decide
      · show EscOk (processCsi esc').1
        rcases csi_esc esc' with h' | ⟨h', hx⟩
        · rw [h']; exact escOk_nil
        · rw [h']
          intro h1 h2
          rcases hx with hx | hx | hx
          · have hl2 : esc'.length - 1 = 0 ∨ esc'.length - 1 = 1 := by omega
            rcases hl2 with hl2 | hl2
            · rw [hl2, h1]; decide
            · rw [hl2, hC]; decide
          · exact absurd hx h2
          · exact hx
    rw [if_neg hC]
    exact ⟨Or.inr (Or.inr rfl), escOk_nil⟩
  rw [if_neg h27]
  by_cases hff : esc.getD 0 0 = 255
  · rw [if_pos hff]
    have hl0 : 0 < esc.length := by
      cases esc with
      | nil => simp at hff
      | cons x xs => simp
    unfold processTelnet
    simp only []
    by_cases hA : c = 255 ∧ esc.length + 1 = 2
    · rw [if_pos hA]
      exact ⟨Or.inr (Or.inl (by decide)), escOk_nil⟩
    rw [if_neg hA]
    by_cases hB : esc.length + 1 = 3
    · rw [if_pos hB]
      exact ⟨Or.inl (Int.le_refl _), escOk_nil⟩
    · rw [if_neg hB]
      refine ⟨Or.inl (Int.le_refl _), ?_⟩
      intro h1
      exfalso
      revert h1
      simp only []
      split
      · rw [hff]; decide
      · rw [getD_append, if_pos hl0, hff]; decide
  rw [if_neg hff]
  by_cases hc : c = 27
  · rw [if_pos hc]
    exact ⟨Or.inl (Int.le_refl _), by unfold EscOk; decide⟩
  rw [if_neg hc]
  by_cases hc' : c = 255
  · rw [if_pos hc']
    exact ⟨Or.inl (Int.le_refl _), by unfold EscOk; decide⟩
  rw [if_neg hc']
  exact ⟨Or.inr (Or.inr rfl), h⟩

/-- the line given to the reader when character `c` comes, if any -/
def emitL (e : Ed) (c : Byte) : List (List Byte) :=
  if ((processEsc e.esc c).2.1 = 10 ∨ (processEsc e.esc c).2.1 = 13) ∧
      (e.lastLn = 0 ∨ e.lastLn = (processEsc e.esc c).2.1) then
    [chars e.line 0 (strlen e.line)]
  else []

/-- only the history can make the line longer by more than a character -/
def Grows (k : Int) (s s' : Sess) : Prop :=
  k ≠ TU_UP → k ≠ TU_DOWN → s'.text.length ≤ s.text.length + 1

theorem grows_key {key : Key} {k : Int} (hk : keyCode key k) (s : Sess) : Grows k s (s.key key) := by
  obtain ⟨b, a, hi, po, en⟩ := s
  intro h1 h2
  cases key with
  | enter => cases hk
  | up => exact absurd hk h1
  | down => exact absurd hk h2
  | left =>
    rcases hb : b.getLast? with _ | x
    · simp [Sess.key, hb]
    · obtain ⟨b', hb'⟩ : ∃ b', b = b' ++ [x] := List.getLast?_eq_some_iff.1 hb
      subst hb'
      simp [Sess.key, Sess.text]
  | right => cases a <;> simp [Sess.key, Sess.text]
  | del => cases a <;> simp [Sess.key, Sess.text]; omega
  | bs => simp [Sess.key, Sess.text]; omega
  | char c =>
    unfold Sess.key
    simp only []
    split
    · simp [Sess.text]; omega
    · exact Nat.le_succ _
  | _ => simp [Sess.key, Sess.text]

/-- whatever the key is -/
theorem key_any {e s} (h : Core e s) (k : Int) (c : Byte) (h0 : k ≠ 0)
    (hc : k ≤ 0 ∨ 126 < k ∨ k = c.toInt) (h10 : k ≠ 10) (h13 : k ≠ 13) :
    (∃ s', Step e s (e.key k c) s' ∧ Grows k s s') ∨ e.key k c = { e with badChar := true } := by
  by_cases k1 : k = TU_LEFT
  · exact Or.inl ⟨_, key_step h .left k c k1 h0 (Or.inr (by intro b; simp)), grows_key (key := .left) k1 s⟩
  by_cases k2 : k = TU_RIGHT
  · exact Or.inl ⟨_, key_step h .right k c k2 h0 (Or.inr (by intro b; simp)), grows_key (key := .right) k2 s⟩
  by_cases k3 : k = TU_HOME ∨ k = 1
  · exact Or.inl ⟨_, key_step h .home k c k3 h0 (Or.inr (by intro b; simp)), grows_key (key := .home) k3 s⟩
  by_cases k4 : k = TU_END ∨ k = 5
  · exact Or.inl ⟨_, key_step h .last k c k4 h0 (Or.inr (by intro b; simp)), grows_key (key := .last) k4 s⟩
  by_cases k5 : k = TU_UP
  · exact Or.inl ⟨_, key_step h .up k c k5 h0 (Or.inr (by intro b; simp)), grows_key (key := .up) k5 s⟩
  by_cases k6 : k = TU_DOWN
  · exact Or.inl ⟨_, key_step h .down k c k6 h0 (Or.inr (by intro b; simp)), grows_key (key := .down) k6 s⟩
  by_cases k7 : k = 127 ∨ k = 8
  · exact Or.inl ⟨_, key_step h .bs k c k7 h0 (Or.inr (by intro b; simp)), grows_key (key := .bs) k7 s⟩
  by_cases k8 : k = TU_DEL
  · exact Or.inl ⟨_, key_step h .del k c k8 h0 (Or.inr (by intro b; simp)), grows_key (key := .del) k8 s⟩
  by_cases k9 : k = 11
  · exact Or.inl ⟨_, key_step h .kill k c k9 h0 (Or.inr (by intro b; simp)), grows_key (key := .kill) k9 s⟩
  by_cases kp : 32 ≤ k ∧ k ≤ 126
  · have : k = c.toInt := by omega
    exact Or.inl ⟨_, key_step h (.char c) k c ⟨this, kp⟩ h0 (Or.inl rfl), grows_key (key := .char c) ⟨this, kp⟩ s⟩
  by_cases kb : 255 < k
  · right
    unfold Ed.key
    simp only [k1, k2, k3, k4, k5, k6, k7, k8, k9, if_false, h10, h13, h0, or_false]
    rw [if_neg (by omega), if_pos kb]
  · left
    refine ⟨s, ?_, fun _ _ => Nat.le_succ _⟩
    have : e.key k c = e := by
      unfold Ed.key
      simp only [k1, k2, k3, k4, k5, k6, k7, k8, k9, if_false, h10, h13, h0, or_false]
      rw [if_neg kb]
      simp only [kp, if_false]
      split <;> rfl
    rw [this]
    exact h.refl

/-- what holds whatever comes -/
structure Safe (e : Ed) (s : Sess) : Prop where
  core : Core e s
  esc : EscOk e.esc
  bad : e.oobLine = false

/-- the line on the screen: `p` is the column where it begins -/
def Drawn (ts : List Term) (s s' : Sess) (p p' : Nat) : Prop :=
  ∀ sc : Screen, sc.Shows p s.text s.before.length →
    (sc.ops ts).Shows p' s'.text s'.before.length ∧ (p' = p → ∀ i, i < p → (sc.ops ts).row i = sc.row i)

theorem ofInt_toInt_inj {c : Byte} : (c.toInt = 10 → c = 10) ∧ (c.toInt = 13 → c = 13) := by
  revert c; decide

theorem process_any {e s} (h : Safe e s) (c : Byte) (p : Nat) :
    ∃ s' ts p', Safe (e.process c) s' ∧ (e.process c).echo = e.echo ++ ts ∧ Drawn ts s s' p p' ∧
      (p' = p ∨ (p' = 0 ∧ (c = 10 ∨ c = 13))) ∧
      ((processEsc e.esc c).2.1 ≠ TU_UP → (processEsc e.esc c).2.1 ≠ TU_DOWN →
        (outBytes (emitL e c)).length + s'.text.length ≤ s.text.length + 1) := by
  obtain ⟨hk, he⟩ := processEsc_key h.esc c
  rw [process_eq]
  unfold emitL
  generalize processEsc e.esc c = r at hk he
  obtain ⟨esc', k, over⟩ := r
  simp only [] at hk he ⊢
  have hcore : Core { e with esc := esc', oobEsc := e.oobEsc || over } s :=
    ⟨⟨h.core.rep.line, h.core.rep.cur⟩, h.core.hist, h.core.nr, h.core.hok⟩
  have same : ∀ (e' : Ed) (ls : List (List Byte)), Core e' s → e'.esc = esc' → e'.oobLine = e.oobLine →
      e'.echo = e.echo → ls = [] →
      ∃ s' ts p', Safe e' s' ∧ e'.echo = e.echo ++ ts ∧ Drawn ts s s' p p' ∧
        (p' = p ∨ (p' = 0 ∧ (c = 10 ∨ c = 13))) ∧
        (k ≠ TU_UP → k ≠ TU_DOWN → (outBytes ls).length + s'.text.length ≤ s.text.length + 1) := by
    intro e' ls h1 h2 h3 h4 h5
    exact ⟨s, [], p, ⟨h1, by rw [h2]; exact he, by rw [h3]; exact h.bad⟩, by rw [h4]; simp,
      fun sc hs => ⟨hs, fun _ _ _ => rfl⟩, Or.inl rfl, by intro _ _; subst h5; simp [outBytes]⟩
  by_cases h0 : k = 0
  · rw [if_pos h0]
    exact same _ _ ⟨⟨h.core.rep.line, h.core.rep.cur⟩, h.core.hist, h.core.nr, h.core.hok⟩ rfl rfl rfl
      (by rw [if_neg (by omega)])
  rw [if_neg h0]
  by_cases hn : k = 10 ∨ k = 13
  · have hcc : c = 10 ∨ c = 13 := by
      have : k = c.toInt := by omega
      rcases hn with hn | hn
      · left; exact ofInt_toInt_inj.1 (by omega)
      · right; exact ofInt_toInt_inj.2 (by omega)
    have hf : Ed.key { e with esc := esc', oobEsc := e.oobEsc || over } k c =
        Ed.finish { e with esc := esc', oobEsc := e.oobEsc || over } k := by
      rcases hn with hn | hn <;> subst hn <;> rfl
    rw [hf]
    by_cases hl : e.lastLn = 0 ∨ e.lastLn = k
    · obtain ⟨a1, a2, a3, a4, a5, a6, a7, a8⟩ := finish_core hcore (k := k) hl
      refine ⟨_, _, 0, ⟨a1, by rw [a2]; exact escOk_nil, by rw [a4]; exact h.bad⟩, a8, ?_,
        Or.inr ⟨rfl, hcc⟩, ?_⟩
      rotate_left
      · intro _ _
        rw [if_pos ⟨hn, hl⟩, h.core.text]
        simp only [outBytes, List.flatMap_cons, List.flatMap_nil, List.append_nil, List.length_append]
        exact Nat.le_refl _
      intro sc hs
      exact ⟨⟨fun i => by simp [Screen.ops, Screen.op, Screen.char, Sess.key, Sess.text], rfl⟩,
        fun hp i hi => by omega⟩
    · rw [finish_other (e := { e with esc := esc', oobEsc := e.oobEsc || over })
        (fun q => hl (Or.inl q)) (fun q => hl (Or.inr q))]
      exact same _ _ ⟨⟨h.core.rep.line, h.core.rep.cur⟩, h.core.hist, h.core.nr, h.core.hok⟩ rfl rfl rfl
        (by rw [if_neg (fun q => hl q.2)])
  · rcases key_any hcore k c h0 hk (fun q => hn (Or.inl q)) (fun q => hn (Or.inr q)) with ⟨s', st, hg⟩ | hb
    · obtain ⟨ts, t1, t2⟩ := st.eff.ech
      refine ⟨s', ts, p, ⟨st.core, by rw [st.eff.esc]; exact he, by rw [st.eff.bad]; exact h.bad⟩, t1, ?_,
        Or.inl rfl, ?_⟩
      rotate_left
      · intro g1 g2
        rw [if_neg (fun q => hn q.1)]
        have := hg g1 g2
        simpa [outBytes] using this
      intro sc hs
      have := t2 sc p hs
      exact ⟨this.1, fun _ => this.2⟩
    · rw [hb]
      exact same _ _ ⟨⟨h.core.rep.line, h.core.rep.cur⟩, h.core.hist, h.core.nr, h.core.hok⟩ rfl rfl rfl
        (by rw [if_neg (fun q => hn q.1)])

theorem Drawn.trans {t1 t2 s1 s2 s3 p1 p2 p3} (h1 : Drawn t1 s1 s2 p1 p2) (h2 : Drawn t2 s2 s3 p2 p3)
    (hp : p3 = p2 ∨ p3 = 0) : Drawn (t1 ++ t2) s1 s3 p1 p3 := by
  intro sc hs
  obtain ⟨a1, a2⟩ := h1 sc hs
  obtain ⟨b1, b2⟩ := h2 _ a1
  rw [ops_append]
  refine ⟨b1, fun e i hi => ?_⟩
  by_cases h0 : p1 = 0
  · omega
  · have e3 : p3 = p2 := by omega
    have e2 : p2 = p1 := by omega
    rw [b2 e3 i (by omega), a2 e2 i hi]

theorem feed_any {e s} (h : Safe e s) (bs : List Byte) (p : Nat) :
    ∃ s' ts p', Safe (e.feed bs) s' ∧ (e.feed bs).echo = e.echo ++ ts ∧ Drawn ts s s' p p' ∧
      (p' = p ∨ p' = 0) ∧ ((∀ b ∈ bs, b ≠ 10 ∧ b ≠ 13) → p' = p) := by
  induction bs generalizing e s p with
  | nil => exact ⟨s, [], p, h, by simp [feed_nil], fun sc hs => ⟨hs, fun _ _ _ => rfl⟩, Or.inl rfl, fun _ => rfl⟩
  | cons b bs ih =>
    obtain ⟨s1, t1, p1, a1, a2, a3, a4, _⟩ := process_any h b p
    obtain ⟨s2, t2, p2, b1, b2, b3, b4, b5⟩ := ih a1 p1
    refine ⟨s2, t1 ++ t2, p2, b1, ?_, a3.trans b3 b4, by omega, ?_⟩
    · rw [feed_cons, b2, a2, List.append_assoc]
    · intro hb
      have h1 := hb b (by simp)
      have h2 : p1 = p := by
        rcases a4 with a4 | ⟨_, a4 | a4⟩
        · exact a4
        · exact absurd a4 h1.1
        · exact absurd a4 h1.2
      rw [b5 (fun x hx => hb x (by simp [hx])), h2]

theorem safe_init (junk mem) : Safe (Ed.init junk mem) Sess.new :=
  ⟨(inv_init [] junk mem).core, escOk_nil, rfl⟩

end Ucsim.Fio
