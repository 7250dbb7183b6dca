import Verif.Proof.Simif

namespace Ucsim.Simif
open Fio (Dev Os)

/-- what `produce_answer` and `start_answer` of the active command must do -/
def Good (ver : List Byte) (s s' : Sif) (w' : Doc.World) (k : Kind) (a : List Byte) : Prop :=
  RelW ver s' w' ∧ Out s' k a ∧ s'.cell = s.cell ∧
    (s'.cmds k).nuof = (s.cmds k).nuof ∧ (s'.cmds k).recv = (s.cmds k).recv

theorem setS_ok {s : List Byte} (hs : s ≠ []) (o : Obj) :
    (o.setAnswerS s).answer = some (BitVec.ofNat 32 (s.length + 1) :: s.map (fun b => b.signExtend 32) ++ [0]) ∧
    (o.setAnswerS s).alen = (BitVec.ofNat 32 (s.length + 1) :: s.map (fun b : Byte => b.signExtend 32) ++ [0]).length ∧
    (o.setAnswerS s).adone = 0 := by
  unfold Obj.setAnswerS
  rw [if_neg hs]
  refine ⟨rfl, ?_, rfl⟩
  simp

theorem setS_par (s : List Byte) (o : Obj) :
    (o.setAnswerS s).nuof = o.nuof ∧ (o.setAnswerS s).recv = o.recv := by
  unfold Obj.setAnswerS
  split <;> exact ⟨rfl, rfl⟩

theorem str_eq (s : List Byte) :
    (BitVec.ofNat 32 (s.length + 1) :: s.map (fun b : Byte => b.signExtend 32) ++ [0]).map (BitVec.setWidth 8) =
      Doc.str s := by
  simp only [List.map_append, List.map_cons, List.cons_append, sext8_map, ofNat8, Doc.str]
  rfl

theorem check_keep (s : Sif) (e : Env) :
    (s.check e).1.active = s.active ∧ (s.check e).1.cmds = s.cmds ∧ (s.check e).1.cell = s.cell := by
  unfold Sif.check
  split <;> exact ⟨rfl, rfl, rfl⟩

theorem readIn_keep (s : Sif) (e : Env) :
    (s.readIn e).1.active = s.active ∧ (s.readIn e).1.cmds = s.cmds ∧ (s.readIn e).1.cell = s.cell := by
  unfold Sif.readIn
  split
  · exact ⟨rfl, rfl, rfl⟩
  · simp only []
    split <;> exact ⟨rfl, rfl, rfl⟩

theorem check_ok {ver : List Byte} {s : Sif} {w} (hw : RelW ver s w) (n j) :
    RelW ver (s.check ⟨.data n, j⟩).1 w ∧ (s.check ⟨.data n, j⟩).2 = decide (w.input ≠ []) := by
  have hin := input_check hw.inp n
  unfold Sif.check
  cases hf : s.fin with
  | none =>
    rw [hf] at hin
    exact ⟨hw, by simp [hin]⟩
  | some d =>
    rw [hf] at hin
    exact ⟨⟨hw.ver, hw.mask, hw.fout, hw.limit, hw.log, hin.1⟩, hin.2⟩

theorem readIn_ok {ver : List Byte} {s : Sif} {w} (hw : RelW ver s w) (n j) :
    RelW ver (s.readIn ⟨.data n, j⟩).1 (Doc.answer ver .read [] w).2 ∧
      (Doc.answer ver .read [] w).1 = [(s.readIn ⟨.data n, j⟩).2.setWidth 8] := by
  unfold Sif.readIn
  cases hf : s.fin with
  | none =>
    have := hw.inp.2
    rw [hf] at this
    simp only at this
    have e : Doc.answer ver .read [] w = ([0], w) := by simp [Doc.answer, this]
    rw [e]
    exact ⟨hw, rfl⟩
  | some d =>
    have hin0 : Input (some d) w.input := hf ▸ hw.inp
    simp only []
    cases hi : w.input with
    | nil =>
      rw [hi] at hin0
      have hin := input_read hin0 n
      have e : Doc.answer ver .read [] w = ([0], w) := by simp [Doc.answer, hi]
      rw [e]
      rcases hin with ⟨h1, h2⟩ | ⟨h1, h2, h3⟩
      · rw [if_neg (by rw [h1]; simp)]
        exact ⟨⟨hw.ver, hw.mask, hw.fout, hw.limit, hw.log, by rw [hi]; exact h2⟩, rfl⟩
      · rw [if_pos h1, if_pos h2]
        exact ⟨⟨hw.ver, hw.mask, hw.fout, hw.limit, hw.log, by rw [hi]; exact h3⟩, rfl⟩
    | cons b bs =>
      rw [hi] at hin0
      have hin := input_read hin0 n
      obtain ⟨h1, h2, h3, h4⟩ := hin
      have e : Doc.answer ver .read [] w = ([b], { w with input := bs }) := by
        simp [Doc.answer, hi]
      rw [e, if_pos h1, if_neg (by rw [h2]; decide)]
      refine ⟨⟨hw.ver, hw.mask, hw.fout, hw.limit, hw.log, h4⟩, ?_⟩
      simp only [h3, ofInt8]

theorem good_null {ver : List Byte} {s : Sif} {w} {k} (hv : ver ≠ []) (hw : RelW ver s w)
    (ha : s.active = some k) (hc : ∀ j, Clear (s.cmds j)) (hk : needed k = 0) (n j) :
    Good ver s ((s.produce ⟨.data n, j⟩ k).startAnswer k) (Doc.answer ver k [] w).2 k
      (Doc.answer ver k [] w).1 := by
  have nd : ∀ a : Word, ∀ o : Obj, Clear o → (o.setAnswer1 a).answer = some [a] ∧
      (o.setAnswer1 a).alen = [a].length ∧ (o.setAnswer1 a).adone = 0 :=
    fun a o _ => ⟨rfl, rfl, rfl⟩
  have np : ∀ a : Word, ∀ o : Obj, (o.setAnswer1 a).nuof = o.nuof ∧ (o.setAnswer1 a).recv = o.recv :=
    fun a o => ⟨rfl, rfl⟩
  cases k with
  | detect => exact set_out hw ha hc _ [0x21] (by simp) (nd _) (np _) rfl
  | commands =>
    refine set_out hw ha hc (fun o => { o with
      answer := some (BitVec.ofNat 32 order.length :: order.map code), alen := order.length + 1 })
      (BitVec.ofNat 32 order.length :: order.map code) (by simp) ?_
      (fun o => ⟨rfl, rfl⟩) ?_
    · intro o ho; exact ⟨rfl, rfl, ho.2.2⟩
    · rw [List.map_cons, codes_eq]; rfl
  | ifver => exact set_out hw ha hc _ [2] (by simp) (nd _) (np _) rfl
  | simver =>
    refine set_out hw ha hc (·.setAnswerS s.ver)
      (BitVec.ofNat 32 (ver.length + 1) :: ver.map (fun b : Byte => b.signExtend 32) ++ [0])
      (by simp) (fun o _ => ?_) (setS_par s.ver) ?_
    · rw [hw.ver]; exact setS_ok hv o
    · exact str_eq ver
  | ifreset =>
    have hc' : ∀ j, Clear ((s.upd .ifreset Obj.clearAnswer).cmds j) := by
      intro j
      by_cases e : j = .ifreset
      · subst e; rw [upd_same]; exact ⟨rfl, rfl, rfl⟩
      · rw [upd_other s _ e]; exact hc j
    have h0 : ((s.upd .ifreset Obj.clearAnswer).cmds .ifreset).alen = 0 := (hc' .ifreset).2.1
    obtain ⟨p1, p2⟩ := par_startAnswer (s.upd .ifreset Obj.clearAnswer) .ifreset
    refine ⟨(hw.upd _ _).startAnswer _, ?_, cell_startAnswer _ _, ?_, ?_⟩
    · show Out _ _ []
      unfold Out; rw [if_pos rfl]
      show Idle ((s.upd .ifreset Obj.clearAnswer).startAnswer .ifreset)
      unfold Sif.startAnswer
      rw [if_neg (by rw [h0]; simp)]
      refine finish_idle (k := .ifreset) ha (fun j e => ?_)
      rw [upd_other _ _ e]; exact hc' j
    · exact p1.trans (by rw [upd_same]; rfl)
    · exact p2.trans (by rw [upd_same]; rfl)
  | stop =>
    have hw2 : RelW ver (s.ev [.stop]) (w.add [.stop]) :=
      ⟨hw.ver, hw.mask, hw.fout, hw.limit, by simp [Sif.ev, Doc.World.add, hw.log], hw.inp⟩
    exact set_out (s := s.ev [.stop]) hw2 ha hc _ [code .stop] (by simp) (nd _) (np _) rfl
  | finCheck =>
    obtain ⟨c1, c2⟩ := check_ok hw n j
    obtain ⟨q1, q2, q3⟩ := check_keep s ⟨.data n, j⟩
    have hr := set_out (a := [if w.input = [] then 0 else 1]) c1 (q1.trans ha) (by rw [q2]; exact hc) (·.setAnswer1 (if (s.check ⟨.data n, j⟩).2 then 1 else 0))
      [if (s.check ⟨.data n, j⟩).2 then 1 else 0] (by simp) (nd _) (np _)
      (by rw [c2]; by_cases e : w.input = [] <;> simp [e])
    rw [q2, q3] at hr
    exact hr
  | read =>
    have c1 := readIn_ok hw n j
    obtain ⟨q1, q2, q3⟩ := readIn_keep s ⟨.data n, j⟩
    have e : Doc.answer ver .read [] w = ([(s.readIn ⟨.data n, j⟩).2.setWidth 8], (Doc.answer ver .read [] w).2) := by
      rw [← c1.2]
    rw [e]
    have hr := set_out c1.1 (q1.trans ha) (by rw [q2]; exact hc) (·.setAnswer1 (s.readIn ⟨.data n, j⟩).2)
      [(s.readIn ⟨.data n, j⟩).2] (by simp) (nd _) (np _) rfl
    rw [q2, q3] at hr
    exact hr
  | reset =>
    have hw2 : RelW ver (s.ev [.reset]) (w.add [.reset]) :=
      ⟨hw.ver, hw.mask, hw.fout, hw.limit, by simp [Sif.ev, Doc.World.add, hw.log], hw.inp⟩
    exact fin_out (s := s.ev [.reset]) hw2 ha hc
  | getlimit =>
    refine set_out hw ha hc (·.setAnswerN _)
      (4 :: [s.limit &&& 0xff, (s.limit >>> 8) &&& 0xff, (s.limit >>> 16) &&& 0xff, (s.limit >>> 24) &&& 0xff])
      (by simp) (fun o _ => ⟨rfl, rfl, rfl⟩) (fun o => ⟨rfl, rfl⟩) ?_
    rw [List.map_cons, limit_get, hw.limit]
    rfl
  | _ => exact absurd hk (by decide)

/-- a command that needs parameters has got them -/
theorem good_args {ver : List Byte} {s : Sif} {w} {k} (hw : RelW ver s w)
    (ha : s.active = some k) (hc : ∀ j, Clear (s.cmds j)) (e : Env) (got : List Byte)
    (hg : got.length = needed k) (h0 : needed k ≠ 0)
    (hp : (s.cmds k).pars = some (got.map (BitVec.zeroExtend 32))) (hn : (s.cmds k).nuof = needed k) :
    Good ver s ((s.produce e k).startAnswer k) (Doc.answer ver k got w).2 k
      (Doc.answer ver k got w).1 := by
  have gp : ∀ c rest, got = c :: rest → (s.cmds k).getParameter 0 = some (c.zeroExtend 32) := by
    intro c rest hgc
    unfold Obj.getParameter
    rw [hp, hgc]
    simp only
    rw [if_neg (by omega)]
    rfl
  cases k with
  | cmdinfo =>
    match got, hg with
    | [c], _ =>
      show Good ver s (Sif.startAnswer (Sif.produce s e .cmdinfo) .cmdinfo) w .cmdinfo _
      unfold Sif.produce
      simp only [gp c [] rfl, find_eq]
      refine set_out hw ha hc (fun o => { o with
        answer := some (2 :: (match Doc.byLetter c with
          | some a => [BitVec.ofNat 32 (needed a), atype a]
          | none => [0, 0])), alen := 3 }) (2 :: (match Doc.byLetter c with
          | some a => [BitVec.ofNat 32 (needed a), atype a]
          | none => [0, 0])) (by simp) ?_ (fun o => ⟨rfl, rfl⟩) ?_
      · intro o ho
        refine ⟨rfl, ?_, ho.2.2⟩
        cases Doc.byLetter c <;> rfl
      · simp only [Doc.answer]
        cases Doc.byLetter c with
        | none => rfl
        | some a => simp only [List.map_cons, List.map_nil, needed8, atype_eq]; rfl
  | cmdhelp =>
    match got, hg with
    | [c], _ =>
      show Good ver s (Sif.startAnswer (Sif.produce s e .cmdhelp) .cmdhelp) w .cmdhelp _
      unfold Sif.produce
      simp only [gp c [] rfl, find_eq, Doc.answer]
      cases Doc.byLetter c with
      | none =>
        exact set_out hw ha hc (·.setAnswer1 0) [0] (by simp) (fun o _ => ⟨rfl, rfl, rfl⟩)
          (fun o => ⟨rfl, rfl⟩) rfl
      | some a =>
        refine set_out hw ha hc (·.setAnswerS (descr a)) _ (by simp) (fun o _ => setS_ok (descr_ne a) o)
          (setS_par (descr a)) ?_
        rw [str_eq, descr_eq]
  | print =>
    match got, hg with
    | [c], _ =>
      show Good ver s (Sif.startAnswer (Sif.produce s e .print) .print) (w.add [.con c]) .print []
      unfold Sif.produce
      simp only [gp c [] rfl, zext8]
      have hw2 : RelW ver (s.ev [.con c]) (w.add [.con c]) :=
        ⟨hw.ver, hw.mask, hw.fout, hw.limit, by simp [Sif.ev, Doc.World.add, hw.log], hw.inp⟩
      exact fin_out (s := s.ev [.con c]) hw2 ha hc
  | hex =>
    match got, hg with
    | [c], _ =>
      show Good ver s (Sif.startAnswer (Sif.produce s e .hex) .hex) (w.add ((Doc.hex2 c).map .con)) .hex []
      unfold Sif.produce
      simp only [gp c [] rfl, fmt_eq]
      have hw2 : RelW ver (s.ev ((Doc.hex2 c).map .con)) (w.add ((Doc.hex2 c).map .con)) :=
        ⟨hw.ver, hw.mask, hw.fout, hw.limit, by simp [Sif.ev, Doc.World.add, hw.log], hw.inp⟩
      exact fin_out (s := s.ev ((Doc.hex2 c).map .con)) hw2 ha hc
  | write =>
    match got, hg with
    | [c], _ =>
      show Good ver s (Sif.startAnswer (Sif.produce s e .write) .write)
        (if w.output then w.add [.file c] else w) .write []
      unfold Sif.produce
      simp only [gp c [] rfl, zext8, hw.fout]
      cases w.output with
      | false => simp only [Bool.false_eq_true, if_false]; exact fin_out hw ha hc
      | true =>
        simp only [if_true]
        have hw2 : RelW ver (s.ev [.file c]) (w.add [.file c]) :=
          ⟨hw.ver, hw.mask, hw.fout, hw.limit, by simp [Sif.ev, Doc.World.add, hw.log], hw.inp⟩
        exact fin_out (s := s.ev [.file c]) hw2 ha hc
  | setlimit =>
    match got, hg with
    | [b0, b1, b2, b3], _ =>
      have hl := limit_set b0 b1 b2 b3
      show Good ver s (Sif.startAnswer (Sif.produce s e .setlimit) .setlimit) _ .setlimit []
      unfold Sif.produce
      simp only [hp, Option.getD_some, List.map_cons, List.map_nil, List.getD_cons_succ,
        List.getD_cons_zero]
      generalize hv : (((b3.zeroExtend 32 &&& 0xff : Word) <<< 24) + ((b2.zeroExtend 32 &&& 0xff) <<< 16) +
        ((b1.zeroExtend 32 &&& 0xff) <<< 8) + (b0.zeroExtend 32 &&& 0xff)) = v at *
      have hw2 : RelW ver ({ s with limit := v }.ev [.limit v.toNat])
          (Doc.answer ver .setlimit [b0, b1, b2, b3] w).2 := by
        refine ⟨hw.ver, hw.mask, hw.fout, hl, ?_, hw.inp⟩
        simp only [Sif.ev, Doc.answer, Doc.World.add, hw.log, hl]
      exact fin_out (s := { s with limit := v }.ev [.limit v.toNat]) hw2 ha hc
  | _ => exact absurd rfl h0

/-! ### accesses -/

structure Rel (ver : List Byte) (s : Sif) (m : Doc.Mach) : Prop where
  w : RelW ver s m.w
  ph : RelP s m.ph
  cell : s.cell = m.last.zeroExtend 32

theorem relW_cell {ver s w} (h : RelW ver s w) (c) : RelW ver { s with cell := c } w :=
  ⟨h.ver, h.mask, h.fout, h.limit, h.log, h.inp⟩

theorem relP_cell {s ph} (h : RelP s ph) (c) : RelP { s with cell := c } ph := by
  cases ph with
  | idle => exact h
  | args k got => exact ⟨h.act, h.clear, h.pars, h.nuof, h.recv, h.lt⟩
  | ans rest =>
    obtain ⟨k, h, hn⟩ := h
    exact ⟨k, ⟨h.act, h.others, h.ans, h.answering⟩, hn⟩

/-- the write of a value, without the storing of it in the cell -/
def Sif.wr0 (s : Sif) (e : Env) (v : Word) : Sif :=
  match s.active with
  | none => match find v with
    | some k => { s with active := some k }.startCmd e k
    | none => s
  | some k => s.cmdWrite e k v

theorem wr_eq (s : Sif) (e v) : s.wr e v = { s.wr0 e v with cell := v &&& (s.wr0 e v).mask } := rfl

theorem phase_of_out {s : Sif} {k} {a : List Byte} (h : Out s k a)
    (hn : a ≠ [] → (s.cmds k).nuof ≤ (s.cmds k).recv) :
    RelP s (if a = [] then .idle else .ans a) := by
  unfold Out at h
  split at h
  · rename_i e; rw [if_pos e]; exact h
  · rename_i e; rw [if_neg e]; exact ⟨k, h, hn e⟩

theorem out_upd {s : Sif} {k} {a : List Byte} (h : Out s k a) (f : Obj → Obj)
    (hf : ∀ o, (f o).answer = o.answer ∧ (f o).alen = o.alen ∧ (f o).adone = o.adone ∧
      (f o).answering = o.answering) : Out (s.upd k f) k a := by
  unfold Out at *
  split
  · rename_i e
    rw [if_pos e] at h
    refine ⟨h.1, fun j => ?_⟩
    by_cases ej : j = k
    · subst ej
      obtain ⟨f1, f2, f3, _⟩ := hf (s.cmds j)
      obtain ⟨c1, c2, c3⟩ := h.2 j
      rw [upd_same]
      exact ⟨f1.trans c1, f2.trans c2, f3.trans c3⟩
    · rw [upd_other s _ ej]; exact h.2 j
  · rename_i e
    rw [if_neg e] at h
    obtain ⟨f1, f2, f3, f4⟩ := hf (s.cmds k)
    obtain ⟨as, a1, a2, a3, a4⟩ := h.ans
    refine ⟨h.act, fun j ej => ?_, ⟨as, ?_, ?_, ?_, ?_⟩, ?_⟩
    · rw [upd_other s _ ej]; exact h.others j ej
    all_goals rw [upd_same]
    · exact f1.trans a1
    · exact f2.trans a2
    · rw [f3]; exact a3
    · rw [f3]; exact a4
    · exact f4.trans h.answering

theorem wr0_rel {ver : List Byte} {s : Sif} {m : Doc.Mach} (hv : ver ≠ []) (h : Rel ver s m)
    (v : Byte) (n j) :
    RelW ver (s.wr0 ⟨.data n, j⟩ (v.zeroExtend 32)) (m.write ver v).w ∧
    RelP (s.wr0 ⟨.data n, j⟩ (v.zeroExtend 32)) (m.write ver v).ph := by
  obtain ⟨hw, hp, hcell⟩ := h
  unfold Sif.wr0 Doc.Mach.write
  cases hph : m.ph with
  | idle =>
    rw [hph] at hp
    obtain ⟨ha, hc⟩ := hp
    rw [ha]
    simp only [find_eq]
    cases hb : Doc.byLetter v with
    | none => exact ⟨hw, by rw [hph]; exact ⟨ha, hc⟩⟩
    | some k =>
      simp only [Doc.Mach.feed, List.length_nil]
      unfold Sif.startCmd
      simp only []
      generalize hs1 : Sif.upd { s with active := some k } k Obj.clearParams = s1
      have hw1 : RelW ver s1 m.w := by
        rw [← hs1]; exact ⟨hw.ver, hw.mask, hw.fout, hw.limit, hw.log, hw.inp⟩
      have ha1 : s1.active = some k := by rw [← hs1]; rfl
      have hc1 : ∀ j, Clear (s1.cmds j) := by
        intro j
        rw [← hs1]
        by_cases e : j = k
        · subst e; rw [upd_same]; exact hc j
        · rw [upd_other _ _ e]; exact hc j
      by_cases hk : needed k = 0
      · rw [if_pos hk, ← needed_eq, if_pos hk.symm]
        obtain ⟨g1, g2, g3, g4, g5⟩ := good_null hv hw1 ha1 hc1 hk n j
        refine ⟨g1.upd _ _, ?_⟩
        apply phase_of_out (k := k)
        · exact out_upd g2 _ (fun o => ⟨rfl, rfl, rfl, rfl⟩)
        · intro _; rw [upd_same]; simp only [hk]; omega
      · rw [if_neg hk, ← needed_eq, if_neg (fun e => hk e.symm)]
        refine ⟨hw1.upd _ _, ?_⟩
        refine ⟨ha1, fun j => ?_, ⟨List.replicate (needed k) 0, ?_, ?_, ?_⟩, ?_, ?_, ?_⟩
        · by_cases e : j = k
          · subst e; rw [upd_same]; exact hc1 j
          · rw [upd_other _ _ e]; exact hc1 j
        · rw [upd_same]
        · simp
        · rfl
        · rw [upd_same]
        · rw [upd_same]; rfl
        · simp only [List.length_nil]; omega
  | args k got =>
    rw [hph] at hp
    obtain ⟨ha, hc, ⟨ps, p1, p2, p3⟩, hn, hr, hlt⟩ := hp
    rw [ha]
    simp only [Doc.Mach.feed, List.length_append, List.length_cons, List.length_nil, Nat.zero_add]
    unfold Sif.cmdWrite
    simp only [p1, hn, hr]
    rw [if_pos ⟨by omega, hlt⟩]
    generalize hs1 : s.upd k (fun o => { o with pars := some (ps.set o.recv (v.zeroExtend 32)), recv := o.recv + 1 }) = s1
    have hw1 : RelW ver s1 m.w := by
      rw [← hs1]; exact hw.upd _ _
    have ha1 : s1.active = some k := by rw [← hs1]; exact ha
    have hc1 : ∀ j, Clear (s1.cmds j) := by
      intro j
      rw [← hs1]
      by_cases e : j = k
      · subst e; rw [upd_same]; exact hc j
      · rw [upd_other _ _ e]; exact hc j
    have hp1 : (s1.cmds k).pars = some (ps.set got.length (v.zeroExtend 32)) := by
      rw [← hs1, upd_same]; simp only [hr]
    have hn1 : (s1.cmds k).nuof = needed k := by rw [← hs1, upd_same]; exact hn
    have hr1 : (s1.cmds k).recv = got.length + 1 := by rw [← hs1, upd_same]; simp only [hr]
    have ht : (ps.set got.length (v.zeroExtend 32)).take (got.length + 1) =
        (got ++ [v]).map (BitVec.zeroExtend 32) := by
      rw [List.take_add_one, List.take_set_of_le (by omega), p3, List.map_append]
      rw [List.getElem?_set_self (by omega)]
      rfl
    by_cases hfull : got.length + 1 ≥ needed k
    · rw [if_pos hfull, ← needed_eq, if_pos (by omega)]
      have hp2 : (s1.cmds k).pars = some ((got ++ [v]).map (BitVec.zeroExtend 32)) := by
        rw [hp1, ← ht, List.take_of_length_le (by rw [List.length_set]; omega)]
      obtain ⟨g1, g2, g3, g4, g5⟩ := good_args hw1 ha1 hc1 ⟨.data n, j⟩ (got ++ [v])
        (by simp; omega) (by omega) hp2 hn1
      refine ⟨g1, phase_of_out g2 (fun _ => ?_)⟩
      rw [g4, g5, hn1, hr1]; omega
    · rw [if_neg hfull, ← needed_eq, if_neg (by omega)]
      refine ⟨hw1, ⟨ha1, hc1, ⟨_, hp1, by rw [List.length_set]; exact p2, ?_⟩, hn1, ?_, ?_⟩⟩
      · rw [List.length_append]; exact ht
      · rw [hr1, List.length_append]; rfl
      · rw [List.length_append]; simp only [List.length_cons, List.length_nil]; omega
  | ans rest =>
    rw [hph] at hp
    obtain ⟨k, hans, hn⟩ := hp
    rw [hans.act]
    have hid : s.cmdWrite ⟨.data n, j⟩ k (v.zeroExtend 32) = s := by
      unfold Sif.cmdWrite
      simp only []
      split
      · rfl
      · rw [if_neg (by omega)]
    simp only [hid]
    refine ⟨hw, ?_⟩
    rw [hph]; exact ⟨k, hans, hn⟩

theorem wr_rel {ver : List Byte} {s : Sif} {m : Doc.Mach} (hv : ver ≠ []) (h : Rel ver s m)
    (v : Byte) (n j) : Rel ver (s.wr ⟨.data n, j⟩ (v.zeroExtend 32)) (m.write ver v) := by
  obtain ⟨h1, h2⟩ := wr0_rel hv h v n j
  rw [wr_eq]
  refine ⟨relW_cell h1 _, relP_cell h2 _, ?_⟩
  simp only [h1.mask]
  exact cell8 v

theorem read_idle {m : Doc.Mach} (h : m.ph = .idle) : m.read = (m, ~~~ m.last) := by
  unfold Doc.Mach.read; rw [h]

theorem read_args {m : Doc.Mach} {k got} (h : m.ph = .args k got) : m.read = (m, m.last) := by
  unfold Doc.Mach.read; rw [h]

theorem read_one {m : Doc.Mach} {b} (h : m.ph = .ans [b]) :
    m.read = ({ m with ph := .idle }, b) := by
  unfold Doc.Mach.read; rw [h]

theorem read_more {m : Doc.Mach} {b bs} (h : m.ph = .ans (b :: bs)) (hne : bs ≠ []) :
    m.read = ({ m with ph := .ans bs }, b) := by
  unfold Doc.Mach.read; rw [h]
  cases bs with
  | nil => exact absurd rfl hne
  | cons c cs => rfl

theorem rd_rel {ver : List Byte} {s : Sif} {m : Doc.Mach} (h : Rel ver s m) :
    Rel ver s.rd.1 m.read.1 ∧ (s.rd.2).setWidth 8 = m.read.2 := by
  obtain ⟨hw, hp, hcell⟩ := h
  unfold Sif.rd
  cases hph : m.ph with
  | idle =>
    rw [hph] at hp
    rw [hp.1, read_idle hph]
    refine ⟨⟨hw, by rw [hph]; exact hp, hcell⟩, ?_⟩
    simp only [hcell, hw.mask]
    exact not8 _
  | args k got =>
    rw [hph] at hp
    rw [hp.act, read_args hph]
    have : s.cmdRead k = (s, s.cell) := by
      unfold Sif.cmdRead
      simp only [(hp.clear k).1]
      cases (s.cmds k).answering <;> rfl
    simp only [this]
    exact ⟨⟨hw, by rw [hph]; exact hp, hcell⟩, by rw [hcell]; exact zext8 _⟩
  | ans rest =>
    rw [hph] at hp
    obtain ⟨k, hans, hn⟩ := hp
    obtain ⟨as, a1, a2, a3, a4⟩ := hans.ans
    rw [hans.act]
    simp only []
    unfold Sif.cmdRead
    simp only [hans.answering, a1, a2, if_pos a3]
    have hdrop : as.drop (s.cmds k).adone = as[(s.cmds k).adone] :: as.drop ((s.cmds k).adone + 1) :=
      List.drop_eq_getElem_cons a3
    have hg : as.getD (s.cmds k).adone 0 = as[(s.cmds k).adone] := by
      simp [List.getD, List.getElem?_eq_getElem a3]
    rw [hdrop, List.map_cons] at a4
    generalize hs1 : s.upd k (fun o => { o with adone := (s.cmds k).adone + 1 }) = s1
    have hw1 : RelW ver s1 m.w := by rw [← hs1]; exact hw.upd _ _
    have ha1 : s1.active = some k := by rw [← hs1]; exact hans.act
    have ho1 : ∀ j, j ≠ k → Clear (s1.cmds j) := by
      intro j e; rw [← hs1, upd_other _ _ e]; exact hans.others j e
    have hcell1 : s1.cell = m.last.zeroExtend 32 := by rw [← hs1]; exact hcell
    by_cases hend : (s.cmds k).adone + 1 ≥ as.length
    · rw [if_pos hend]
      have : as.drop ((s.cmds k).adone + 1) = [] := List.drop_eq_nil_of_le hend
      rw [this, List.map_nil] at a4
      rw [read_one (by rw [hph, a4])]
      refine ⟨⟨hw1.finish, finish_idle ha1 ho1, by rw [cell_finish]; exact hcell1⟩, by rw [hg]⟩
    · rw [if_neg hend]
      have hne : (as.drop ((s.cmds k).adone + 1)).map (BitVec.setWidth 8) ≠ ([] : List Byte) := by
        intro e
        have := congrArg List.length e
        simp only [List.length_map, List.length_drop, List.length_nil] at this
        omega
      rw [read_more (by rw [hph, a4]) hne]
      refine ⟨⟨hw1, ⟨k, ⟨ha1, ho1, ⟨as, ?_, ?_, ?_, ?_⟩, ?_⟩, ?_⟩, hcell1⟩, by rw [hg]⟩
      all_goals rw [← hs1, upd_same]
      · exact a1
      · exact a2
      · simp only []; omega
      · exact hans.answering
      · exact hn

end Ucsim.Simif
