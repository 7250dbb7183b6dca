import Verif.Simif.Model
import Verif.Spec.Simif
import Verif.Proof.FioDev

/-! The model of the simulator interface behaves like the machine of Spec/Simif.lean. -/
namespace Ucsim.Simif
open Fio (Dev Os)

/-! ### tables -/

theorem find_eq (v : Byte) : find (v.zeroExtend 32) = Doc.byLetter v := by
  revert v; decide +kernel

theorem needed_eq (k : Kind) : needed k = Doc.needs k := by cases k <;> rfl
theorem atype_eq (k : Kind) : (atype k).setWidth 8 = Doc.typeOf k := by cases k <;> rfl
theorem needed8 (k : Kind) : (BitVec.ofNat 32 (needed k)).setWidth 8 = BitVec.ofNat 8 (Doc.needs k) := by
  cases k <;> rfl
theorem descr_eq (k : Kind) : descr k = chars (Doc.help k) := by cases k <;> rfl
theorem descr_ne (k : Kind) : descr k ≠ [] := by
  cases k <;> simp [descr, chars]
theorem fmt_eq (v : Byte) : fmt02x (v.zeroExtend 32) = Doc.hex2 v := by
  revert v; decide +kernel
theorem codes_eq : (order.map code).map (BitVec.setWidth 8) = Doc.kinds.map Doc.letter := by
  decide +kernel

theorem zext8 (v : Byte) : (v.zeroExtend 32).setWidth 8 = v := by revert v; decide +kernel
theorem sext8 (v : Byte) : (v.signExtend 32).setWidth 8 = v := by revert v; decide +kernel
theorem sext8_map (s : List Byte) :
    (s.map (fun b => b.signExtend 32)).map (BitVec.setWidth 8) = s := by
  rw [List.map_map]
  induction s with
  | nil => rfl
  | cons a s ih => rw [List.map_cons, ih, Function.comp_apply, sext8]
theorem ofInt8 (b : Byte) : (BitVec.ofInt 32 b.toInt).setWidth 8 = b := by
  revert b; decide +kernel
theorem cell8 (v : Byte) : v.zeroExtend 32 &&& (255 : Word) = v.zeroExtend 32 := by
  revert v; decide +kernel
theorem not8 (v : Byte) : (~~~ (v.zeroExtend 32) &&& (255 : Word)).setWidth 8 = ~~~ v := by
  revert v; decide +kernel

theorem ofNat8 (n : Nat) : (BitVec.ofNat 32 n).setWidth 8 = BitVec.ofNat 8 n := by
  apply BitVec.eq_of_toNat_eq
  simp only [BitVec.toNat_setWidth, BitVec.toNat_ofNat]
  omega

/-! ### relation -/

/-- nothing of an answer in the object -/
def Clear (o : Obj) : Prop := o.answer = none ∧ o.alen = 0 ∧ o.adone = 0

/-- the input file and what is unread of it -/
def Input (f : Option Dev) (i : List Byte) : Prop :=
  255 ∉ i ∧ match f with
  | none => i = []
  | some d => d.Inv i

structure RelW (ver : List Byte) (s : Sif) (w : Doc.World) : Prop where
  ver : s.ver = ver
  mask : s.mask = 255
  fout : s.fout = w.output
  limit : s.limit.toNat = w.limit
  log : s.log = w.log
  inp : Input s.fin w.input

def Idle (s : Sif) : Prop := s.active = none ∧ ∀ j, Clear (s.cmds j)

structure Ans (s : Sif) (k : Kind) (rest : List Byte) : Prop where
  act : s.active = some k
  others : ∀ j, j ≠ k → Clear (s.cmds j)
  ans : ∃ as : List Word, (s.cmds k).answer = some as ∧ (s.cmds k).alen = as.length ∧
    (s.cmds k).adone < as.length ∧ (as.drop (s.cmds k).adone).map (BitVec.setWidth 8) = rest
  answering : (s.cmds k).answering = true

structure Args (s : Sif) (k : Kind) (got : List Byte) : Prop where
  act : s.active = some k
  clear : ∀ j, Clear (s.cmds j)
  pars : ∃ ps : List Word, (s.cmds k).pars = some ps ∧ ps.length = needed k ∧
    ps.take got.length = got.map (BitVec.zeroExtend 32)
  nuof : (s.cmds k).nuof = needed k
  recv : (s.cmds k).recv = got.length
  lt : got.length < needed k

def RelP (s : Sif) : Doc.Phase → Prop
  | .idle => Idle s
  | .args k got => Args s k got
  | .ans rest => ∃ k, Ans s k rest ∧ (s.cmds k).nuof ≤ (s.cmds k).recv

/-- what a command that got its arguments leaves: answer `a` -/
def Out (s : Sif) (k : Kind) (a : List Byte) : Prop :=
  if a = [] then Idle s else Ans s k a

/-! ### pieces -/

theorem upd_same (s : Sif) (k f) : (s.upd k f).cmds k = f (s.cmds k) := by simp [Sif.upd]
theorem upd_other (s : Sif) {k j : Kind} (f) (h : j ≠ k) : (s.upd k f).cmds j = s.cmds j := by
  simp [Sif.upd, h]

theorem RelW.upd {ver s w} (h : RelW ver s w) (k f) : RelW ver (s.upd k f) w :=
  ⟨h.ver, h.mask, h.fout, h.limit, h.log, h.inp⟩

theorem RelW.finish {ver s w} (h : RelW ver s w) : RelW ver s.finish w := by
  unfold Sif.finish
  split
  · exact ⟨h.ver, h.mask, h.fout, h.limit, h.log, h.inp⟩
  · exact h

theorem RelW.startAnswer {ver s w} (h : RelW ver s w) (k) : RelW ver (s.startAnswer k) w := by
  unfold Sif.startAnswer
  split
  · exact h.upd _ _
  · exact (h.upd _ _).finish

theorem cell_finish (s : Sif) : s.finish.cell = s.cell := by
  unfold Sif.finish; split <;> rfl

theorem cell_startAnswer (s : Sif) (k) : (s.startAnswer k).cell = s.cell := by
  unfold Sif.startAnswer
  split
  · rfl
  · rw [cell_finish]; rfl

/-- the parameters of the command after `startAnswer` -/
theorem par_finish (s : Sif) (k) : (s.finish.cmds k).nuof = (s.cmds k).nuof ∧
    (s.finish.cmds k).recv = (s.cmds k).recv := by
  unfold Sif.finish
  split
  · rename_i j _
    show ((s.upd j _).cmds k).nuof = _ ∧ ((s.upd j _).cmds k).recv = _
    by_cases e : k = j
    · subst e; rw [upd_same]; exact ⟨rfl, rfl⟩
    · rw [upd_other s _ e]; exact ⟨rfl, rfl⟩
  · exact ⟨rfl, rfl⟩

theorem par_upd (s : Sif) (k) (f : Obj → Obj) (hf : (f (s.cmds k)).nuof = (s.cmds k).nuof)
    (hr : (f (s.cmds k)).recv = (s.cmds k).recv) :
    ((s.upd k f).cmds k).nuof = (s.cmds k).nuof ∧ ((s.upd k f).cmds k).recv = (s.cmds k).recv := by
  rw [upd_same]; exact ⟨hf, hr⟩

theorem par_startAnswer (s : Sif) (k) : ((s.startAnswer k).cmds k).nuof = (s.cmds k).nuof ∧
    ((s.startAnswer k).cmds k).recv = (s.cmds k).recv := by
  unfold Sif.startAnswer
  split
  · rw [upd_same]; exact ⟨rfl, rfl⟩
  · obtain ⟨a, b⟩ := par_finish (s.upd k (fun o => { o with answering := false })) k
    rw [a, b, upd_same]; exact ⟨rfl, rfl⟩

theorem finish_idle {s : Sif} {k} (ha : s.active = some k) (ho : ∀ j, j ≠ k → Clear (s.cmds j)) :
    Idle s.finish := by
  unfold Sif.finish
  rw [ha]
  refine ⟨rfl, fun j => ?_⟩
  show Clear ((s.upd k Obj.clearAnswer).cmds j)
  by_cases e : j = k
  · subst e; rw [upd_same]; exact ⟨rfl, rfl, rfl⟩
  · rw [upd_other s _ e]; exact ho j e

theorem startAnswer_idle {s : Sif} (h : Idle s) (k) : Idle (s.startAnswer k) := by
  obtain ⟨ha, hc⟩ := h
  unfold Sif.startAnswer
  have : (s.cmds k).alen = 0 := (hc k).2.1
  simp only [this, ne_eq, not_true, if_false]
  unfold Sif.finish
  have : (s.upd k (fun o => { o with answering := false })).active = none := ha
  rw [this]
  refine ⟨ha, fun j => ?_⟩
  by_cases e : j = k
  · subst e; rw [upd_same]; exact hc j
  · rw [upd_other s _ e]; exact hc j

/-- the answer was set -/
theorem startAnswer_ans {s : Sif} {k} (ha : s.active = some k)
    (ho : ∀ j, j ≠ k → Clear (s.cmds j)) {as : List Word} (h1 : (s.cmds k).answer = some as)
    (h2 : (s.cmds k).alen = as.length) (h3 : (s.cmds k).adone = 0) (hne : as ≠ []) :
    Ans (s.startAnswer k) k (as.map (BitVec.setWidth 8)) := by
  have hl : 0 < as.length := List.length_pos_iff.mpr hne
  unfold Sif.startAnswer
  rw [if_pos (by omega)]
  refine ⟨ha, fun j e => ?_, ⟨as, ?_, ?_, ?_, ?_⟩, ?_⟩
  · rw [upd_other s _ e]; exact ho j e
  all_goals rw [upd_same]
  · exact h1
  · exact h2
  · simp only [h3]; exact hl
  · simp only [h3, List.drop_zero]

theorem out_ans {s : Sif} {k} {a : List Byte} (h : Ans s k a) (hne : a ≠ []) : Out s k a := by
  unfold Out; rw [if_neg hne]; exact h

/-- common end of the commands that set an answer -/
theorem set_out {ver : List Byte} {s : Sif} {w} {k} (hw : RelW ver s w) (ha : s.active = some k)
    (hc : ∀ j, Clear (s.cmds j)) (f : Obj → Obj) (as : List Word) (hne : as ≠ [])
    (hf : ∀ o, Clear o → (f o).answer = some as ∧ (f o).alen = as.length ∧ (f o).adone = 0)
    (hp : ∀ o, (f o).nuof = o.nuof ∧ (f o).recv = o.recv) {a : List Byte}
    (he : as.map (BitVec.setWidth 8) = a) :
    RelW ver ((s.upd k f).startAnswer k) w ∧ Out ((s.upd k f).startAnswer k) k a ∧
    ((s.upd k f).startAnswer k).cell = s.cell ∧
    (((s.upd k f).startAnswer k).cmds k).nuof = (s.cmds k).nuof ∧
    (((s.upd k f).startAnswer k).cmds k).recv = (s.cmds k).recv := by
  obtain ⟨p1, p2⟩ := par_startAnswer (s.upd k f) k
  refine ⟨(hw.upd _ _).startAnswer _, ?_, cell_startAnswer _ _, ?_, ?_⟩
  · apply out_ans
    · rw [← he]
      obtain ⟨f1, f2, f3⟩ := hf _ (hc k)
      refine startAnswer_ans (by exact ha) (fun j e => ?_) (by rw [upd_same]; exact f1)
        (by rw [upd_same]; exact f2) (by rw [upd_same]; exact f3) hne
      rw [upd_other s _ e]; exact hc j
    · rw [← he]; simpa using hne
  · rw [p1, upd_same, (hp _).1]
  · rw [p2, upd_same, (hp _).2]

/-- common end of the commands without answer: they call `finish_command` themselves -/
theorem fin_out {ver : List Byte} {s : Sif} {w} {k} (hw : RelW ver s w) (ha : s.active = some k)
    (hc : ∀ j, Clear (s.cmds j)) :
    RelW ver (s.finish.startAnswer k) w ∧ Out (s.finish.startAnswer k) k [] ∧
    (s.finish.startAnswer k).cell = s.cell ∧
    ((s.finish.startAnswer k).cmds k).nuof = (s.cmds k).nuof ∧
    ((s.finish.startAnswer k).cmds k).recv = (s.cmds k).recv := by
  obtain ⟨p1, p2⟩ := par_startAnswer s.finish k
  obtain ⟨q1, q2⟩ := par_finish s k
  refine ⟨hw.finish.startAnswer _, ?_, ?_, ?_, ?_⟩
  · unfold Out; rw [if_pos rfl]
    exact startAnswer_idle (finish_idle ha (fun j _ => hc j)) k
  · rw [cell_startAnswer, cell_finish]
  · rw [p1, q1]
  · rw [p2, q2]

/-! ### input -/

theorem input_check {s : Sif} {i : List Byte} (h : Input s.fin i) (n : Nat) :
    match s.fin with
    | none => i = []
    | some d => Input (some (d.inputAvail (.data n)).1) i ∧
        ((d.inputAvail (.data n)).2 && !(d.inputAvail (.data n)).1.eof) = decide (i ≠ []) := by
  obtain ⟨hff, hm⟩ := h
  cases hf : s.fin with
  | none => rw [hf] at hm; exact hm
  | some d =>
    rw [hf] at hm
    simp only at hm ⊢
    have hi := Dev.avail_inv hm (.data n)
    refine ⟨⟨hff, hi⟩, ?_⟩
    have ha := Dev.avail_iff hm (.data n)
    have hd := Dev.avail_data hm n
    generalize (d.inputAvail (.data n)) = p at *
    obtain ⟨d', b⟩ := p
    simp only at *
    have he : (d'.ring.lu = d'.ring.ff) ↔ d'.ring.items = [] := Fio.Ring.empty_iff hi.ok
    have hs : d'.ring.items ≠ [] → i ≠ [] := by
      obtain ⟨_, ⟨bs, h1, h2⟩, _⟩ := hi
      intro hne hi0
      apply hne
      rw [h1]
      rw [hi0] at h2
      have := List.append_eq_nil_iff.mp h2
      rw [this.1]; rfl
    have hb : d'.eof = (d'.atEnd && d'.ring.lu == d'.ring.ff) := rfl
    rcases hd with hd | ⟨hd, hn⟩
    · have h1 : b = true := ha.mpr (Or.inl hd)
      have h2 : ¬ d'.ring.lu = d'.ring.ff := fun e => hd (he.mp e)
      have h3 : d'.eof = false := by rw [hb]; simp [h2]
      rw [h1, h3]
      simp [hs hd]
    · have h0 : d'.ring.items = [] := by
        cases hx : d'.ring.items with
        | nil => rfl
        | cons a l => exact absurd hn (hs (by rw [hx]; simp))
      have h3 : d'.eof = true := by rw [hb, hd]; simp [he.mpr h0]
      rw [h3, hn]
      simp

theorem input_read {d : Dev} {i : List Byte} (h : Input (some d) i) (n : Nat) :
    match i with
    | [] => ((d.inputAvail (.data n)).2 = false ∧ Input (some (d.inputAvail (.data n)).1) []) ∨
        ((d.inputAvail (.data n)).2 = true ∧ ((d.inputAvail (.data n)).1.read 1).2.1 = 0 ∧
          Input (some ((d.inputAvail (.data n)).1.read 1).1) [])
    | b :: bs => (d.inputAvail (.data n)).2 = true ∧
        ((d.inputAvail (.data n)).1.read 1).2.1 = 1 ∧
        ((d.inputAvail (.data n)).1.read 1).2.2 = [b.toInt] ∧
        Input (some ((d.inputAvail (.data n)).1.read 1).1) bs := by
  obtain ⟨hff, hm⟩ := h
  simp only at hm
  have hi := Dev.avail_inv hm (.data n)
  have ha := Dev.avail_iff hm (.data n)
  have hd := Dev.avail_data hm n
  generalize (d.inputAvail (.data n)) = p at *
  obtain ⟨d', b'⟩ := p
  simp only at *
  obtain ⟨g, s', e1, e2, e3, e4, e5, e6⟩ := Dev.read_inv hi hff 1
  have e5 := e5 (by omega)
  cases i with
  | nil =>
    simp only
    have hg : g = [] := (List.append_eq_nil_iff.mp e1.symm).1
    have hs' : s' = [] := (List.append_eq_nil_iff.mp e1.symm).2
    subst hg hs'
    rcases hd with hd | ⟨hd, _⟩
    · exfalso
      obtain ⟨_, ⟨bs, h1, h2⟩, _⟩ := hi
      apply hd
      rw [h1, (List.append_eq_nil_iff.mp h2).1]; rfl
    · right
      refine ⟨ha.mpr (Or.inr hd), ?_, ⟨by simp, e2⟩⟩
      rw [e5]; simp [Fio.rcode, hd]
  | cons b bs =>
    simp only
    rcases hd with hd | ⟨_, hn⟩
    · have hl : 0 < d'.ring.items.length := List.length_pos_iff.mpr hd
      have hg : g.length = 1 := by omega
      match g, hg with
      | [x], _ =>
        simp only [List.cons_append, List.nil_append, List.cons.injEq] at e1
        obtain ⟨rfl, rfl⟩ := e1
        refine ⟨ha.mpr (Or.inl hd), ?_, e4, ⟨?_, e2⟩⟩
        · rw [e5]; rfl
        · intro hx; exact hff (List.mem_cons_of_mem _ hx)
    · exact absurd hn (by simp)

/-! ### the limit -/

theorem limit_set (b0 b1 b2 b3 : Byte) :
    ((((b3.zeroExtend 32 &&& 0xff : Word) <<< 24) + ((b2.zeroExtend 32 &&& 0xff) <<< 16) +
      ((b1.zeroExtend 32 &&& 0xff) <<< 8) + (b0.zeroExtend 32 &&& 0xff)) : Word).toNat =
      b0.toNat + 256 * b1.toNat + 65536 * b2.toNat + 16777216 * b3.toNat := by
  have c := fun v : Byte => cell8 v
  have e : (0xff : Word) = 255 := rfl
  rw [e, c, c, c, c]
  simp only [BitVec.toNat_add, BitVec.toNat_shiftLeft, BitVec.truncate_eq_setWidth, BitVec.toNat_setWidth,
    Nat.shiftLeft_eq]
  have := b0.isLt; have := b1.isLt; have := b2.isLt; have := b3.isLt
  omega

theorem limit_get (v : Word) :
    [v &&& 0xff, (v >>> 8) &&& 0xff, (v >>> 16) &&& 0xff, (v >>> 24) &&& 0xff].map (BitVec.setWidth 8) =
    [BitVec.ofNat 8 v.toNat, BitVec.ofNat 8 (v.toNat / 256), BitVec.ofNat 8 (v.toNat / 65536),
      BitVec.ofNat 8 (v.toNat / 16777216)] := by
  have key : ∀ x : Word, (x &&& 0xff).setWidth 8 = BitVec.ofNat 8 x.toNat := by
    intro x
    apply BitVec.eq_of_toNat_eq
    have : (0xff : Word).toNat = 2 ^ 8 - 1 := rfl
    simp only [BitVec.toNat_setWidth, BitVec.toNat_and, this, Nat.and_two_pow_sub_one_eq_mod,
      BitVec.toNat_ofNat, Nat.mod_mod]
  simp only [List.map_cons, List.map_nil, key]
  simp [BitVec.toNat_ushiftRight, Nat.shiftRight_eq_div_pow]

end Ucsim.Simif
