import Verif.Proof.VcdPlay
/-
C124: a value change dump shows the values the watched fields had.
C125: playing a dump gives the fields the values of the dump.
C126: variables of a dump.
-/
namespace Ucsim.Vcd
open Spec

/-! ### C124 -/

/-- `h1`: what happened up to some moment, `h2`: what happened later.  The dump read at the time of
that moment has the field of each variable as it was at that moment, and x when the dump was
paused. -/
theorem c124_dump_partial (W : World) (s : St) (h1 h2 : List Op) (hs : Ready s) (hw : ∀ x ∈ s.vars, Watchable W x)
    (ho : ∀ op ∈ h1, Recorded W s.vars op) (hl : Later s.pausetime h1 h2) (x : Var) (hx : x ∈ s.vars) :
    valueAt ((clock s.pausetime h1).time s.pausetime) (run W (h1 ++ h2) (start W s)).file x.id =
      some (if (clock s.pausetime h1).paused then none
        else some (field x.hi x.lo (get W (run W h1 (start W s)).mem x.cell))) :=
  dump_reads W s h1 h2 hs.started hs.starttime hs.event hs.file hw hs.ids ho hl x hx

/-- The same of the file after `stop`. -/
theorem c124_stop_partial (W : World) (s : St) (h1 h2 : List Op) (hs : Ready s) (hw : ∀ x ∈ s.vars, Watchable W x)
    (ho : ∀ op ∈ h1, Recorded W s.vars op) (hl : Later s.pausetime h1 h2) (x : Var) (hx : x ∈ s.vars) :
    valueAt ((clock s.pausetime h1).time s.pausetime) (stop (run W (h1 ++ h2) (start W s))).file x.id =
      some (if (clock s.pausetime h1).paused then none
        else some (field x.hi x.lo (get W (run W h1 (start W s)).mem x.cell))) := by
  rw [← c124_dump_partial W s h1 h2 hs hw ho hl x hx]
  unfold valueAt stop emit
  split
  · simp only [List.foldl_append]; rfl
  · rfl

/-- Cells of 8 bits, none special; the cells from 100 on are the bits of cell 0. -/
def W0 : World :=
  { slot := fun c => if c < 100 then c else 0, bit := fun c => if c < 100 then none else some (c - 100),
    width := fun c => if c < 100 then 8 else 1, ro := fun c => c = 50, nodec := fun c => c = 51, post := fun c v => if c = 52 then v / 2 else v }

/-- The recorder after a list of `add` commands, at the time 1000, of a memory of zeros. -/
def setup (as : List Arg) : St := as.foldl (fun s a => (cmdAdd W0 a s).2) (init (fun _ => 0) 1000)

theorem setup_ready2 : Ready (setup [.cell 1, .bits 2 5 3]) := ⟨rfl, rfl, rfl, rfl, by decide⟩

theorem watchable_w0 (c hi lo : Nat) (id : Char) (hc : c < 50) (hl : lo ≤ hi) (hh : hi < 8) : Watchable W0 ⟨c, hi, lo, id⟩ := by
  have hcc : c < 100 := by omega
  refine ⟨?_, ?_, hl, ?_, ?_, ?_⟩
  · show decide (c = 50) = false; exact decide_eq_false (by omega)
  · intro v; show (if c = 52 then v / 2 else v) = v; rw [if_neg (by omega)]
  · show hi < if c < 100 then 8 else 1; rw [if_pos hcc]; exact hh
  · show (if c < 100 then 8 else 1) ≤ 32; rw [if_pos hcc]; omega
  · show (if c < 100 then 8 else 1) = 1 ↔ ∃ b, (if c < 100 then none else some (c - 100)) = some b
    rw [if_pos hcc, if_pos hcc]; simp

/-- The hypotheses are met: a cell and three bits of another, a pause in between. -/
example : let s := setup [.cell 1, .bits 2 5 3]
    Ready s ∧ (∀ x ∈ s.vars, Watchable W0 x) ∧
    (∀ op ∈ [Op.write 1 0x55, .adv 3, .write 2 0xff, .pause, .adv 4, .write 1 7, .start], Recorded W0 s.vars op) ∧
    Later none [.write 1 0x55, .adv 3, .write 2 0xff, .pause, .adv 4, .write 1 7, .start] [.adv 1, .write 1 9] := by
  refine ⟨setup_ready2, ?_, ?_, Or.inr ⟨1, _, rfl, by decide⟩⟩
  · intro x hx
    have : x = ⟨1, 7, 0, '!'⟩ ∨ x = ⟨2, 5, 3, '"'⟩ := by
      have : (setup [.cell 1, .bits 2 5 3]).vars = [⟨1, 7, 0, '!'⟩, ⟨2, 5, 3, '"'⟩] := by decide
      rw [this] at hx; simpa using hx
    rcases this with rfl | rfl <;> exact watchable_w0 _ _ _ _ (by omega) (by omega) (by omega)
  · have e : (setup [.cell 1, .bits 2 5 3]).vars = [⟨1, 7, 0, '!'⟩, ⟨2, 5, 3, '"'⟩] := by decide
    rw [e]
    intro op hop
    simp only [List.mem_cons, List.not_mem_nil, or_false] at hop
    rcases hop with rfl | rfl | rfl | rfl | rfl | rfl | rfl
    · intro x hx
      rcases (by simpa using hx : x = ⟨1, 7, 0, '!'⟩ ∨ x = ⟨2, 5, 3, '"'⟩) with rfl | rfl
      · exact Or.inl ⟨rfl, fun h => absurd h (by decide)⟩
      · exact Or.inr (Or.inl (by decide))
    · trivial
    · intro x hx
      rcases (by simpa using hx : x = ⟨1, 7, 0, '!'⟩ ∨ x = ⟨2, 5, 3, '"'⟩) with rfl | rfl
      · exact Or.inr (Or.inl (by decide))
      · exact Or.inl ⟨rfl, fun h => absurd h (by decide)⟩
    · trivial
    · trivial
    · intro x hx
      rcases (by simpa using hx : x = ⟨1, 7, 0, '!'⟩ ∨ x = ⟨2, 5, 3, '"'⟩) with rfl | rfl
      · exact Or.inl ⟨rfl, fun h => absurd h (by decide)⟩
      · exact Or.inr (Or.inl (by decide))
    · trivial

/-- What the dump says of the variable `!` after `h`, and what the cell is. -/
def said (as : List Arg) (h : List Op) : Option (Option Nat) :=
  valueAt ((clock none h).time none) (run W0 h (start W0 (setup as))).file '!'
def truth (as : List Arg) (c : Nat) (h : List Op) : Nat := get W0 (run W0 h (start W0 (setup as))).mem c

/-- The dump is wrong when the cell is changed with `set` (as many peripherals do). -/
theorem c124_false_set : said [.cell 1] [.adv 2, .set 1 5] = some (some 0) ∧ truth [.cell 1] 1 [.adv 2, .set 1 5] = 5 := by decide +kernel

/-- It is wrong when a bit of the cell is written through the bit space (SETB, CLR ... of the 8051):
only the bit's own operators run. -/
theorem c124_false_bit : said [.cell 0] [.adv 2, .write 103 1] = some (some 0) ∧ truth [.cell 0] 0 [.adv 2, .write 103 1] = 8 := by decide +kernel

/-- It is wrong of a cell that cannot be written: the attempt is recorded. -/
theorem c124_false_ro : said [.cell 50] [.adv 2, .write 50 3] = some (some 3) ∧ truth [.cell 50] 50 [.adv 2, .write 50 3] = 0 := by decide +kernel

/-- It is wrong when a later operator of the cell changes the value. -/
theorem c124_false_operator : said [.cell 52] [.adv 2, .write 52 6] = some (some 6) ∧ truth [.cell 52] 52 [.adv 2, .write 52 6] = 3 := by decide +kernel

/-- A bit written with 2 becomes 1, but 0 is recorded. -/
theorem c124_false_two : said [.cell 103] [.adv 2, .write 103 2] = some (some 0) ∧ truth [.cell 103] 103 [.adv 2, .write 103 2] = 1 := by decide +kernel

/-! ### C125 -/

/-- A recording without pauses is played from the time `t0` in a memory `m`, by ticks at the times
`ts` and `now`.  Then the fields are as they were in the recording just before its time was
`now - t0`. -/
theorem c125_playback_partial (W : World) (s : St) (h1 h2 : List Op) (hs : Ready s) (hw : ∀ x ∈ s.vars, Watchable W x)
    (hap : AllApart W s.vars) (hid : ∀ x ∈ s.vars, x.lo ≠ x.hi → x.id ≠ '0' ∧ x.id ≠ '1')
    (ho : ∀ op ∈ h1 ++ h2, Recorded W s.vars op) (hp : NoPause (h1 ++ h2))
    (m : Mem) (t0 now : Nat) (ts : List Nat) (hts : ∀ t ∈ ts, t ≤ now) (hb : Before (now - t0) h1 h2) (x : Var) (hx : x ∈ s.vars) :
    field x.hi x.lo (get W (tick W s.vars t0 now (ts.foldl (fun p t => tick W s.vars t0 t p)
        (play m t0 (stop (run W (h1 ++ h2) (start W s))).file))).mem x.cell)
      = field x.hi x.lo (get W (run W h1 (start W s)).mem x.cell) :=
  playback W s h1 h2 hs.started hs.starttime hs.event hs.file hw hap hs.ids hid ho hp m t0 now ts hts hb x hx

/-- The hypotheses are met. -/
example : let s := setup [.cell 1, .bits 1 5 3]
    Ready s ∧ (∀ x ∈ s.vars, Watchable W0 x) ∧ AllApart W0 s.vars ∧ (∀ x ∈ s.vars, x.lo ≠ x.hi → x.id ≠ '0' ∧ x.id ≠ '1') ∧
    (∀ op ∈ [Op.write 1 0x55, .adv 3, .write 1 0xff] ++ [.adv 4, .write 1 7], Recorded W0 s.vars op) ∧
    NoPause ([.write 1 0x55, .adv 3, .write 1 0xff] ++ [.adv 4, .write 1 7]) ∧
    Before (505 - 500) [.write 1 0x55, .adv 3, .write 1 0xff] [.adv 4, .write 1 7] ∧ (∀ t ∈ [501, 504], t ≤ 505) := by
  have e : (setup [.cell 1, .bits 1 5 3]).vars = [⟨1, 7, 0, '!'⟩, ⟨1, 5, 3, '"'⟩] := by decide
  refine ⟨⟨rfl, rfl, rfl, rfl, by decide⟩, ?_, ?_, ?_, ?_, ?_, ⟨by decide, Or.inr ⟨4, _, rfl, by decide⟩⟩, by decide⟩
  · rw [e]; intro x hx
    rcases (by simpa using hx : x = ⟨1, 7, 0, '!'⟩ ∨ x = ⟨1, 5, 3, '"'⟩) with rfl | rfl <;>
      exact watchable_w0 _ _ _ _ (by omega) (by omega) (by omega)
  · rw [e]; intro x hx y hy
    rcases (by simpa using hx : x = ⟨1, 7, 0, '!'⟩ ∨ x = ⟨1, 5, 3, '"'⟩) with rfl | rfl <;>
      rcases (by simpa using hy : y = ⟨1, 7, 0, '!'⟩ ∨ y = ⟨1, 5, 3, '"'⟩) with rfl | rfl <;> exact Or.inl rfl
  · rw [e]; intro x hx
    rcases (by simpa using hx : x = ⟨1, 7, 0, '!'⟩ ∨ x = ⟨1, 5, 3, '"'⟩) with rfl | rfl <;> decide
  · rw [e]; intro op hop
    simp only [List.mem_append, List.mem_cons, List.not_mem_nil, or_false] at hop
    rcases hop with (rfl | rfl | rfl) | rfl | rfl <;> first | trivial | skip
    all_goals
      intro x hx
      rcases (by simpa using hx : x = ⟨1, 7, 0, '!'⟩ ∨ x = ⟨1, 5, 3, '"'⟩) with rfl | rfl <;>
        exact Or.inl ⟨rfl, fun h => absurd h (by decide)⟩
  · intro op hop
    simp only [List.mem_append, List.mem_cons, List.not_mem_nil, or_false] at hop
    rcases hop with (rfl | rfl | rfl) | rfl | rfl <;> intro h <;> cases h

/-- The variable number 16 has the identifier 0; a vector of this name is never restored: cell 16
was 9 from the beginning of the recording on. -/
theorem c125_false :
    let s := setup ((List.range 16).map fun i => .cell (i + 1))
    let file := (stop (run W0 [.adv 5] (start W0 { s with mem := fun a => if a = 16 ∨ a = 15 then 9 else 0 }))).file
    get W0 (tick W0 s.vars 0 5 (play (fun _ => 0) 0 file)).mem 15 = 9 ∧
    get W0 (tick W0 s.vars 0 5 (play (fun _ => 0) 0 file)).mem 16 = 0 := by decide +kernel

/-- A vector shorter than the variable (the leading zeros may be left out in a dump) takes digits of
the vector before it: 1 is played as 13. -/
theorem c125_false_short :
    let file := [Word.stamp 0, .txt "b1111".toList, .txt "!".toList, .stamp 2, .txt "b1".toList, .txt "!".toList]
    valueAt 4 file '!' = some (some 1) ∧
    get W0 (tick W0 [⟨1, 3, 0, '!'⟩] 0 4 (play (fun _ => 0) 0 file)).mem 1 = 13 := by decide +kernel

/-! ### C126 -/

/-- The commands `add` and `del` before the dump is started. -/
inductive Cfg
  | add (a : Arg)
  | del (a : Arg)

def config (W : World) (cs : List Cfg) (s : St) : St :=
  cs.foldl (fun s c => match c with
    | .add a => (cmdAdd W a s).2
    | .del a => (cmdDel a s).2) s

def adds (cs : List Cfg) : Nat := (cs.filter fun c => match c with
  | .add _ => true
  | .del _ => false).length

structure CInv (s : St) (n : Nat) : Prop where
  st : s.started = false
  rest : s.starttime = 0 ∧ s.event = 0 ∧ s.file = [] ∧ s.paused = false
  lo : 33 ≤ s.nextId
  hi : s.nextId ≤ 33 + n
  ids : ∀ x ∈ s.vars, ∃ k, 33 ≤ k ∧ k < s.nextId ∧ x.id = idOf k
  sorted : s.vars.Pairwise fun x y => ∃ j k, 33 ≤ j ∧ j < k ∧ k < s.nextId ∧ x.id = idOf j ∧ y.id = idOf k
  fields : s.vars.Pairwise fun x y => ¬ (x.cell = y.cell ∧ x.hi = y.hi ∧ x.lo = y.lo)

theorem addVar_inv (W : World) (c : Nat) (hi lo : Option Nat) (s : St) (n : Nat) (h : CInv s n) : CInv (addVar W c hi lo s).2 (n + 1) := by
  have weak : CInv s (n + 1) := ⟨h.st, h.rest, h.lo, Nat.le_succ_of_le h.hi, h.ids, h.sorted, h.fields⟩
  unfold addVar
  split
  · exact weak
  · split
    · exact weak
    · simp only
      split
      · exact weak
      · rename_i hno
        have hno : ∀ x ∈ s.vars, ¬ (x.cell = c ∧ x.hi = hi.getD (W.width c - 1) ∧ x.lo = lo.getD 0) := by
          intro x hx hh
          apply hno
          exact List.any_eq_true.2 ⟨x, hx, by simpa using hh⟩
        have := h.lo
        have := h.hi
        refine ⟨h.st, h.rest, ?_, ?_, ?_, ?_, ?_⟩
        · show 33 ≤ s.nextId + 1; omega
        · show s.nextId + 1 ≤ 33 + (n + 1); omega
        · intro x hx
          rcases List.mem_append.1 hx with hx | hx
          · obtain ⟨k, h1, h2, h3⟩ := h.ids x hx; exact ⟨k, h1, Nat.lt_succ_of_lt h2, h3⟩
          · rcases List.mem_singleton.1 hx with rfl; exact ⟨s.nextId, h.lo, Nat.lt_succ_self _, rfl⟩
        · refine List.pairwise_append.2 ⟨h.sorted.imp ?_, List.pairwise_singleton _ _, ?_⟩
          · rintro x y ⟨j, k, h1, h2, h3, h4⟩; exact ⟨j, k, h1, h2, Nat.lt_succ_of_lt h3, h4⟩
          · intro x hx y hy
            rcases List.mem_singleton.1 hy with rfl
            obtain ⟨k, h1, h2, h3⟩ := h.ids x hx
            exact ⟨k, s.nextId, h1, h2, Nat.lt_succ_self _, h3, rfl⟩
        · refine List.pairwise_append.2 ⟨h.fields, List.pairwise_singleton _ _, ?_⟩
          intro x hx y hy
          rcases List.mem_singleton.1 hy with rfl
          exact hno x hx

theorem removeVar_sub (c lo hi) : ∀ (l l' : List Var), removeVar c lo hi l = some l' → l'.Sublist l := by
  intro l
  induction l with
  | nil => intro l' h; cases h
  | cons x l ih =>
    intro l' h
    unfold removeVar at h
    split at h
    · injection h with h; subst h; exact List.sublist_cons_self _ _
    · cases hr : removeVar c lo hi l with
      | none => rw [hr] at h; cases h
      | some k => rw [hr] at h; injection h with h; subst h; exact (ih k hr).cons_cons x

theorem delVar_inv (c : Nat) (lo hi : Option Nat) (s : St) (n : Nat) (h : CInv s n) : CInv (delVar c lo hi s).2 n := by
  unfold delVar
  split
  · exact h
  · rename_i l hl
    have hs := removeVar_sub c lo hi _ _ hl
    by_cases he : l = []
    · subst he
      refine ⟨h.st, h.rest, ?_, ?_, ?_, List.Pairwise.nil, List.Pairwise.nil⟩
      · simp [h.st]
      · simp [h.st]
      · intro x hx; cases hx
    · have e : (if l = [] ∧ (!s.started) = true then 33 else s.nextId) = s.nextId := by simp [he]
      refine ⟨h.st, h.rest, ?_, ?_, ?_, ?_, h.fields.sublist hs⟩
      · simp only [e]; exact h.lo
      · simp only [e]; exact h.hi
      · simp only [e]; intro x hx; exact h.ids x (hs.subset hx)
      · simp only [e]; exact h.sorted.sublist hs

theorem config_inv (W : World) : ∀ (cs : List Cfg) (s : St) (n : Nat), CInv s n → CInv (config W cs s) (n + adds cs) := by
  intro cs
  induction cs with
  | nil => intro s n h; exact h
  | cons c cs ih =>
    intro s n h
    cases c with
    | add a =>
      have := ih (cmdAdd W a s).2 (n + 1) (by cases a <;> exact addVar_inv W _ _ _ s n h)
      have e : n + adds (.add a :: cs) = n + 1 + adds cs := by simp only [adds, List.filter_cons]; simp; omega
      rw [e]; exact this
    | del a =>
      have := ih (cmdDel a s).2 n (by cases a <;> exact delVar_inv _ _ _ s n h)
      have e : n + adds (.del a :: cs) = n + adds cs := by simp [adds]
      rw [e]; exact this

theorem init_cinv (m : Mem) (t : Nat) : CInv (init m t) 0 :=
  ⟨rfl, ⟨rfl, rfl, rfl, rfl⟩, Nat.le_refl _, Nat.le_refl _, (fun x hx => by cases hx), List.Pairwise.nil, List.Pairwise.nil⟩

theorem idOf_toNat (k : Nat) (h : k < 128) : (idOf k).toNat = k := by
  unfold idOf
  rw [Nat.mod_eq_of_lt (by omega)]
  have hv : k.isValidChar := Or.inl (by omega)
  unfold Char.ofNat
  rw [dif_pos hv]
  rfl

/-- After any commands with at most 94 additions: the identifiers are different printable characters,
and no field is twice in the list. -/
theorem c126_ids_partial (W : World) (m : Mem) (t : Nat) (cs : List Cfg) (h : adds cs ≤ 94) :
    ((config W cs (init m t)).vars.map Var.id).Nodup ∧
    (∀ x ∈ (config W cs (init m t)).vars, 33 ≤ x.id.toNat ∧ x.id.toNat ≤ 126) ∧
    ((config W cs (init m t)).vars.map fun x => (x.cell, x.hi, x.lo)).Nodup := by
  have i := config_inv W cs _ 0 (init_cinv m t)
  have hi := i.hi
  refine ⟨?_, ?_, ?_⟩
  · refine List.pairwise_map.2 (i.sorted.imp ?_)
    rintro x y ⟨j, k, h1, h2, h3, h4, h5⟩ e
    have : (idOf j).toNat = (idOf k).toNat := by rw [← h4, ← h5, e]
    rw [idOf_toNat j (by omega), idOf_toNat k (by omega)] at this
    omega
  · intro x hx
    obtain ⟨k, h1, h2, h3⟩ := i.ids x hx
    rw [h3, idOf_toNat k (by omega)]
    omega
  · refine List.pairwise_map.2 (i.fields.imp ?_)
    intro x y hn e
    apply hn
    injection e with e1 e2
    injection e2 with e2 e3
    exact ⟨e1, e2, e3⟩

/-- Such a recorder is ready in the sense of C124 and C125. -/
theorem c126_ready_partial (W : World) (m : Mem) (t : Nat) (cs : List Cfg) (h : adds cs ≤ 94) : Ready (config W cs (init m t)) := by
  have i := config_inv W cs _ 0 (init_cinv m t)
  exact ⟨i.st, i.rest.1, i.rest.2.1, i.rest.2.2.1, (c126_ids_partial W m t cs h).1⟩

example : adds [.add (.cell 1), .add (.bits 1 5 3), .del (.cell1 1 2)] = 2 := rfl

/-- Nothing is added to a dump that has been started. -/
theorem c126_started (W : World) (a : Arg) (s : St) (h : s.started = true) : (cmdAdd W a s).2 = s ∧ (cmdAdd W a s).1 ≠ .done := by
  cases a <;> simp only [cmdAdd, addVar, h, if_true] <;> split <;> exact ⟨rfl, fun h => by cases h⟩

example : (start W0 (setup [.cell 1])).started = true := rfl

/-- `add` of a field that is decoded and not yet in the list puts it at the end of the list. -/
theorem c126_add (W : World) (c hi lo : Nat) (s : St) (hs : s.started = false) (hd : W.nodec c = false)
    (hn : ∀ x ∈ s.vars, ¬ (x.cell = c ∧ x.hi = hi ∧ x.lo = lo)) :
    ∃ id, (cmdAdd W (.bits c hi lo) s).1 = .done ∧ (cmdAdd W (.bits c hi lo) s).2.vars = s.vars ++ [⟨c, hi, lo, id⟩] := by
  refine ⟨idOf s.nextId, ?_⟩
  have hno : (s.vars.any fun x => x.cell = c ∧ x.hi = hi ∧ x.lo = lo) = false := by
    rw [List.any_eq_false]
    intro x hx; simpa using hn x hx
  simp only [cmdAdd, addVar, hs, hd, Option.getD_some]
  simp only [Bool.false_eq_true, if_false, hno]
  exact ⟨trivial, trivial⟩

example : (setup [.cell 1]).started = false ∧ W0.nodec 2 = false ∧ (∀ x ∈ (setup [.cell 1]).vars, ¬ (x.cell = 2 ∧ x.hi = 5 ∧ x.lo = 3)) := by decide

theorem removeVar_filter (c hi lo : Nat) : ∀ (l : List Var), l.Pairwise (fun x y => ¬ (x.cell = y.cell ∧ x.hi = y.hi ∧ x.lo = y.lo)) →
    (∃ x ∈ l, x.cell = c ∧ x.hi = hi ∧ x.lo = lo) →
    removeVar c (some lo) (some hi) l = some (l.filter fun x => ¬ (x.cell = c ∧ x.hi = hi ∧ x.lo = lo)) := by
  intro l
  induction l with
  | nil => rintro _ ⟨x, hx, _⟩; cases hx
  | cons y l ih =>
    intro hp hex
    have ⟨h1, h2⟩ := List.pairwise_cons.1 hp
    unfold removeVar
    by_cases hy : y.cell = c ∧ y.hi = hi ∧ y.lo = lo
    · rw [if_pos (by simpa using hy)]
      rw [List.filter_cons, if_neg (by simpa using hy)]
      congr 1
      symm
      apply List.filter_eq_self.2
      intro z hz
      have := h1 z hz
      obtain ⟨rfl, rfl, rfl⟩ := hy
      simp only [decide_eq_true_eq]
      rintro ⟨a, b, d⟩
      exact this ⟨a.symm, b.symm, d.symm⟩
    · rw [if_neg (by simpa using hy), List.filter_cons, if_pos (by simp only [decide_eq_true_eq]; exact hy)]
      rw [ih h2 ?_]
      · rfl
      · obtain ⟨x, hx, hh⟩ := hex
        rcases List.mem_cons.1 hx with rfl | hx
        · exact absurd hh hy
        · exact ⟨x, hx, hh⟩

/-- `del` of a field of the list, given as a bit or a range of bits cell[high:low], takes this field
and no other out of the list. -/
theorem c126_del_partial (W : World) (m : Mem) (t : Nat) (cs : List Cfg) (c hi lo : Nat)
    (hx : ∃ x ∈ (config W cs (init m t)).vars, x.cell = c ∧ x.hi = hi ∧ x.lo = lo) :
    (cmdDel (.bits c hi lo) (config W cs (init m t))).1 = .done ∧
    (cmdDel (.bits c hi lo) (config W cs (init m t))).2.vars =
      (config W cs (init m t)).vars.filter (fun x => ¬ (x.cell = c ∧ x.hi = hi ∧ x.lo = lo)) := by
  have i := config_inv W cs _ 0 (init_cinv m t)
  simp only [cmdDel, delVar]
  rw [removeVar_filter c hi lo _ i.fields hx]
  exact ⟨rfl, rfl⟩

example : ∃ x ∈ (config W0 [.add (.cell 1), .add (.cell2 1 5 3)] (init (fun _ => 0) 0)).vars, x.cell = 1 ∧ x.hi = 5 ∧ x.lo = 3 := by decide

/-- A cell that was added is not found by `del`. -/
theorem c126_false_cell : (cmdDel (.cell 1) (setup [.cell 1])).1 = .notFound := by decide +kernel

/-- `del` with two bit numbers in the order of `add` (and of the help) finds nothing; it takes the
field with the numbers exchanged. -/
theorem c126_false_order : (cmdDel (.cell2 1 5 3) (setup [.cell2 1 5 3])).1 = .notFound ∧
    (cmdDel (.cell2 1 3 5) (setup [.cell2 1 5 3])).1 = .done := by decide +kernel

/-- The variable number 95 has the identifier DEL, that number 224 NUL. -/
theorem c126_false_ids : ((setup ((List.range 95).map fun i => .cell1 (i / 8) (i % 8))).vars.getLast?.map fun x => x.id.toNat) = some 127 ∧
    ((setup ((List.range 224).map fun i => .cell1 (i / 8) (i % 8))).vars.getLast?.map fun x => x.id.toNat) = some 0 := by decide +kernel

end Ucsim.Vcd
