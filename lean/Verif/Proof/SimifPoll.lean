import Verif.Proof.SimifTx

/-! A program that reads its input from a pipe or a terminal through the interface. -/
namespace Ucsim.Simif
open Fio (Dev Os)

/-- The program asks if there is input (`f`) and reads a byte (`r`) if so, again and again.  The
operating system does at each access what it likes.  The bytes read. -/
def poll (s : Sif) : List (Env × Env) → Sif × List Byte
  | [] => (s, [])
  | (e1, e2) :: es =>
    let r := s.run [.wr 0x66 e1, .rd]
    if r.2 = [1] then
      let q := r.1.run [.wr 0x72 e2, .rd]
      let t := poll q.1 es
      (t.1, q.2.map (BitVec.setWidth 8) ++ t.2)
    else poll r.1 es

theorem rd_byte {u : Sif} {k : Kind} {a : Word} {f : Option Dev} (ha : u.active = some k)
    (ho : ∀ j, j ≠ k → Clear (u.cmds j)) (h1 : (u.cmds k).answer = some [a])
    (h2 : (u.cmds k).alen = 1) (h3 : (u.cmds k).adone = 0) (h4 : (u.cmds k).answering = true)
    (hf : u.fin = f) :
    [u.rd.2] = [a] ∧ Idle u.rd.1 ∧ u.rd.1.fin = f := by
  unfold Sif.rd
  rw [ha]
  simp only []
  unfold Sif.cmdRead
  simp only [h1, h2, h3, h4, Nat.zero_lt_one, if_true, ge_iff_le, Nat.zero_add, Nat.le_refl,
    List.getD_cons_zero, true_and]
  refine ⟨finish_idle (k := k) ha (fun j e => ?_), ?_⟩
  · rw [upd_other _ _ e]; exact ho j e
  · unfold Sif.finish Sif.upd
    simp only [ha]
    exact hf

/-- a command without parameters whose answer is one byte -/
theorem byte_tx {s : Sif} (h : Idle s) (k : Kind) (e : Env) (t : Sif) (a : Word)
    (hf : find (code k) = some k) (hn : needed k = 0)
    (hp : ∀ s0 : Sif, s0.fin = s.fin → s0.active = some k → (∀ j, Clear (s0.cmds j)) →
      ∃ t0 : Sif, s0.produce e k = t0.upd k (·.setAnswer1 a) ∧ t0.fin = t.fin ∧ t0.active = some k ∧
        ∀ j, Clear (t0.cmds j)) :
    (s.run [.wr (code k) e, .rd]).2 = [a] ∧ Idle (s.run [.wr (code k) e, .rd]).1 ∧
    (s.run [.wr (code k) e, .rd]).1.fin = t.fin := by
  obtain ⟨ha, hc⟩ := h
  simp only [Sif.run, Sif.wr, ha, hf, Sif.startCmd, hn, if_true]
  generalize hs1 : Sif.upd { s with active := some k } k Obj.clearParams = s1
  have hc1 : ∀ j, Clear (s1.cmds j) := by
    intro j
    rw [← hs1]
    by_cases e : j = k
    · subst e; rw [upd_same]; exact hc j
    · rw [upd_other _ _ e]; exact hc j
  obtain ⟨t0, h1, h2, h3, h4⟩ := hp s1 (by rw [← hs1]; rfl) (by rw [← hs1]; rfl) hc1
  rw [h1]
  have hst : (t0.upd k (·.setAnswer1 a)).startAnswer k =
      (t0.upd k (·.setAnswer1 a)).upd k (fun o => { o with answering := true }) := by
    unfold Sif.startAnswer
    rw [if_pos (by rw [upd_same]; simp [Obj.setAnswer1])]
  rw [hst]
  refine rd_byte (k := k) ?_ ?_ ?_ ?_ ?_ ?_ ?_
  · exact h3
  · intro j e
    simp only [Sif.upd, e, if_false]
    exact h4 j
  · simp [Sif.upd, Obj.setAnswer1]
  · simp [Sif.upd, Obj.setAnswer1]
  · simp [Sif.upd, Obj.setAnswer1, Obj.clearAnswer]
  · simp [Sif.upd]
  · exact h2

theorem pick_items {d : Dev} {i} (h : d.Inv i) (o : Os) :
    ∃ x, (d.pick o).ring.items = d.ring.items ++ x := by
  have hfp := Fio.Ring.freePlace_eq h.ok
  have hlt := d.ring.len_lt
  unfold Dev.pick
  simp only []
  split
  · exact ⟨[], by simp⟩
  · split
    · exact ⟨[], by simp⟩
    · rename_i k
      split
      · exact ⟨[], by simp⟩
      · generalize hm : min (k + 1) (if d.ring.freePlace > 101 then 99 else d.ring.freePlace - 1) = m
        have hml : m ≤ d.ring.freePlace := by split at hm <;> omega
        have hroom : d.ring.len + (d.rest.take m).length ≤ 1023 := by
          rw [List.length_take]; omega
        obtain ⟨_, i2⟩ := Fio.raw_fold h.ok (d.rest.take m) hroom
        exact ⟨_, i2⟩

theorem avail_items {d : Dev} {i} (h : d.Inv i) (o : Os) :
    ∃ x, (d.inputAvail o).1.ring.items = d.ring.items ++ x := by
  rw [Dev.inputAvail_fst]
  unfold Dev.checkDev
  split
  · exact pick_items h o
  · split
    · exact ⟨[], by simp⟩
    · exact pick_items h o

theorem check_any {d : Dev} {i} (h : d.Inv i) (o : Os) :
    (d.inputAvail o).1.Inv i ∧
    (((d.inputAvail o).2 && !(d.inputAvail o).1.eof) = true → (d.inputAvail o).1.ring.items ≠ []) := by
  have hi := Dev.avail_inv h o
  have ha := Dev.avail_iff h o
  refine ⟨hi, fun hb => ?_⟩
  generalize d.inputAvail o = p at *
  obtain ⟨d', b⟩ := p
  simp only [Bool.and_eq_true, Bool.not_eq_true', Dev.eof, Bool.and_eq_false_iff, beq_eq_false_iff_ne] at *
  intro he
  rcases ha.mp hb.1 with h1 | h1
  · exact h1 he
  · rcases hb.2 with h2 | h2
    · rw [h1] at h2; simp at h2
    · exact h2 ((Fio.Ring.empty_iff hi.ok).mpr he)

theorem read_any {d : Dev} {i} (h : d.Inv i) (hff : 255 ∉ i) (hne : d.ring.items ≠ []) (o : Os) :
    ∃ b r, i = b :: r ∧ (d.inputAvail o).2 = true ∧ ((d.inputAvail o).1.read 1).2.1 = 1 ∧
      ((d.inputAvail o).1.read 1).2.2 = [b.toInt] ∧ ((d.inputAvail o).1.read 1).1.Inv r := by
  have hi := Dev.avail_inv h o
  have ha := Dev.avail_iff h o
  obtain ⟨x, hx⟩ := avail_items h o
  generalize d.inputAvail o = p at *
  obtain ⟨d', b'⟩ := p
  simp only at *
  have hne' : d'.ring.items ≠ [] := by rw [hx]; simp [hne]
  obtain ⟨g, s', e1, e2, e3, e4, e5, e6⟩ := Dev.read_inv hi hff 1
  have e5 := e5 (by omega)
  have hl : 0 < d'.ring.items.length := List.length_pos_iff.mpr hne'
  have hg : g.length = 1 := by omega
  match g, hg with
  | [b], _ =>
    exact ⟨b, s', e1, ha.mpr (Or.inl hne'), by rw [e5]; rfl, e4, e2⟩

/-- polling gives a beginning of the input, and what is left is still to be read -/
theorem poll_ok (es : List (Env × Env)) : ∀ {s : Sif} {d : Dev} {i : List Byte}, Idle s →
    s.fin = some d → d.Inv i → 255 ∉ i →
    ∃ d' r, (poll s es).1.fin = some d' ∧ d'.Inv r ∧ i = (poll s es).2 ++ r ∧ Idle (poll s es).1 ∧
      ((∀ e ∈ es, ∃ n, e.1.os = .data n) → (poll s es).2 = i.take es.length) := by
  induction es with
  | nil => intro s d i hs hd hi _; exact ⟨d, i, hd, hi, rfl, hs, fun _ => by simp [poll]⟩
  | cons e es ih =>
    obtain ⟨e1, e2⟩ := e
    intro s d i hs hd hi hff
    obtain ⟨c1, c2⟩ := check_any hi e1.os
    obtain ⟨f1, f2, f3⟩ := byte_tx hs .finCheck e1
      { s with fin := some (d.inputAvail e1.os).1 }
      (if ((d.inputAvail e1.os).2 && !(d.inputAvail e1.os).1.eof) then 1 else 0) (by decide +kernel) rfl (by
        intro s0 h0 h1 h2
        refine ⟨(s0.check e1).1, ?_, ?_, ?_, ?_⟩
        · show s0.produce e1 .finCheck = _
          unfold Sif.produce
          simp only [Sif.check, h0, hd]
        · simp only [Sif.check, h0, hd]
        · simp only [Sif.check, h0, hd]; exact h1
        · simp only [Sif.check, h0, hd]; exact h2)
    have hcode : code .finCheck = 0x66 := rfl
    rw [hcode] at f1 f2 f3
    have hdat : (∃ n, e1.os = .data n) →
        ((d.inputAvail e1.os).2 && !(d.inputAvail e1.os).1.eof) = decide (i ≠ []) := by
      rintro ⟨n, hn⟩
      have := input_check (s := s) (i := i) (by rw [hd]; exact ⟨hff, hi⟩) n
      rw [hd] at this
      rw [hn]; exact this.2
    unfold poll
    simp only [f1]
    generalize hb : ((d.inputAvail e1.os).2 && !(d.inputAvail e1.os).1.eof) = b at *
    generalize s.run [.wr 0x66 e1, .rd] = p at *
    obtain ⟨s1, v1⟩ := p
    simp only at f1 f2 f3 ⊢
    cases b with
    | false =>
      simp only [Bool.false_eq_true, if_false]
      rw [if_neg (by decide)]
      obtain ⟨d', r', k1, k2, k3, k4, k5⟩ := ih f2 f3 c1 hff
      refine ⟨d', r', k1, k2, k3, k4, fun hall => ?_⟩
      have h0 := hdat (hall (e1, e2) (by simp))
      have h0 : i = [] := by simpa using h0
      rw [k5 (fun e he => hall e (List.mem_cons_of_mem _ he)), h0]
      simp
    | true =>
      simp only [if_true]
      obtain ⟨b, r, r1, r2, r3, r4, r5⟩ := read_any c1 hff (c2 rfl) e2.os
      obtain ⟨g1, g2, g3⟩ := byte_tx f2 .read e2
        { s1 with fin := some (((d.inputAvail e1.os).1.inputAvail e2.os).1.read 1).1 }
        (BitVec.ofInt 32 b.toInt) (by decide +kernel) rfl (by
          intro s0 h0 h1 h2
          have hr : s0.readIn e2 = ({ s0 with fin := some (((d.inputAvail e1.os).1.inputAvail e2.os).1.read 1).1 },
              BitVec.ofInt 32 b.toInt) := by
            unfold Sif.readIn
            simp only [h0, f3, r2, if_true, r3, r4]
            rfl
          refine ⟨(s0.readIn e2).1, ?_, ?_, ?_, ?_⟩
          · show s0.produce e2 .read = _
            unfold Sif.produce
            simp only [hr]
          · simp only [hr]
          · simp only [hr]; exact h1
          · simp only [hr]; exact h2)
      have hcode : code .read = 0x72 := rfl
      rw [hcode] at g1 g2 g3
      have hff' : 255 ∉ r := by
        intro hx; apply hff; rw [r1]; exact List.mem_cons_of_mem _ hx
      obtain ⟨d', r', k1, k2, k3, k4, k5⟩ := ih g2 g3 r5 hff'
      refine ⟨d', r', k1, k2, ?_, k4, fun hall => ?_⟩
      · rw [r1, g1, k3]
        simp only [List.map_cons, List.map_nil, ofInt8, List.cons_append, List.nil_append]
      · rw [k5 (fun e he => hall e (List.mem_cons_of_mem _ he)), g1, r1]
        simp only [List.map_cons, List.map_nil, ofInt8, List.cons_append, List.nil_append,
          List.length_cons, List.take_succ_cons]

end Ucsim.Simif
