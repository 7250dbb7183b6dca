import Verif.Proof.Ticker

/-! # C30: clock counters -/
namespace Ucsim.Props
open Ucsim
open Ucsim.Spec

/-- The counter after it has seen `d` clocks. -/
def advance (t : Ticker) (d : Int) (r : Bool) : Ticker :=
  { t with run := r, ticks := if t.dir ≥ 0 then t.ticks + BitVec.ofInt 64 d else t.ticks - BitVec.ofInt 64 d }

theorem names_hits {id : TId} {n : Nat} {t : Ticker} (hn : 1 ≤ n) : id.names n t ↔ id.hits n t.name = true := by
  cases id with
  | nr k => simp [TId.names, TId.hits, hn]
  | name s => simp [TId.names, TId.hits]

/-- Two counters named by the same identifier are the same. -/
theorem names_uq {cs : Counters} (hi : TInv cs) {id : TId} {n k : Nat} {t u : Ticker} (h1 : tmap cs n = some t) (h2 : tmap cs k = some u)
    (h3 : id.names n t) (h4 : id.names k u) : n = k := by
  cases id with
  | nr j =>
    simp only [TId.names] at h3 h4
    omega
  | name s => exact hi.uq n k t u s h1 h2 h3 h4

theorem change_at {cs : Counters} {m' : TMap} (hi : TInv cs) {id : TId} {f : Ticker → Option Ticker} (h : (tmap cs).change m' id f)
    {n : Nat} {t : Ticker} (hn : tmap cs n = some t) : m' n = if id.hits n t.name then f t else some t := by
  have hp := hi.pos hn
  rcases h with ⟨k, u, h1, h2, h3⟩ | ⟨h1, h2⟩
  · subst h3
    unfold TMap.upd
    by_cases hh : id.hits n t.name = true
    · have := names_uq hi hn h1 ((names_hits hp).2 hh) h2
      subst this
      rw [hn] at h1; cases h1
      simp [hh]
    · have hne : n ≠ k := by
        intro he; subst he
        rw [hn] at h1; cases h1
        exact hh ((names_hits hp).1 h2)
      simp [hh, hne, hn]
  · subst h2
    have : ¬ id.hits n t.name = true := fun hh => h1 n t hn ((names_hits hp).2 hh)
    simp [this, hn]

/-- Values: adding nothing, adding two amounts. -/
theorem advance_zero (t : Ticker) : advance t 0 t.run = t := by
  unfold advance
  split <;> simp

theorem advance_pass (t : Ticker) (c d : Int) (isr : Bool) (st : CpuState) (r : Bool) :
    advance (t.pass c isr st) d r = advance t ((if t.run && t.type.counts isr st then c else 0) + d) r := by
  unfold Ticker.pass
  split
  · unfold advance
    simp only
    by_cases hd : t.dir ≥ 0
    · simp only [hd, if_true]
      rw [BitVec.ofInt_add, BitVec.add_assoc]
    · simp only [hd, if_false]
      rw [BitVec.ofInt_add, BitVec.sub_eq_add_neg, BitVec.sub_eq_add_neg, BitVec.sub_eq_add_neg, BitVec.neg_add, BitVec.sub_eq_add_neg, BitVec.add_assoc]
  · rw [Int.zero_add]

theorem pass_facts (t : Ticker) (c : Int) (isr : Bool) (st : CpuState) :
    (t.pass c isr st).name = t.name ∧ (t.pass c isr st).type = t.type ∧ (t.pass c isr st).run = t.run := by
  unfold Ticker.pass; split <;> simp

/-- What a counter is after a series of operations that neither delete it nor set
its value: it is still there, and has advanced by exactly the clocks it has seen
while running and while they were of its kind, in its direction (64 bits);
whatever other counters were added, deleted, started, stopped or set. -/
theorem c30_elapsed (ops : List TOp) {cs cs' : Counters} (hi : TInv cs) (hok : cs.run ops = .ok cs') {n : Nat} {t : Ticker}
    (hn : tmap cs n = some t) (hl : ∀ o ∈ ops, leaves n t.name o = true) :
    tmap cs' n = some (advance t (seen n t.name t.type t.run ops).1 (seen n t.name t.type t.run ops).2) := by
  induction ops generalizing cs t with
  | nil =>
    simp only [Counters.run] at hok; cases hok
    rw [hn]; simp only [seen]; rw [advance_zero]
  | cons o os ih =>
    unfold Counters.run at hok
    cases hs : cs.step o with
    | exit => rw [hs] at hok; cases hok
    | ub => rw [hs] at hok; cases hok
    | ok c1 =>
      rw [hs] at hok
      obtain ⟨g1, g2⟩ := tstep_spec hi o hs
      have hlo := hl o (by simp)
      have hls : ∀ o' ∈ os, leaves n t.name o' = true := fun o' ho => hl o' (by simp [ho])
      cases o with
      | tick c isr st =>
        simp only [TMap.step] at g2
        have hn1 : tmap c1 n = some (t.pass c isr st) := by rw [g2]; simp [hn]
        obtain ⟨e1, e2, e3⟩ := pass_facts t c isr st
        have := ih g1 hok hn1 (by rw [e1]; exact hls)
        rw [this, e1, e2, e3, advance_pass]
        simp only [seen]
      | add id dir ty =>
        have hn1 : tmap c1 n = some t := by
          simp only [TMap.step] at g2
          rcases g2 with ⟨_, g⟩ | ⟨gno, g⟩
          · rw [g]; exact hn
          · cases id with
            | nr k =>
              simp only at g
              split at g
              · rw [g]; exact hn
              · rename_i hk
                have hne : n ≠ k.toNat := by
                  intro he
                  exact gno n t hn (by simp only [TId.names]; omega)
                rw [g]; unfold TMap.upd; rw [if_neg hne]; exact hn
            | name s =>
              obtain ⟨k, _, hk, g⟩ := g
              have hne : n ≠ k := by intro he; subst he; rw [hn] at hk; cases hk
              rw [g]; unfold TMap.upd; rw [if_neg hne]; exact hn
        rw [ih g1 hok hn1 hls]; rfl
      | del id =>
        have hn1 : tmap c1 n = some t := by
          have := change_at hi g2 hn
          simp only [leaves, Bool.not_eq_true'] at hlo
          rw [this, hlo]; rfl
        rw [ih g1 hok hn1 hls]; rfl
      | set id v =>
        have hn1 : tmap c1 n = some t := by
          have := change_at hi g2 hn
          simp only [leaves, Bool.not_eq_true'] at hlo
          rw [this, hlo]; rfl
        rw [ih g1 hok hn1 hls]; rfl
      | start id =>
        have hn1 : tmap c1 n = some { t with run := t.run || id.hits n t.name } := by
          have := change_at hi g2 hn
          rw [this]
          by_cases hh : id.hits n t.name = true
          · simp [hh]
          · simp [hh]
        rw [ih g1 hok hn1 hls]; rfl
      | stop id =>
        have hn1 : tmap c1 n = some { t with run := t.run && !id.hits n t.name } := by
          have := change_at hi g2 hn
          rw [this]
          by_cases hh : id.hits n t.name = true
          · simp [hh]
          · simp [hh]
        rw [ih g1 hok hn1 hls]; rfl

/-- A command that sets the counter: the new value. -/
theorem c30_set {cs cs' : Counters} (hi : TInv cs) (id : TId) (v : Int) (hok : cs.step (.set id v) = .ok cs') {n : Nat} {t : Ticker}
    (hn : tmap cs n = some t) : tmap cs' n = some (if id.hits n t.name then { t with ticks := BitVec.ofInt 64 v } else t) := by
  obtain ⟨_, g2⟩ := tstep_spec hi _ hok
  rw [change_at hi g2 hn]; split <;> rfl

/-- Deleting removes the counter named if it was made by the user, and no other. -/
theorem c30_del {cs cs' : Counters} (hi : TInv cs) (id : TId) (hok : cs.step (.del id) = .ok cs') {n : Nat} {t : Ticker}
    (hn : tmap cs n = some t) : tmap cs' n = if id.hits n t.name && t.user then none else some t := by
  obtain ⟨_, g2⟩ := tstep_spec hi _ hok
  rw [change_at hi g2 hn]
  cases id.hits n t.name <;> cases t.user <;> rfl

/-- A fresh simulator: the table is well formed, and numbers 1 to 4 are "time", "isr",
"idle" and "halt", counting up from zero. -/
theorem c30_new : ∃ cs, Counters.new = .ok cs ∧ TInv cs ∧
    (∀ n, tmap cs n = match n with | 0 => none | k + 1 => builtin[k]?) := by
  refine ⟨⟨none :: builtin.map some, 6, 2⟩, by decide +kernel, ⟨?_, ?_, ?_, ?_⟩, ?_⟩
  · unfold CList.Fits; decide
  · decide
  · decide
  · intro n k t u s h1 h2 h3 h4
    rw [tmap_some] at h1 h2
    have hb : ∀ (n : Nat) (t : Ticker), (none :: builtin.map some)[n]? = some (some t) → n < 5 := by
      intro n t h
      have := (List.getElem?_eq_some_iff.1 h).1
      exact this
    have a1 := hb n t h1
    have a2 := hb k u h2
    have : ∀ n : Fin 5, ∀ k : Fin 5, n ≠ k →
        ∀ s, (((none :: builtin.map some)[n.val]?).join.bind Ticker.name) = some s →
          (((none :: builtin.map some)[k.val]?).join.bind Ticker.name) ≠ some s := by
      intro n k hne s h h'
      have hd : ∀ n : Fin 5, ∀ k : Fin 5, (((none :: builtin.map some)[n.val]?).join.bind Ticker.name) =
         (((none :: builtin.map some)[k.val]?).join.bind Ticker.name) → (((none :: builtin.map some)[n.val]?).join.bind Ticker.name) ≠ none → n = k := by decide
      exact hne (hd n k (h.trans h'.symm) (by rw [h]; simp))
    by_cases hne : n = k
    · exact hne
    · exfalso
      refine this ⟨n, a1⟩ ⟨k, a2⟩ (by intro h; cases h; exact hne rfl) s ?_ ?_
      · show (((none :: builtin.map some)[n]?).join.bind Ticker.name) = some s
        rw [h1]; exact h3
      · show (((none :: builtin.map some)[k]?).join.bind Ticker.name) = some s
        rw [h2]; exact h4
  · intro n
    cases n with
    | zero => rfl
    | succ k =>
      show ((builtin.map some)[k]?).join = builtin[k]?
      rw [List.getElem?_map]
      cases builtin[k]? <;> rfl

/-- From a fresh simulator: any run of operations that ends normally does what the
specification says, and "time" (number 1) has counted all the clocks if nobody stopped or
set it. -/
theorem c30_run (ops : List TOp) {c0 cs : Counters} (h0 : Counters.new = .ok c0) (h : c0.run ops = .ok cs) :
    TMap.steps (tmap c0) ops (tmap cs) ∧
    ∀ n t, tmap c0 n = some t → (∀ o ∈ ops, leaves n t.name o = true) →
      tmap cs n = some (advance t (seen n t.name t.type t.run ops).1 (seen n t.name t.type t.run ops).2) := by
  obtain ⟨c, h1, h2, _⟩ := c30_new
  rw [h0] at h1; cases h1
  exact ⟨(trun_spec ops h2 h).2, fun n t hn hl => c30_elapsed ops h2 h hn hl⟩

/-- The whole: the number of operations is anything; each that adds has room. -/
def RoomRun : TMap → List TOp → Prop
  | _, [] => True
  | m, o :: os => TRoom m o ∧ ∀ m', m.step m' o → RoomRun m' os

theorem run_total_partial (ops : List TOp) {cs : Counters} (hi : TInv cs) (hr : RoomRun (tmap cs) ops) : ∃ cs', cs.run ops = .ok cs' := by
  induction ops generalizing cs with
  | nil => exact ⟨_, rfl⟩
  | cons o os ih =>
    obtain ⟨h1, h2⟩ := hr
    obtain ⟨c1, hc⟩ := tstep_total hi o h1
    obtain ⟨g1, g2⟩ := tstep_spec hi o hc
    unfold Counters.run; rw [hc]
    exact ih g1 (h2 _ g2)

/-- `timer add 9000 up`: the command writes beyond the storage of the table. -/
theorem c30_total_false : ∃ c0, Counters.new = .ok c0 ∧ c0.run [.add (.nr 9000) 1 .any] = .ub := by
  obtain ⟨c, h1, h2, h3⟩ := c30_new
  refine ⟨c, h1, ?_⟩
  have hn : tmap c 9000 = none := by rw [h3]; rfl
  have := (addNr_spec h2 ⟨none, 1, .any, true, true, 0#64⟩ rfl 9000 (by decide)).2 (by decide)
  have hl : c.look (.nr 9000) = some (.ok none) := by
    have := look_nr (cs := c) (n := 9000) (by decide)
    rw [hn] at this; exact this
  have h4 : c.step (.add (.nr 9000) 1 .any) = .ub := by
    show c.addCmd (.nr 9000) 1 .any = .ub
    unfold Counters.addCmd
    rw [hl]; exact this
  unfold Counters.run
  rw [h4]

/-- Example: counter 7 made, stopped over 5 clocks, started, 3 clocks; a down counter of
idle clocks. -/
example : (match Counters.new with
    | .ok c => (match c.run [.add (.nr 7) 1 .any, .tick 2 false .go, .stop (.nr 7), .tick 5 true .idle, .start (.nr 7),
        .add (.name [120]) (-1) .idle, .tick 3 false .idle, .del (.nr 1), .del (.nr 9)] with
      | .ok c => [tmap c 7, tmap c 5, tmap c 1].map (Option.map Ticker.ticks)
      | _ => [])
    | _ => []) = [some 5#64, some (-3#64), some 10#64] := by decide +kernel

end Ucsim.Props
