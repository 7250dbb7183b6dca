import Verif.Proof.FioRing
import Verif.Spec.Fio

namespace Ucsim.Fio

/-- `s` is what is still to be read: buffered bytes, then those of the operating system -/
structure Dev.Inv (d : Dev) (s : List Byte) : Prop where
  ok : d.ring.Ok
  split : ∃ bs : List Byte, d.ring.items = bs.map BitVec.toInt ∧ bs ++ d.rest = s
  fin : d.atEnd = true → d.rest = []

theorem Dev.inv_init (j f s) : (Dev.init j f s).Inv s :=
  ⟨Ring.ok_init j, ⟨[], by simp [Dev.init, Ring.items_init], rfl⟩, by simp [Dev.init]⟩

theorem Dev.pick_inv {d : Dev} {s} (h : d.Inv s) (o) : (d.pick o).Inv s := by
  obtain ⟨ok, ⟨bs, hi, hs⟩, fin⟩ := h
  have h' : d.Inv s := ⟨ok, ⟨bs, hi, hs⟩, fin⟩
  have hfp := Ring.freePlace_eq ok
  have hlt := d.ring.len_lt
  unfold Dev.pick
  simp only []
  split
  · exact h'
  · rename_i hfp5
    split
    · exact h'
    · rename_i k
      split
      · rename_i hr
        exact ⟨ok, ⟨bs, hi, hs⟩, fun _ => hr⟩
      · rename_i hr
        generalize hm : min (k + 1) (if d.ring.freePlace > 101 then 99 else d.ring.freePlace - 1) = m
        have hml : m ≤ d.ring.freePlace := by split at hm <;> omega
        have hroom : d.ring.len + (d.rest.take m).length ≤ 1023 := by
          rw [List.length_take]; omega
        obtain ⟨o2, i2⟩ := raw_fold ok (d.rest.take m) hroom
        refine ⟨o2, ⟨bs ++ d.rest.take m, ?_, ?_⟩, ?_⟩
        · simp only [i2, hi, List.map_append]
        · simp only [List.append_assoc, List.take_append_drop, hs]
        · intro ha
          exact absurd (fin ha) hr

/-- after a look that the system answers there is something in the buffer, unless all is read -/
theorem Dev.pick_data {d : Dev} {s} (h : d.Inv s) (k) :
    (d.pick (.data k)).ring.items ≠ [] ∨ ((d.pick (.data k)).atEnd = true ∧ s = []) := by
  obtain ⟨ok, ⟨bs, hi, hs⟩, fin⟩ := h
  have hfp := Ring.freePlace_eq ok
  have hlt := d.ring.len_lt
  unfold Dev.pick
  simp only []
  split
  · left
    intro e
    have := Ring.length_items d.ring
    rw [e] at this
    simp only [List.length_nil] at this
    omega
  · split
    · rename_i hr
      by_cases hb : bs = []
      · right
        refine ⟨rfl, ?_⟩
        rw [← hs, hb, hr]; rfl
      · left
        simp only [hi]
        simpa using hb
    · rename_i hfp5 hr
      left
      generalize hm : min (k + 1) (if d.ring.freePlace > 101 then 99 else d.ring.freePlace - 1) = m
      have hml : m ≤ d.ring.freePlace := by split at hm <;> omega
      have hm0 : 0 < m := by split at hm <;> omega
      have hroom : d.ring.len + (d.rest.take m).length ≤ 1023 := by
        rw [List.length_take]; omega
      obtain ⟨o2, i2⟩ := raw_fold ok (d.rest.take m) hroom
      simp only [i2]
      intro e
      have : (d.rest.take m).length = 0 := by
        have := congrArg List.length e
        simp only [List.length_append, List.length_map, List.length_nil] at this
        omega
      rw [List.length_take] at this
      have : d.rest.length = 0 := by omega
      exact hr (List.length_eq_zero_iff.1 this)

theorem Dev.checkDev_inv {d : Dev} {s} (h : d.Inv s) (o) : (d.checkDev o).1.Inv s := by
  unfold Dev.checkDev
  split
  · exact Dev.pick_inv h o
  · split
    · exact h
    · exact Dev.pick_inv h o

theorem Dev.checkDev_true {d : Dev} {s} (h : d.Inv s) (o) :
    (d.checkDev o).2 = true ↔ (d.checkDev o).1.ring.items ≠ [] := by
  have hp := (Dev.pick_inv h o).ok
  unfold Dev.checkDev
  split
  · simp only [decide_eq_true_eq, ne_eq, Ring.empty_iff hp]
  · split
    · rename_i hne
      simp only [true_iff]
      rw [ne_eq, Ring.empty_iff h.ok] at hne
      exact hne
    · simp only [decide_eq_true_eq, ne_eq, Ring.empty_iff hp]

theorem Dev.inputAvail_fst (d : Dev) (o) : (d.inputAvail o).1 = (d.checkDev o).1 := by
  unfold Dev.inputAvail
  simp only []
  split <;> rfl

theorem Dev.inputAvail_snd (d : Dev) (o) :
    (d.inputAvail o).2 = ((d.checkDev o).2 || (d.checkDev o).1.atEnd) := by
  unfold Dev.inputAvail
  simp only []
  split
  · rename_i h; simp [h]
  · rename_i h; simp [h]

theorem Dev.avail_inv {d : Dev} {s} (h : d.Inv s) (o) : (d.inputAvail o).1.Inv s := by
  rw [Dev.inputAvail_fst]; exact Dev.checkDev_inv h o

/-- input_avail says yes when there is something in the buffer or the end is known -/
theorem Dev.avail_iff {d : Dev} {s} (h : d.Inv s) (o) :
    (d.inputAvail o).2 = true ↔
      ((d.inputAvail o).1.ring.items ≠ [] ∨ (d.inputAvail o).1.atEnd = true) := by
  rw [Dev.inputAvail_fst, Dev.inputAvail_snd, Bool.or_eq_true, Dev.checkDev_true h o]

theorem Dev.avail_data {d : Dev} {s} (h : d.Inv s) (k) :
    (d.inputAvail (.data k)).1.ring.items ≠ [] ∨
      ((d.inputAvail (.data k)).1.atEnd = true ∧ s = []) := by
  rw [Dev.inputAvail_fst]
  unfold Dev.checkDev
  split
  · exact Dev.pick_data h k
  · split
    · rename_i hne
      left
      rw [ne_eq, Ring.empty_iff h.ok] at hne
      exact hne
    · exact Dev.pick_data h k

/-! ### read -/

theorem toInt_inj {a b : Byte} (h : a.toInt = b.toInt) : a = b := BitVec.eq_of_toInt_eq h

/-- the code `read` returns when it got `n` bytes and `e` says that the end was seen -/
def rcode (n : Nat) (e : Bool) : Int := if n > 0 then n else if e then 0 else -1

theorem Dev.readLoop_inv {d : Dev} {s} (h : d.Inv s) (hff : 255 ∉ s) (got : List Int) (n : Nat)
    (hg : got ≠ [] ∨ 0 < n) :
    ∃ g s', s = g ++ s' ∧ (d.readLoop got n).1.Inv s' ∧
      (d.readLoop got n).1.atEnd = d.atEnd ∧
      (d.readLoop got n).2.2 = got.reverse ++ g.map BitVec.toInt ∧
      (d.readLoop got n).2.1 = rcode (got.length + g.length) d.atEnd ∧
      g.length = min n d.ring.items.length := by
  induction n generalizing d s got with
  | zero =>
    have hg : got ≠ [] := by simpa using hg
    have hl : got.length > 0 := by cases got with
      | nil => exact absurd rfl hg
      | cons _ _ => simp
    refine ⟨[], s, rfl, ?_, ?_, ?_, ?_, ?_⟩
    · unfold Dev.readLoop; rw [if_pos hl]; exact h
    · unfold Dev.readLoop; rw [if_pos hl]
    · unfold Dev.readLoop; rw [if_pos hl]; simp
    · unfold Dev.readLoop; rw [if_pos hl]; simp [rcode, hg]
    · simp
  | succ n ih =>
    obtain ⟨ok, ⟨bs, hi, hs⟩, fin⟩ := h
    have h' : d.Inv s := ⟨ok, ⟨bs, hi, hs⟩, fin⟩
    cases bs with
    | nil =>
      have he : d.ring.items = [] := by simpa using hi
      refine ⟨[], s, rfl, ?_, ?_, ?_, ?_, ?_⟩
      · unfold Dev.readLoop
        simp only [Ring.get_nil ok he, if_true]
        split
        · exact h'
        · split <;> exact h'
      · unfold Dev.readLoop
        simp only [Ring.get_nil ok he, if_true]
        split
        · rfl
        · split <;> rfl
      · unfold Dev.readLoop
        simp only [Ring.get_nil ok he, if_true]
        split
        · simp
        · rename_i hz
          have : got = [] := by simpa using hz
          split <;> simp [this]
      · unfold Dev.readLoop
        simp only [Ring.get_nil ok he, if_true]
        split
        · rename_i hz
          simp [rcode, show got ≠ [] by intro e; simp [e] at hz]
        · rename_i hz
          have : got = [] := by simpa using hz
          split
          · rename_i ha; simp [this, rcode, ha]
          · rename_i ha; simp [this, rcode, ha]
      · simp [he]
    | cons b bs =>
      simp only [List.map_cons] at hi
      obtain ⟨o2, i2, c2⟩ := Ring.get_cons ok hi
      rw [cut_toInt] at c2
      have hb : b ≠ 255 := by
        intro e; apply hff; rw [← hs, e]; simp
      have hc : ¬ b.toInt = -1 := by rw [toInt_ff]; exact hb
      have hinv : Dev.Inv { d with ring := d.ring.get.1 } (bs ++ d.rest) :=
        ⟨o2, ⟨bs, i2, rfl⟩, fin⟩
      have hff2 : 255 ∉ bs ++ d.rest := by
        intro e; apply hff; rw [← hs]; simp only [List.cons_append]
        exact List.mem_cons_of_mem _ e
      obtain ⟨g, s', e1, e2, e3, e4, e5, e6⟩ := ih hinv hff2 (b.toInt :: got) (Or.inl (by simp))
      have hred : d.readLoop got (n+1) =
          Dev.readLoop { d with ring := d.ring.get.1 } (b.toInt :: got) n := by
        conv => lhs; unfold Dev.readLoop
        simp only [c2, if_neg hc]
      refine ⟨b :: g, s', ?_, ?_, ?_, ?_, ?_, ?_⟩
      · rw [← hs]; simp only [List.cons_append, e1]
      · rw [hred]; exact e2
      · rw [hred]; exact e3
      · rw [hred, e4]; simp
      · rw [hred, e5]; simp only [List.length_cons]; congr 1; omega
      · simp only [List.length_cons, e6, i2, hi]; simp

theorem Dev.read_inv {d : Dev} {s} (h : d.Inv s) (hff : 255 ∉ s) (n : Nat) :
    ∃ g s', s = g ++ s' ∧ (d.read n).1.Inv s' ∧
      (d.read n).1.atEnd = d.atEnd ∧
      (d.read n).2.2 = g.map BitVec.toInt ∧
      (0 < n → (d.read n).2.1 = rcode g.length d.atEnd) ∧
      g.length = min n d.ring.items.length := by
  unfold Dev.read
  split
  · rename_i hn
    exact ⟨[], s, rfl, h, rfl, rfl, fun h => absurd h (by omega), by simp [hn]⟩
  · obtain ⟨g, s', e1, e2, e3, e4, e5, e6⟩ := Dev.readLoop_inv h hff [] n (Or.inr (by omega))
    refine ⟨g, s', e1, e2, e3, by simpa using e4, fun _ => by simpa using e5, e6⟩

theorem map_back (g : List Byte) : (g.map BitVec.toInt).map (BitVec.ofInt 8) = g := by
  induction g with
  | nil => rfl
  | cons a g ih => simp only [List.map_cons, ih, BitVec.ofInt_toInt]

/-! ### runs -/

theorem received_append (a b) : received (a ++ b) = received a ++ received b := by
  simp [received]

theorem Dev.run_append (d : Dev) (a b : List Op) :
    d.run (a ++ b) = (((d.run a).1.run b).1, (d.run a).2 ++ ((d.run a).1.run b).2) := by
  induction a generalizing d with
  | nil => rfl
  | cons o a ih => simp only [List.cons_append, Dev.run, ih]

theorem Dev.op_inv {d : Dev} {s} (h : d.Inv s) (hff : 255 ∉ s) (o : Op) :
    ∃ s', s = (d.op o).2.bytes ++ s' ∧ (d.op o).1.Inv s' := by
  cases o with
  | avail o => exact ⟨s, rfl, Dev.avail_inv h o⟩
  | read n =>
    obtain ⟨g, s', e1, e2, _, e4, _, _⟩ := Dev.read_inv h hff n
    refine ⟨s', ?_, e2⟩
    have : (d.op (.read n)).2.bytes = g := by
      simp only [Dev.op, Obs.bytes]; rw [e4, map_back]
    rw [this]; exact e1

theorem Dev.run_inv {d : Dev} {s} (h : d.Inv s) (hff : 255 ∉ s) (os : List Op) :
    ∃ s', s = received (d.run os).2 ++ s' ∧ (d.run os).1.Inv s' := by
  induction os generalizing d s with
  | nil => exact ⟨s, rfl, h⟩
  | cons o os ih =>
    obtain ⟨s1, e1, i1⟩ := Dev.op_inv h hff o
    have hff1 : 255 ∉ s1 := by intro e; apply hff; rw [e1]; exact List.mem_append_right _ e
    obtain ⟨s2, e2, i2⟩ := ih i1 hff1
    refine ⟨s2, ?_, i2⟩
    simp only [Dev.run, received, List.flatMap_cons, List.append_assoc]
    simp only [received] at e2
    rw [← e2, ← e1]

/-- one round of a reader: look for input, then read -/
theorem Dev.round {d : Dev} {s} (h : d.Inv s) (hff : 255 ∉ s) (k n : Nat) :
    ∃ s', s = received (d.run [.avail (.data k), .read (n+1)]).2 ++ s' ∧
      (d.run [.avail (.data k), .read (n+1)]).1.Inv s' ∧ s'.length ≤ s.length - 1 ∧
      (s = [] → (d.run [.avail (.data k), .read (n+1)]).1.atEnd = true) := by
  have h1 := Dev.avail_inv h (.data k)
  have hd := Dev.avail_data h k
  obtain ⟨g, s', e1, e2, e3, e4, _, e6⟩ := Dev.read_inv h1 hff (n+1)
  have hr : received (d.run [.avail (.data k), .read (n+1)]).2 = g := by
    simp only [Dev.run, Dev.op, received, List.flatMap_cons, List.flatMap_nil, Obs.bytes]
    rw [e4, map_back]; simp
  refine ⟨s', by rw [hr]; exact e1, e2, ?_, ?_⟩
  · rcases hd with hd | hd
    · have : 0 < (d.inputAvail (.data k)).1.ring.items.length := by
        cases hx : (d.inputAvail (.data k)).1.ring.items with
        | nil => exact absurd hx hd
        | cons _ _ => simp
      have : g.length + s'.length = s.length := by rw [e1]; simp
      omega
    · have : g.length + s'.length = s.length := by rw [e1]; simp
      rw [hd.2] at this ⊢
      simp only [List.length_nil] at *
      omega
  · intro hs
    show ((d.inputAvail (.data k)).1.read (n+1)).1.atEnd = true
    rw [e3]
    rcases hd with hd | hd
    · exfalso
      obtain ⟨_, ⟨bs, b1, b2⟩, _⟩ := h1
      rw [hs] at b2
      have : bs = [] := by
        cases bs with
        | nil => rfl
        | cons _ _ => simp at b2
      rw [this] at b1
      exact hd (by simpa using b1)
    · exact hd.1

end Ucsim.Fio
