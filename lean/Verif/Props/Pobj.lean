import Verif.Proof.Pobj
import Verif.Spec.Seq

/-! # C14, C15: lists and sorted lists -/
namespace Ucsim.Props
open Ucsim
open Ucsim.Spec (LOp seqStep PreorderCmp SortedBy)

variable {α : Type} [DecidableEq α]

/-- The program's operation. -/
def listStep (l : CList α) : LOp α → Out (CList α × Option α)
  | .add x => match l.add x with | .ok l' => .ok (l', none) | .exit => .exit | .ub => .ub
  | .addAt i x => match l.addAt i x with | .ok l' => .ok (l', none) | .exit => .exit | .ub => .ub
  | .push x => match l.push x with | .ok l' => .ok (l', none) | .exit => .exit | .ub => .ub
  | .pop => match l.pop with
    | (.ok l', o) => .ok (l', o) | (.exit, _) => .exit | (.ub, _) => .ub
  | .top => .ok (l, l.top)
  | .disconnAt i => match l.disconnAt i with | .ok l' => .ok (l', none) | .exit => .exit | .ub => .ub
  | .disconn x => match l.disconn x with | .ok l' => .ok (l', none) | .exit => .exit | .ub => .ub
  | .putAt i x => match l.putAt i x with | .ok l' => .ok (l', none) | .exit => .exit | .ub => .ub
  | .get i => match l.get i with | .ok x => .ok (l, some x) | .exit => .exit | .ub => .ub

/-- Positions at which the program checks its argument: add_at does not test
`index > count`, put_at does not test `index < 0`. -/
def Checked (n : Nat) : LOp α → Prop
  | .addAt i _ => i ≤ n
  | .putAt i _ => 0 ≤ i
  | _ => True

/-- One operation on a list with fewer than 8192 items does what the sequence
operation does; rejected positions terminate the program. -/
theorem c15_step_partial (l : CList α) (hf : l.Fits) (hd : 0 < l.delta)
    (hlt : l.items.length < maxListSize) (op : LOp α) (hop : Checked l.items.length op) :
    match seqStep l.items op with
    | none => listStep l op = .exit
    | some (s, o) => ∃ lim, listStep l op = .ok (⟨s, lim, l.delta⟩, o) ∧
        (CList.Fits ⟨s, lim, l.delta⟩) := by
  have hadd : ∀ (i : Nat) (x : α), i ≤ l.items.length → ∃ lim,
      l.addAt i x = .ok ⟨l.items.insertIdx i x, lim, l.delta⟩ ∧
      CList.Fits ⟨l.items.insertIdx i x, lim, l.delta⟩ := by
    intro i x hi
    obtain ⟨lim, h1, h2, h3⟩ := CList.addAt_ok l i x hf hd hlt hi
    refine ⟨lim, h1, ?_, h3⟩
    simp only [List.length_insertIdx, hi, if_true]; exact h2
  cases op with
  | add x =>
    obtain ⟨lim, h1, h2⟩ := hadd l.items.length x (Nat.le_refl _)
    simp only [List.insertIdx_length_self] at h1 h2
    refine ⟨lim, ?_, h2⟩
    simp only [listStep, CList.add, CList.count, h1]
  | addAt i x =>
    simp only [seqStep]
    by_cases h : 0 ≤ i ∧ i ≤ l.items.length
    · rw [if_pos h]
      obtain ⟨lim, h1, h2⟩ := hadd i.toNat x (by omega)
      refine ⟨lim, ?_, h2⟩
      rw [Int.toNat_of_nonneg h.1] at h1
      simp only [listStep, h1]
    · rw [if_neg h]
      have : i < 0 := by
        have hop' : i ≤ (l.items.length : Int) := hop
        omega
      simp only [listStep, CList.addAt, if_pos this]
  | push x =>
    simp only [seqStep, listStep, CList.push]
    by_cases h : l.count ≠ 0
    · rw [if_pos h]
      obtain ⟨lim, h1, h2⟩ := hadd 0 x (by omega)
      refine ⟨lim, ?_, by simpa using h2⟩
      rw [show ((0 : Nat) : Int) = 0 from rfl] at h1
      simp only [h1]; simp
    · rw [if_neg h]
      have h0 : l.items = [] := by
        unfold CList.count at h; simpa using h
      obtain ⟨lim, h1, h2⟩ := hadd 0 x (by omega)
      refine ⟨lim, ?_, by simpa using h2⟩
      have hc : l.count = 0 := by simpa using h
      simp only [CList.add, hc]
      simp only [h1]; simp
  | pop =>
    simp only [seqStep, listStep, CList.pop]
    rcases hi : l.items with _ | ⟨x, xs⟩
    · refine ⟨l.limit, ?_, Nat.zero_le _, hf.2⟩
      simp only [List.tail_nil, List.head?_nil]; rw [← hi]
    · have hdis : l.disconnAt 0 = .ok ⟨xs, l.limit, l.delta⟩ := by
        unfold CList.disconnAt CList.count
        rw [hi, if_neg (by simp)]
        simp
      refine ⟨l.limit, ?_, ?_, hf.2⟩
      · simp only [hdis, List.tail_cons, List.head?_cons]
      · have := hf.1; rw [hi] at this
        simp only [List.tail_cons]; simp only [List.length_cons] at this; omega
  | top => exact ⟨l.limit, rfl, hf⟩
  | disconnAt i =>
    have hc : l.count = l.items.length := rfl
    simp only [seqStep, listStep, CList.disconnAt]
    by_cases h : 0 ≤ i ∧ i < l.items.length
    · rw [if_pos h, if_neg (by omega)]
      refine ⟨l.limit, rfl, ?_, hf.2⟩
      have := hf.1
      have := List.length_eraseIdx_le l.items i.toNat
      simp only; omega
    · rw [if_neg h, if_pos (by omega)]
  | disconn x =>
    simp only [seqStep, listStep, CList.disconn, CList.indexOf?]
    cases hfi : l.items.findIdx? (fun y => decide (x = y)) with
    | none =>
      have hnm : x ∉ l.items := by
        intro hx
        have := List.findIdx?_eq_none_iff.1 hfi x hx
        simp at this
      refine ⟨l.limit, ?_, ?_⟩
      · rw [List.erase_of_not_mem hnm]
      · rw [List.erase_of_not_mem hnm]; exact hf
    | some i =>
      have hlen := (List.findIdx?_eq_some_iff_findIdx_eq.1 hfi)
      have her : l.items.erase x = l.items.eraseIdx i := by
        rw [List.erase_eq_eraseIdx, List.idxOf?, show (fun y => y == x) = (fun y => decide (x = y)) from ?_, hfi]
        funext y; rw [Bool.beq_eq_decide_eq]; exact decide_eq_decide.2 eq_comm
      have hc : l.count = l.items.length := rfl
      simp only [CList.disconnAt]
      rw [if_neg (by omega)]
      refine ⟨l.limit, by rw [her]; rfl, ?_, hf.2⟩
      have := hf.1
      have := List.length_erase_le (a := x) (l := l.items)
      simp only; omega
  | putAt i x =>
    have hop' : 0 ≤ i := hop
    have hc : l.count = l.items.length := rfl
    simp only [seqStep, listStep, CList.putAt]
    by_cases h : 0 ≤ i ∧ i < l.items.length
    · rw [if_pos h, if_neg (by omega), if_neg (by omega)]
      refine ⟨l.limit, rfl, ?_, hf.2⟩
      have := hf.1
      simpa using this
    · rw [if_neg h, if_pos (by omega)]
  | get i =>
    have hc : l.count = l.items.length := rfl
    simp only [seqStep, listStep, CList.get]
    by_cases h : 0 ≤ i ∧ i < l.items.length
    · rw [if_pos h, if_neg (by omega)]
      have hg : l.items[i.toNat]? = some l.items[i.toNat] := List.getElem?_eq_getElem (by omega)
      rw [hg]
      exact ⟨l.limit, rfl, hf⟩
    · rw [if_neg h, if_pos (by omega)]

/-- Run of the program on a list of operations: final list and returned items. -/
def listRun (l : CList α) : List (LOp α) → Out (CList α × List (Option α))
  | [] => .ok (l, [])
  | op :: ops =>
    match listStep l op with
    | .ok (l', o) =>
      match listRun l' ops with
      | .ok (l'', os) => .ok (l'', o :: os)
      | .exit => .exit
      | .ub => .ub
    | .exit => .exit
    | .ub => .ub

/-- The sequence semantics of a list of operations. -/
def seqRun (l : List α) : List (LOp α) → Option (List α × List (Option α))
  | [] => some (l, [])
  | op :: ops =>
    match seqStep l op with
    | some (l', o) => (seqRun l' ops).map (fun r => (r.1, o :: r.2))
    | none => none

/-- Along the history positions are checked ones and there are fewer than 8192
items before each operation. -/
def Allowed (l : List α) : List (LOp α) → Prop
  | [] => True
  | op :: ops => l.length < maxListSize ∧ Checked l.length op ∧
    match seqStep l op with
    | some (l', _) => Allowed l' ops
    | none => True

/-- C15 (with the two limits of the program made explicit in `Allowed`): any
history gives the items and results of the sequence semantics, whatever the
growth policy (initial capacity, positive delta). -/
theorem c15_history_partial (ops : List (LOp α)) (l : CList α) (hf : l.Fits) (hd : 0 < l.delta)
    (ha : Allowed l.items ops) :
    match seqRun l.items ops with
    | none => listRun l ops = .exit
    | some (s, os) => ∃ lim, listRun l ops = .ok (⟨s, lim, l.delta⟩, os) := by
  induction ops generalizing l with
  | nil => exact ⟨l.limit, rfl⟩
  | cons op ops ih =>
    have h := c15_step_partial l hf hd ha.1 op ha.2.1
    have ha2 := ha.2.2
    simp only [seqRun, listRun]
    cases hs : seqStep l.items op with
    | none => rw [hs] at h; simp only at h ⊢; rw [h]
    | some r =>
      obtain ⟨s, o⟩ := r
      rw [hs] at h ha2
      obtain ⟨lim, h1, h2⟩ := h
      have hi := ih ⟨s, lim, l.delta⟩ h2 hd ha2
      simp only [h1]
      cases hr : seqRun s ops with
      | none => simp only at hi; rw [hr] at hi; simp only [Option.map_none] at hi ⊢; rw [hi]
      | some q =>
        obtain ⟨s', os⟩ := q
        simp only at hi; rw [hr] at hi
        obtain ⟨lim', h3⟩ := hi
        simp only [Option.map_some]
        exact ⟨lim', by rw [h3]⟩

omit [DecidableEq α] in
/-- A freshly constructed list fits, for every requested capacity. -/
theorem c15_new_fits (alimit adelta : Nat) :
    ∃ l : CList α, CList.new alimit adelta = .ok l ∧ l.Fits ∧ l.items = [] ∧ l.delta = adelta := by
  unfold CList.new
  refine ⟨_, CList.setLimit_ok _ _ (Nat.zero_le _), ⟨Nat.zero_le _, ?_⟩, rfl, rfl⟩
  exact Nat.min_le_right _ _

/-- The history theorem is not vacuous: push, push, pop, add, remove. -/
example : listRun (⟨[], 0, 1⟩ : CList Nat)
      [.push 1, .push 2, .add 3, .pop, .addAt 1 9, .disconn 3, .get 1] =
    .ok (⟨[1, 9], 3, 1⟩, [none, none, none, some 2, none, none, some 9]) ∧
    Allowed ([] : List Nat) [.push 1, .push 2, .add 3, .pop, .addAt 1 9, .disconn 3, .get 1] := by
  refine ⟨by decide, ?_⟩
  simp [Allowed, Checked, seqStep, maxListSize]

omit [DecidableEq α] in
/-- C15 is false for long lists: set_limit never allocates more than
`max_list_size` (8192) pointers, so adding to a list that already holds 8192
items writes outside of the array. -/
theorem c15_false_when_full (l : CList α) (x : α) (hf : l.Fits) (hn : l.items.length = maxListSize) :
    l.add x = .ub ∧ l.push x = .ub := by
  have hlim : l.limit = maxListSize := by have := hf.1; have := hf.2; omega
  have key : ∀ i : Nat, l.addAt i x = .ub := by
    intro i
    unfold CList.addAt
    rw [if_neg (by omega)]
    have hc : l.count = l.limit := by unfold CList.count; omega
    rw [if_pos hc, CList.setLimit_ok _ _ (by omega)]
    simp only
    split
    · rfl
    · rw [if_pos]
      unfold CList.count; simp only; omega
  refine ⟨key _, ?_⟩
  unfold CList.push
  split
  · exact key 0
  · exact key _

/-- Such lists exist: 8192 additions to a new list succeed, the next one is
undefined behaviour. -/
theorem c15_false_reachable (alimit adelta : Nat) (hd : 0 < adelta) (x : α) :
    ∃ l l' : CList α, CList.new alimit adelta = .ok l ∧
      listRun l (List.replicate 8192 (LOp.add x)) = .ok (l', List.replicate 8192 none) ∧
      listRun l (List.replicate 8193 (LOp.add x)) = .ub := by
  obtain ⟨l, h1, h2, h3, h4⟩ := c15_new_fits (α := α) alimit adelta
  have main : ∀ (n : Nat) (l : CList α), l.Fits → 0 < l.delta → l.items.length + n = 8192 →
      ∃ l' : CList α, listRun l (List.replicate n (LOp.add x)) = .ok (l', List.replicate n none) ∧
        listRun l (List.replicate (n + 1) (LOp.add x)) = .ub := by
    intro n
    induction n with
    | zero =>
      intro l hf hd hl
      refine ⟨l, rfl, ?_⟩
      show listRun l [LOp.add x] = .ub
      simp only [listRun, listStep, (c15_false_when_full l x hf (by simpa [maxListSize] using hl)).1]
    | succ n ih =>
      intro l hf hd hl
      have h := c15_step_partial l hf hd (by unfold maxListSize; omega) (.add x) trivial
      simp only [seqStep] at h
      obtain ⟨lim, h5, h6⟩ := h
      obtain ⟨l', h7, h8⟩ := ih _ h6 hd (by simp; omega)
      refine ⟨l', ?_, ?_⟩
      · rw [List.replicate_succ]; simp only [listRun, h5, h7]; rfl
      · rw [List.replicate_succ]; simp only [listRun, h5, h8]
  obtain ⟨l', h5, h6⟩ := main 8192 l h2 (by omega) (by rw [h3]; simp)
  refine ⟨l, l', h1, h5, ?_⟩
  have e : (8193 : Nat) = 8192 + 1 := by omega
  rw [e]; exact h6

/-- C15 is also false for two kinds of wrong positions, which are not rejected. -/
theorem c15_false_positions :
    (⟨[1, 2], 4, 2⟩ : CList Nat).addAt 3 9 = .ub ∧ (⟨[1, 2], 4, 2⟩ : CList Nat).putAt (-1) 9 = .ub := by
  decide

/-! ## C14 -/

omit [DecidableEq α] in
theorem insertIdx_split (l : List α) (i : Nat) (x : α) (h : i ≤ l.length) :
    l.insertIdx i x = l.take i ++ x :: l.drop i := by
  induction l generalizing i with
  | nil => simp at h; subst h; rfl
  | cons a l ih =>
    cases i with
    | zero => rfl
    | succ i => simp at h; simp [ih i h]


omit [DecidableEq α] in
theorem ordered_of_sorted {cmp : α → α → Int} (hp : PreorderCmp cmp) {l : List α}
    (hs : SortedBy cmp l) (k : α) : Ordered (fun y => cmp y k) l := by
  intro i j x y hij hx hy
  have hxi := List.getElem?_eq_some_iff.1 hx
  have hyj := List.getElem?_eq_some_iff.1 hy
  obtain ⟨h1, rfl⟩ := hxi
  obtain ⟨h2, rfl⟩ := hyj
  have hxy : cmp l[i] l[j] ≤ 0 := (List.pairwise_iff_getElem.1 hs) i j h1 h2 hij
  refine ⟨fun h => ?_, fun h => hp.trans _ _ _ hxy h⟩
  have h3 := hp.trans _ _ _ hxy (Int.le_of_lt h)
  rcases Int.lt_or_eq_of_le h3 with h4 | h4
  · exact h4
  · exfalso
    have h5 : ¬ cmp l[i] k < 0 := by omega
    have h6 : cmp k l[i] ≤ 0 := by
      have := mt (hp.lt_gt l[i] k).2 h5
      omega
    have h7 := hp.trans _ _ _ h6 hxy
    have := (hp.lt_gt l[j] k).1 h
    omega

omit [DecidableEq α] in
/-- C14, search: in a sorted list, search reads only existing items, reports
found iff an item with an equal key exists; with duplicates allowed, or when not
found, the index is the number of smaller items (so: first equal item, or
insertion point); without duplicates, when found, the index is of an equal item. -/
theorem c14_search (cmp : α → α → Int) (hp : PreorderCmp cmp) (dup : Bool) (l : List α)
    (hs : SortedBy cmp l) (k : α) :
    ∃ (f : Bool) (i : Nat), slSearch (fun y => cmp y k) dup l = some (f, (i : Int)) ∧
      (f = true ↔ ∃ x ∈ l, cmp x k = 0) ∧
      (f = true → ∃ x, l[i]? = some x ∧ cmp x k = 0) ∧
      (dup = true ∨ f = false →
        (∀ x ∈ l.take i, cmp x k < 0) ∧ (∀ x ∈ l.drop i, 0 ≤ cmp x k) ∧ i ≤ l.length) := by
  obtain ⟨f, i, h1, h2, h3, h4, h5⟩ := slSearch_spec (fun y => cmp y k) dup l (ordered_of_sorted hp hs k)
  refine ⟨f, i, h1, ⟨?_, ?_⟩, h3, ?_⟩
  · intro hf
    obtain ⟨x, hx, hc⟩ := h3 hf
    exact ⟨x, List.mem_of_getElem? hx, hc⟩
  · rintro ⟨x, hx, hc⟩
    cases hf : f with
    | true => rfl
    | false =>
      obtain ⟨j, hj, hjx⟩ := List.mem_iff_getElem.1 hx
      exact absurd hc (h4 hf j x (by rw [List.getElem?_eq_getElem hj, hjx]))
  · intro hdf
    refine ⟨?_, ?_, h2⟩
    · intro x hx
      obtain ⟨j, hj, hjx⟩ := List.mem_iff_getElem.1 hx
      simp only [List.length_take] at hj
      simp only [List.getElem_take] at hjx
      exact (h5 hdf j x (by rw [List.getElem?_eq_getElem (by omega), hjx])).1 (by omega)
    · intro x hx
      obtain ⟨j, hj, hjx⟩ := List.mem_iff_getElem.1 hx
      simp only [List.length_drop] at hj
      simp only [List.getElem_drop] at hjx
      exact (h5 hdf (i + j) x (by rw [List.getElem?_eq_getElem (by omega), hjx])).2 (by omega)

omit [DecidableEq α] in
/-- C14, add: keeps the order; the item is added (exactly once) unless
duplicates are not allowed and an equal one is present, then nothing changes. -/
theorem c14_add_partial (cmp : α → α → Int) (hp : PreorderCmp cmp) (dup : Bool) (l : CList α)
    (hf : l.Fits) (hd : 0 < l.delta) (hlt : l.items.length < maxListSize)
    (hs : SortedBy cmp l.items) (x : α) :
    ∃ l', slAdd cmp dup l x = .ok l' ∧ l'.Fits ∧ l'.delta = l.delta ∧ SortedBy cmp l'.items ∧
      ((dup = false ∧ (∃ y ∈ l.items, cmp y x = 0) ∧ l' = l) ∨
       ((dup = true ∨ ∀ y ∈ l.items, cmp y x ≠ 0) ∧
         ∃ i, i ≤ l.items.length ∧ l'.items = l.items.insertIdx i x)) := by
  obtain ⟨f, i, h1, h2, h3, h4⟩ := c14_search cmp hp dup l.items hs x
  unfold slAdd
  rw [h1]
  simp only
  by_cases hc : (!f || dup) = true
  · rw [if_pos hc]
    have hdf : dup = true ∨ f = false := by
      cases f <;> cases dup <;> simp_all
    obtain ⟨h5, h6, h7⟩ := h4 hdf
    obtain ⟨lim, h8, h9, h10⟩ := CList.addAt_ok l i x hf hd hlt h7
    refine ⟨_, h8, ⟨?_, h10⟩, rfl, ?_, Or.inr ⟨?_, i, h7, rfl⟩⟩
    · simp only [List.length_insertIdx, h7, if_true]; exact h9
    · show SortedBy cmp (l.items.insertIdx i x)
      rw [insertIdx_split _ _ _ h7]
      unfold SortedBy at hs ⊢
      have hsp := hs
      rw [← List.take_append_drop i l.items, List.pairwise_append] at hsp
      rw [List.pairwise_append]
      refine ⟨hsp.1, ?_, ?_⟩
      · rw [List.pairwise_cons]
        refine ⟨?_, hsp.2.1⟩
        intro y hy
        have h0 := h6 y hy
        by_cases hlt' : 0 < cmp x y
        · have := (hp.lt_gt y x).2 hlt'; omega
        · omega
      · intro a ha b hb
        rw [List.mem_cons] at hb
        rcases hb with rfl | hb
        · have := h5 a ha; omega
        · exact hsp.2.2 a ha b hb
    · rcases hdf with h | h
      · exact Or.inl h
      · right
        intro y hy hcy
        have := h2.2 ⟨y, hy, hcy⟩
        rw [h] at this; cases this
  · rw [if_neg hc]
    have hff : f = true ∧ dup = false := by cases f <;> cases dup <;> simp_all
    exact ⟨l, rfl, hf, rfl, hs, Or.inl ⟨hff.2, h2.1 hff.1, rfl⟩⟩

/-- Histories of a sorted list: additions and removals. -/
inductive SOp (α : Type) | add (x : α) | disconnAt (i : Int) | disconn (x : α)

def sortedStep (cmp : α → α → Int) (dup : Bool) (l : CList α) : SOp α → Out (CList α)
  | .add x => slAdd cmp dup l x
  | .disconnAt i => l.disconnAt i
  | .disconn x => l.disconn x

def sortedRun (cmp : α → α → Int) (dup : Bool) (l : CList α) : List (SOp α) → Out (CList α)
  | [] => .ok l
  | op :: ops => match sortedStep cmp dup l op with
    | .ok l' => sortedRun cmp dup l' ops
    | .exit => .exit
    | .ub => .ub

/-- No two items have equal keys. -/
def NoDup (cmp : α → α → Int) (l : List α) : Prop := l.Pairwise (fun a b => cmp a b ≠ 0)

omit [DecidableEq α] in
theorem sublist_erase_sorted {R : α → α → Prop} {l : List α} (h : l.Pairwise R) (i : Nat) :
    (l.eraseIdx i).Pairwise R := h.sublist (List.eraseIdx_sublist l i)

/-- C14 over histories: as long as the list never holds more than 8192 items
(see C15), every reachable list is sorted, and free of equal keys if duplicates
are not allowed. -/
theorem c14_history_partial (cmp : α → α → Int) (hp : PreorderCmp cmp) (dup : Bool)
    (ops : List (SOp α)) (l : CList α) (hf : l.Fits) (hd : 0 < l.delta)
    (hs : SortedBy cmp l.items) (hn : dup = false → NoDup cmp l.items)
    (hlen : l.items.length + ops.length ≤ maxListSize) :
    match sortedRun cmp dup l ops with
    | .ok l' => SortedBy cmp l'.items ∧ (dup = false → NoDup cmp l'.items)
    | .exit => ∃ i, SOp.disconnAt i ∈ ops
    | .ub => False := by
  induction ops generalizing l with
  | nil => exact ⟨hs, hn⟩
  | cons op ops ih =>
    simp only [List.length_cons] at hlen
    have hdis : ∀ (i : Int) (l' : CList α), l.disconnAt i = .ok l' →
        l'.Fits ∧ l'.delta = l.delta ∧ SortedBy cmp l'.items ∧ (dup = false → NoDup cmp l'.items) ∧
        l'.items.length ≤ l.items.length := by
      intro i l' h
      unfold CList.disconnAt at h
      split at h
      · cases h
      · cases h
        have := List.length_eraseIdx_le l.items i.toNat
        exact ⟨⟨by have := hf.1; simp only; omega, hf.2⟩, rfl, sublist_erase_sorted hs _,
          fun h => sublist_erase_sorted (hn h) _, this⟩
    cases op with
    | add x =>
      obtain ⟨l', h1, h2, h3, h4, h5⟩ := c14_add_partial cmp hp dup l hf hd (by omega) hs x
      simp only [sortedRun, sortedStep, h1]
      have hlen' : l'.items.length ≤ l.items.length + 1 := by
        rcases h5 with ⟨_, _, rfl⟩ | ⟨_, i, hi, he⟩
        · omega
        · rw [he, List.length_insertIdx, if_pos hi]; omega
      have hn' : dup = false → NoDup cmp l'.items := by
        intro hdup
        rcases h5 with ⟨_, _, rfl⟩ | ⟨hne, i, hi, he⟩
        · exact hn hdup
        · have hne' := hne.resolve_left (by simp [hdup])
          have hn0 := hn hdup
          rw [he]
          unfold NoDup at hn0 ⊢
          rw [insertIdx_split _ _ _ hi]
          rw [← List.take_append_drop i l.items, List.pairwise_append] at hn0
          rw [List.pairwise_append]
          refine ⟨hn0.1, ?_, ?_⟩
          · rw [List.pairwise_cons]
            refine ⟨?_, hn0.2.1⟩
            intro y hy h0
            have h7 := hne' y (List.mem_of_mem_drop hy)
            have ha := mt (hp.lt_gt y x).1 (by omega)
            have hb := mt (hp.lt_gt x y).2 (by omega)
            omega
          · intro a ha b hb
            rw [List.mem_cons] at hb
            rcases hb with rfl | hb
            · exact hne' a (List.mem_of_mem_take ha)
            · exact hn0.2.2 a ha b hb
      have := ih l' h2 (by omega) h4 hn' (by omega)
      split at this
      · exact this
      · obtain ⟨i, hi⟩ := this; exact ⟨i, List.mem_cons_of_mem _ hi⟩
      · exact this.elim
    | disconnAt i =>
      simp only [sortedRun, sortedStep]
      cases h : l.disconnAt i with
      | ok l' =>
        obtain ⟨h2, h3, h4, h5, h6⟩ := hdis i l' h
        have := ih l' h2 (by omega) h4 h5 (by omega)
        simp only
        split at this
        · exact this
        · obtain ⟨i, hi⟩ := this; exact ⟨i, List.mem_cons_of_mem _ hi⟩
        · exact this.elim
      | exit => exact ⟨i, List.mem_cons_self⟩
      | ub => unfold CList.disconnAt at h; split at h <;> cases h
    | disconn x =>
      simp only [sortedRun, sortedStep, CList.disconn]
      cases hx : l.indexOf? x with
      | none =>
        have := ih l hf hd hs hn (by omega)
        simp only
        split at this
        · exact this
        · obtain ⟨i, hi⟩ := this; exact ⟨i, List.mem_cons_of_mem _ hi⟩
        · exact this.elim
      | some i =>
        have hi := (List.findIdx?_eq_some_iff_findIdx_eq.1 hx).1
        have hok : l.disconnAt i = .ok { l with items := l.items.eraseIdx i } := by
          unfold CList.disconnAt CList.count; rw [if_neg (by omega)]; rfl
        obtain ⟨h2, h3, h4, h5, h6⟩ := hdis i _ hok
        have := ih _ h2 (by omega) h4 h5 (by omega)
        simp only [hok]
        split at this
        · exact this
        · obtain ⟨i, hi⟩ := this; exact ⟨i, List.mem_cons_of_mem _ hi⟩
        · exact this.elim

/-- Integers compared like cl_decoder_list::compare does are a total preorder. -/
theorem natCmp_preorder : PreorderCmp (fun a b : Nat => if a = b then (0 : Int) else if a < b then -1 else 1) := by
  constructor
  · intro a; simp
  · intro a b; split <;> split <;> (try split) <;> (try split) <;> omega
  · intro a b c; split <;> split <;> (try split) <;> (try split) <;> (try split) <;> (try split) <;> omega

/-- The history theorem applies to a list of numbers with duplicates. -/
example : sortedRun (fun a b : Nat => if a = b then (0 : Int) else if a < b then -1 else 1) true
    ⟨[], 2, 2⟩ [.add 5, .add 3, .add 5, .add 4, .disconn 3] = .ok ⟨[4, 5, 5], 4, 2⟩ := by
  decide +kernel

end Ucsim.Props
