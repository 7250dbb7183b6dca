import Verif.Proof.Hist

/-! # C24: execution history -/
namespace Ucsim.Props
open Ucsim
open Ucsim.Spec (runs addRun lastN histRun histStep HOp)

/-- Any history of executed instructions, keep and clear, whatever the memory
contained before: nothing fails, and the three ways to look at the history
(number of elements, number of instructions, listing of the newest `nr`) show
the history of at most 10000 runs of the specification. -/
theorem c24_history (junk : Nat → Nat × Nat) (ops : List HOp) :
    ∃ s, (Hist.new junk).run ops = some s ∧
      s.used = (histRun 10000 [] ops).length ∧
      s.insts = some (((histRun 10000 [] ops).map Prod.snd).sum % 2 ^ 32) ∧
      (∀ nr : Int, 1 ≤ nr → s.list true nr = some (lastN nr.toNat (histRun 10000 [] ops))) ∧
      (∀ nr : Int, s.list false nr = some (histRun 10000 [] ops).reverse) := by
  obtain ⟨s, h1, h2, h3⟩ := hist_run (new_hinv junk) ops
  rw [new_items] at h3
  refine ⟨s, h1, ?_, ?_, ?_, ?_⟩
  · rw [← h3, s.items_length]
  · rw [← h3]; exact insts_eq h2
  · intro nr hn; rw [← h3]; exact list_inc h2 nr hn
  · intro nr; rw [← h3]; exact list_dec h2 nr

theorem addRun_ne (l : List (Nat × Nat)) (pc : Nat) : addRun l pc ≠ [] := by
  unfold addRun; split
  · split <;> simp
  · simp

/-- Only the last member of the list matters for one more instruction. -/
theorem addRun_append (l r : List (Nat × Nat)) (hr : r ≠ []) (pc : Nat) : addRun (l ++ r) pc = l ++ addRun r pc := by
  unfold addRun
  obtain ⟨x, hx⟩ : ∃ x, r.getLast? = some x := ⟨_, List.getLast?_eq_some_getLast hr⟩
  rw [List.getLast?_append, hx, Option.some_or]
  obtain ⟨a, n⟩ := x
  simp only
  split
  · rw [List.dropLast_append_of_ne_nil hr, List.append_assoc]
  · rw [List.append_assoc]

theorem lastN_addRun (cap : Nat) (hc : 1 ≤ cap) (l : List (Nat × Nat)) (pc : Nat) :
    lastN cap (addRun (lastN cap l) pc) = lastN cap (addRun l pc) := by
  by_cases hs : l.length ≤ cap
  · have : lastN cap l = l := by unfold lastN; rw [Nat.sub_eq_zero_of_le hs, List.drop_zero]
    rw [this]
  · have hsplit : l = l.take (l.length - cap) ++ lastN cap l := by unfold lastN; rw [List.take_append_drop]
    have hne : lastN cap l ≠ [] := by
      unfold lastN; intro h
      have := congrArg List.length h
      rw [List.length_drop, List.length_nil] at this; omega
    have hlen : cap ≤ (addRun (lastN cap l) pc).length := by
      have hl : (lastN cap l).length = cap := by unfold lastN; rw [List.length_drop]; omega
      unfold addRun
      split
      · split <;> simp [hl] <;> omega
      · rename_i h; rw [List.getLast?_eq_none_iff] at h; exact absurd h hne
    have e : addRun l pc = l.take (l.length - cap) ++ addRun (lastN cap l) pc := by
      have := addRun_append (l.take (l.length - cap)) (lastN cap l) hne pc
      rwa [← hsplit] at this
    rw [e]
    unfold lastN at hlen ⊢
    rw [List.length_append, List.drop_append, List.length_take]
    have e2 : (l.take (l.length - cap)).drop
        (min (l.length - cap) l.length + (addRun (l.drop (l.length - cap)) pc).length - cap) = [] :=
      List.drop_eq_nil_of_le (by rw [List.length_take]; omega)
    rw [e2, List.nil_append]
    congr 1
    omega

theorem run_puts (cap : Nat) (hc : 1 ≤ cap) (trace : List Nat) (l : List (Nat × Nat)) :
    histRun cap (lastN cap l) (trace.map HOp.put) = lastN cap (trace.foldl addRun l) := by
  induction trace generalizing l with
  | nil => rfl
  | cons pc tr ih =>
    simp only [List.map_cons, histRun, List.foldl_cons, histStep]
    rw [lastN_addRun cap hc]
    exact ih (addRun l pc)

theorem lastN_zero (l : List (Nat × Nat)) : lastN 0 l = [] := by unfold lastN; simp

/-- C24.  Whatever happened before the last clear: after the instructions of
`trace`, the history shows the newest 10000 members of the run-length form of `trace`. -/
theorem c24_since_clear (junk : Nat → Nat × Nat) (before : List HOp) (trace : List Nat) :
    ∃ s, (Hist.new junk).run (before ++ .keep 0 :: trace.map .put) = some s ∧
      s.used = min 10000 (runs trace).length ∧
      s.insts = some (((lastN 10000 (runs trace)).map Prod.snd).sum % 2 ^ 32) ∧
      ∀ nr : Int, 1 ≤ nr → s.list true nr = some (lastN nr.toNat (lastN 10000 (runs trace))) := by
  have e : histRun 10000 [] (before ++ .keep 0 :: trace.map .put) = lastN 10000 (runs trace) := by
    unfold histRun
    rw [List.foldl_append, List.foldl_cons]
    have : histStep 10000 (List.foldl (histStep 10000) [] before) (.keep 0) = lastN 10000 [] := by
      rw [lastN_nil]; exact lastN_zero _
    rw [this]
    exact run_puts 10000 (by omega) trace []
  obtain ⟨s, h1, h2, h3, h4, _⟩ := c24_history junk (before ++ .keep 0 :: trace.map .put)
  rw [e] at h2 h3 h4
  refine ⟨s, h1, ?_, h3, h4⟩
  rw [h2]; unfold lastN; rw [List.length_drop]; omega

/-- Up to 10000 runs, the number of instructions is that of the trace. -/
theorem runs_sum (trace : List Nat) (l : List (Nat × Nat)) :
    ((trace.foldl addRun l).map Prod.snd).sum = (l.map Prod.snd).sum + trace.length := by
  induction trace generalizing l with
  | nil => simp
  | cons pc tr ih =>
    rw [List.foldl_cons, ih]
    have : ((addRun l pc).map Prod.snd).sum = (l.map Prod.snd).sum + 1 := by
      unfold addRun
      split
      · rename_i a n h
        split
        · have hl : l = l.dropLast ++ [(a, n)] := by
            obtain ⟨ys, rfl⟩ := List.getLast?_eq_some_iff.1 h
            simp
          have h2 : (l.map Prod.snd).sum = (l.dropLast.map Prod.snd).sum + n := by
            have := congrArg (fun l : List (Nat × Nat) => (l.map Prod.snd).sum) hl
            simpa using this
          rw [h2]; simp; omega
        · simp
      · rename_i h; rw [List.getLast?_eq_none_iff] at h; subst h; simp
    rw [this, List.length_cons]; omega

theorem c24_insts (junk : Nat → Nat × Nat) (before : List HOp) (trace : List Nat) (h : (runs trace).length ≤ 10000) :
    ∃ s, (Hist.new junk).run (before ++ .keep 0 :: trace.map .put) = some s ∧ s.insts = some (trace.length % 2 ^ 32) := by
  obtain ⟨s, h1, _, h3, _⟩ := c24_since_clear junk before trace
  refine ⟨s, h1, ?_⟩
  rw [h3]
  have : lastN 10000 (runs trace) = runs trace := by unfold lastN; rw [Nat.sub_eq_zero_of_le h, List.drop_zero]
  rw [this]
  have := runs_sum trace []
  simp only [List.map_nil, List.sum_nil, Nat.zero_add] at this
  rw [show runs trace = trace.foldl addRun [] from rfl, this]

/-- What is not true: `history list 0` (in any history whose newest element is not the
last of the array) prints all the 10001 elements of the array, also those never
set. -/
theorem incAll (s : Hist) (k f : Nat) (h1 : s.h + 1 < 10001) (hk : k ≤ 10000) (hf : k < f) :
    ∃ l, s.incLoop f (((s.h + 10001 - k) % 10001 : Nat) : Int) = some l ∧ l.length = k + 1 := by
  induction k generalizing f with
  | zero =>
    obtain ⟨f, rfl⟩ : ∃ g, f = g + 1 := ⟨f - 1, by omega⟩
    unfold Hist.incLoop histLen
    rw [if_neg (by omega), if_pos (by omega)]
    exact ⟨_, rfl, rfl⟩
  | succ k ih =>
    obtain ⟨f, rfl⟩ : ∃ g, f = g + 1 := ⟨f - 1, by omega⟩
    unfold Hist.incLoop histLen
    rw [if_neg (by omega), if_neg (by omega)]
    have e : ((((s.h + 10001 - (k + 1)) % 10001 : Nat) : Int) + 1) % (10001 : Nat) =
        (((s.h + 10001 - k) % 10001 : Nat) : Int) := by omega
    obtain ⟨l, h, hl⟩ := ih f (by omega) (by omega)
    rw [e, h]
    exact ⟨_, rfl, by simp [hl]⟩

theorem c24_false_list_zero (s : Hist) (ht : s.t ≠ s.h) (hh : s.h + 1 < 10001) :
    ∃ l, s.list true 0 = some l ∧ l.length = 10001 := by
  obtain ⟨l, h1, h2⟩ := incAll s 10000 10002 hh (by omega) (by omega)
  refine ⟨l, ?_, h2⟩
  unfold Hist.list histLen
  rw [if_neg ht]
  simp only [if_true]
  have e0 : (if (0 : Int) > ((10001 : Nat) : Int) - 1 then ((10001 : Nat) : Int) - 1 else 0) = 0 := if_neg (by omega)
  rw [e0, if_neg (show ¬ (0 : Int) > s.used by omega), if_neg (show ¬ (s.h : Int) - 0 + 1 < 0 by omega)]
  have e1 : (((s.h + 10001 - 10000) % 10001 : Nat) : Int) = (s.h : Int) - 0 + 1 := by omega
  rw [e1] at h1
  exact h1

/-- ... and for a more negative number the listing begins outside of the array. -/
theorem c24_false_list_negative (s : Hist) (ht : s.t ≠ s.h) (nr : Int) (hn : nr ≤ -10001) : s.list true nr = none := by
  unfold Hist.list histLen
  rw [if_neg ht]
  simp only [if_true]
  unfold Hist.incLoop histLen
  rw [if_pos]
  right
  split <;> split <;> split <;> omega

/-- A reachable such state: one instruction executed. -/
example (junk : Nat → Nat × Nat) : ∃ s, (Hist.new junk).run [.put 5] = some s ∧ s.t ≠ s.h ∧ s.h + 1 < 10001 ∧ s.used = 1 :=
  ⟨_, rfl, by simp [Hist.put, Hist.new], by simp [Hist.put, Hist.new], rfl⟩

example : histRun 10000 [] [.put 1, .put 7, .put 7, .keep 1, .put 7, .put 3] = [(7, 3), (3, 1)] := by decide
example : runs [1, 1, 2, 2, 2, 1] = [(1, 2), (2, 3), (1, 1)] := by decide
/-- A small capacity, to see the effect of the limit in the specification. -/
example : histRun 2 [] [.put 1, .put 2, .put 3, .put 3] = [(2, 1), (3, 2)] := by decide

end Ucsim.Props
