import Verif.Core.Hist

namespace Ucsim
open Spec

/-- The elements of the ring, oldest first. -/
def Hist.items (s : Hist) : List (Nat × Nat) := (List.range s.used).map (fun i => s.el ((s.t + 1 + i) % 10001))

structure HInv (s : Hist) : Prop where
  h : s.h < 10001
  t : s.t < 10001

theorem Hist.used_eq {s : Hist} (hi : HInv s) : s.used = (s.h + 10001 - s.t) % 10001 := by
  have := hi.h; have := hi.t
  unfold Hist.used histLen
  split
  · omega
  · split <;> omega

theorem Hist.items_length (s : Hist) : s.items.length = s.used := by unfold Hist.items; simp

theorem Hist.items_get {s : Hist} {i : Nat} (h : i < s.items.length) : s.items[i] = s.el ((s.t + 1 + i) % 10001) := by
  simp only [Hist.items, List.getElem_map, List.getElem_range]

theorem lastN_nil {α : Type} (n : Nat) : lastN n ([] : List α) = [] := by unfold lastN; simp

theorem HInv.put {s : Hist} (hi : HInv s) (pc : Nat) : HInv (s.put pc) := by
  have := hi.h; have := hi.t
  unfold Hist.put histLen
  split
  · exact ⟨hi.h, hi.t⟩
  · constructor
    · simp only; omega
    · simp only; split <;> omega

theorem getLast?_eq_get {α : Type} (l : List α) : l.getLast? = l[l.length - 1]? := by
  rw [List.getLast?_eq_getElem?]

/-- put is the specification's put. -/
theorem put_items {s : Hist} (hi : HInv s) (pc : Nat) : (s.put pc).items = lastN 10000 (addRun s.items pc) := by
  have h1 := hi.h
  have h2 := hi.t
  have hu := Hist.used_eq hi
  have hlen := s.items_length
  have hult : s.used < 10001 := by rw [hu]; omega
  have hlast : s.used ≠ 0 → s.items.getLast? = some (s.el s.h) := by
    intro h0
    rw [List.getLast?_eq_getElem?, List.getElem?_eq_getElem (by omega), Hist.items_get]
    congr 2
    rw [hlen]; omega
  by_cases hc : s.t ≠ s.h ∧ (s.el s.h).1 = pc
  · have h0 : s.used ≠ 0 := by rw [hu]; have := hc.1; omega
    have ep : s.put pc = { s with el := s.store s.h ((s.el s.h).1, (s.el s.h).2 + 1) } := by unfold Hist.put; rw [if_pos hc]
    have eu : (s.put pc).used = s.used := by rw [ep]; rfl
    unfold addRun
    rw [hlast h0]
    simp only [hc.2, if_true]
    unfold lastN
    have e0 : (s.items.dropLast ++ [(pc, (s.el s.h).2 + 1)]).length - 10000 = 0 := by simp; omega
    rw [e0, List.drop_zero]
    apply List.ext_getElem
    · rw [Hist.items_length, eu]; simp; omega
    · intro i hi1 hi2
      rw [Hist.items_get, ep]
      simp only [Hist.store]
      rw [Hist.items_length, eu] at hi1
      by_cases hl : i = s.used - 1
      · rw [if_pos (by omega), List.getElem_append_right (by simp; omega)]
        simp [hc.2]
      · rw [if_neg (by omega), List.getElem_append_left (by simp; omega), List.getElem_dropLast, Hist.items_get]
  · have ep : s.put pc = ⟨(s.h + 1) % 10001, if s.t = (s.h + 1) % 10001 then (s.t + 1) % 10001 else s.t,
        s.store ((s.h + 1) % 10001) (pc, 1)⟩ := by
      unfold Hist.put; rw [if_neg hc]
    have er : addRun s.items pc = s.items ++ [(pc, 1)] := by
      unfold addRun
      by_cases h0 : s.used = 0
      · have : s.items = [] := List.length_eq_zero_iff.1 (by omega)
        rw [this]; rfl
      · rw [hlast h0]
        have ht : s.t ≠ s.h := by intro he; apply h0; rw [hu]; omega
        simp only
        rw [if_neg (fun h => hc ⟨ht, h⟩)]
    rw [er]
    have hI := hi.put pc
    have hu' := Hist.used_eq hI
    have eh : (s.put pc).h = (s.h + 1) % 10001 := by rw [ep]
    have et : (s.put pc).t = if s.t = (s.h + 1) % 10001 then (s.t + 1) % 10001 else s.t := by rw [ep]
    have ee : (s.put pc).el = s.store ((s.h + 1) % 10001) (pc, 1) := by rw [ep]
    have hfull : s.t = (s.h + 1) % 10001 ↔ s.used = 10000 := by rw [hu]; omega
    unfold lastN
    by_cases hf : s.t = (s.h + 1) % 10001
    · rw [if_pos hf] at et
      have hu10 := hfull.1 hf
      have hu2 : (s.put pc).used = 10000 := by rw [hu', eh, et]; omega
      have e1 : (s.items ++ [(pc, 1)]).length - 10000 = 1 := by simp; omega
      rw [e1]
      apply List.ext_getElem
      · rw [Hist.items_length, hu2]; simp; omega
      · intro i hi1 hi2
        rw [Hist.items_length, hu2] at hi1
        rw [Hist.items_get, ee, et, List.getElem_drop]
        simp only [Hist.store]
        by_cases hl : i = 9999
        · rw [if_pos (by omega), List.getElem_append_right (by omega)]; simp
        · rw [if_neg (by omega), List.getElem_append_left (by omega), Hist.items_get]
          have : ((s.t + 1) % 10001 + 1 + i) % 10001 = (s.t + 1 + (1 + i)) % 10001 := by omega
          rw [this]
    · rw [if_neg hf] at et
      have hnf : s.used ≠ 10000 := fun h => hf (hfull.2 h)
      have hu2 : (s.put pc).used = s.used + 1 := by rw [hu', eh, et]; omega
      have e1 : (s.items ++ [(pc, 1)]).length - 10000 = 0 := by simp; omega
      rw [e1, List.drop_zero]
      apply List.ext_getElem
      · rw [Hist.items_length, hu2]; simp; omega
      · intro i hi1 hi2
        rw [Hist.items_length, hu2] at hi1
        rw [Hist.items_get, ee, et]
        simp only [Hist.store]
        by_cases hl : i = s.used
        · rw [if_pos (by omega), List.getElem_append_right (by omega)]; simp
        · rw [if_neg (by omega), List.getElem_append_left (by omega), Hist.items_get]

/-- Dropping the oldest. -/
theorem tail_items {s : Hist} (hi : HInv s) (h0 : s.used ≠ 0) :
    HInv { s with t := (s.t + 1) % 10001 } ∧ (Hist.mk s.h ((s.t + 1) % 10001) s.el).items = s.items.drop 1 ∧
    (Hist.mk s.h ((s.t + 1) % 10001) s.el).used = s.used - 1 := by
  have h1 := hi.h
  have h2 := hi.t
  have hu := Hist.used_eq hi
  have hI : HInv { s with t := (s.t + 1) % 10001 } := ⟨h1, by simp only; omega⟩
  have hu' := Hist.used_eq hI
  simp only at hu'
  have e : (Hist.mk s.h ((s.t + 1) % 10001) s.el).used = s.used - 1 := by
    show Hist.used { s with t := (s.t + 1) % 10001 } = _
    rw [hu']; omega
  refine ⟨hI, ?_, e⟩
  apply List.ext_getElem
  · rw [Hist.items_length, e, List.length_drop, Hist.items_length]
  · intro i hi1 hi2
    rw [Hist.items_get, List.getElem_drop, Hist.items_get]
    simp only
    congr 1; omega

theorem keepLoop_spec (f : Nat) {s : Hist} (hi : HInv s) (n : Nat) (hf : s.used - n < f) :
    ∃ s', Hist.keepLoop f s n = some s' ∧ HInv s' ∧ s'.items = lastN n s.items := by
  induction f generalizing s with
  | zero => omega
  | succ f ih =>
    unfold Hist.keepLoop
    by_cases hc : (s.used : Int) > n
    · rw [if_pos hc]
      obtain ⟨g1, g2, g3⟩ := tail_items hi (by omega)
      obtain ⟨s', k1, k2, k3⟩ := ih (s := { s with t := (s.t + 1) % histLen }) g1 (by
        show (Hist.mk s.h ((s.t + 1) % 10001) s.el).used - n < f
        rw [g3]; omega)
      refine ⟨s', k1, k2, ?_⟩
      rw [k3]
      show lastN n (Hist.mk s.h ((s.t + 1) % 10001) s.el).items = _
      rw [g2]
      unfold lastN
      rw [List.drop_drop, List.length_drop]
      have := s.items_length
      congr 1; omega
    · rw [if_neg hc]
      refine ⟨s, rfl, hi, ?_⟩
      unfold lastN
      rw [s.items_length, show s.used - n = 0 by omega, List.drop_zero]

theorem keep_items {s : Hist} (hi : HInv s) (n : Int) :
    ∃ s', s.keep n = some s' ∧ HInv s' ∧ s'.items = lastN n.toNat s.items := by
  have hu := Hist.used_eq hi
  unfold Hist.keep
  simp only
  split
  · rename_i he
    refine ⟨s, rfl, hi, ?_⟩
    have : s.items = [] := List.length_eq_zero_iff.1 (by rw [s.items_length, hu]; omega)
    rw [this, lastN_nil]
  · have e : (if n < 0 then 0 else n) = ((n.toNat : Nat) : Int) := by split <;> omega
    rw [e]
    exact keepLoop_spec _ hi n.toNat (by unfold histLen; omega)

theorem hist_run {s : Hist} (hi : HInv s) (ops : List HOp) :
    ∃ s', s.run ops = some s' ∧ HInv s' ∧ s'.items = histRun 10000 s.items ops := by
  induction ops generalizing s with
  | nil => exact ⟨s, rfl, hi, rfl⟩
  | cons o os ih =>
    cases o with
    | put pc =>
      obtain ⟨s', k1, k2, k3⟩ := ih (hi.put pc)
      refine ⟨s', k1, k2, ?_⟩
      rw [k3, put_items hi]; simp only [histRun, List.foldl_cons, histStep]
    | keep n =>
      obtain ⟨s1, j1, j2, j3⟩ := keep_items hi n
      obtain ⟨s', k1, k2, k3⟩ := ih j2
      refine ⟨s', ?_, k2, ?_⟩
      · simp only [Hist.run, Hist.step, j1]; exact k1
      · rw [k3, j3]; simp only [histRun, List.foldl_cons, histStep]

theorem new_hinv (junk : Nat → Nat × Nat) : HInv (Hist.new junk) := ⟨by simp [Hist.new], by simp [Hist.new]⟩

theorem new_items (junk : Nat → Nat × Nat) : (Hist.new junk).items = [] := rfl

/-! ### listing -/

theorem incLoop_spec {s : Hist} (hi : HInv s) (k : Nat) (f : Nat) (hk : k < s.used) (hf : k < f) :
    s.incLoop f (((s.t + 1 + (s.used - 1 - k)) % 10001 : Nat) : Int) = some (s.items.drop (s.used - 1 - k)) := by
  have h1 := hi.h
  have h2 := hi.t
  have hu := Hist.used_eq hi
  have hlen := s.items_length
  induction k generalizing f with
  | zero =>
    obtain ⟨f, rfl⟩ : ∃ g, f = g + 1 := ⟨f - 1, by omega⟩
    unfold Hist.incLoop histLen
    rw [if_neg (by omega), if_pos (by omega)]
    rw [List.drop_eq_getElem_cons (by omega), List.drop_eq_nil_of_le (by omega), Hist.items_get, Int.toNat_natCast]
  | succ k ih =>
    obtain ⟨f, rfl⟩ : ∃ g, f = g + 1 := ⟨f - 1, by omega⟩
    unfold Hist.incLoop histLen
    rw [if_neg (by omega), if_neg (by omega)]
    have e : ((((s.t + 1 + (s.used - 1 - (k + 1))) % 10001 : Nat) : Int) + 1) % (10001 : Nat) =
        (((s.t + 1 + (s.used - 1 - k)) % 10001 : Nat) : Int) := by omega
    rw [e, ih f (by omega) (by omega)]
    rw [List.drop_eq_getElem_cons (i := s.used - 1 - (k + 1)) (by omega), Hist.items_get]
    simp only [Option.map_some, Int.toNat_natCast]
    congr 3; omega

theorem decLoop_spec {s : Hist} (hi : HInv s) (k : Nat) (f : Nat) (hk : k < s.used) (hf : k < f) :
    s.decLoop ((s.t + 1) % 10001) f ((s.t + 1 + k) % 10001) = some (s.items.take (k + 1)).reverse := by
  have h1 := hi.h
  have h2 := hi.t
  have hu := Hist.used_eq hi
  have hlen := s.items_length
  induction k generalizing f with
  | zero =>
    obtain ⟨f, rfl⟩ : ∃ g, f = g + 1 := ⟨f - 1, by omega⟩
    unfold Hist.decLoop
    rw [if_pos (by omega), List.take_succ_eq_append_getElem (by omega), Hist.items_get]
    simp
  | succ k ih =>
    obtain ⟨f, rfl⟩ : ∃ g, f = g + 1 := ⟨f - 1, by omega⟩
    unfold Hist.decLoop histLen
    rw [if_neg (by omega)]
    have e : (if (s.t + 1 + (k + 1)) % 10001 = 0 then 10001 - 1 else ((s.t + 1 + (k + 1)) % 10001 - 1) % 10001) =
        (s.t + 1 + k) % 10001 := by split <;> omega
    rw [e, ih f (by omega) (by omega), List.take_succ_eq_append_getElem (i := k + 1) (by omega), Hist.items_get]
    simp

theorem instLoop_spec {s : Hist} (hi : HInv s) (k : Nat) (f : Nat) (i : Nat) (hk : k < s.used) (hf : k < f) :
    s.instLoop f ((s.t + 1 + (s.used - 1 - k)) % 10001) i =
      some ((i + ((s.items.drop (s.used - 1 - k)).map Prod.snd).sum) % 4294967296) := by
  have h1 := hi.h
  have h2 := hi.t
  have hu := Hist.used_eq hi
  have hlen := s.items_length
  induction k generalizing f i with
  | zero =>
    obtain ⟨f, rfl⟩ : ∃ g, f = g + 1 := ⟨f - 1, by omega⟩
    unfold Hist.instLoop
    simp only
    rw [if_pos (by omega)]
    rw [List.drop_eq_getElem_cons (by omega), List.drop_eq_nil_of_le (by omega), Hist.items_get]
    simp
  | succ k ih =>
    obtain ⟨f, rfl⟩ : ∃ g, f = g + 1 := ⟨f - 1, by omega⟩
    unfold Hist.instLoop histLen
    simp only
    rw [if_neg (by omega)]
    have e : ((s.t + 1 + (s.used - 1 - (k + 1))) % 10001 + 1) % 10001 = (s.t + 1 + (s.used - 1 - k)) % 10001 := by omega
    rw [e, ih f _ (by omega) (by omega)]
    rw [List.drop_eq_getElem_cons (i := s.used - 1 - (k + 1)) (by omega), Hist.items_get]
    have e2 : s.used - 1 - (k + 1) + 1 = s.used - 1 - k := by omega
    rw [e2, List.map_cons, List.sum_cons]
    congr 1
    omega

theorem list_inc {s : Hist} (hi : HInv s) (nr : Int) (hn : 1 ≤ nr) : s.list true nr = some (lastN nr.toNat s.items) := by
  have h1 := hi.h
  have h2 := hi.t
  have hu := Hist.used_eq hi
  have hlen := s.items_length
  unfold Hist.list
  split
  · have : s.items = [] := List.length_eq_zero_iff.1 (by omega)
    rw [this, lastN_nil]
  · rename_i hne
    have h0 : s.used ≠ 0 := by omega
    simp only [if_true]
    have key : ∀ n : Int, 1 ≤ n → n ≤ s.used → s.incLoop (histLen + 1)
        (if (s.h : Int) - n + 1 < 0 then (s.h : Int) - n + 1 + histLen else (s.h : Int) - n + 1) = some (s.items.drop (s.used - n.toNat)) := by
      intro n g1 g2
      have := incLoop_spec hi (n.toNat - 1) (histLen + 1) (by omega) (by unfold histLen; omega)
      rw [show s.used - 1 - (n.toNat - 1) = s.used - n.toNat by omega] at this
      rw [← this]
      congr 1
      unfold histLen
      split <;> omega
    rw [key]
    · unfold lastN; rw [hlen]
      congr 2
      unfold histLen
      split <;> split <;> omega
    · unfold histLen; split <;> split <;> omega
    · unfold histLen; split <;> split <;> omega

theorem list_dec {s : Hist} (hi : HInv s) (nr : Int) : s.list false nr = some s.items.reverse := by
  have h1 := hi.h
  have h2 := hi.t
  have hu := Hist.used_eq hi
  have hlen := s.items_length
  unfold Hist.list
  split
  · have : s.items = [] := List.length_eq_zero_iff.1 (by omega)
    rw [this]; rfl
  · have := decLoop_spec hi (s.used - 1) (histLen + 1) (by omega) (by unfold histLen; omega)
    simp only [Bool.false_eq_true, if_false]
    rw [show s.used - 1 + 1 = s.used by omega] at this
    rw [← hlen, List.take_length] at this
    rw [← this]
    unfold histLen
    rw [hlen]
    congr 1; omega

theorem insts_eq {s : Hist} (hi : HInv s) : s.insts = some ((s.items.map Prod.snd).sum % 4294967296) := by
  have h1 := hi.h
  have h2 := hi.t
  have hu := Hist.used_eq hi
  have hlen := s.items_length
  unfold Hist.insts
  split
  · have : s.items = [] := List.length_eq_zero_iff.1 (by omega)
    rw [this]; rfl
  · have := instLoop_spec hi (s.used - 1) (histLen + 1) 0 (by omega) (by unfold histLen; omega)
    rw [show s.used - 1 - (s.used - 1) = 0 by omega] at this
    simpa [histLen] using this

end Ucsim
