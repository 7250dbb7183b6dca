import Verif.Core.Pobj

/-! Lemmas about cl_list and cl_sorted_list. -/
namespace Ucsim

/-- Items with a negative comparison come first, those with a positive one last. -/
def Ordered {α : Type} (cmp : α → Int) (items : List α) : Prop :=
  ∀ (i j : Nat) (x y : α), i < j → items[i]? = some x → items[j]? = some y →
    (cmp y < 0 → cmp x < 0) ∧ (cmp y ≤ 0 → cmp x ≤ 0)

theorem slLoop_spec {α : Type} (cmp : α → Int) (dup : Bool) (items : List α)
    (hord : Ordered cmp items) (n : Nat) :
    ∀ (l h : Int) (res : Bool), (h - l + 1).toNat = n → 0 ≤ l → h < items.length → l ≤ h + 1 →
    (∀ (j : Nat) x, (j : Int) < l → items[j]? = some x → (dup = true ∨ res = false → cmp x < 0) ∧ cmp x ≤ 0) →
    (∀ (j : Nat) x, h < j → items[j]? = some x → 0 ≤ cmp x) →
    (res = true → ∃ (j : Nat) (x : α), h < j ∧ items[j]? = some x ∧ cmp x = 0 ∧ (dup = false → (j : Int) = l ∧ h < l)) →
    (res = false → ∀ (j : Nat) x, h < j → items[j]? = some x → 0 < cmp x) →
    ∃ (f : Bool) (k : Nat), slLoop cmp dup items l h res = some (f, (k : Int)) ∧ k ≤ items.length ∧
      (f = true → ∃ x, items[k]? = some x ∧ cmp x = 0) ∧
      (f = false → ∀ (j : Nat) x, items[j]? = some x → cmp x ≠ 0) ∧
      (dup = true ∨ f = false → ∀ (j : Nat) x, items[j]? = some x →
        (j < k → cmp x < 0) ∧ (k ≤ j → 0 ≤ cmp x)) := by
  induction n using Nat.strongRecOn with
  | ind n ih =>
    intro l h res hn hl hh hlh hbelow habove hres hnres
    unfold slLoop
    by_cases hc : l ≤ h
    · rw [dif_pos hc]
      have hi0 : ¬ ((l + h) / 2 < 0) := by omega
      have hil : l ≤ (l + h) / 2 := by omega
      have hih : (l + h) / 2 ≤ h := by omega
      generalize hi : (l + h) / 2 = i at *
      have hlt : i.toNat < items.length := by omega
      have hget : items[i.toNat]? = some items[i.toNat] := List.getElem?_eq_getElem hlt
      simp only [if_neg hi0, hget]
      generalize items[i.toNat] = x at hget
      have hresf : res = false ∨ dup = true := by
        by_cases hr : res = true
        · right
          obtain ⟨j, y, _, _, _, h5⟩ := hres hr
          cases hd : dup
          · have := (h5 hd).2; omega
          · rfl
        · left; simpa using hr
      by_cases h1 : cmp x < 0
      · rw [if_pos h1]
        refine ih (h - (i + 1) + 1).toNat (by omega) (i + 1) h res rfl (by omega) hh (by omega) ?_ habove ?_ hnres
        · intro j y hj hy
          by_cases hji : j = i.toNat
          · subst hji; rw [hget] at hy; cases hy; exact ⟨fun _ => h1, by omega⟩
          · have := hord j i.toNat y x (by omega) hy hget
            exact ⟨fun _ => this.1 h1, this.2 (by omega)⟩
        · intro hr
          obtain ⟨j, y, h3, h4, h5, h6⟩ := hres hr
          refine ⟨j, y, h3, h4, h5, fun hd => ?_⟩
          have := h6 hd; omega
      · rw [if_neg h1]
        by_cases h0 : cmp x = 0
        · rw [if_pos h0]
          cases hd : dup with
          | true =>
            rw [if_pos rfl]
            rw [hd] at ih
            refine ih (i - 1 - l + 1).toNat (by omega) l (i - 1) true rfl hl (by omega) (by omega) ?_ ?_ ?_ (by simp)
            · intro j y hj hy
              have := hbelow j y hj hy
              exact ⟨fun _ => this.1 (Or.inl hd), this.2⟩
            · intro j y hj hy
              by_cases hji : j = i.toNat
              · subst hji; rw [hget] at hy; cases hy; omega
              · have := hord i.toNat j x y (by omega) hget hy
                by_cases hneg : cmp y < 0
                · have := this.1 hneg; omega
                · omega
            · intro _; exact ⟨i.toNat, x, by omega, hget, h0, by simp⟩
          | false =>
            have hrf : res = false := hresf.resolve_right (by simp [hd])
            rw [if_neg (by simp)]
            unfold slLoop
            rw [dif_neg (by omega)]
            refine ⟨true, i.toNat, ?_, by omega, fun _ => ⟨x, hget, h0⟩, by simp, by simp⟩
            rw [Int.toNat_of_nonneg (by omega)]
        · rw [if_neg h0]
          refine ih (i - 1 - l + 1).toNat (by omega) l (i - 1) res rfl hl (by omega) (by omega) hbelow ?_ ?_ ?_
          · intro j y hj hy
            by_cases hji : j = i.toNat
            · subst hji; rw [hget] at hy; cases hy; omega
            · have := hord i.toNat j x y (by omega) hget hy
              by_cases hneg : cmp y < 0
              · have := this.1 hneg; omega
              · omega
          · intro hr
            obtain ⟨j, y, h3, h4, h5, h6⟩ := hres hr
            refine ⟨j, y, by omega, h4, h5, fun hd => ?_⟩
            have := h6 hd; omega
          · intro hr j y hj hy
            by_cases hji : j = i.toNat
            · subst hji; rw [hget] at hy; cases hy; omega
            · have := hord i.toNat j x y (by omega) hget hy
              by_cases hneg : cmp y ≤ 0
              · have := this.2 hneg; omega
              · omega
    · rw [dif_neg hc]
      refine ⟨res, l.toNat, by rw [Int.toNat_of_nonneg hl], by omega, ?_, ?_, ?_⟩
      · intro hr
        obtain ⟨j, y, h3, h4, h5, h6⟩ := hres hr
        by_cases hj : (j : Int) = l
        · refine ⟨y, ?_, h5⟩; rw [← hj]; simpa using h4
        · have hjl : l.toNat < j := by omega
          have hjn : j < items.length := by
            have := List.getElem?_eq_some_iff.1 h4; exact this.1
          have hget : items[l.toNat]? = some items[l.toNat] := List.getElem?_eq_getElem (by omega)
          refine ⟨_, hget, ?_⟩
          have h7 := (hord l.toNat j _ y hjl hget h4).2 (by omega)
          have h8 := habove l.toNat _ (by omega) hget
          omega
      · intro hr j y hy
        by_cases hj : (j : Int) < l
        · have := (hbelow j y hj hy).1 (Or.inr hr); omega
        · have := hnres hr j y (by omega) hy; omega
      · intro hdf j y hy
        refine ⟨fun hj => (hbelow j y (by omega) hy).1 hdf, fun hj => habove j y (by omega) hy⟩

theorem slSearch_spec {α : Type} (cmp : α → Int) (dup : Bool) (items : List α)
    (hord : Ordered cmp items) :
    ∃ (f : Bool) (k : Nat), slSearch cmp dup items = some (f, (k : Int)) ∧ k ≤ items.length ∧
      (f = true → ∃ x, items[k]? = some x ∧ cmp x = 0) ∧
      (f = false → ∀ (j : Nat) x, items[j]? = some x → cmp x ≠ 0) ∧
      (dup = true ∨ f = false → ∀ (j : Nat) x, items[j]? = some x →
        (j < k → cmp x < 0) ∧ (k ≤ j → 0 ≤ cmp x)) := by
  unfold slSearch
  refine slLoop_spec cmp dup items hord _ 0 _ false rfl (by omega) (by omega) (by omega) ?_ ?_ (by simp) ?_
  · intro j x hj; omega
  · intro j x hj hx
    have := (List.getElem?_eq_some_iff.1 hx).1; omega
  · intro _ j x hj hx
    have := (List.getElem?_eq_some_iff.1 hx).1; omega

/-! ### capacity -/

namespace CList
variable {α : Type}

/-- The invariant of lists: the array holds the items. -/
def Fits (l : CList α) : Prop := l.items.length ≤ l.limit ∧ l.limit ≤ maxListSize

theorem setLimit_ok (l : CList α) (n : Nat) (h : l.items.length ≤ maxListSize) :
    l.setLimit n = .ok { l with limit := min (max n l.items.length) maxListSize } := by
  unfold setLimit count
  simp only
  generalize hm : (if n < l.items.length then l.items.length else n) = m
  have hm' : m = max n l.items.length := by subst hm; split <;> omega
  generalize hk : (if m > maxListSize then maxListSize else m) = k
  have hk' : k = min (max n l.items.length) maxListSize := by subst hk; split <;> omega
  rw [← hk']
  by_cases hl : k ≠ l.limit
  · rw [if_pos hl, if_neg (by omega)]
  · rw [if_neg hl]; simp only [ne_eq, Decidable.not_not] at hl; subst hl; rfl

theorem addAt_ok (l : CList α) (i : Nat) (x : α) (hf : l.Fits) (hd : 0 < l.delta)
    (hlt : l.items.length < maxListSize) (hi : i ≤ l.items.length) :
    ∃ lim, l.addAt i x = .ok { l with items := l.items.insertIdx i x, limit := lim } ∧
      l.items.length + 1 ≤ lim ∧ lim ≤ maxListSize := by
  unfold addAt
  rw [if_neg (by omega)]
  by_cases hc : l.count = l.limit
  · rw [if_pos hc, setLimit_ok _ _ (by omega)]
    unfold count at *
    simp only
    rw [if_neg (by simpa using hi), if_neg (by omega)]
    refine ⟨_, rfl, by omega, by omega⟩
  · rw [if_neg hc]
    unfold count at *
    have := hf.1
    simp only
    rw [if_neg (by simpa using hi), if_neg (by omega)]
    exact ⟨l.limit, rfl, by omega, hf.2⟩

end CList
end Ucsim
