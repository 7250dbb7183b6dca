import Verif.Proof.Var

namespace Ucsim
open Spec Props

variable {α : Type}

/-! ### list operations -/

theorem nodup_of_noDup {cmp : α → α → Int} (hp : PreorderCmp cmp) {l : List α} (h : NoDup cmp l) : l.Nodup :=
  List.Pairwise.imp (fun {a b} hne heq => hne (by rw [heq]; exact hp.refl b)) h

theorem disconnAt_mem (l : CList α) (hf : l.Fits) (hnd : l.items.Nodup) (i : Nat) (v : α)
    (hv : l.items[i]? = some v) :
    ∃ l', l.disconnAt i = .ok l' ∧ l'.Fits ∧ l'.delta = l.delta ∧ l'.items.Sublist l.items ∧
      (∀ w, w ∈ l'.items ↔ w ∈ l.items ∧ w ≠ v) := by
  obtain ⟨hi, rfl⟩ := List.getElem?_eq_some_iff.1 hv
  refine ⟨{ l with items := l.items.eraseIdx i }, ?_, ?_, rfl, List.eraseIdx_sublist _ _, ?_⟩
  · unfold CList.disconnAt CList.count
    rw [if_neg (by omega)]; rfl
  · have := List.length_eraseIdx_le l.items i
    exact ⟨by have := hf.1; simp only; omega, hf.2⟩
  · intro w
    show w ∈ l.items.eraseIdx i ↔ _
    rw [List.mem_eraseIdx_iff_getElem]
    constructor
    · rintro ⟨j, hj, hne, rfl⟩
      refine ⟨List.getElem_mem _, fun he => hne ?_⟩
      have hpw := List.pairwise_iff_getElem.1 hnd
      rcases Nat.lt_trichotomy j i with h | h | h
      · exact absurd he (hpw j i hj hi h)
      · exact h
      · exact absurd he.symm (hpw i j hi hj h)
    · rintro ⟨hw, hne⟩
      obtain ⟨j, hj, rfl⟩ := List.mem_iff_getElem.1 hw
      exact ⟨j, hj, fun he => hne (by subst he; rfl), rfl⟩

theorem disconn_mem [DecidableEq α] (l : CList α) (hf : l.Fits) (hnd : l.items.Nodup) (v : α) :
    ∃ l', l.disconn v = .ok l' ∧ l'.Fits ∧ l'.delta = l.delta ∧ l'.items.Sublist l.items ∧
      (∀ w, w ∈ l'.items ↔ w ∈ l.items ∧ w ≠ v) := by
  unfold CList.disconn
  cases hx : l.indexOf? v with
  | none =>
    refine ⟨l, rfl, hf, rfl, List.Sublist.refl _, fun w => ⟨fun h => ⟨h, ?_⟩, fun h => h.1⟩⟩
    rintro rfl
    unfold CList.indexOf? at hx
    rw [List.findIdx?_eq_none_iff] at hx
    have := hx w h
    simp at this
  | some i =>
    have h := List.findIdx?_eq_some_iff_getElem.1 hx
    obtain ⟨hi, h1, _⟩ := h
    have h1 : v = l.items[i] := by simpa using h1
    exact disconnAt_mem l hf hnd i v (by rw [List.getElem?_eq_getElem hi, h1])

theorem slAdd_mem (cmp : α → α → Int) (hp : PreorderCmp cmp) (l : CList α)
    (hf : l.Fits) (hd : 0 < l.delta) (hlt : l.items.length < maxListSize)
    (hs : SortedBy cmp l.items) (hn : NoDup cmp l.items) (x : α) (hx : ∀ y ∈ l.items, cmp y x ≠ 0) :
    ∃ l', slAdd cmp false l x = .ok l' ∧ l'.Fits ∧ l'.delta = l.delta ∧ SortedBy cmp l'.items ∧
      NoDup cmp l'.items ∧ (∀ w, w ∈ l'.items ↔ w = x ∨ w ∈ l.items) := by
  obtain ⟨l', h1, h2, h3, h4, h5⟩ := c14_add_partial cmp hp false l hf hd hlt hs x
  rcases h5 with ⟨_, ⟨y, hy, h0⟩, _⟩ | ⟨_, i, hi, he⟩
  · exact absurd h0 (hx y hy)
  · have hm : ∀ w, w ∈ l'.items ↔ w = x ∨ w ∈ l.items := fun w => by
      rw [he]; exact List.mem_insertIdx hi
    refine ⟨l', h1, h2, h3, h4, ?_, hm⟩
    have hnh := c14_history_partial' cmp hp l hn x hx i hi
    rw [he]; exact hnh
where
  c14_history_partial' (cmp : α → α → Int) (hp : PreorderCmp cmp) (l : CList α) (hn0 : NoDup cmp l.items)
      (x : α) (hne' : ∀ y ∈ l.items, cmp y x ≠ 0) (i : Nat) (hi : i ≤ l.items.length) :
      NoDup cmp (l.items.insertIdx i x) := by
    unfold NoDup at hn0 ⊢
    rw [insertIdx_split _ _ _ hi]
    rw [← List.take_append_drop i l.items, List.pairwise_append] at hn0
    rw [List.pairwise_append]
    refine ⟨hn0.1, ?_, ?_⟩
    · rw [List.pairwise_cons]
      refine ⟨?_, hn0.2.1⟩
      intro y hy h0
      have h7 := hne' y (List.mem_of_mem_drop hy)
      have ha := mt (hp.lt_gt y x).1 (by omega)
      have hb := mt (hp.lt_gt x y).2 (by omega)
      omega
    · intro a ha b hb
      rw [List.mem_cons] at hb
      rcases hb with rfl | hb
      · exact hne' a (List.mem_of_mem_take ha)
      · exact hn0.2.2 a ha b hb

theorem length_le_of_subset [DecidableEq α] {l m : List α} (hn : l.Nodup) (hs : ∀ x ∈ l, x ∈ m) :
    l.length ≤ m.length := by
  induction l generalizing m with
  | nil => simp
  | cons a l ih =>
    rw [List.nodup_cons] at hn
    have ha := hs a List.mem_cons_self
    have := ih (m := m.erase a) hn.2 (fun x hx => by
      have hne : x ≠ a := fun he => hn.1 (he ▸ hx)
      exact (List.mem_erase_of_ne hne).2 (hs x (List.mem_cons_of_mem _ hx)))
    have hl := List.length_erase_of_mem ha
    have := List.length_pos_of_mem ha
    simp only [List.length_cons]; omega

/-! ### order of the address index -/

/-- The order on memory, address and bits only. -/
def cmpBT (a b : Var) : Int :=
  if (a.uid : Int) - b.uid ≠ 0 then (a.uid : Int) - b.uid
  else if (a.addr : Int) - b.addr ≠ 0 then (a.addr : Int) - b.addr
  else if cmpHi a.hi b.hi ≠ 0 then cmpHi a.hi b.hi
  else cmpLo a.lo b.lo

/-- The order on memory and address only. -/
def cmpAT (a b : Var) : Int :=
  if (a.uid : Int) - b.uid ≠ 0 then (a.uid : Int) - b.uid else (a.addr : Int) - b.addr

theorem cmpBT_preorder : PreorderCmp cmpBT :=
  preorder_lex (preorder_map preorder_int fun v : Var => (v.uid : Int))
    (preorder_lex (preorder_map preorder_int fun v : Var => (v.addr : Int))
      (preorder_lex (preorder_map preorder_hi Var.hi) (preorder_map preorder_lo Var.lo)))

theorem cmpAT_preorder : PreorderCmp cmpAT :=
  preorder_lex (preorder_map preorder_int fun v : Var => (v.uid : Int))
    (preorder_map preorder_int fun v : Var => (v.addr : Int))

theorem cmpBT_of_cmpT {a b : Var} (h : cmpT a b ≤ 0) : cmpBT a b ≤ 0 := by
  unfold cmpT at h; unfold cmpBT
  (repeat' split at h) <;> (repeat' split) <;> simp_all

theorem cmpAT_of_cmpT {a b : Var} (h : cmpT a b ≤ 0) : cmpAT a b ≤ 0 := by
  unfold cmpT at h; unfold cmpAT
  (repeat' split at h) <;> (repeat' split) <;> simp_all

theorem cmpT_zero {a b : Var} (h : cmpT a b = 0) : a.name = b.name := by
  unfold cmpT at h
  (repeat' split at h) <;> first | exact strcmp_eq.1 h | (exfalso; omega)

theorem cmpAddrBits_eq {a v : Var} (ha : VOk a) (hb : VOk v) :
    cmpAddrBits a v.uid v.addr v.hi v.lo = cmpBT a v := by
  unfold cmpAddrBits cmpBT
  rw [diffInt_small ha.uid hb.uid, diffInt_small ha.addr hb.addr]

theorem cmpAddr_eq {a v : Var} (ha : VOk a) (hb : VOk v) : cmpAddr a v.uid v.addr = cmpAT a v := by
  unfold cmpAddr cmpAT
  rw [diffInt_small ha.uid hb.uid, diffInt_small ha.addr hb.addr]

theorem cmpBT_zero {a v : Var} (ha : VOk a) (hb : VOk v) : cmpBT a v = 0 ↔ a.samePlace v = true := by
  unfold cmpBT Var.samePlace
  rw [decide_eq_true_iff]
  have := cmpHi_eq ha.hi hb.hi
  have := cmpLo_eq ha.lo hb.lo
  constructor
  · intro h
    (repeat' split at h) <;> simp_all <;> omega
  · rintro ⟨h1, h2, h3, h4⟩
    simp_all

theorem ordered_congr {f g : α → Int} {items : List α} (h : ∀ x ∈ items, f x = g x) (ho : Ordered g items) :
    Ordered f items := by
  intro i j x y hij hx hy
  rw [h x (List.mem_of_getElem? hx), h y (List.mem_of_getElem? hy)]
  exact ho i j x y hij hx hy

/-- The search by memory, address and bits. -/
theorem searchBits_spec (items : List Var) (hs : SortedBy cmpT items) (hok : ∀ x ∈ items, VOk x) (v : Var)
    (hv : VOk v) :
    ∃ (f : Bool) (k : Nat), searchBits items v.uid v.addr v.hi v.lo = some (f, (k : Int)) ∧ k ≤ items.length ∧
      (f = true ↔ ∃ x ∈ items, x.samePlace v = true) ∧
      (∀ (j : Nat) x, items[j]? = some x → (j < k → cmpBT x v < 0) ∧ (k ≤ j → 0 ≤ cmpBT x v)) := by
  have hs' : SortedBy cmpBT items := List.Pairwise.imp (fun h => cmpBT_of_cmpT h) hs
  have hc : ∀ x ∈ items, cmpAddrBits x v.uid v.addr v.hi v.lo = cmpBT x v :=
    fun x hx => cmpAddrBits_eq (hok x hx) hv
  have ho : Ordered (fun x => cmpAddrBits x v.uid v.addr v.hi v.lo) items :=
    ordered_congr hc (ordered_of_sorted cmpBT_preorder hs' v)
  obtain ⟨f, k, h1, h2, h3, h4⟩ := avLoop_spec _ items ho ((items.length + 2) * (items.length + 2)) 0 ((items.length : Int) - 1) false
    (by have := Nat.mul_le_mul_left (items.length + 2) (show 2 ≤ items.length + 2 by omega); omega) (by omega)
    (by omega) (fun j x h => by omega)
    (fun j x h hx => by have := (List.getElem?_eq_some_iff.1 hx).1; omega) (fun h => by cases h)
    (fun _ j x h hx => by have := (List.getElem?_eq_some_iff.1 hx).1; omega)
  refine ⟨f, k, h1, h2, ?_, fun j x hx => ?_⟩
  · rw [h3]
    constructor
    · rintro ⟨j, x, hx, h0⟩
      have hm := List.mem_of_getElem? hx
      exact ⟨x, hm, (cmpBT_zero (hok x hm) hv).1 (by rw [← hc x hm]; exact h0)⟩
    · rintro ⟨x, hm, h0⟩
      obtain ⟨j, hj, rfl⟩ := List.mem_iff_getElem.1 hm
      exact ⟨j, _, List.getElem?_eq_getElem hj, by rw [hc _ hm]; exact (cmpBT_zero (hok _ hm) hv).2 h0⟩
  · rw [← hc x (List.mem_of_getElem? hx)]; exact h4 j x hx

/-- The search by memory and address. -/
theorem searchAddr_spec (items : List Var) (hs : SortedBy cmpT items) (hok : ∀ x ∈ items, VOk x) (v : Var)
    (hv : VOk v) :
    ∃ (f : Bool) (k : Nat), searchAddr items v.uid v.addr = some (f, (k : Int)) ∧ k ≤ items.length ∧
      (f = true ↔ ∃ x ∈ items, cmpAT x v = 0) ∧
      (∀ (j : Nat) x, items[j]? = some x → (j < k → cmpAT x v < 0) ∧ (k ≤ j → 0 ≤ cmpAT x v)) := by
  have hs' : SortedBy cmpAT items := List.Pairwise.imp (fun h => cmpAT_of_cmpT h) hs
  have hc : ∀ x ∈ items, cmpAddr x v.uid v.addr = cmpAT x v := fun x hx => cmpAddr_eq (hok x hx) hv
  have ho : Ordered (fun x => cmpAddr x v.uid v.addr) items :=
    ordered_congr hc (ordered_of_sorted cmpAT_preorder hs' v)
  obtain ⟨f, k, h1, h2, h3, h4⟩ := avLoop_spec _ items ho ((items.length + 2) * (items.length + 2)) 0 ((items.length : Int) - 1) false
    (by have := Nat.mul_le_mul_left (items.length + 2) (show 2 ≤ items.length + 2 by omega); omega) (by omega)
    (by omega) (fun j x h => by omega)
    (fun j x h hx => by have := (List.getElem?_eq_some_iff.1 hx).1; omega) (fun h => by cases h)
    (fun _ j x h hx => by have := (List.getElem?_eq_some_iff.1 hx).1; omega)
  refine ⟨f, k, h1, h2, ?_, fun j x hx => ?_⟩
  · rw [h3]
    constructor
    · rintro ⟨j, x, hx, h0⟩
      have hm := List.mem_of_getElem? hx
      exact ⟨x, hm, by rw [← hc x hm]; exact h0⟩
    · rintro ⟨x, hm, h0⟩
      obtain ⟨j, hj, rfl⟩ := List.mem_iff_getElem.1 hm
      exact ⟨j, _, List.getElem?_eq_getElem hj, by rw [hc _ hm]; exact h0⟩
  · rw [← hc x (List.mem_of_getElem? hx)]; exact h4 j x hx

/-- The search for a label to remove. -/
theorem labelLoop_spec (items : List Var) (v : Var)
    (hcont : ∀ (i j k : Nat) x y z, i ≤ j → j ≤ k → items[i]? = some x → items[j]? = some y → items[k]? = some z →
      x.samePlace v = true → z.samePlace v = true → y.samePlace v = true) :
    ∀ (f i : Nat), items.length ≤ i + f →
    (∀ (j : Nat) x, j < i → items[j]? = some x → ¬ (x.samePlace v = true ∧ x.isLabel = true)) →
    (∀ (j : Nat) x, i ≤ j → items[j]? = some x → x.samePlace v = true →
      ∀ y, items[i]? = some y → y.samePlace v = true) →
    match labelLoop items v f i with
    | some j => ∃ u, items[j]? = some u ∧ u.samePlace v = true ∧ u.isLabel = true
    | none => ∀ u ∈ items, ¬ (u.samePlace v = true ∧ u.isLabel = true) := by
  intro f
  induction f with
  | zero =>
    intro i hi h1 _
    unfold labelLoop
    intro u hu
    obtain ⟨j, hj, rfl⟩ := List.mem_iff_getElem.1 hu
    exact h1 j _ (by omega) (List.getElem?_eq_getElem hj)
  | succ f ih =>
    intro i hi h1 h3
    unfold labelLoop
    cases hu : items[i]? with
    | none =>
      intro u hu'
      obtain ⟨j, hj, rfl⟩ := List.mem_iff_getElem.1 hu'
      rw [List.getElem?_eq_none_iff] at hu
      exact h1 j _ (by omega) (List.getElem?_eq_getElem hj)
    | some u =>
      simp only
      by_cases hp : u.samePlace v = true
      · rw [if_pos hp]
        by_cases hl : u.isLabel = true
        · rw [if_pos hl]
          exact ⟨u, hu, hp, hl⟩
        · rw [if_neg hl]
          refine ih (i + 1) (by omega) ?_ ?_
          · intro j x hj hx
            by_cases hji : j = i
            · subst hji; rw [hu] at hx; cases hx; exact fun h => hl h.2
            · exact h1 j x (by omega) hx
          · intro j x hj hx hpx y hy
            exact hcont i (i + 1) j u y x (by omega) hj hu hy hx hp hpx
      · rw [if_neg hp]
        intro w hw
        obtain ⟨j, hj, rfl⟩ := List.mem_iff_getElem.1 hw
        have hx := List.getElem?_eq_getElem hj
        rcases Nat.lt_or_ge j i with hlt | hge
        · exact h1 j _ hlt hx
        · exact fun h => hp (h3 j _ hge hx h.1 u hu)

end Ucsim
