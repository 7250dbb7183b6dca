import Verif.Proof.VarInv

namespace Ucsim
open Spec Props

/-- What holds of the two indices after every history. -/
structure VInv (names : List CStr) (s : VarList) (m : VMap) : Prop where
  fn : s.byName.Fits
  dn : 0 < s.byName.delta
  sn : SortedBy cmpByName s.byName.items
  nn : NoDup cmpByName s.byName.items
  fa : s.byAddr.Fits
  da : 0 < s.byAddr.delta
  sa : SortedBy cmpT s.byAddr.items
  na : NoDup cmpT s.byAddr.items
  mem : ∀ v, v ∈ s.byAddr.items ↔ v ∈ s.byName.items ∧ v.isMem = true
  ok : ∀ v ∈ s.byName.items, VOk v
  map : ∀ v, v ∈ s.byName.items ↔ m v.name = some v
  mapn : ∀ n v, m n = some v → v.name = n
  lab : ∀ u ∈ s.byAddr.items, ∀ w ∈ s.byAddr.items, u.isLabel = true → w.isLabel = true → u.samePlace w = true → u = w
  len : ∀ v ∈ s.byName.items, v.name.length ≤ s.maxLen
  nam : ∀ v ∈ s.byName.items, v.name ∈ names

theorem vinv_empty (names : List CStr) : VInv names VarList.empty VMap.empty where
  fn := ⟨by simp [VarList.empty], by simp [VarList.empty, maxListSize]⟩
  dn := by simp [VarList.empty]
  sn := by simp [VarList.empty, SortedBy]
  nn := by simp [VarList.empty, NoDup]
  fa := ⟨by simp [VarList.empty], by simp [VarList.empty, maxListSize]⟩
  da := by simp [VarList.empty]
  sa := by simp [VarList.empty, SortedBy]
  na := by simp [VarList.empty, NoDup]
  mem := by simp [VarList.empty]
  ok := by simp [VarList.empty]
  map := by simp [VarList.empty, VMap.empty]
  mapn := by simp [VMap.empty]
  lab := by simp [VarList.empty]
  len := by simp [VarList.empty]
  nam := by simp [VarList.empty]

/-- by_name.search finds a name iff it is defined, and then its variable. -/
theorem searchName_spec {names : List CStr} {s : VarList} {m : VMap} (hI : VInv names s m) (n : CStr) :
    (m n = none ∧ ∃ i, searchName s.byName.items n = some (false, i)) ∨
    (∃ (v : Var) (i : Nat), m n = some v ∧ searchName s.byName.items n = some (true, (i : Int)) ∧
      s.byName.items[i]? = some v) := by
  obtain ⟨f, i, h1, h2, h3, _⟩ := c14_search cmpByName cmpName_preorder false s.byName.items hI.sn ⟨n, .cell 0, 0, 0⟩
  have h1 : searchName s.byName.items n = some (f, (i : Int)) := h1
  cases f with
  | false =>
    left
    refine ⟨?_, i, h1⟩
    cases hm : m n with
    | none => rfl
    | some v =>
      have hv := hI.mapn n v hm
      have := h2.2 ⟨v, (hI.map v).2 (by rw [hv]; exact hm), by unfold cmpByName; rw [hv]; exact strcmp_refl n⟩
      cases this
  | true =>
    right
    obtain ⟨v, hv, h0⟩ := h3 rfl
    have h0 : v.name = n := strcmp_eq.1 h0
    refine ⟨v, i, ?_, h1, hv⟩
    rw [← h0]; exact (hI.map v).1 (List.mem_of_getElem? hv)

theorem get_ok {α : Type} (l : CList α) (i : Nat) (v : α) (h : l.items[i]? = some v) : l.get i = .ok v := by
  have hi := (List.getElem?_eq_some_iff.1 h).1
  unfold CList.get CList.count
  rw [if_neg (by omega)]
  simp only [Int.toNat_natCast, h]

theorem name_inj {names : List CStr} {s : VarList} {m : VMap} (hI : VInv names s m) {u v : Var}
    (hu : u ∈ s.byName.items) (hv : v ∈ s.byName.items) (h : u.name = v.name) : u = v := by
  have h1 := (hI.map u).1 hu
  have h2 := (hI.map v).1 hv
  rw [h, h2] at h1; cases h1; rfl

theorem del_spec {names : List CStr} {s : VarList} {m : VMap} (hI : VInv names s m) (n : CStr) :
    ∃ (s' : VarList) (b : Bool), s.del n = .ok (s', b) ∧ VInv names s' (m.step (.del n)) ∧
      (b = true ↔ m n ≠ none) ∧ s'.maxLen = s.maxLen ∧ s'.known = (if b then false else s.known) := by
  unfold VarList.del
  rcases searchName_spec hI n with ⟨h1, i, h2⟩ | ⟨v, i, h1, h2, h3⟩
  · rw [h2]
    refine ⟨s, false, rfl, ?_, by simp [h1], rfl, rfl⟩
    have : m.step (.del n) = m := by
      funext k; unfold VMap.step; simp only; split
      · rename_i h; rw [h, h1]
      · rfl
    rw [this]; exact hI
  · rw [h2]
    simp only
    rw [get_ok _ _ _ h3]
    simp only
    have hvn := hI.mapn n v h1
    have hvm := List.mem_of_getElem? h3
    obtain ⟨ba, a1, a2, a3, a4, a5⟩ := disconn_mem s.byAddr hI.fa (nodup_of_noDup cmpT_preorder hI.na) v
    obtain ⟨bn, b1, b2, b3, b4, b5⟩ := disconnAt_mem s.byName hI.fn (nodup_of_noDup cmpName_preorder hI.nn) i v h3
    rw [a1, b1]
    refine ⟨_, true, rfl, ?_, by simp [h1], rfl, rfl⟩
    refine ⟨b2, by show 0 < bn.delta; rw [b3]; exact hI.dn, List.Pairwise.sublist b4 hI.sn,
      List.Pairwise.sublist b4 hI.nn, a2, by show 0 < ba.delta; rw [a3]; exact hI.da, List.Pairwise.sublist a4 hI.sa,
      List.Pairwise.sublist a4 hI.na, ?_, ?_, ?_, ?_, ?_, ?_, ?_⟩
    · intro w; show w ∈ ba.items ↔ w ∈ bn.items ∧ _; rw [a5, b5, hI.mem]
      exact ⟨fun h => ⟨⟨h.1.1, h.2⟩, h.1.2⟩, fun h => ⟨⟨h.1.1, h.2⟩, h.1.2⟩⟩
    · intro w hw; exact hI.ok w ((b5 w).1 hw).1
    · intro w
      show w ∈ bn.items ↔ _
      rw [b5, hI.map]
      show _ ↔ (if w.name = n then none else m w.name) = some w
      constructor
      · rintro ⟨h, hne⟩
        rw [if_neg]
        · exact h
        · intro he; rw [he, h1] at h; cases h; exact hne rfl
      · intro h
        split at h
        · cases h
        · rename_i hne
          exact ⟨h, fun he => hne (by rw [he]; exact hvn)⟩
    · intro k w h
      have h : (if k = n then none else m k) = some w := h
      split at h
      · cases h
      · exact hI.mapn k w h
    · intro u hu w hw
      exact hI.lab u ((a5 u).1 hu).1 w ((a5 w).1 hw).1
    · intro w hw; exact hI.len w ((b5 w).1 hw).1
    · intro w hw; exact hI.nam w ((b5 w).1 hw).1

theorem isMem_place {v : Var} (h : v.isMem = true) : v.place = .mem v.uid v.addr := by
  unfold Var.isMem at h; unfold Var.uid Var.addr
  cases hp : v.place with
  | cell c => rw [hp] at h; cases h
  | mem u a => rfl

/-- What the specification calls superseded. -/
theorem superseded_iff (u v : Var) :
    superseded u v = true ↔ u.isLabel = true ∧ u.samePlace v = true ∧ u.isMem = true ∧ v.isMem = true := by
  unfold superseded Var.isLabel Var.samePlace Var.isMem Var.uid Var.addr
  have h46 : '.'.toNat = 46 := by decide
  simp only [Bool.and_eq_true, beq_iff_eq, decide_eq_true_iff, h46]
  cases hu : u.place <;> cases hv : v.place <;> simp [and_assoc]

theorem length_lt {names : List CStr} (hl : names.length ≤ maxListSize) {s : VarList} {m : VMap}
    (hI : VInv names s m) (n : CStr) (hn : n ∈ names) (hm : m n = none) :
    s.byName.items.length < maxListSize ∧ s.byAddr.items.length < maxListSize := by
  have key : ∀ l : List Var, l.Nodup → (∀ v ∈ l, v ∈ s.byName.items) → l.length < maxListSize := by
    intro l hnd hs
    have h1 : (n :: l.map Var.name).Nodup := by
      rw [List.nodup_cons]
      refine ⟨?_, ?_⟩
      · intro h
        obtain ⟨v, hv, he⟩ := List.mem_map.1 h
        have := (hI.map v).1 (hs v hv)
        rw [he, hm] at this; cases this
      · unfold List.Nodup
        rw [List.pairwise_map]
        refine List.Pairwise.imp_of_mem ?_ hnd
        intro a b ha hb hne he
        exact hne (name_inj hI (hs a ha) (hs b hb) he)
    have h2 := length_le_of_subset (m := names) h1 (fun x hx => by
      rcases List.mem_cons.1 hx with rfl | hx
      · exact hn
      · obtain ⟨v, hv, rfl⟩ := List.mem_map.1 hx
        exact hI.nam v (hs v hv))
    simp only [List.length_cons, List.length_map] at h2
    omega
  exact ⟨key _ (nodup_of_noDup cmpName_preorder hI.nn) (fun _ h => h),
    key _ (nodup_of_noDup cmpT_preorder hI.na) (fun v h => ((hI.mem v).1 h).1)⟩

/-- Adding to the address index and removing the superseded label; `s` already
has `v` in its name index, `s0` is the state before that. -/
theorem addMem_spec {names : List CStr} (hl : names.length ≤ maxListSize) {s s0 : VarList} {m : VMap}
    (hI : VInv names s0 m) (v : Var) (hv : VOk v) (hmem : v.isMem = true) (hn : v.name ∈ names)
    (hm : m v.name = none)
    (ea : s.byAddr = s0.byAddr) (fn : s.byName.Fits) (dn : 0 < s.byName.delta)
    (sn : SortedBy cmpByName s.byName.items) (nn : NoDup cmpByName s.byName.items)
    (hin : ∀ w, w ∈ s.byName.items ↔ w = v ∨ w ∈ s0.byName.items)
    (hlen : ∀ w ∈ s.byName.items, w.name.length ≤ s.maxLen) :
    ∃ s', s.addMem v = .ok s' ∧ s'.maxLen = s.maxLen ∧
      (∀ w, w ∈ s'.byName.items ↔ w = v ∨ (w ∈ s0.byName.items ∧ superseded w v = false)) ∧
      VInv names s' (fun k => if k = v.name then some v else (m k).filter (fun u => !superseded u v)) ∧
      ((s'.known = s.known ∧ (s'.byName = s.byName ∨ ∃ u, u ∈ s.byName.items ∧ u ∉ s'.byName.items ∧
          ¬ (u.name.length = s.maxLen ∧ v.name.length < s.maxLen))) ∨ s'.known = false) := by
  have hok : ∀ x ∈ s.byAddr.items, VOk x := fun x hx => by
    rw [ea] at hx; exact hI.ok x ((hI.mem x).1 hx).1
  have sa : SortedBy cmpT s.byAddr.items := by rw [ea]; exact hI.sa
  have hvn : v ∉ s0.byName.items := fun h => by have := (hI.map v).1 h; rw [hm] at this; cases this
  obtain ⟨f, k, h1, h2, h3, h4⟩ := searchBits_spec s.byAddr.items sa hok v hv
  -- the label (if any)
  have hdrop : ∃ s1 : VarList, s.supersede v f k = .ok s1 ∧ s1.maxLen = s.maxLen ∧ s1.byAddr.Fits ∧ 0 < s1.byAddr.delta ∧
      s1.byName.Fits ∧ 0 < s1.byName.delta ∧ s1.byAddr.items.Sublist s.byAddr.items ∧
      s1.byName.items.Sublist s.byName.items ∧
      (∀ w, w ∈ s1.byAddr.items ↔ w ∈ s.byAddr.items ∧ superseded w v = false) ∧
      (∀ w, w ∈ s1.byName.items ↔ w ∈ s.byName.items ∧ (superseded w v = false ∨ w = v)) ∧
      ((s1.known = s.known ∧ (s1.byName = s.byName ∨ ∃ u, u ∈ s.byName.items ∧ u ∉ s1.byName.items ∧
          ¬ (u.name.length = s.maxLen ∧ v.name.length < s.maxLen))) ∨ s1.known = false) := by
    -- no label at the place
    have hnone : (∀ u ∈ s.byAddr.items, ¬ (u.samePlace v = true ∧ u.isLabel = true)) →
        ∀ w, (w ∈ s.byAddr.items ↔ w ∈ s.byAddr.items ∧ superseded w v = false) ∧
          (w ∈ s.byName.items ↔ w ∈ s.byName.items ∧ (superseded w v = false ∨ w = v)) := by
      intro hno w
      have hsf : w ∈ s.byAddr.items → superseded w v = false := by
        intro hw
        cases hsup : superseded w v with
        | false => rfl
        | true => have := (superseded_iff w v).1 hsup; exact absurd ⟨this.2.1, this.1⟩ (hno w hw)
      refine ⟨⟨fun hw => ⟨hw, hsf hw⟩, fun h => h.1⟩, ⟨fun hw => ⟨hw, ?_⟩, fun h => h.1⟩⟩
      rcases (hin w).1 hw with h | h
      · exact Or.inr h
      · cases hsup : superseded w v with
        | false => exact Or.inl rfl
        | true =>
          have h' := (superseded_iff w v).1 hsup
          have : w ∈ s.byAddr.items := by rw [ea]; exact (hI.mem w).2 ⟨h, h'.2.2.1⟩
          rw [hsf this] at hsup; cases hsup
    have fa : s.byAddr.Fits := by rw [ea]; exact hI.fa
    have da : 0 < s.byAddr.delta := by rw [ea]; exact hI.da
    cases hf : f with
    | false =>
      have hno : ∀ u ∈ s.byAddr.items, ¬ (u.samePlace v = true ∧ u.isLabel = true) := by
        intro u hu h
        have := h3.2 ⟨u, hu, h.1⟩
        rw [hf] at this; cases this
      exact ⟨s, rfl, rfl, fa, da, fn, dn, List.Sublist.refl _, List.Sublist.refl _,
        fun w => (hnone hno w).1, fun w => (hnone hno w).2, Or.inl ⟨rfl, Or.inl rfl⟩⟩
    | true =>
      unfold VarList.supersede
      rw [if_pos rfl]
      have hcont : ∀ (i j k : Nat) x y z, i ≤ j → j ≤ k → s.byAddr.items[i]? = some x → s.byAddr.items[j]? = some y →
          s.byAddr.items[k]? = some z → x.samePlace v = true → z.samePlace v = true → y.samePlace v = true := by
        intro i j k' x y z hij hjk hx hy hz hpx hpz
        have hm1 := List.mem_of_getElem? hx
        have hm2 := List.mem_of_getElem? hy
        have hm3 := List.mem_of_getElem? hz
        have e1 := (cmpBT_zero (hok x hm1) hv).2 hpx
        have e3 := (cmpBT_zero (hok z hm3) hv).2 hpz
        have hs' : SortedBy cmpBT s.byAddr.items := List.Pairwise.imp (fun h => cmpBT_of_cmpT h) sa
        have ho := ordered_of_sorted cmpBT_preorder hs' v
        apply (cmpBT_zero (hok y hm2) hv).1
        rcases Nat.lt_or_ge i j with hlt | hge
        · have a1 : cmpBT y v < 0 → cmpBT x v < 0 := (ho i j x y hlt hx hy).1
          rcases Nat.lt_or_ge j k' with hlt2 | hge2
          · have a2 : cmpBT z v ≤ 0 → cmpBT y v ≤ 0 := (ho j k' y z hlt2 hy hz).2
            omega
          · have : j = k' := by omega
            subst this; rw [hy] at hz; cases hz; exact e3
        · have : i = j := by omega
          subst this; rw [hy] at hx; cases hx; exact e1
      have hll := labelLoop_spec s.byAddr.items v hcont s.byAddr.items.length k (by omega)
        (fun j x hj hx hb => by
          have := (h4 j x hx).1 hj
          have := (cmpBT_zero (hok x (List.mem_of_getElem? hx)) hv).2 hb.1
          omega)
        (fun j x hj hx hpx y hy => by
          have e := (cmpBT_zero (hok x (List.mem_of_getElem? hx)) hv).2 hpx
          apply (cmpBT_zero (hok y (List.mem_of_getElem? hy)) hv).1
          have hs' : SortedBy cmpBT s.byAddr.items := List.Pairwise.imp (fun h => cmpBT_of_cmpT h) sa
          have ho := ordered_of_sorted cmpBT_preorder hs' v
          have a0 := (h4 k y hy).2 (Nat.le_refl _)
          rcases Nat.lt_or_ge k j with hlt | hge
          · have : cmpBT x v ≤ 0 → cmpBT y v ≤ 0 := (ho k j y x hlt hy hx).2
            omega
          · have : k = j := by omega
            subst this; rw [hx] at hy; cases hy; exact e)
      cases hlab : labelLoop s.byAddr.items v s.byAddr.items.length k with
      | none =>
        rw [hlab] at hll
        exact ⟨s, rfl, rfl, fa, da, fn, dn, List.Sublist.refl _, List.Sublist.refl _,
          fun w => (hnone hll w).1, fun w => (hnone hll w).2, Or.inl ⟨rfl, Or.inl rfl⟩⟩
      | some j =>
        rw [hlab] at hll
        obtain ⟨u, hu, hup, hul⟩ := hll
        have hum := List.mem_of_getElem? hu
        have hum0 : u ∈ s0.byAddr.items := by rw [← ea]; exact hum
        have humem := ((hI.mem u).1 hum0)
        have hsu : superseded u v = true := (superseded_iff u v).2 ⟨hul, hup, humem.2, hmem⟩
        have huniq : ∀ w, w ∈ s0.byName.items → superseded w v = true → w = u := by
          intro w hw hsw
          have h' := (superseded_iff w v).1 hsw
          refine hI.lab w ((hI.mem w).2 ⟨hw, h'.2.2.1⟩) u hum0 h'.1 hul ?_
          have p1 := h'.2.1
          unfold Var.samePlace at p1 hup ⊢
          simp only [decide_eq_true_iff] at p1 hup ⊢
          omega
        simp only
        unfold VarList.dropLabel
        rw [get_ok _ _ _ hu]
        simp only
        have hna : s.byAddr.items.Nodup := by rw [ea]; exact nodup_of_noDup cmpT_preorder hI.na
        obtain ⟨ba, a1, a2, a3, a4, a5⟩ := disconnAt_mem s.byAddr fa hna j u hu
        obtain ⟨bn, b1, b2, b3, b4, b5⟩ := disconn_mem s.byName fn (nodup_of_noDup cmpName_preorder nn) u
        rw [a1, b1]
        have huv : u ≠ v := fun he => hvn (he ▸ humem.1)
        refine ⟨_, rfl, rfl, a2, by show 0 < ba.delta; omega, b2, by show 0 < bn.delta; omega, a4, b4, ?_, ?_, ?_⟩
        · intro w
          show w ∈ ba.items ↔ _
          rw [a5]
          constructor
          · rintro ⟨h, hne⟩
            refine ⟨h, ?_⟩
            cases hsw : superseded w v with
            | false => rfl
            | true =>
              exact absurd (huniq w ((hI.mem w).1 (by rw [← ea]; exact h)).1 hsw) hne
          · rintro ⟨h, hsw⟩
            exact ⟨h, fun he => by rw [he, hsu] at hsw; cases hsw⟩
        · intro w
          show w ∈ bn.items ↔ _
          rw [b5]
          constructor
          · rintro ⟨h, hne⟩
            refine ⟨h, ?_⟩
            rcases (hin w).1 h with h' | h'
            · exact Or.inr h'
            · left
              cases hsw : superseded w v with
              | false => rfl
              | true => exact absurd (huniq w h' hsw) hne
          · rintro ⟨h, hor⟩
            refine ⟨h, fun he => ?_⟩
            rcases hor with hsw | hwv
            · rw [he, hsu] at hsw; cases hsw
            · exact huv (by rw [← he]; exact hwv)
        · simp only
          by_cases hc : u.name.length = s.maxLen ∧ v.name.length < s.maxLen
          · rw [if_pos hc]; exact Or.inr rfl
          · rw [if_neg hc]
            refine Or.inl ⟨rfl, Or.inr ⟨u, (hin u).2 (Or.inr humem.1), ?_, hc⟩⟩
            intro h; exact ((b5 u).1 h).2 rfl
  obtain ⟨s1, d1, d2, d3, d4, d5, d6, d7, d8, d9, d10, d11⟩ := hdrop
  -- add to the address index
  have hok1 : ∀ x ∈ s1.byAddr.items, VOk x := fun x hx => hok x ((d9 x).1 hx).1
  have hlen1 : s1.byAddr.items.length < maxListSize := by
    have := (length_lt hl hI v.name hn hm).2
    have := d7.length_le
    rw [ea] at this; omega
  obtain ⟨ba, c1, c2, c3, c4, c5, c6⟩ := slAdd_mem cmpT cmpT_preorder s1.byAddr d3 d4 hlen1
    (List.Pairwise.sublist d7 sa) (List.Pairwise.sublist d7 (by rw [ea]; exact hI.na)) v
    (fun y hy h0 => by
      have hy0 := ((d9 y).1 hy).1
      rw [ea] at hy0
      have hy1 := (hI.map y).1 ((hI.mem y).1 hy0).1
      rw [cmpT_zero h0, hm] at hy1; cases hy1)
  have c1' : slAdd cmpByAddr false s1.byAddr v = .ok ba := by
    rw [slAdd_congr cmpByAddr cmpT false s1.byAddr v (fun y hy => cmpByAddr_eq (hok1 y hy) hv), c1]
  have hname : ∀ w, w ∈ s1.byName.items ↔ w = v ∨ (w ∈ s0.byName.items ∧ superseded w v = false) := by
    intro w
    rw [d10, hin]
    constructor
    · rintro ⟨h | h, h' | h'⟩
      · exact Or.inl h
      · exact Or.inl h
      · exact Or.inr ⟨h, h'⟩
      · exact Or.inl h'
    · rintro (h | ⟨h, h'⟩)
      · exact ⟨Or.inl h, Or.inr h⟩
      · exact ⟨Or.inr h, Or.inl h'⟩
  refine ⟨{ s1 with byAddr := ba }, ?_, d2, hname, ?_, d11⟩
  · unfold VarList.addMem
    rw [h1]
    simp only [Int.toNat_natCast]
    rw [d1]
    simp only
    rw [c1']
  · refine ⟨d5, d6, List.Pairwise.sublist d8 sn, List.Pairwise.sublist d8 nn, c2, by show 0 < ba.delta; omega, c4, c5,
      ?_, ?_, ?_, ?_, ?_, ?_, ?_⟩
    · intro w
      show w ∈ ba.items ↔ w ∈ s1.byName.items ∧ _
      rw [c6, d9, hname, ea, hI.mem]
      constructor
      · rintro (h | ⟨⟨h, h'⟩, h''⟩)
        · exact ⟨Or.inl h, by rw [h]; exact hmem⟩
        · exact ⟨Or.inr ⟨h, h''⟩, h'⟩
      · rintro ⟨h | ⟨h, h'⟩, h''⟩
        · exact Or.inl h
        · exact Or.inr ⟨⟨h, h''⟩, h'⟩
    · intro w hw
      rcases (hname w).1 hw with h | h
      · rw [h]; exact hv
      · exact hI.ok w h.1
    · intro w
      show w ∈ s1.byName.items ↔ (if w.name = v.name then some v else (m w.name).filter _) = some w
      rw [hname]
      by_cases hwn : w.name = v.name
      · rw [if_pos hwn]
        constructor
        · rintro (h | h)
          · rw [h]
          · have := (hI.map w).1 h.1
            rw [hwn, hm] at this; cases this
        · intro h; cases h; exact Or.inl rfl
      · rw [if_neg hwn, Option.filter_eq_some_iff, hI.map]
        simp only [Bool.not_eq_true']
        constructor
        · rintro (h | h)
          · exact absurd (by rw [h]) hwn
          · exact h
        · exact Or.inr
    · intro n w h
      have h : (if n = v.name then some v else (m n).filter (fun u => !superseded u v)) = some w := h
      split at h
      · rename_i hnn; cases h; exact hnn.symm
      · rw [Option.filter_eq_some_iff] at h; exact hI.mapn n w h.1
    · intro a ha b hb hla hlb hp
      have ha := (c6 a).1 ha
      have hb := (c6 b).1 hb
      rcases ha with rfl | ha <;> rcases hb with rfl | hb
      · rfl
      · exfalso
        have hb' := (d9 b).1 hb
        have hp' : b.samePlace a = true := by
          unfold Var.samePlace at hp ⊢; simp only [decide_eq_true_iff] at hp ⊢; omega
        have hbm : b.isMem = true := ((hI.mem b).1 (by rw [← ea]; exact hb'.1)).2
        have := (superseded_iff b a).2 ⟨hlb, hp', hbm, hmem⟩
        rw [hb'.2] at this; cases this
      · exfalso
        have ha' := (d9 a).1 ha
        have ham : a.isMem = true := ((hI.mem a).1 (by rw [← ea]; exact ha'.1)).2
        have := (superseded_iff a b).2 ⟨hla, hp, ham, hmem⟩
        rw [ha'.2] at this; cases this
      · exact hI.lab a (by rw [← ea]; exact ((d9 a).1 ha).1) b (by rw [← ea]; exact ((d9 b).1 hb).1) hla hlb hp
    · intro w hw
      show w.name.length ≤ s1.maxLen
      rw [d2]; exact hlen w ((d10 w).1 hw).1
    · intro w hw
      rcases (hname w).1 hw with h | h
      · rw [h]; exact hn
      · exact hI.nam w h.1

theorem add_spec {names : List CStr} (hl : names.length ≤ maxListSize) {s : VarList} {m : VMap}
    (hI : VInv names s m) (v : Var) (hv : VOk v) (hn : v.name ∈ names) :
    ∃ s', s.add v = .ok s' ∧
      VInv names s' (fun k => if k = v.name then some v else (m k).filter (fun u => !superseded u v)) ∧
      (m v.name = none → (s.known = true → (∃ u ∈ s.byName.items, u.name.length = s.maxLen) ∨ s.maxLen = 0) →
        s'.known = true → ∃ u ∈ s'.byName.items, u.name.length = s'.maxLen) := by
  obtain ⟨s1, found, h1, hI1, h3, h4, h5⟩ := del_spec hI v.name
  have hm1 : (m.step (.del v.name)) v.name = none := by simp [VMap.step]
  unfold VarList.add
  rw [h1]
  simp only
  generalize hs2 : (if found = true then { s1 with known := true }
      else { s1 with maxLen := if v.name.length > s1.maxLen then v.name.length else s1.maxLen }) = s2
  have e1 : s2.byName = s1.byName ∧ s2.byAddr = s1.byAddr := by
    subst hs2; split <;> exact ⟨rfl, rfl⟩
  have hvl : v.name.length ≤ s2.maxLen := by
    subst hs2
    split
    · rename_i hf
      have hne := h3.1 hf
      cases hmv : m v.name with
      | none => exact absurd hmv hne
      | some u =>
        have hun := hI.mapn _ _ hmv
        have := hI.len u ((hI.map u).2 (by rw [hun]; exact hmv))
        rw [hun] at this
        show _ ≤ s1.maxLen
        omega
    · simp only; split <;> omega
  have hlen2 : s1.maxLen ≤ s2.maxLen := by
    subst hs2
    split
    · exact Nat.le_refl _
    · simp only; split <;> omega
  obtain ⟨bn, c1, c2, c3, c4, c5, c6⟩ := slAdd_mem cmpByName cmpName_preorder s2.byName
    (by rw [e1.1]; exact hI1.fn) (by rw [e1.1]; exact hI1.dn)
    (by rw [e1.1]; exact (length_lt hl hI1 v.name hn hm1).1) (by rw [e1.1]; exact hI1.sn)
    (by rw [e1.1]; exact hI1.nn) v
    (fun y hy h0 => by
      rw [e1.1] at hy
      have h0 : y.name = v.name := strcmp_eq.1 h0
      have := (hI1.map y).1 hy
      rw [h0, hm1] at this; cases this)
  rw [c1]
  simp only
  have hin : ∀ w, w ∈ bn.items ↔ w = v ∨ w ∈ s1.byName.items := by intro w; rw [c6, e1.1]
  have hlen3 : ∀ w ∈ bn.items, w.name.length ≤ s2.maxLen := by
    intro w hw
    rcases (hin w).1 hw with rfl | h
    · exact hvl
    · have := hI1.len w h; omega
  have hstep : (fun k => if k = v.name then some v else ((m.step (.del v.name)) k).filter (fun u => !superseded u v)) =
      (fun k => if k = v.name then some v else (m k).filter (fun u => !superseded u v)) := by
    funext k
    by_cases hk : k = v.name
    · rw [if_pos hk, if_pos hk]
    · rw [if_neg hk, if_neg hk]
      simp [VMap.step, hk]
  -- the longest name
  have hexact : m v.name = none → (s.known = true → (∃ u ∈ s.byName.items, u.name.length = s.maxLen) ∨ s.maxLen = 0) →
      s2.known = true → ∃ u ∈ bn.items, u.name.length = s2.maxLen := by
    intro hmn hex hk2
    have hf : found = false := by
      cases found with
      | false => rfl
      | true => exact absurd hmn (h3.1 rfl)
    subst hf
    simp only [Bool.false_eq_true, if_false] at hs2 h5
    subst hs2
    have hex := hex (by rw [← h5]; exact hk2)
    by_cases hgt : v.name.length > s1.maxLen
    · refine ⟨v, (hin v).2 (Or.inl rfl), ?_⟩
      simp only; rw [if_pos hgt]
    · rcases hex with ⟨u, hu, hul⟩ | h0
      · refine ⟨u, (hin u).2 (Or.inr ?_), ?_⟩
        · refine (hI1.map u).2 ?_
          have h' := (hI.map u).1 hu
          have : u.name ≠ v.name := fun he => by rw [he, hmn] at h'; cases h'
          simp [VMap.step, this, h']
        · simp only; rw [if_neg hgt, h4]; exact hul
      · refine ⟨v, (hin v).2 (Or.inl rfl), ?_⟩
        simp only; rw [if_neg hgt]; omega
  by_cases hmem : v.isMem = true
  · rw [if_pos hmem]
    obtain ⟨s', k1, k2, k3, k4, k5⟩ := addMem_spec hl (s := { s2 with byName := bn }) hI1 v hv hmem hn hm1 e1.2 c2
      (by show 0 < bn.delta; rw [c3, e1.1]; exact hI1.dn) c4 c5 hin hlen3
    refine ⟨s', k1, by rw [← hstep]; exact k4, ?_⟩
    intro hmn hex hk'
    have k2 : s'.maxLen = s2.maxLen := k2
    have hk2 : s2.known = true := by
      rcases k5 with ⟨hkk, _⟩ | hkf
      · rw [← hk']; exact hkk.symm
      · rw [hkf] at hk'; cases hk'
    obtain ⟨u, hu, hul⟩ := hexact hmn hex hk2
    rcases k5 with ⟨hkk, hb | ⟨x, hx1, hx2, hx3⟩⟩ | hkf
    · exact ⟨u, by rw [hb]; exact hu, by rw [k2]; exact hul⟩
    · have hx3 : ¬ (x.name.length = s2.maxLen ∧ v.name.length < s2.maxLen) := hx3
      by_cases hux : u ∈ s'.byName.items
      · exact ⟨u, hux, by rw [k2]; exact hul⟩
      · -- u was superseded: then the removed label had the maximal length
        have hus : ∀ y, y ∈ bn.items → y ∉ s'.byName.items → superseded y v = true ∧ y ∈ s1.byName.items := by
          intro y hy hy'
          rcases (hin y).1 hy with rfl | hy1
          · exact absurd ((k3 y).2 (Or.inl rfl)) hy'
          · refine ⟨?_, hy1⟩
            cases hsy : superseded y v with
            | true => rfl
            | false => exact absurd ((k3 y).2 (Or.inr ⟨hy1, hsy⟩)) hy'
        obtain ⟨su, u1⟩ := hus u hu hux
        obtain ⟨sx, x1⟩ := hus x hx1 hx2
        have pu := (superseded_iff u v).1 su
        have px := (superseded_iff x v).1 sx
        have hux' : u = x := by
          refine hI1.lab u ((hI1.mem u).2 ⟨u1, pu.2.2.1⟩) x ((hI1.mem x).2 ⟨x1, px.2.2.1⟩) pu.1 px.1 ?_
          have p1 := pu.2.1; have p2 := px.2.1
          unfold Var.samePlace at p1 p2 ⊢
          simp only [decide_eq_true_iff] at p1 p2 ⊢
          omega
        subst hux'
        refine ⟨v, (k3 v).2 (Or.inl rfl), ?_⟩
        rw [k2]
        have := hlen3 v ((hin v).2 (Or.inl rfl))
        omega
    · rw [hkf] at hk'; cases hk'
  · rw [if_neg hmem]
    refine ⟨_, rfl, ?_, ?_⟩
    · rw [← hstep]
      have hsup : ∀ u, superseded u v = false := by
        intro u
        cases hs : superseded u v with
        | false => rfl
        | true => exact absurd ((superseded_iff u v).1 hs).2.2.2 hmem
      refine ⟨c2, by show 0 < bn.delta; rw [c3, e1.1]; exact hI1.dn, c4, c5,
        by show s2.byAddr.Fits; rw [e1.2]; exact hI1.fa, by show 0 < s2.byAddr.delta; rw [e1.2]; exact hI1.da,
        by show SortedBy cmpT s2.byAddr.items; rw [e1.2]; exact hI1.sa,
        by show NoDup cmpT s2.byAddr.items; rw [e1.2]; exact hI1.na, ?_, ?_, ?_, ?_, ?_, hlen3, ?_⟩
      · intro w
        show w ∈ s2.byAddr.items ↔ w ∈ bn.items ∧ _
        rw [e1.2, hI1.mem, hin]
        constructor
        · exact fun h => ⟨Or.inr h.1, h.2⟩
        · rintro ⟨h | h, h'⟩
          · rw [h] at h'; exact absurd h' hmem
          · exact ⟨h, h'⟩
      · intro w hw
        rcases (hin w).1 hw with h | h
        · rw [h]; exact hv
        · exact hI1.ok w h
      · intro w
        show w ∈ bn.items ↔ (if w.name = v.name then some v else _) = some w
        rw [hin]
        by_cases hwn : w.name = v.name
        · rw [if_pos hwn]
          constructor
          · rintro (h | h)
            · rw [h]
            · have := (hI1.map w).1 h
              rw [hwn, hm1] at this; cases this
          · intro h; cases h; exact Or.inl rfl
        · rw [if_neg hwn, Option.filter_eq_some_iff, hI1.map]
          simp only [hsup, Bool.not_false, and_true]
          constructor
          · rintro (h | h)
            · exact absurd (by rw [h]) hwn
            · exact h
          · exact Or.inr
      · intro n w h
        have h : (if n = v.name then some v else
          ((m.step (.del v.name)) n).filter (fun u => !superseded u v)) = some w := h
        split at h
        · rename_i hnn; cases h; exact hnn.symm
        · rw [Option.filter_eq_some_iff] at h; exact hI1.mapn n w h.1
      · intro a ha b hb
        exact hI1.lab a (by rw [← e1.2]; exact ha) b (by rw [← e1.2]; exact hb)
      · intro w hw
        rcases (hin w).1 hw with h | h
        · rw [h]; exact hn
        · exact hI1.nam w h
    · intro hmn hex hk'
      exact hexact hmn hex hk'

end Ucsim
