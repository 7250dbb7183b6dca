import Verif.Proof.BrkInv

namespace Ucsim
open Spec Props

/-! ### what breakpoint commands leave alone -/

/-- Geometry, operators of peripherals and bankers, dummy operators. -/
structure SameRest (w w' : World) : Prop where
  geo : SameGeo w w'
  dops : ∀ sp, (w'.spaces sp).dummy.ops = (w.spaces sp).dummy.ops
  ops : ∀ sp i, ((w'.spaces sp).cells i).ops.filter (fun o => !o.isBrk) = ((w.spaces sp).cells i).ops.filter (fun o => !o.isBrk)

theorem SameRest.refl (w : World) : SameRest w w := ⟨SameGeo.of_spaces rfl, fun _ => rfl, fun _ _ => rfl⟩

theorem SameRest.trans {a b c : World} (h : SameRest a b) (g : SameRest b c) : SameRest a c :=
  ⟨h.geo.trans g.geo, fun sp => (g.dops sp).trans (h.dops sp), fun sp i => (g.ops sp i).trans (h.ops sp i)⟩

theorem SameRest.of_spaces {w w' : World} (h : w'.spaces = w.spaces) : SameRest w w' := by
  refine ⟨SameGeo.of_spaces h, ?_, ?_⟩ <;> intros <;> rw [h]

theorem SameRest.of_wiring {w w' : World} (h : SameWiring w w') : SameRest w w' := by
  refine ⟨⟨h.start, h.size⟩, h.dops, ?_⟩
  intro sp i; obtain ⟨r, hr⟩ := h.cells sp i; rw [hr]

theorem setCell_dops (w : World) (sp i : Nat) (c : Cell) (sp' : Nat) :
    ((w.setCell (.cell sp i) c).spaces sp').dummy.ops = (w.spaces sp').dummy.ops := by
  simp only [World.setCell, World.setSpace]
  by_cases h : sp' = sp
  · subst h; simp
  · rw [upd_other _ _ _ _ h]

theorem setBrk_same (w : World) (b : Brk) : SameRest w (w.setBrk b) := by
  refine ⟨setBrk_geo w b, ?_, ?_⟩
  · intro sp
    unfold World.setBrk
    split
    · rfl
    · simp only; split <;> first | rfl | exact setCell_dops _ _ _ _ _
  · intro sp i
    rw [setBrk_ops, List.filter_append]
    split
    · simp [op_isBrk]
    · simp

theorem delBrk_same {w w' : World} {b : Brk} (h : w.delBrk b = some w') : SameRest w w' := by
  refine ⟨delBrk_geo h, ?_, ?_⟩
  · intro sp
    unfold World.delBrk at h
    split at h
    · cases h; rfl
    · simp only at h; split at h
      · cases h; exact setCell_dops _ _ _ _ _
      · split at h <;> cases h; exact setCell_dops _ _ _ _ _
      · split at h <;> cases h; exact setCell_dops _ _ _ _ _
      · cases h; rfl
  · intro sp i
    rw [delBrk_ops h]
    split
    · rw [List.filter_filter]
      apply List.filter_congr
      intro o _
      cases o <;> simp [MOp.isBrk, MOp.matchBrk]
    · rfl

theorem addBp_same {s s' : BSt} {b : Brk} {hit : Int} {cond : Bool} (h : s.addBp b hit cond = .ok s') : SameRest s.w s'.w := by
  have key : ∀ w' : World, w' = World.setBrk { s.w with brks := upd s.w.brks b.id ⟨hit, hit, cond⟩ } b → SameRest s.w w' := by
    rintro w' rfl
    have h1 : SameRest s.w { s.w with brks := upd s.w.brks b.id ⟨hit, hit, cond⟩ } := SameRest.of_spaces rfl
    exact h1.trans (setBrk_same _ b)
  unfold BSt.addBp at h
  simp only at h
  split at h
  · split at h
    · cases h; exact key _ rfl
    · cases h
  · split at h
    · cases h; exact key _ rfl
    · cases h

theorem freeF_w {s s' : BSt} {w : World} {i : Nat} (h : s.freeF w i = .ok s') : s'.w = w := by
  unfold BSt.freeF at h; split at h
  · cases h; rfl
  · cases h

theorem freeE_w {s s' : BSt} {w : World} {i : Nat} (h : s.freeE w i = .ok s') : s'.w = w := by
  unfold BSt.freeE at h; split at h
  · cases h; rfl
  · cases h

/-! ### deletion by address -/

theorem filter_ne_self {α : Type} [DecidableEq α] {l : List α} {p : α → Bool} (h : ∀ x ∈ l, p x = true) : l.filter p = l :=
  List.filter_eq_self.2 h

/-- del_bp(addr): nothing is undefined; exactly the breakpoints of a valid
address are removed. -/
theorem delAddr_spec {s : BSt} (h : BInv s) {a : Nat} (ha : a < 2 ^ 32) :
    ∃ s', s.delAddr a = .ok s' ∧ BInv s' ∧ SameRest s.w s'.w ∧ s'.ebrk = s.ebrk ∧ s'.counter = s.counter ∧
      s'.fresh = s.fresh ∧ s'.rom = s.rom ∧ s'.w.brks = s.w.brks ∧ s'.w.events = s.w.events ∧
      ((∀ b ∈ s.fbrk.items, b.addr = a → (s.w.spaces s.rom).idx? a = none) → s' = s) ∧
      ((∃ i, (s.w.spaces s.rom).idx? a = some i) → s'.fbrk.items = s.fbrk.items.filter (fun b => b.addr ≠ a)) := by
  unfold BSt.delAddr
  cases hg : s.getBp a with
  | none =>
    have hn := h.getBp_none ha hg
    refine ⟨s, rfl, h, SameRest.refl _, rfl, rfl, rfl, rfl, rfl, rfl, fun _ => rfl, ?_⟩
    rintro ⟨i, hi⟩
    symm; apply filter_ne_self
    intro x hx; simp only [decide_eq_true_eq]
    intro he
    rw [hn x hx he] at hi; cases hi
  | some kb =>
    obtain ⟨k, b⟩ := kb
    obtain ⟨hk, hba, hin⟩ := h.getBp_some ha hg
    have hmem := List.mem_of_getElem? hk
    obtain ⟨e1, e2, e3⟩ := h.fk b hmem
    have hdel : ∃ w', s.w.delBrk b = some w' := by
      unfold World.delBrk
      split
      · exact ⟨_, rfl⟩
      · simp only [e1]; exact ⟨_, rfl⟩
    obtain ⟨w', hw⟩ := hdel
    simp only [hw]
    obtain ⟨l', hl, _, _, _, _⟩ := disconnAt_mem s.fbrk h.ffit (nodup_of_nr h.fsort) k b hk
    have hfree : s.freeF w' k = .ok { s with w := w', fbrk := l' } := by unfold BSt.freeF; rw [hl]
    obtain ⟨hI, hitems, _⟩ := delF_inv h hk hw hfree
    obtain ⟨_, hr2, hr3⟩ := delBrk_rest hw
    refine ⟨_, hfree, hI, delBrk_same hw, rfl, rfl, rfl, rfl, hr2, hr3, ?_, ?_⟩
    · intro hnone
      obtain ⟨i, hi⟩ := hin
      rw [hnone b hmem hba] at hi; cases hi
    · rintro ⟨i, hi⟩
      rw [hitems]
      apply List.filter_congr
      intro x hx
      by_cases hxb : x = b
      · subst hxb; simp [hba]
      · have : x.addr ≠ a := fun he => hxb (h.fuq x hx b hmem i (he.trans hba.symm) (he ▸ hi))
        simp [hxb, this]

/-- del_bp(idx,0) of the event table. -/
theorem delIdx_spec {s : BSt} (h : BInv s) {k : Nat} {b : Brk} (hb : s.ebrk.items[k]? = some b) :
    ∃ s', s.delIdx k = .ok s' ∧ BInv s' ∧ SameRest s.w s'.w ∧ s'.fbrk = s.fbrk ∧ s'.counter = s.counter ∧
      s'.fresh = s.fresh ∧ s'.rom = s.rom ∧ s'.w.brks = s.w.brks ∧ s'.w.events = s.w.events ∧
      s'.ebrk.items = s.ebrk.items.filter (fun x => x ≠ b) ∧ s'.ebrk.items = s.ebrk.items.eraseIdx k := by
  unfold BSt.delIdx
  have hk : k < s.ebrk.items.length := by
    have := List.getElem?_eq_some_iff.1 hb; exact this.1
  rw [if_neg (by unfold CList.count; omega), hb]
  simp only
  obtain ⟨w', hw⟩ := h.delBrk_some (List.mem_of_getElem? hb)
  rw [hw]
  simp only
  obtain ⟨l', hl, _, _, _, _⟩ := disconnAt_mem s.ebrk h.efit (nodup_of_nr h.esort) k b hb
  have hfree : s.freeE w' k = .ok { s with w := w', ebrk := l' } := by unfold BSt.freeE; rw [hl]
  obtain ⟨hI, hitems, _⟩ := delE_inv h hb hw hfree
  obtain ⟨_, hr2, hr3⟩ := delBrk_rest hw
  refine ⟨_, hfree, hI, delBrk_same hw, rfl, rfl, rfl, rfl, hr2, hr3, hitems, ?_⟩
  rw [hitems, eraseIdx_filter (nodup_of_nr h.esort) hb]

theorem nr_inj {l : List Brk} (h : l.Pairwise (fun a b => a.nr < b.nr)) {a b : Brk} (ha : a ∈ l) (hb : b ∈ l)
    (he : a.nr = b.nr) : a = b := by
  obtain ⟨i, hi, rfl⟩ := List.mem_iff_getElem.1 ha
  obtain ⟨j, hj, rfl⟩ := List.mem_iff_getElem.1 hb
  have hpw := List.pairwise_iff_getElem.1 h
  rcases Nat.lt_trichotomy i j with hij | rfl | hij
  · have := hpw i j hi hj hij; omega
  · rfl
  · have := hpw j i hj hi hij; omega

/-- rm_brk: nothing is undefined; the other breakpoints stay; the one of that
number goes unless it is a fetch breakpoint outside of the code memory. -/
theorem rmBrk_spec {s : BSt} (h : BInv s) (nr : Int) :
    ∃ s', s.rmBrk nr = .ok s' ∧ BInv s' ∧ SameRest s.w s'.w ∧ s'.counter = s.counter ∧
      s'.fresh = s.fresh ∧ s'.rom = s.rom ∧ s'.w.brks = s.w.brks ∧ s'.w.events = s.w.events ∧
      s'.ebrk.items = s.ebrk.items.filter (fun x => x.nr ≠ nr) ∧
      s'.fbrk.items = s.fbrk.items.filter (fun x => x.nr ≠ nr ∨ (s.w.spaces s.rom).idx? x.addr = none) := by
  unfold BSt.rmBrk
  cases hf : s.fbrk.items.find? (fun b => b.nr = nr) with
  | some b =>
    have hmem : b ∈ s.fbrk.items := List.mem_of_find?_eq_some hf
    have hnr : b.nr = nr := by have := List.find?_some hf; simpa using this
    obtain ⟨e1, e2, e3⟩ := h.fk b hmem
    simp only
    obtain ⟨s', h1, h2, h3, h4, h5, h6, h7, h8, h9, h10, h11⟩ := delAddr_spec h e3
    refine ⟨s', h1, h2, h3, h5, h6, h7, h8, h9, ?_, ?_⟩
    · rw [h4]; symm; apply filter_ne_self
      intro x hx; simp only [decide_eq_true_eq]
      exact fun he => h.cross b hmem x hx (by omega)
    · cases hi : (s.w.spaces s.rom).idx? b.addr with
      | none =>
        rw [h10 (fun x hx he => hi)]
        symm; apply filter_ne_self
        intro x hx; simp only [decide_eq_true_eq]
        by_cases he : x.nr = nr
        · right; rw [nr_inj h.fsort hx hmem (by omega)]; exact hi
        · exact Or.inl he
      | some i =>
        rw [h11 ⟨i, hi⟩]
        apply List.filter_congr
        intro x hx
        rw [decide_eq_decide]
        constructor
        · intro hne; left; intro he; exact hne (by rw [nr_inj h.fsort hx hmem (by omega)])
        · rintro (hne | hno) he
          · have := h.fuq x hx b hmem i he (he ▸ hi)
            exact hne (by rw [this]; exact hnr)
          · rw [he, hi] at hno; cases hno
  | none =>
    have hnf : ∀ x ∈ s.fbrk.items, x.nr ≠ nr := by
      intro x hx he
      have := List.find?_eq_none.1 hf x hx
      simp [he] at this
    have hfi : s.fbrk.items = s.fbrk.items.filter (fun x => x.nr ≠ nr ∨ (s.w.spaces s.rom).idx? x.addr = none) := by
      symm; apply filter_ne_self
      intro x hx; simp [hnf x hx]
    simp only
    cases he : s.ebrk.items.find? (fun b => b.nr = nr) with
    | some b =>
      have hmem : b ∈ s.ebrk.items := List.mem_of_find?_eq_some he
      have hnr : b.nr = nr := by have := List.find?_some he; simpa using this
      simp only
      cases hix : s.ebrk.indexOf? b with
      | none =>
        unfold CList.indexOf? at hix
        rw [List.findIdx?_eq_none_iff] at hix
        have := hix b hmem; simp at this
      | some i =>
        obtain ⟨hi, h1, _⟩ := List.findIdx?_eq_some_iff_getElem.1 hix
        have h1 : b = s.ebrk.items[i] := by simpa using h1
        have hb : s.ebrk.items[i]? = some b := by rw [List.getElem?_eq_getElem hi, h1]
        simp only
        obtain ⟨s', g1, g2, g3, g4, g5, g6, g7, g8, g9, g10, _⟩ := delIdx_spec h hb
        refine ⟨s', g1, g2, g3, g5, g6, g7, g8, g9, ?_, by rw [g4]; exact hfi⟩
        rw [g10]
        apply List.filter_congr
        intro x hx
        rw [decide_eq_decide]
        constructor
        · intro hne he'; exact hne (nr_inj h.esort hx hmem (by omega))
        · intro hne he'; exact hne (by rw [he']; exact hnr)
    | none =>
      refine ⟨s, rfl, h, SameRest.refl _, rfl, rfl, rfl, rfl, rfl, ?_, hfi⟩
      symm; apply filter_ne_self
      intro x hx
      have := List.find?_eq_none.1 he x hx
      simpa using this

/-! ### deleting all -/

theorem removeTurn_spec {s : BSt} (h : BInv s) {b : Brk} {l : List Brk} (hl : s.fbrk.items = b :: l) :
    ∃ s', s.removeTurn = .ok s' ∧ BInv s' ∧ SameRest s.w s'.w ∧ s'.ebrk = s.ebrk ∧ s'.counter = s.counter ∧
      s'.fresh = s.fresh ∧ s'.rom = s.rom ∧ s'.w.brks = s.w.brks ∧ s'.w.events = s.w.events ∧
      (∀ b ∈ s'.fbrk.items, b ∈ s.fbrk.items) ∧
      ((∃ i, (s.w.spaces s.rom).idx? b.addr = some i) → s'.fbrk.count < s.fbrk.count) ∧
      ((s.w.spaces s.rom).idx? b.addr = none → s' = s) := by
  · unfold BSt.removeTurn
    rw [hl]
    simp only
    have hmem : b ∈ s.fbrk.items := by rw [hl]; exact List.mem_cons_self
    obtain ⟨s', h1, h2, h3, h4, h5, h6, h7, h8, h9, h10, h11⟩ := delAddr_spec h (h.fk b hmem).2.2
    have hno : (s.w.spaces s.rom).idx? b.addr = none → s' = s := fun hi => h10 (fun x hx he => hi)
    refine ⟨s', h1, h2, h3, h4, h5, h6, h7, h8, h9, ?_, ?_, hno⟩
    · intro x hx
      cases hi : (s.w.spaces s.rom).idx? b.addr with
      | none => rw [hno hi] at hx; rw [← hl]; exact hx
      | some i => rw [h11 ⟨i, hi⟩] at hx; rw [← hl]; exact (List.mem_filter.1 hx).1
    · intro hin
      unfold CList.count
      rw [h11 hin, hl, List.filter_cons_of_neg (by simp)]
      have := List.length_filter_le (fun x : Brk => decide (x.addr ≠ b.addr)) l
      simp only [List.length_cons]; omega

/-- A turn that does not shorten the list does not change anything. -/
theorem removeTurn_same {s s' : BSt} (h : BInv s) (hne : s.fbrk.items ≠ []) (ht : s.removeTurn = .ok s')
    (hc : ¬ s'.fbrk.count < s.fbrk.count) : s' = s := by
  rcases hl : s.fbrk.items with _ | ⟨b, l⟩
  · exact absurd hl hne
  · obtain ⟨s'', h1, _, _, _, _, _, _, _, _, _, h11, h12⟩ := removeTurn_spec h hl
    rw [ht] at h1; cases h1
    cases hi : (s.w.spaces s.rom).idx? b.addr with
    | none => exact h12 hi
    | some i => exact absurd (h11 ⟨i, hi⟩) hc

theorem removeF_spec (n : Nat) {s : BSt} (h : BInv s) (hn : s.fbrk.items.length ≤ n)
    (hin : ∀ b ∈ s.fbrk.items, ∃ i, (s.w.spaces s.rom).idx? b.addr = some i) :
    ∃ s', BSt.removeF n s = .ok s' ∧ BInv s' ∧ SameRest s.w s'.w ∧ s'.ebrk = s.ebrk ∧ s'.counter = s.counter ∧
      s'.fresh = s.fresh ∧ s'.rom = s.rom ∧ s'.w.brks = s.w.brks ∧ s'.w.events = s.w.events ∧ s'.fbrk.items = [] := by
  induction n generalizing s with
  | zero =>
    have h0 : s.fbrk.items = [] := List.length_eq_zero_iff.1 (by omega)
    unfold BSt.removeF
    rw [if_pos h0]
    exact ⟨s, rfl, h, SameRest.refl _, rfl, rfl, rfl, rfl, rfl, rfl, h0⟩
  | succ n ih =>
    unfold BSt.removeF
    by_cases h0 : s.fbrk.items = []
    · rw [if_pos h0]
      exact ⟨s, rfl, h, SameRest.refl _, rfl, rfl, rfl, rfl, rfl, rfl, h0⟩
    · rw [if_neg h0]
      obtain ⟨b, l, hl⟩ := List.exists_cons_of_ne_nil h0
      obtain ⟨s1, h1, h2, h3, h4, h5, h6, h7, h8, h9, h10, h11, _⟩ := removeTurn_spec h hl
      have hlt := h11 (hin b (by rw [hl]; exact List.mem_cons_self))
      rw [h1]
      simp only
      rw [if_pos hlt]
      obtain ⟨s2, g1, g2, g3, g4, g5, g6, g7, g8, g9, g10⟩ := ih h2 (by unfold CList.count at hlt; omega) (by
        intro b hb
        obtain ⟨i, hi⟩ := hin b (h10 b hb)
        exact ⟨i, by rw [h7, h3.geo.idx]; exact hi⟩)
      exact ⟨s2, g1, g2, h3.trans g3, g4.trans h4, g5.trans h5, g6.trans h6, g7.trans h7, g8.trans h8, g9.trans h9, g10⟩

theorem removeE_spec (n : Nat) {s : BSt} (h : BInv s) (hn : s.ebrk.items.length ≤ n) :
    ∃ s', BSt.removeE n s = .ok s' ∧ BInv s' ∧ SameRest s.w s'.w ∧ s'.fbrk = s.fbrk ∧ s'.counter = s.counter ∧
      s'.fresh = s.fresh ∧ s'.rom = s.rom ∧ s'.w.brks = s.w.brks ∧ s'.w.events = s.w.events ∧ s'.ebrk.items = [] := by
  induction n generalizing s with
  | zero =>
    have h0 : s.ebrk.items = [] := List.length_eq_zero_iff.1 (by omega)
    unfold BSt.removeE
    rw [if_pos h0]
    exact ⟨s, rfl, h, SameRest.refl _, rfl, rfl, rfl, rfl, rfl, rfl, h0⟩
  | succ n ih =>
    unfold BSt.removeE
    by_cases h0 : s.ebrk.items = []
    · rw [if_pos h0]
      exact ⟨s, rfl, h, SameRest.refl _, rfl, rfl, rfl, rfl, rfl, rfl, h0⟩
    · rw [if_neg h0]
      have hl : 0 < s.ebrk.items.length := List.length_pos_iff.2 h0
      have hlast : s.ebrk.count - 1 < s.ebrk.items.length := by unfold CList.count; omega
      obtain ⟨s1, h1, h2, h3, h4, h5, h6, h7, h8, h9, h10, h11⟩ :=
        delIdx_spec h (List.getElem?_eq_getElem hlast)
      rw [h1]
      simp only
      have hlen : s1.ebrk.items.length = s.ebrk.items.length - 1 := by
        rw [h11, List.length_eraseIdx, if_pos hlast]
      obtain ⟨s2, g1, g2, g3, g4, g5, g6, g7, g8, g9, g10⟩ := ih h2 (by omega)
      exact ⟨s2, g1, g2, h3.trans g3, g4.trans h4, g5.trans h5, g6.trans h6, g7.trans h7, g8.trans h8, g9.trans h9, g10⟩

/-- removeF when it ends normally keeps the invariant, whatever the addresses. -/
theorem removeF_inv (n : Nat) {s s' : BSt} (h : BInv s) (hok : BSt.removeF n s = .ok s') :
    BInv s' ∧ SameRest s.w s'.w ∧ s'.rom = s.rom := by
  induction n generalizing s with
  | zero =>
    unfold BSt.removeF at hok
    split at hok
    · cases hok; exact ⟨h, SameRest.refl _, rfl⟩
    · cases hok
  | succ n ih =>
    unfold BSt.removeF at hok
    split at hok
    · cases hok; exact ⟨h, SameRest.refl _, rfl⟩
    · rename_i h0
      obtain ⟨b, l, hl⟩ := List.exists_cons_of_ne_nil h0
      obtain ⟨s1, h1, h2, h3, h4, h5, h6, h7, _⟩ := removeTurn_spec h hl
      rw [h1] at hok
      simp only at hok
      split at hok
      · obtain ⟨g1, g2, g3⟩ := ih h2 hok
        exact ⟨g1, h3.trans g2, g3.trans h7⟩
      · cases hok

end Ucsim
