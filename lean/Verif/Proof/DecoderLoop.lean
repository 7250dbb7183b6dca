import Verif.Proof.Decoder

/-! The undecode_area loop and activation. -/
namespace Ucsim

theorem mem_split {l : List Dec} {i : Nat} {d : Dec} (h : l[i]? = some d) :
    l = l.take i ++ d :: l.drop (i + 1) ∧ i < l.length := by
  obtain ⟨hi, he⟩ := List.getElem?_eq_some_iff.1 h
  refine ⟨?_, hi⟩
  rw [← he, List.getElem_cons_drop]
  exact (List.take_append_drop i l).symm

/-- Facts about the tests of undecode_area. -/
theorem not_touch {d : Dec} {b e : Nat}
    (h1 : d.fullyCoveredBy b e = false) (h2 : d.covers b e = false) (h3 : d.isIn b e = false) :
    Apart d b e := by
  simp only [Dec.fullyCoveredBy, Dec.covers, Dec.isIn, Bool.and_eq_false_iff, Bool.or_eq_false_iff,
    decide_eq_false_iff_not] at *
  unfold Apart
  omega

theorem apart_tests {d : Dec} {b e : Nat} (ho : d.asb ≤ d.ase) (hbe : b ≤ e) (h : Apart d b e) :
    d.fullyCoveredBy b e = false ∧ d.covers b e = false ∧ d.isIn b e = false := by
  unfold Apart at h
  simp only [Dec.fullyCoveredBy, Dec.covers, Dec.isIn, Bool.and_eq_false_iff, Bool.or_eq_false_iff,
    decide_eq_false_iff_not]
  omega

/-- If nothing in the list meets the area, undecode_area changes nothing. -/
theorem undecLoop_noop (act : Space → Dec → Option (Space × Bool)) (skip b e : Nat) (hbe : b ≤ e) (s : Space)
    (h : ∀ x ∈ s.decs, x.id = skip ∨ (x.asb ≤ x.ase ∧ Apart x b e)) (f : Nat) :
    ∀ i, s.decs.length < f + i → i ≤ s.decs.length → undecLoop act skip b e f i s = some s := by
  induction f with
  | zero => intro i h1 h2; omega
  | succ f ih =>
    intro i h1 h2
    unfold undecLoop
    cases hd : s.decs[i]? with
    | none => rfl
    | some d =>
      have hi := (mem_split hd).2
      simp only
      by_cases hs : d.id = skip
      · rw [if_pos hs]; exact ih (i + 1) (by omega) (by omega)
      · rw [if_neg hs]
        obtain ⟨ho, ha⟩ := (h d (List.mem_of_getElem? hd)).resolve_left hs
        obtain ⟨t1, t2, t3⟩ := apart_tests ho hbe ha
        rw [t1, t2, t3]
        simp only [Bool.false_eq_true, if_false]
        exact ih (i + 1) (by omega) (by omega)

/-- Number of decoders (other than skip) that meet [b,e]. -/
def meets (skip b e : Nat) (d : Dec) : Bool := decide (d.id ≠ skip ∧ d.asb ≤ e ∧ b ≤ d.ase)

theorem set_eq (l : List Dec) (i : Nat) (d d' : Dec) (h : l[i]? = some d) :
    l.set i d' = l.take i ++ d' :: l.drop (i + 1) := by
  rw [List.set_eq_take_append_cons_drop, if_pos (mem_split h).2]

theorem erase_eq (l : List Dec) (i : Nat) : l.eraseIdx i = l.take i ++ l.drop (i + 1) :=
  List.eraseIdx_eq_take_drop_succ l i

/-- What is known about the rest of the list around position i. -/
theorem around {chips skip s} (h : DInv chips skip s) {i : Nat} {d : Dec} (hd : s.decs[i]? = some d) :
    (∀ x, x ∈ s.decs.take i ++ s.decs.drop (i + 1) ↔ x ∈ s.decs ∧ x.id ≠ d.id) ∧
    ((s.decs.take i ++ s.decs.drop (i + 1)).map Dec.id).Nodup ∧
    d.id ∉ (s.decs.take i ++ s.decs.drop (i + 1)).map Dec.id := by
  have hsp := (mem_split hd).1
  have hnd := h.nodup
  generalize s.decs.take i = l1 at *
  generalize s.decs.drop (i + 1) = l2 at *
  rw [hsp] at hnd ⊢
  have hperm : (l1 ++ d :: l2).Perm (d :: (l1 ++ l2)) := List.perm_middle
  have hnd2 : ((d :: (l1 ++ l2)).map Dec.id).Nodup := (hperm.map _).nodup_iff.1 hnd
  rw [List.map_cons, List.nodup_cons] at hnd2
  refine ⟨?_, hnd2.2, hnd2.1⟩
  intro x
  rw [hperm.mem_iff, List.mem_cons]
  constructor
  · intro hx
    refine ⟨Or.inr hx, fun he => hnd2.1 ?_⟩
    rw [← he]; exact List.mem_map_of_mem hx
  · rintro ⟨rfl | hx, hne⟩
    · exact absurd rfl hne
    · exact hx

theorem nodup_map_cons_perm {l : List Dec} {d : Dec} {l' : List Dec} (hp : l'.Perm (d :: l))
    (hn : (l.map Dec.id).Nodup) (hd : d.id ∉ l.map Dec.id) : (l'.map Dec.id).Nodup := by
  rw [(hp.map _).nodup_iff, List.map_cons, List.nodup_cons]
  exact ⟨hd, hn⟩

/-- The decoding of nested activation (of the upper part of a split decoder):
whatever the outcome, cells and list. -/
theorem activate_alone (chips : Nat → Chip) (hch : ∀ m, (chips m).size < 2147483648) (f : Nat) (s : Space)
    (d : Dec) (hb : s.start + s.size < 4294967296) (hv : ValidDec chips s d) (hact : d.act = false)
    (h : ∀ x ∈ s.decs, x.id = d.id ∨ (x.asb ≤ x.ase ∧ Apart x d.asb d.ase))
    (hf : s.decs.length < f + 1) :
    ∃ m, d.chip = some m ∧
    ((d.cb < (chips m).size ∧ activateF chips (f + 1) s d =
      some (({ s with
        cells := fun i =>
          if d.asb ≤ s.start + i ∧ s.start + i ≤ d.ase then
            Cell.decode (s.cells i) (getSlot chips m (d.cb + (s.start + i - d.asb))) else s.cells i } : Space).setAct
              d.id, true)) ∨
     ((chips m).size ≤ d.cb ∧ activateF chips (f + 1) s d = some (s, false))) := by
  obtain ⟨ho, hlo, hhi, m, hm, hcb⟩ := hv
  refine ⟨m, hm, ?_⟩
  have hs := hch m
  have e1 : subU d.ase d.asb = d.ase - d.asb := by unfold subU; omega
  have hok : actOk chips s d = decide (d.cb < (chips m).size) := by
    unfold actOk
    rw [hm]
    simp only [hact]
    have e3 : u32 (s.start + s.size) = s.start + s.size := by unfold u32; omega
    rw [e3, e1]
    have h1 : decide (d.asb ≤ d.ase) = true := by simpa using ho
    have h2 : decide (d.asb < s.start) = false := by simp; omega
    have h3 : decide (d.ase ≥ s.start + s.size) = false := by simp; omega
    rw [h1, h2, h3]
    by_cases hlt : d.cb < (chips m).size
    · have e2 : subU (chips m).size d.cb = (chips m).size - d.cb := by unfold subU; omega
      have h4 : decide (d.ase - d.asb > subU (chips m).size d.cb) = false := by rw [e2]; simp; omega
      rw [h4]; simp [hlt]
    · simp [hlt]
  unfold activateF
  rw [hok]
  by_cases hlt : d.cb < (chips m).size
  · left
    refine ⟨hlt, ?_⟩
    rw [if_pos (by simpa using hlt), undecLoop_noop _ _ _ _ ho s h (f + 1) 0 (by omega) (by omega)]
    have hr : rangeLen d.asb d.ase = some (d.ase + 1 - d.asb) := by
      unfold rangeLen; rw [if_neg (by omega), if_neg (by omega)]
    simp only [hm, hr]
    rw [decodeN_eq chips m _ d.asb d.cb s hb hlo (by omega) (by omega)]
    congr 3
    apply Space.ext' <;> try rfl
    funext i
    simp only
    by_cases hc : d.asb ≤ s.start + i ∧ s.start + i ≤ d.ase
    · rw [if_pos hc, if_pos (by omega)]
    · rw [if_neg hc, if_neg (by omega)]
  · right
    exact ⟨by omega, by rw [if_neg (by simpa using hlt)]⟩

/-- undecodeN with the range as limits. -/
theorem undecodeN_range (s : Space) (a e n : Nat) (hb : s.start + s.size < 4294967296)
    (h1 : s.start ≤ a) (h2 : e < s.start + s.size) (h3 : a ≤ e) (hn : n = e + 1 - a) :
    s.undecodeN n a = { s with cells := fun i =>
      if a ≤ s.start + i ∧ s.start + i ≤ e then (s.cells i).unDecode else s.cells i } := by
  subst hn
  rw [undecodeN_eq _ a s hb h1 (by omega)]
  apply Space.ext' <;> try rfl
  funext i
  simp only
  by_cases hc : a ≤ s.start + i ∧ s.start + i ≤ e
  · rw [if_pos hc, if_pos (by omega)]
  · rw [if_neg hc, if_neg (by omega)]

theorem setAct_mem (s : Space) (id : Nat) (x : Dec) :
    x ∈ (s.setAct id).decs ↔ ∃ y ∈ s.decs, x = (if y.id = id then { y with act := true } else y) := by
  unfold Space.setAct
  simp only [List.mem_map]
  exact ⟨fun ⟨y, h1, h2⟩ => ⟨y, h1, h2.symm⟩, fun ⟨y, h1, h2⟩ => ⟨y, h1, h2.symm⟩⟩

theorem setAct_ids (s : Space) (id : Nat) : (s.setAct id).decs.map Dec.id = s.decs.map Dec.id := by
  unfold Space.setAct
  simp only [List.map_map]
  apply List.map_congr_left
  intro x _
  simp only [Function.comp]
  split <;> rfl

theorem undec_cells_frame (s : Space) (a e : Nat) (l : List Dec) :
    Frame s { s with
      cells := fun i => if a ≤ s.start + i ∧ s.start + i ≤ e then (s.cells i).unDecode else s.cells i
      decs := l } :=
  ⟨rfl, rfl, rfl, rfl, rfl, fun i => by
    simp only; split
    · exact unDecode_sameBut _
    · exact SameBut.refl _⟩

/-- The decoder at position i is deleted. -/
theorem step_delete {chips skip b e s} (h : DInv chips skip s) {i : Nat} {d : Dec}
    (hd : s.decs[i]? = some d) (hds : d.id ≠ skip) (h1 : b ≤ d.asb) (h2 : d.ase ≤ e) :
    ∃ s', ({ s with decs := s.decs.eraseIdx i } : Space).deleteDec d = some s' ∧
      Cleared chips skip b e s s' ∧ s'.decs = s.decs.take i ++ s.decs.drop (i + 1) := by
  obtain ⟨ar1, ar2, ar3⟩ := around h hd
  have hmd := List.mem_of_getElem? hd
  obtain ⟨ho, hlo, hhi, m, hm, hcb⟩ := h.valid d hmd
  have hb := h.bound
  have hr : rangeLen d.asb d.ase = some (d.ase + 1 - d.asb) := by
    unfold rangeLen; rw [if_neg (by omega), if_neg (by omega)]
  refine ⟨{ s with
      cells := fun i => if d.asb ≤ s.start + i ∧ s.start + i ≤ d.ase then (s.cells i).unDecode else s.cells i
      decs := s.decs.eraseIdx i }, ?_, ?_, erase_eq s.decs i⟩
  · unfold Space.deleteDec
    rw [hr, Option.map_some, undecodeN_range { s with decs := s.decs.eraseIdx i } d.asb d.ase _ hb hlo hhi ho rfl]
  · refine replace_step h hmd hds [] ?_ ?_ (undec_cells_frame s _ _ _) (by simp) (by simp) ?_ ?_ ?_
    · intro x; simp only [erase_eq]; rw [ar1]; simp
    · simp only [erase_eq]; exact ar2
    · intro a ha1 ha2 hn; omega
    · intro j hj hj1 hj2
      obtain ⟨p, hp⟩ := h.cellIs j hj
      simp only
      rw [if_pos hj1]
      exact unDecode_is hp
    · intro j hj hn
      simp only
      rw [if_neg (by omega)]

/-- The decoder at position i is replaced by one piece of it. -/
theorem step_shrink {chips skip b e s} (h : DInv chips skip s) {i : Nat} {d d' : Dec}
    (hd : s.decs[i]? = some d) (hds : d.id ≠ skip) (a1 e1 : Nat)
    (hr1 : ∀ a, (a1 ≤ a ∧ a ≤ e1) ↔ (d.asb ≤ a ∧ a ≤ d.ase) ∧ (b ≤ a ∧ a ≤ e))
    (hp : d'.id = d.id ∧ d'.asb ≤ d'.ase ∧ d.asb ≤ d'.asb ∧ d'.ase ≤ d.ase ∧
      d'.chip = d.chip ∧ d'.cb = d.cb + (d'.asb - d.asb) ∧ Apart d' b e)
    (hcov : ∀ a, d.asb ≤ a → a ≤ d.ase → ¬(b ≤ a ∧ a ≤ e) → d'.asb ≤ a ∧ a ≤ d'.ase) :
    Cleared chips skip b e s { s with
      cells := fun i => if a1 ≤ s.start + i ∧ s.start + i ≤ e1 then (s.cells i).unDecode else s.cells i
      decs := s.decs.take i ++ d' :: s.decs.drop (i + 1) } := by
  obtain ⟨ar1, ar2, ar3⟩ := around h hd
  have hmd := List.mem_of_getElem? hd
  obtain ⟨p1, p2, p3, p4, p5, p6, p7⟩ := hp
  refine replace_step h hmd hds [d'] ?_ ?_ (undec_cells_frame s _ _ _) ?_ ?_ ?_ ?_ ?_
  · intro x
    rw [← ar1 x]
    simp only [List.mem_append, List.mem_cons, List.not_mem_nil, or_false]
    constructor
    · rintro (h | h | h) <;> simp [h]
    · rintro ((h | h) | h) <;> simp [h]
  · exact nodup_map_cons_perm List.perm_middle ar2 (by rw [p1]; exact ar3)
  · intro p hp
    rw [List.mem_singleton] at hp; subst hp
    exact ⟨by rw [p1]; exact hds, p2, p3, p4, p5, p6, p7⟩
  · intro p hp q hq hne
    rw [List.mem_singleton] at hp hq; subst hp; subst hq
    exact absurd rfl hne
  · intro a ha1 ha2 hn
    exact ⟨d', List.mem_singleton.2 rfl, hcov a ha1 ha2 hn⟩
  · intro j hj hj1 hj2
    obtain ⟨p, hp⟩ := h.cellIs j hj
    simp only
    rw [if_pos ((hr1 _).2 ⟨hj1, hj2⟩)]
    exact unDecode_is hp
  · intro j hj hn
    simp only
    rw [if_neg (fun hh => hn ((hr1 _).1 hh))]

theorem insert_get {l : List Dec} {j k : Nat} {x y : Dec} (hj : j ≤ l.length)
    (h : (l.take j ++ x :: l.drop j)[k]? = some y) : y = x ∨ ∃ k', k' ≤ k ∧ l[k']? = some y := by
  rw [List.getElem?_append] at h
  simp only [List.length_take, Nat.min_eq_left hj] at h
  split at h
  · right
    rw [List.getElem?_take_of_lt (by omega)] at h
    exact ⟨k, Nat.le_refl _, h⟩
  · rw [List.getElem?_cons] at h
    split at h
    · left; cases h; rfl
    · right
      rw [List.getElem?_drop] at h
      exact ⟨j + (k - j - 1), by omega, h⟩

/-- The list after a split: at most one more decoder, fewer that meet [b,e],
and everything up to and including position i stays out of [b,e]. -/
structure AfterSplit (skip b e i : Nat) (s s' : Space) : Prop where
  len : s'.decs.length = s.decs.length + 1
  cnt : s'.decs.countP (meets skip b e) + 1 = s.decs.countP (meets skip b e)
  pre : (∀ j < i, ∀ x, s.decs[j]? = some x → x.id = skip ∨ Apart x b e) →
    ∀ j < i + 1, ∀ x, s'.decs[j]? = some x → x.id = skip ∨ Apart x b e

theorem meets_act (skip b e id : Nat) (l : List Dec) :
    (l.map (fun d => if d.id = id then { d with act := true } else d)).countP (meets skip b e) =
      l.countP (meets skip b e) := by
  rw [List.countP_map]
  apply List.countP_congr
  intro x _
  simp only [Function.comp]
  split <;> rfl

theorem meets_false {skip b e : Nat} {d : Dec} (h : Apart d b e) : meets skip b e d = false := by
  unfold meets Apart at *; simp; omega

theorem meets_true {skip b e : Nat} {d : Dec} (h1 : d.id ≠ skip) (h2 : ¬ Apart d b e) :
    meets skip b e d = true := by
  unfold meets Apart at *; simp; omega

theorem countP_replace {skip b e : Nat} {l : List Dec} {i : Nat} {d d' : Dec} (hd : l[i]? = some d)
    (h1 : meets skip b e d = true) (h2 : meets skip b e d' = false) :
    (l.take i ++ d' :: l.drop (i + 1)).countP (meets skip b e) + 1 = l.countP (meets skip b e) := by
  have hsp := (mem_split hd).1
  conv => rhs; rw [hsp]
  simp only [List.countP_append, List.countP_cons, h1, h2]
  simp only [if_true]; simp only [Bool.false_eq_true, if_false]; omega

theorem countP_erase {skip b e : Nat} {l : List Dec} {i : Nat} {d : Dec} (hd : l[i]? = some d)
    (h1 : meets skip b e d = true) :
    (l.take i ++ l.drop (i + 1)).countP (meets skip b e) + 1 = l.countP (meets skip b e) := by
  have hsp := (mem_split hd).1
  conv => rhs; rw [hsp]
  simp only [List.countP_append, List.countP_cons, h1]
  simp only [if_true]; omega

theorem length_replace {l : List Dec} {i : Nat} {d d' : Dec} (hd : l[i]? = some d) :
    (l.take i ++ d' :: l.drop (i + 1)).length = l.length := by
  have := (mem_split hd).2
  simp only [List.length_append, List.length_cons, List.length_take, List.length_drop]; omega

theorem get_replace {l : List Dec} {i : Nat} {d d' : Dec} (hd : l[i]? = some d) (j : Nat) (x : Dec)
    (hj : j < i + 1) (h : (l.take i ++ d' :: l.drop (i + 1))[j]? = some x) :
    x = d' ∨ (j < i ∧ l[j]? = some x) := by
  have hi := (mem_split hd).2
  rw [List.getElem?_append] at h
  simp only [List.length_take, Nat.min_eq_left (Nat.le_of_lt hi)] at h
  split at h
  · right
    rw [List.getElem?_take_of_lt (by omega)] at h
    exact ⟨by omega, h⟩
  · left
    have e : j - i = 0 := by omega
    rw [e] at h; simp at h; exact h.symm

/-- The decoder at position i is split and its upper part activated. -/
theorem step_split {chips : Nat → Chip} (hch : ∀ m, (chips m).size < 2147483648) {skip b e s}
    (h : DInv chips skip s) (hbe : b ≤ e)
    (hsk : ∀ x ∈ s.decs, x.id = skip → b = x.asb ∧ e = x.ase) (hin : ∃ x ∈ s.decs, x.id = skip)
    {i : Nat} {d : Dec}
    (hd : s.decs[i]? = some d) (hds : d.id ≠ skip) (h1 : d.asb < b) (h2 : e < d.ase) (f : Nat)
    (hf : s.decs.length < f) :
    let d' := { d with ase := b - 1 }
    let nd : Dec := { id := s.freshId, chip := d.chip, asb := e + 1, ase := d.ase,
                      cb := d.cb + (e - d.asb + 1), act := false }
    let s1 : Space := { s with
      cells := fun i => if b ≤ s.start + i ∧ s.start + i ≤ d.ase then (s.cells i).unDecode else s.cells i
      decs := s.decs.take i ++ d' :: s.decs.drop (i + 1) }
    ∃ s2 r, activateF chips (f + 1) (s1.addDec nd) nd = some (s2, r) ∧ Cleared chips skip b e s s2 ∧
      AfterSplit skip b e i s s2 := by
  intro d' nd s1
  obtain ⟨ar1, ar2, ar3⟩ := around h hd
  have hmd := List.mem_of_getElem? hd
  obtain ⟨ho, hlo, hhi, m, hm, hcb⟩ := h.valid d hmd
  have hb := h.bound
  have hfresh : ∀ x ∈ s.decs, x.id < nd.id := fun x hx => freshId_gt s.decs x hx
  obtain ⟨j, hj, hadd⟩ := addDec_eq s1 nd
  have hs1mem : ∀ x, x ∈ s1.decs ↔ (x ∈ s.decs ∧ x.id ≠ d.id) ∨ x = d' := by
    intro x
    rw [← ar1 x]
    simp only [s1, List.mem_append, List.mem_cons]
    constructor
    · rintro (h | h | h) <;> simp [h]
    · rintro ((h | h) | h) <;> simp [h]
  have hperm : (s1.decs.take j ++ nd :: s1.decs.drop j).Perm (nd :: s1.decs) := by
    have := @List.perm_middle _ nd (s1.decs.take j) (s1.decs.drop j)
    rwa [List.take_append_drop] at this
  have hnd1 : (s1.decs.map Dec.id).Nodup := nodup_map_cons_perm List.perm_middle ar2 ar3
  have hidne : ∀ x ∈ s1.decs, x.id < nd.id := by
    intro x hx
    rcases (hs1mem x).1 hx with ⟨hx, _⟩ | rfl
    · exact hfresh x hx
    · exact hfresh d hmd
  have hnd2 : ((nd :: s1.decs).map Dec.id).Nodup := by
    rw [List.map_cons, List.nodup_cons]
    refine ⟨fun hh => ?_, hnd1⟩
    obtain ⟨x, hx, hxe⟩ := List.mem_map.1 hh
    have := hidne x hx; omega
  have hlen1 : s1.decs.length = s.decs.length := length_replace hd
  have hns : nd.id ≠ skip := by
    obtain ⟨x, hx, hxs⟩ := hin
    have := hfresh x hx; omega
  -- nested activation
  have hal := activate_alone chips hch f (s1.addDec nd) nd (by rw [hadd]; exact hb)
    ⟨by show e + 1 ≤ d.ase; omega, by rw [hadd]; show s.start ≤ e + 1; omega,
     by rw [hadd]; exact hhi, m, hm, by show d.cb + (e - d.asb + 1) + (d.ase - (e + 1)) ≤ _; omega⟩ rfl
    (by
      intro x hx
      rw [hadd] at hx
      rcases List.mem_cons.1 (hperm.mem_iff.1 hx) with rfl | hx
      · exact Or.inl rfl
      · right
        rcases (hs1mem x).1 hx with ⟨hx, hxd⟩ | rfl
        · refine ⟨(h.valid x hx).ord, ?_⟩
          by_cases hxs : x.id = skip
          · obtain ⟨q1, q2⟩ := hsk x hx hxs
            left; show x.ase < e + 1; omega
          · have := h.disj x hx d hmd hxs hds hxd
            unfold Apart at *
            show x.ase < e + 1 ∨ d.ase < x.asb; omega
        · exact ⟨by show d.asb ≤ b - 1; omega, by left; show b - 1 < e + 1; omega⟩)
    (by rw [hadd]; rw [hperm.length_eq, List.length_cons]; omega)
  obtain ⟨m', hm', hcases⟩ := hal
  have hmm : m' = m := by have : d.chip = some m' := hm'; rw [hm] at this; cases this; rfl
  subst hmm
  -- the final state
  have key : ∀ (s2 : Space) (nd2 : Dec), nd2 = nd ∨ nd2 = { nd with act := true } →
      (s2.decs.Perm (nd2 :: s1.decs)) → Frame s s2 →
      (∀ k, k < s.size → s2.cells k =
        if b ≤ s.start + k ∧ s.start + k ≤ e then (s.cells k).unDecode else s.cells k) →
      Cleared chips skip b e s s2 := by
    intro s2 nd2 hnd2' hp2 hfr hcells
    have hndf : nd2.id = nd.id ∧ nd2.asb = e + 1 ∧ nd2.ase = d.ase ∧ nd2.chip = d.chip ∧
        nd2.cb = d.cb + (e - d.asb + 1) := by
      rcases hnd2' with rfl | rfl <;> exact ⟨rfl, rfl, rfl, rfl, rfl⟩
    obtain ⟨n1, n2, n3, n4, n5⟩ := hndf
    refine replace_step h hmd hds [d', nd2] ?_ ?_ hfr ?_ ?_ ?_ ?_ ?_
    · intro x
      rw [hp2.mem_iff, List.mem_cons, hs1mem]
      simp only [List.mem_cons, List.not_mem_nil, or_false]
      constructor
      · rintro (h | h | h) <;> simp [h]
      · rintro (h | h | h) <;> simp [h]
    · rw [(hp2.map _).nodup_iff, List.map_cons, n1]; exact hnd2
    · intro p hp
      simp only [List.mem_cons, List.not_mem_nil, or_false] at hp
      rcases hp with rfl | rfl
      · refine ⟨hds, ?_, Nat.le_refl _, ?_, rfl, ?_, ?_⟩
        · show d.asb ≤ b - 1; omega
        · show b - 1 ≤ d.ase; omega
        · show d.cb = d.cb + (d.asb - d.asb); omega
        · left; show b - 1 < b; omega
      · refine ⟨by rw [n1]; exact hns, by omega, by omega, by omega, n4, by omega, ?_⟩
        right; omega
    · intro p hp q hq hne
      simp only [List.mem_cons, List.not_mem_nil, or_false] at hp hq
      rcases hp with rfl | rfl <;> rcases hq with rfl | rfl
      · exact absurd rfl hne
      · left; show b - 1 < q.asb; omega
      · right; show b - 1 < p.asb; omega
      · exact absurd rfl hne
    · intro a ha1 ha2 hn
      by_cases hlt : a < b
      · exact ⟨d', by simp, ha1, by show a ≤ b - 1; omega⟩
      · exact ⟨nd2, by simp, by omega, by omega⟩
    · intro k hk hk1 hk2
      rw [hcells k hk, if_pos hk2]
      obtain ⟨p, hp⟩ := h.cellIs k hk
      exact unDecode_is hp
    · intro k hk hn
      rw [hcells k hk, if_neg (fun hh => hn ⟨by omega, hh⟩)]
  -- the list
  have hap : Apart d' b e := by left; show b - 1 < b; omega
  have hapn : Apart nd b e := by right; show e < e + 1; omega
  have hcnt1 : s1.decs.countP (meets skip b e) + 1 = s.decs.countP (meets skip b e) :=
    countP_replace hd (meets_true hds (by unfold Apart; omega)) (meets_false hap)
  have hcnt2 : (s1.decs.take j ++ nd :: s1.decs.drop j).countP (meets skip b e) + 1 =
      s.decs.countP (meets skip b e) := by
    rw [hperm.countP_eq, List.countP_cons, meets_false hapn]; simpa using hcnt1
  have hlen2 : (s1.decs.take j ++ nd :: s1.decs.drop j).length = s.decs.length + 1 := by
    rw [hperm.length_eq, List.length_cons, hlen1]
  have hpre : (∀ j < i, ∀ x, s.decs[j]? = some x → x.id = skip ∨ Apart x b e) →
      ∀ k < i + 1, ∀ x, (s1.decs.take j ++ nd :: s1.decs.drop j)[k]? = some x → x.id = skip ∨ Apart x b e := by
    intro hp k hk x hx
    rcases insert_get hj hx with rfl | ⟨k', hk', hx⟩
    · exact Or.inr hapn
    · rcases get_replace hd k' x (by omega) hx with rfl | ⟨hlt, hx⟩
      · exact Or.inr hap
      · exact hp k' hlt x hx
  rcases hcases with ⟨hlt, hact⟩ | ⟨hge, hact⟩
  · refine ⟨_, _, hact, ?_, ?_⟩
    · refine key _ { nd with act := true } (Or.inr rfl) ?_ ?_ ?_
      · have hp3 := hperm.map (fun d : Dec => if d.id = nd.id then { d with act := true } else d)
        rw [List.map_cons, if_pos rfl] at hp3
        have e1 : s1.decs.map (fun d : Dec => if d.id = nd.id then { d with act := true } else d) = s1.decs := by
          conv => rhs; rw [← List.map_id s1.decs]
          apply List.map_congr_left
          intro x hx
          have := hidne x hx
          rw [if_neg (by omega)]; rfl
        rw [e1] at hp3
        unfold Space.setAct
        rw [hadd]
        exact hp3
      · rw [hadd]
        refine ⟨rfl, rfl, rfl, rfl, rfl, ?_⟩
        intro k
        simp only [Space.setAct, s1]
        split <;> split
        · exact (unDecode_sameBut _).trans (decode_sameBut _ _)
        · exact decode_sameBut _ _
        · exact unDecode_sameBut _
        · exact SameBut.refl _
      · intro k hk
        rw [hadd]
        simp only [Space.setAct, s1, nd]
        by_cases hup : e + 1 ≤ s.start + k ∧ s.start + k ≤ d.ase
        · rw [if_pos hup, if_pos (by omega), if_neg (by omega), unDecode_decode]
          have hc := h.mapped k hk m' (d.cb + (s.start + k - d.asb))
            ⟨d, hmd, hds, by omega, by omega, hm, rfl⟩
          have e1 : d.cb + (e - d.asb + 1) + (s.start + k - (e + 1)) = d.cb + (s.start + k - d.asb) := by omega
          rw [e1]
          exact decode_of_is hc
        · rw [if_neg hup]
          by_cases hmid : b ≤ s.start + k ∧ s.start + k ≤ e
          · rw [if_pos hmid, if_pos (by omega)]
          · rw [if_neg hmid, if_neg (by omega)]
    · rw [hadd]
      refine ⟨?_, ?_, ?_⟩
      · simp only [Space.setAct, List.length_map]; exact hlen2
      · simp only [Space.setAct]; rw [meets_act]; exact hcnt2
      · intro hp k hk x hx
        simp only [Space.setAct, List.getElem?_map, Option.map_eq_some_iff] at hx
        obtain ⟨y, hy, rfl⟩ := hx
        have := hpre hp k hk y hy
        split <;> exact this
  · refine ⟨_, _, hact, ?_, ?_⟩
    · refine key _ nd (Or.inl rfl) ?_ ?_ ?_
      · rw [hadd]; exact hperm
      · rw [hadd]; exact undec_cells_frame s b d.ase _
      · intro k hk
        rw [hadd]
        simp only [s1]
        by_cases hup : e + 1 ≤ s.start + k ∧ s.start + k ≤ d.ase
        · rw [if_pos (by omega), if_neg (by omega)]
          have hc := h.mapped k hk m' (d.cb + (s.start + k - d.asb))
            ⟨d, hmd, hds, by omega, by omega, hm, rfl⟩
          have hge' : (chips m').size ≤ d.cb + (e - d.asb + 1) := hge
          have hg : getSlot chips m' (d.cb + (s.start + k - d.asb)) = none := by
            unfold getSlot; rw [if_pos (by omega)]
          rw [hg] at hc
          unfold Cell.unDecode
          rw [if_pos (by rw [hc.2]; rfl)]
        · by_cases hmid : b ≤ s.start + k ∧ s.start + k ≤ e
          · rw [if_pos hmid, if_pos (by omega)]
          · rw [if_neg hmid, if_neg (by omega)]
    · rw [hadd]
      exact ⟨hlen2, hcnt2, hpre⟩

theorem shrunk_right (d : Dec) (b e : Nat) (h1 : b > d.asb) (h2 : b ≤ e + 1) (hb : b < 4294967296) :
    d.shrunk b e = ({ d with ase := b - 1 }, false) := by
  unfold Dec.shrunk
  have e1 : subU b 1 = b - 1 := by unfold subU; omega
  simp only [if_pos h1, e1]
  rw [if_neg (by omega)]
  simp only [Prod.mk.injEq, true_and, decide_eq_false_iff_not]
  omega

theorem shrunk_left (d : Dec) (b e : Nat) (h1 : ¬ b > d.asb) (h2 : d.ase > e) (h0 : d.asb ≤ e)
    (hb : e + 1 < 4294967296) (hc : d.cb + (e - d.asb + 1) < 4294967296) :
    d.shrunk b e = ({ d with cb := d.cb + (e - d.asb + 1), asb := e + 1 }, false) := by
  unfold Dec.shrunk
  simp only [if_neg h1]
  have e2 : u32 (e + 1) = e + 1 := by unfold u32; omega
  have e3 : u32 (d.cb + u32 (subU e d.asb + 1)) = d.cb + (e - d.asb + 1) := by
    unfold u32 subU; omega
  rw [if_pos h2, e2, e3]
  simp only [Prod.mk.injEq, true_and, decide_eq_false_iff_not]
  omega

theorem shrinkOut_right (s : Space) (d : Dec) (b e : Nat) (h1 : b > d.asb) (h2 : b ≤ d.ase) (h3 : d.ase ≤ e)
    (hb : d.ase < 4294967295) :
    s.shrinkOutOf d b e = some (s.undecodeN (d.ase + 1 - b) b, { d with ase := b - 1 }, false) := by
  unfold Space.shrinkOutOf
  have hmin : min e d.ase = d.ase := by omega
  have hr : rangeLen b d.ase = some (d.ase + 1 - b) := by
    unfold rangeLen; rw [if_neg (by omega), if_neg (by omega)]
  simp only [if_pos h1, hmin, hr]
  rw [shrunk_right d b e h1 (by omega) (by omega)]

theorem shrinkOut_left (s : Space) (d : Dec) (b e : Nat) (h1 : ¬ b > d.asb) (h2 : e < d.ase) (h3 : d.asb ≤ e)
    (hb : d.ase < 4294967295) (hc : d.cb + (e - d.asb + 1) < 4294967296) :
    s.shrinkOutOf d b e = some (s.undecodeN (e + 1 - d.asb) d.asb,
      { d with cb := d.cb + (e - d.asb + 1), asb := e + 1 }, false) := by
  unfold Space.shrinkOutOf
  have hmin : min e d.ase = e := by omega
  have hr : rangeLen d.asb e = some (e + 1 - d.asb) := by
    unfold rangeLen; rw [if_neg (by omega), if_neg (by omega)]
  simp only [if_neg h1, hmin, hr]
  rw [shrunk_left d b e h1 (by omega) h3 (by omega) hc]

/-- The loop of undecode_area clears [b,e] and nothing else. -/
theorem undecLoop_spec {chips : Nat → Chip} (hch : ∀ m, (chips m).size < 2147483648) (skip b e : Nat)
    (hbe : b ≤ e) (g : Nat) (f : Nat) : ∀ (i : Nat) (s : Space), DInv chips skip s →
    (∀ x ∈ s.decs, x.id = skip → b = x.asb ∧ e = x.ase) → (∃ x ∈ s.decs, x.id = skip) →
    (∀ j < i, ∀ x, s.decs[j]? = some x → x.id = skip ∨ Apart x b e) → i ≤ s.decs.length →
    s.decs.length + s.decs.countP (meets skip b e) < f + i →
    s.decs.length + s.decs.countP (meets skip b e) < g →
    ∃ s', undecLoop (activateF chips (g + 1)) skip b e f i s = some s' ∧ Cleared chips skip b e s s' ∧
      (∀ x ∈ s'.decs, x.id = skip ∨ Apart x b e) ∧
      s'.decs.length ≤ s.decs.length + s.decs.countP (meets skip b e) := by
  induction f with
  | zero => intro i s _ _ _ _ h1 h2; omega
  | succ f ih =>
    intro i s h hsk hin hpre hi hf hg
    unfold undecLoop
    cases hd : s.decs[i]? with
    | none =>
      refine ⟨s, rfl, ⟨h, Frame.refl s, fun _ _ => Iff.rfl, fun _ _ _ _ => Iff.rfl⟩, ?_, by omega⟩
      intro x hx
      obtain ⟨j, hj, hjx⟩ := List.mem_iff_getElem.1 hx
      have hle : s.decs.length ≤ i := List.getElem?_eq_none_iff.1 hd
      exact hpre j (by omega) x (by rw [List.getElem?_eq_getElem hj, hjx])
    | some d =>
      have hil := (mem_split hd).2
      have hmd := List.mem_of_getElem? hd
      obtain ⟨ho, hlo, hhi, m, hm, hcb⟩ := h.valid d hmd
      have hb := h.bound
      have hch' := hch m
      simp only
      -- continuing after a replacement
      have cont : ∀ (s1 : Space) (i1 : Nat), Cleared chips skip b e s s1 →
          (∀ j < i1, ∀ x, s1.decs[j]? = some x → x.id = skip ∨ Apart x b e) → i1 ≤ s1.decs.length →
          s1.decs.length + s1.decs.countP (meets skip b e) < f + i1 →
          s1.decs.length + s1.decs.countP (meets skip b e) < g →
          s1.decs.length + s1.decs.countP (meets skip b e) ≤ s.decs.length + s.decs.countP (meets skip b e) →
          ∃ s', undecLoop (activateF chips (g + 1)) skip b e f i1 s1 = some s' ∧ Cleared chips skip b e s s' ∧
            (∀ x ∈ s'.decs, x.id = skip ∨ Apart x b e) ∧
            s'.decs.length ≤ s.decs.length + s.decs.countP (meets skip b e) := by
        intro s1 i1 hc hp hl h1 h2 h3
        obtain ⟨s', r1, r2, r3, r4⟩ := ih i1 s1 hc.inv
          (fun x hx hxs => hsk x ((hc.skipIn x hxs).1 hx) hxs)
          (by obtain ⟨x, hx, hxs⟩ := hin; exact ⟨x, (hc.skipIn x hxs).2 hx, hxs⟩) hp hl h1 h2
        exact ⟨s', r1, hc.trans r2, r3, by omega⟩
      by_cases hds : d.id = skip
      · rw [if_pos hds]
        refine cont s (i + 1) ⟨h, Frame.refl s, fun _ _ => Iff.rfl, fun _ _ _ _ => Iff.rfl⟩ ?_ (by omega)
          (by omega) hg (Nat.le_refl _)
        intro j hj x hx
        by_cases hji : j = i
        · subst hji; rw [hd] at hx; cases hx; exact Or.inl hds
        · exact hpre j (by omega) x hx
      rw [if_neg hds]
      by_cases hfc : d.fullyCoveredBy b e = true
      · -- removed
        rw [if_pos hfc]
        simp only [Dec.fullyCoveredBy, Bool.and_eq_true, decide_eq_true_eq] at hfc
        obtain ⟨s1, r1, r2, r3⟩ := step_delete h hd hds hfc.1 hfc.2
        rw [r1]
        simp only
        have hc := countP_erase hd (meets_true (skip := skip) (b := b) (e := e) hds (by unfold Apart; omega))
        rw [← r3] at hc
        have hl : s1.decs.length + 1 = s.decs.length := by
          rw [r3, List.length_append, List.length_take, List.length_drop]; omega
        have hne : s1.decs ≠ [] := by
          obtain ⟨x, hx, hxs⟩ := hin
          intro hnil
          have := (r2.skipIn x hxs).2 hx
          rw [hnil] at this; cases this
        rw [if_neg hne]
        refine cont s1 i r2 ?_ (by omega) (by omega) (by omega) (by omega)
        intro j hj x hx
        rw [r3, List.getElem?_append] at hx
        rw [if_pos (by rw [List.length_take]; omega), List.getElem?_take_of_lt hj] at hx
        exact hpre j hj x hx
      rw [if_neg hfc]
      have hshr : ∀ (d' : Dec) (a1 e1 : Nat),
          (∀ a, (a1 ≤ a ∧ a ≤ e1) ↔ (d.asb ≤ a ∧ a ≤ d.ase) ∧ (b ≤ a ∧ a ≤ e)) →
          (d'.id = d.id ∧ d'.asb ≤ d'.ase ∧ d.asb ≤ d'.asb ∧ d'.ase ≤ d.ase ∧
            d'.chip = d.chip ∧ d'.cb = d.cb + (d'.asb - d.asb) ∧ Apart d' b e) →
          (∀ a, d.asb ≤ a → a ≤ d.ase → ¬(b ≤ a ∧ a ≤ e) → d'.asb ≤ a ∧ a ≤ d'.ase) →
          ¬ Apart d b e → a1 ≤ e1 →
          ∃ s', undecLoop (activateF chips (g + 1)) skip b e f (i + 1)
              { s.undecodeN (e1 + 1 - a1) a1 with decs := (s.undecodeN (e1 + 1 - a1) a1).decs.set i d' } = some s' ∧
            Cleared chips skip b e s s' ∧ (∀ x ∈ s'.decs, x.id = skip ∨ Apart x b e) ∧
            s'.decs.length ≤ s.decs.length + s.decs.countP (meets skip b e) := by
        intro d' a1 e1 q1 q2 q3 q4 q5
        have q6 := (q1 a1).1 ⟨Nat.le_refl _, q5⟩
        have q7 := (q1 e1).1 ⟨q5, Nat.le_refl _⟩
        rw [undecodeN_range s a1 e1 _ hb (by omega) (by omega) q5 rfl]
        simp only
        rw [set_eq _ _ d _ hd]
        have hc := countP_replace hd (meets_true (skip := skip) (b := b) (e := e) hds q4)
          (meets_false (d := d') q2.2.2.2.2.2.2)
        have hl := length_replace (d' := d') hd
        refine cont _ (i + 1) (step_shrink h hd hds a1 e1 q1 q2 q3) ?_ (by simp only [hl]; omega)
          (by simp only [hl]; omega) (by simp only [hl]; omega) (by simp only [hl]; omega)
        intro j hj x hx
        rcases get_replace hd j x hj hx with rfl | ⟨hlt, hx⟩
        · exact Or.inr q2.2.2.2.2.2.2
        · exact hpre j hlt x hx
      by_cases hcv : d.covers b e = true
      · -- split
        rw [if_pos hcv]
        simp only [Dec.covers, Bool.and_eq_true, decide_eq_true_eq, ge_iff_le] at hcv
        simp only [Dec.fullyCoveredBy, Bool.and_eq_true, decide_eq_true_eq, ge_iff_le] at hfc
        unfold Space.split
        by_cases hba : b > d.asb
        · rw [if_pos hba]
          have hsh := shrinkOut_right s d b d.ase hba (by omega) (by omega) (by omega)
          rw [hsh]
          simp only
          by_cases hea : d.ase > e
          · rw [if_pos hea]
            have e2 : u32 (e + 1) = e + 1 := by unfold u32; omega
            have e3 : u32 (d.cb + u32 (subU e d.asb + 1)) = d.cb + (e - d.asb + 1) := by
              unfold u32 subU; omega
            rw [e2, e3]
            simp only
            rw [undecodeN_range s b d.ase _ hb (by omega) (by omega) (by omega) rfl]
            simp only
            rw [set_eq _ _ d _ hd]
            obtain ⟨s2, r, h1, h2, h3⟩ := step_split hch h hbe hsk hin hd hds hba hea g (by omega)
            rw [h1]
            simp only
            exact cont s2 (i + 1) h2 (h3.pre hpre) (by rw [h3.len]; omega)
              (by have := h3.len; have := h3.cnt; omega) (by have := h3.len; have := h3.cnt; omega)
              (by have := h3.len; have := h3.cnt; omega)
          · rw [if_neg hea]
            simp only
            have he : e = d.ase := by omega
            refine hshr { d with ase := b - 1 } b d.ase (by intro a; omega) ?_ ?_ (by unfold Apart; omega) (by omega)
            · refine ⟨rfl, by simp only; omega, Nat.le_refl _, by simp only; omega, rfl, by simp, ?_⟩
              left; simp only; omega
            · intro a h1 h2 h3; simp only; omega
        · rw [if_neg hba]
          have hab : d.asb = b := by omega
          rw [if_pos (by omega)]
          have hsh := shrinkOut_left s d d.asb e (by omega) (by omega) (by omega) (by omega) (by omega)
          rw [hsh, if_neg (by omega)]
          simp only
          refine hshr { d with cb := d.cb + (e - d.asb + 1), asb := e + 1 } d.asb e (by intro a; omega) ?_ ?_
            (by unfold Apart; omega) (by omega)
          · refine ⟨rfl, by simp only; omega, by simp only; omega, Nat.le_refl _, rfl, by simp only; omega, ?_⟩
            right; simp only; omega
          · intro a h1 h2 h3; simp only; omega
      rw [if_neg hcv]
      by_cases hii : d.isIn b e = true
      · -- shrunk
        rw [if_pos hii]
        simp only [Dec.isIn, Bool.and_eq_true, Bool.or_eq_true, decide_eq_true_eq, ge_iff_le] at hii
        simp only [Dec.covers, Bool.and_eq_true, decide_eq_true_eq, ge_iff_le] at hcv
        simp only [Dec.fullyCoveredBy, Bool.and_eq_true, decide_eq_true_eq, ge_iff_le] at hfc
        by_cases hba : b > d.asb
        · have hsh := shrinkOut_right s d b e hba (by omega) (by omega) (by omega)
          rw [hsh]
          simp only [Bool.false_eq_true, if_false]
          refine hshr { d with ase := b - 1 } b d.ase (by intro a; omega) ?_ ?_ (by unfold Apart; omega) (by omega)
          · refine ⟨rfl, by simp only; omega, Nat.le_refl _, by simp only; omega, rfl, by simp, ?_⟩
            left; simp only; omega
          · intro a h1 h2 h3; simp only; omega
        · have hsh := shrinkOut_left s d b e hba (by omega) (by omega) (by omega) (by omega)
          rw [hsh]
          simp only [Bool.false_eq_true, if_false]
          refine hshr { d with cb := d.cb + (e - d.asb + 1), asb := e + 1 } d.asb e (by intro a; omega) ?_ ?_
            (by unfold Apart; omega) (by omega)
          · refine ⟨rfl, by simp only; omega, by simp only; omega, Nat.le_refl _, rfl, by simp only; omega, ?_⟩
            right; simp only; omega
          · intro a h1 h2 h3; simp only; omega
      · rw [if_neg hii]
        refine cont s (i + 1) ⟨h, Frame.refl s, fun _ _ => Iff.rfl, fun _ _ _ _ => Iff.rfl⟩ ?_ (by omega)
          (by omega) hg (Nat.le_refl _)
        intro j hj x hx
        by_cases hji : j = i
        · subst hji; rw [hd] at hx; cases hx
          exact Or.inr (not_touch (by simpa using hfc) (by simpa using hcv) (by simpa using hii))
        · exact hpre j (by omega) x hx

/-- The decoder list describes the decoding of the cells. -/
structure Good (chips : Nat → Chip) (s : Space) : Prop where
  nodup : (s.decs.map Dec.id).Nodup
  bound : s.start + s.size < 4294967296
  valid : ∀ d ∈ s.decs, ValidDec chips s d
  disj : ∀ d ∈ s.decs, ∀ d' ∈ s.decs, d.id ≠ d'.id → Apart d d'.asb d'.ase
  mapped : ∀ i, i < s.size → ∀ d ∈ s.decs, d.asb ≤ s.start + i → s.start + i ≤ d.ase →
    ∀ m, d.chip = some m → CellIs (s.cells i) (getSlot chips m (d.cb + (s.start + i - d.asb)))
  unmapped : ∀ i, i < s.size → (∀ d ∈ s.decs, ¬(d.asb ≤ s.start + i ∧ s.start + i ≤ d.ase)) →
    CellIs (s.cells i) none

theorem newSpace_good (chips : Nat → Chip) (start size width : Nat) (u : Bool)
    (h : start + size < 4294967296) : Good chips (newSpace start size width u) := by
  refine ⟨?_, h, ?_, ?_, ?_, ?_⟩
  · simp [newSpace]
  · intro d hd; simp [newSpace] at hd
  · intro d hd; simp [newSpace] at hd
  · intro i _ d hd; simp [newSpace] at hd
  · intro i _ _; exact ⟨rfl, rfl⟩

/-- Adding and activating a decoder whose arguments pass the tests. -/
theorem addActivate_ok {chips : Nat → Chip} (hch : ∀ m, (chips m).size < 2147483648) {s : Space}
    (hg : Good chips s) (b e m cb : Nat) (hbe : b ≤ e) (hlo : s.start ≤ b) (hhi : e < s.start + s.size)
    (hcb : cb < (chips m).size) (hsz : e - b ≤ (chips m).size - cb) (F : Nat)
    (hF : 2 * s.decs.length + 6 ≤ F) :
    ∃ s', addActivate chips F s b e m cb = some (s', true) ∧ Good chips s' ∧ Frame s s' ∧
      (∀ i, i < s.size → b ≤ s.start + i → s.start + i ≤ e →
        CellIs (s'.cells i) (getSlot chips m (cb + (s.start + i - b)))) ∧
      (∀ i, i < s.size → ¬(b ≤ s.start + i ∧ s.start + i ≤ e) → s'.cells i = s.cells i) ∧
      (∃ d ∈ s'.decs, d.asb = b ∧ d.ase = e ∧ d.chip = some m ∧ d.cb = cb ∧ d.act = true) ∧
      s'.decs.length ≤ 2 * s.decs.length + 1 := by
  obtain ⟨F, rfl⟩ : ∃ g, F = g + 2 := ⟨F - 2, by omega⟩
  unfold addActivate
  simp only
  generalize hd : ({ id := s.freshId, chip := some m, asb := b, ase := e, cb := cb, act := false } : Dec) = d
  have hdf : d.id = s.freshId ∧ d.chip = some m ∧ d.asb = b ∧ d.ase = e ∧ d.cb = cb ∧ d.act = false := by
    subst hd; exact ⟨rfl, rfl, rfl, rfl, rfl, rfl⟩
  obtain ⟨d1, d2, d3, d4, d5, d6⟩ := hdf
  have hb := hg.bound
  have hm := hch m
  obtain ⟨j, hj, hadd⟩ := addDec_eq s d
  have hperm : (s.decs.take j ++ d :: s.decs.drop j).Perm (d :: s.decs) := by
    have := @List.perm_middle _ d (s.decs.take j) (s.decs.drop j)
    rwa [List.take_append_drop] at this
  have hfresh : ∀ x ∈ s.decs, x.id ≠ d.id := by
    intro x hx; have := freshId_gt s.decs x hx; rw [d1]; unfold Space.freshId; omega
  have hmem : ∀ x, x ∈ (s.addDec d).decs ↔ x = d ∨ x ∈ s.decs := by
    intro x; rw [hadd]; exact (hperm.mem_iff).trans List.mem_cons
  have htgt : ∀ a m' k, Tgt (s.addDec d) d.id a m' k ↔
      ∃ x ∈ s.decs, x.asb ≤ a ∧ a ≤ x.ase ∧ x.chip = some m' ∧ k = x.cb + (a - x.asb) := by
    intro a m' k
    constructor
    · rintro ⟨x, hx, hne, h1, h2, h3, h4⟩
      rcases (hmem x).1 hx with rfl | hx
      · exact absurd rfl hne
      · exact ⟨x, hx, h1, h2, h3, h4⟩
    · rintro ⟨x, hx, h1, h2, h3, h4⟩
      exact ⟨x, (hmem x).2 (Or.inr hx), hfresh x hx, h1, h2, h3, h4⟩
  have hinv : DInv chips d.id (s.addDec d) := by
    refine ⟨?_, by rw [hadd]; exact hb, ?_, ?_, ?_, ?_⟩
    · rw [hadd]
      simp only
      rw [(hperm.map _).nodup_iff, List.map_cons, List.nodup_cons]
      refine ⟨fun hh => ?_, hg.nodup⟩
      obtain ⟨x, hx, hxe⟩ := List.mem_map.1 hh
      exact hfresh x hx hxe
    · intro x hx
      rcases (hmem x).1 hx with rfl | hx
      · rw [hadd]
        exact ⟨by omega, by simp only; omega, by simp only; omega, m, d2, by omega⟩
      · obtain ⟨v1, v2, v3, v4⟩ := hg.valid x hx
        rw [hadd]
        exact ⟨v1, v2, v3, v4⟩
    · intro x hx y hy hxs hys hxy
      rcases (hmem x).1 hx with rfl | hx
      · exact absurd rfl hxs
      · rcases (hmem y).1 hy with rfl | hy
        · exact absurd rfl hys
        · exact hg.disj x hx y hy hxy
    · intro i hi m' k ht
      have hst : (s.addDec d).start = s.start := by rw [hadd]
      have hsz' : (s.addDec d).size = s.size := by rw [hadd]
      have hce : (s.addDec d).cells = s.cells := by rw [hadd]
      rw [hst] at ht; rw [hsz'] at hi; rw [hce]
      obtain ⟨x, hx, h1, h2, h3, rfl⟩ := (htgt _ m' k).1 ht
      exact hg.mapped i hi x hx h1 h2 m' h3
    · intro i hi hn
      have hst : (s.addDec d).start = s.start := by rw [hadd]
      have hsz' : (s.addDec d).size = s.size := by rw [hadd]
      have hce : (s.addDec d).cells = s.cells := by rw [hadd]
      rw [hst] at hn; rw [hsz'] at hi; rw [hce]
      apply hg.unmapped i hi
      intro x hx hxr
      obtain ⟨mx, hmx, _⟩ := (hg.valid x hx).chip
      exact hn mx _ ((htgt _ _ _).2 ⟨x, hx, hxr.1, hxr.2, hmx, rfl⟩)
  have hlen : (s.addDec d).decs.length = s.decs.length + 1 := by
    rw [hadd]; simp only; rw [hperm.length_eq, List.length_cons]
  have hcnt : (s.addDec d).decs.countP (meets d.id d.asb d.ase) ≤ s.decs.length := by
    rw [hadd]
    simp only
    rw [hperm.countP_eq, List.countP_cons]
    have : meets d.id d.asb d.ase d = false := by simp [meets]
    rw [this]
    have := List.countP_le_length (p := meets d.id d.asb d.ase) (l := s.decs)
    simp only [Bool.false_eq_true, if_false]; omega
  obtain ⟨s2, r1, r2, r3, r4⟩ := undecLoop_spec hch d.id d.asb d.ase (by omega) F (F + 2) 0 (s.addDec d) hinv
    (fun x hx hxs => by
      rcases (hmem x).1 hx with rfl | hx
      · exact ⟨rfl, rfl⟩
      · exact absurd hxs (hfresh x hx))
    ⟨d, (hmem d).2 (Or.inl rfl), rfl⟩ (fun j hj => by omega) (by omega) (by omega) (by omega)
  have hst : (s.addDec d).start = s.start := by rw [hadd]
  have hsz' : (s.addDec d).size = s.size := by rw [hadd]
  have hce : (s.addDec d).cells = s.cells := by rw [hadd]
  have hfr1 : Frame s (s.addDec d) := by
    rw [hadd]; exact ⟨rfl, rfl, rfl, rfl, rfl, fun _ => SameBut.refl _⟩
  have hok : actOk chips (s.addDec d) d = true := by
    unfold actOk
    have e1 : subU d.ase d.asb = d.ase - d.asb := by unfold subU; omega
    have e2 : subU (chips m).size d.cb = (chips m).size - d.cb := by unfold subU; omega
    have e3 : u32 (s.start + s.size) = s.start + s.size := by unfold u32; omega
    rw [d2, hst, hsz']
    simp only [d6, e1, e2, e3, Bool.and_eq_true, Bool.not_eq_true', decide_eq_true_eq,
      Bool.or_eq_false_iff, decide_eq_false_iff_not]
    refine ⟨⟨⟨⟨trivial, by omega⟩, by omega⟩, by omega, by omega⟩, by omega⟩
  have hfr2 := hfr1.trans r2.frame
  have hr : rangeLen d.asb d.ase = some (d.ase + 1 - d.asb) := by
    unfold rangeLen; rw [if_neg (by omega), if_neg (by omega)]
  have hdec := decodeN_eq chips m (d.ase + 1 - d.asb) d.asb d.cb s2
    (by rw [hfr2.start, hfr2.size]; exact hb) (by rw [hfr2.start]; omega)
    (by rw [hfr2.start, hfr2.size]; omega) (by omega)
  have hres : activateF chips (F + 2) (s.addDec d) d =
      some ((s2.decodeN chips m (d.ase + 1 - d.asb) d.asb d.cb).setAct d.id, true) := by
    unfold activateF
    rw [if_pos hok, r1]
    simp only [d2, hr]
  rw [hres, hdec]
  -- membership in the final list
  have hmem2 : ∀ x, x ∈ s2.decs → x.id = d.id → x = d := by
    intro x hx hxd
    rcases (hmem x).1 ((r2.skipIn x hxd).1 hx) with rfl | hx
    · rfl
    · exact absurd hxd (hfresh x hx)
  have hdin : d ∈ s2.decs := (r2.skipIn d rfl).2 ((hmem d).2 (Or.inl rfl))
  generalize hs3 : (({ s2 with
        cells := fun i => if d.asb ≤ s2.start + i ∧ s2.start + i < d.asb + (d.ase + 1 - d.asb) then
          Cell.decode (s2.cells i) (getSlot chips m (d.cb + (s2.start + i - d.asb))) else s2.cells i } : Space).setAct
        d.id) = s3
  have hmem3 : ∀ x, x ∈ s3.decs ↔ (x ∈ s2.decs ∧ x.id ≠ d.id) ∨ x = { d with act := true } := by
    intro x
    rw [← hs3, setAct_mem]
    constructor
    · rintro ⟨y, hy, rfl⟩
      by_cases hyd : y.id = d.id
      · have := hmem2 y hy hyd; subst this
        right; rw [if_pos rfl]
      · left; rw [if_neg hyd]; exact ⟨hy, hyd⟩
    · rintro (⟨hx, hne⟩ | rfl)
      · exact ⟨x, hx, by rw [if_neg hne]⟩
      · exact ⟨d, hdin, by rw [if_pos rfl]⟩
  have hcell3 : ∀ i, s3.cells i = if b ≤ s.start + i ∧ s.start + i ≤ e then
      Cell.decode (s2.cells i) (getSlot chips m (cb + (s.start + i - b))) else s2.cells i := by
    intro i
    rw [← hs3]
    simp only [Space.setAct]
    rw [hfr2.start, d3, d4, d5]
    by_cases hc : b ≤ s.start + i ∧ s.start + i ≤ e
    · rw [if_pos hc, if_pos (by omega)]
    · rw [if_neg hc, if_neg (by omega)]
  have hfr3 : Frame s s3 := by
    refine hfr2.trans ?_
    rw [← hs3]
    refine ⟨rfl, rfl, rfl, rfl, rfl, ?_⟩
    intro i
    simp only [Space.setAct]
    split
    · exact decode_sameBut _ _
    · exact SameBut.refl _
  -- cells outside of the area
  have hout : ∀ i, i < s.size → ¬(b ≤ s.start + i ∧ s.start + i ≤ e) → s3.cells i = s.cells i := by
    intro i hi hn
    rw [hcell3, if_neg hn]
    have hsb := (hfr2.cells i)
    have hi1 : i < (s.addDec d).size := by rw [hsz']; exact hi
    have hi2 : i < s2.size := by rw [hfr2.size]; exact hi
    have hagree : ∃ p, CellIs (s2.cells i) p ∧ CellIs (s.cells i) p := by
      by_cases ht : ∃ m' k, Tgt s2 d.id (s.start + i) m' k
      · obtain ⟨m', k, ht⟩ := ht
        have h1 := r2.inv.mapped i hi2 m' k (by rw [hfr2.start]; exact ht)
        have h2 := hinv.mapped i hi1 m' k (by
          rw [hst]; exact (r2.outside _ (by rw [d3, d4]; exact hn) m' k).1 ht)
        rw [hce] at h2
        exact ⟨_, h1, h2⟩
      · have h1 := r2.inv.unmapped i hi2 (by rw [hfr2.start]; exact fun m' k hh => ht ⟨m', k, hh⟩)
        have h2 := hinv.unmapped i hi1 (by
          rw [hst]; exact fun m' k hh => ht ⟨m', k, (r2.outside _ (by rw [d3, d4]; exact hn) m' k).2 hh⟩)
        rw [hce] at h2
        exact ⟨_, h1, h2⟩
    obtain ⟨p, h1, h2⟩ := hagree
    unfold SameBut at hsb
    rw [hsb, h1.1, h1.2, ← h2.1, ← h2.2]
  have hins : ∀ i, i < s.size → b ≤ s.start + i → s.start + i ≤ e →
      CellIs (s3.cells i) (getSlot chips m (cb + (s.start + i - b))) := by
    intro i hi h1 h2
    rw [hcell3, if_pos ⟨h1, h2⟩]
    exact decode_is _ _
  have hapart : ∀ x ∈ s2.decs, x.id ≠ d.id → Apart x b e := by
    intro x hx hne
    have := (r3 x hx).resolve_left hne
    rw [d3, d4] at this; exact this
  refine ⟨s3, rfl, ⟨?_, ?_, ?_, ?_, ?_, ?_⟩, hfr3, hins, hout, ?_, ?_⟩
  · rw [← hs3, setAct_ids]; exact r2.inv.nodup
  · rw [hfr3.start, hfr3.size]; exact hb
  · intro x hx
    rcases (hmem3 x).1 hx with ⟨hx, _⟩ | rfl
    · obtain ⟨v1, v2, v3, v4⟩ := r2.inv.valid x hx
      exact ⟨v1, by rw [hfr3.start, ← hfr2.start]; exact v2,
        by rw [hfr3.start, hfr3.size, ← hfr2.start, ← hfr2.size]; exact v3, v4⟩
    · exact ⟨by show d.asb ≤ d.ase; omega, by rw [hfr3.start]; show s.start ≤ d.asb; omega,
        by rw [hfr3.start, hfr3.size]; show d.ase < _; omega, m, d2,
        by show d.cb + (d.ase - d.asb) ≤ _; omega⟩
  · intro x hx y hy hxy
    rcases (hmem3 x).1 hx with ⟨hx, hxd⟩ | rfl <;> rcases (hmem3 y).1 hy with ⟨hy, hyd⟩ | rfl
    · exact r2.inv.disj x hx y hy hxd hyd hxy
    · show Apart x d.asb d.ase
      rw [d3, d4]; exact hapart x hx hxd
    · have := hapart y hy hyd
      have hyo := (r2.inv.valid y hy).ord
      unfold Apart at *
      show d.ase < y.asb ∨ y.ase < d.asb
      omega
    · exact absurd rfl hxy
  · intro i hi x hx h1 h2 m' hm'
    rw [hfr3.start] at h1 h2 ⊢; rw [hfr3.size] at hi
    rcases (hmem3 x).1 hx with ⟨hx, hxd⟩ | rfl
    · have hap := hapart x hx hxd
      have hn : ¬(b ≤ s.start + i ∧ s.start + i ≤ e) := by unfold Apart at hap; omega
      rw [hcell3, if_neg hn]
      exact r2.inv.mapped i (by rw [hfr2.size]; exact hi) m' _
        ⟨x, hx, hxd, by rw [hfr2.start]; exact h1, by rw [hfr2.start]; exact h2, hm', by rw [hfr2.start]⟩
    · have h1' : d.asb ≤ s.start + i := h1
      have h2' : s.start + i ≤ d.ase := h2
      have hm2 : m' = m := by
        have h5 : d.chip = some m' := hm'
        rw [d2] at h5; cases h5; rfl
      subst hm2
      show CellIs _ (getSlot chips m' (d.cb + (s.start + i - d.asb)))
      rw [d3] at h1' ⊢; rw [d4] at h2'; rw [d5]
      exact hins i hi h1' h2'
  · intro i hi hn
    rw [hfr3.start] at hn; rw [hfr3.size] at hi
    have hn0 := hn _ ((hmem3 _).2 (Or.inr rfl))
    have hn' : ¬(b ≤ s.start + i ∧ s.start + i ≤ e) := by
      have h5 : ¬(d.asb ≤ s.start + i ∧ s.start + i ≤ d.ase) := hn0
      rw [d3, d4] at h5; exact h5
    rw [hcell3, if_neg hn']
    apply r2.inv.unmapped i (by rw [hfr2.size]; exact hi)
    rintro m' k ⟨x, hx, hxs, h1, h2, h3, h4⟩
    rw [hfr2.start] at h1 h2
    exact hn x ((hmem3 x).2 (Or.inl ⟨hx, hxs⟩)) ⟨h1, h2⟩
  · exact ⟨_, (hmem3 _).2 (Or.inr rfl), d3, d4, d2, d5, rfl⟩
  · rw [← hs3]
    simp only [Space.setAct, List.length_map]
    omega

end Ucsim
