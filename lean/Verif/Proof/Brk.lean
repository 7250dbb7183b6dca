import Verif.Core.Brk
import Verif.Proof.MemExtra
import Verif.Proof.VarStep
import Verif.Props.Var

/-
Invariant of the breakpoint tables.
-/
namespace Ucsim
open Spec Props

/-! ### the range test -/

theorem idx_some {s : Space} {a i : Nat} (hb : s.start + s.size < 2 ^ 32) (ha : a < 2 ^ 32) :
    s.idx? a = some i ↔ s.start ≤ a ∧ a < s.start + s.size ∧ i = a - s.start := by
  rw [idx?_eq s a (by omega) (by omega)]
  split
  · rename_i h; simp only [Option.some.injEq]; constructor
    · intro h'; exact ⟨h.1, h.2, h'.symm⟩
    · intro h'; exact h'.2.2.symm
  · rename_i h; simp only [reduceCtorEq, false_iff]; intro h'; exact h ⟨h'.1, h'.2.1⟩

theorem idx_inj {s : Space} {a b i : Nat} (hb : s.start + s.size < 2 ^ 32) (ha : a < 2 ^ 32) (hb' : b < 2 ^ 32)
    (h1 : s.idx? a = some i) (h2 : s.idx? b = some i) : a = b := by
  rw [idx_some hb ha] at h1; rw [idx_some hb hb'] at h2; omega

theorem validAddr_iff {s : Space} {a : Nat} (hb : s.start + s.size < 2 ^ 32) (ha : a < 2 ^ 32) :
    validAddr s.start s.size a = true ↔ ∃ i, s.idx? a = some i := by
  unfold validAddr u32
  rw [Nat.mod_eq_of_lt (by omega)]
  simp only [decide_eq_true_eq]
  constructor
  · intro h; exact ⟨a - s.start, (idx_some hb ha).2 ⟨h.1, h.2, rfl⟩⟩
  · rintro ⟨i, h⟩; have := (idx_some hb ha).1 h; omega

/-! ### lists -/

theorem cmpNr_preorder : PreorderCmp cmpNr := by
  constructor
  · intro a; simp [cmpNr]
  · intro a b; unfold cmpNr; split <;> split <;> (try split) <;> (try split) <;> omega
  · intro a b c; unfold cmpNr; split <;> split <;> (try split) <;> (try split) <;> (try split) <;> omega

theorem sorted_cmpNr {l : List Brk} (h : l.Pairwise (fun a b => a.nr < b.nr)) : SortedBy cmpNr l := by
  apply List.Pairwise.imp _ h
  intro a b hab
  show cmpNr a b ≤ 0
  unfold cmpNr; split <;> (try split) <;> omega

/-- Adding an item with the greatest number appends it. -/
theorem slAdd_append (l : CList Brk) (hf : l.Fits) (hd : 0 < l.delta) (hs : l.items.Pairwise (fun a b => a.nr < b.nr))
    (x : Brk) (hx : ∀ y ∈ l.items, y.nr < x.nr) :
    (l.items.length < maxListSize → ∃ l', slAdd cmpNr false l x = .ok l') ∧
    ∀ l', slAdd cmpNr false l x = .ok l' → l'.Fits ∧ l'.delta = l.delta ∧ l'.items = l.items ++ [x] := by
  have hne : ∀ y ∈ l.items, cmpNr y x ≠ 0 := by
    intro y hy h0
    have := hx y hy
    unfold cmpNr at h0; split at h0 <;> (try split at h0) <;> omega
  constructor
  · intro hlt
    obtain ⟨l', h, _⟩ := c14_add_partial cmpNr cmpNr_preorder false l hf hd hlt (sorted_cmpNr hs) x
    exact ⟨l', h⟩
  · intro l' hl'
    by_cases hlt : l.items.length < maxListSize
    · obtain ⟨l'', h1, h2, h3, h4, h5⟩ := c14_add_partial cmpNr cmpNr_preorder false l hf hd hlt (sorted_cmpNr hs) x
      rw [hl'] at h1; cases h1
      refine ⟨h2, h3, ?_⟩
      rcases h5 with ⟨_, ⟨y, hy, h0⟩, _⟩ | ⟨_, i, hi, he⟩
      · exact absurd h0 (hne y hy)
      · rw [he]
        rw [he, insertIdx_split _ _ _ hi] at h4
        unfold SortedBy at h4
        rw [List.pairwise_append, List.pairwise_cons] at h4
        have hnil : l.items.drop i = [] := by
          rcases hdr : l.items.drop i with _ | ⟨y, ys⟩
          · rfl
          · exfalso
            have hy : y ∈ l.items.drop i := by rw [hdr]; exact List.mem_cons_self
            have h6 := h4.2.1.1 y hy
            have h7 := hx y (List.mem_of_mem_drop hy)
            unfold cmpNr at h6; split at h6 <;> (try split at h6) <;> omega
        rw [insertIdx_split _ _ _ hi, hnil]
        have := List.take_append_drop i l.items
        rw [hnil, List.append_nil] at this
        rw [this]
    · have := hf.1; have := hf.2
      rw [slAdd_full cmpNr cmpNr_preorder l hf (by omega) (sorted_cmpNr hs) x hne] at hl'
      cases hl'

theorem nodup_of_nr {l : List Brk} (h : l.Pairwise (fun a b => a.nr < b.nr)) : l.Nodup := by
  apply List.Pairwise.imp _ h
  intro a b hab he; rw [he] at hab; omega

theorem eraseIdx_filter {α : Type} [DecidableEq α] {l : List α} (hn : l.Nodup) {i : Nat} {b : α} (h : l[i]? = some b) :
    l.eraseIdx i = l.filter (fun x => x ≠ b) := by
  induction l generalizing i with
  | nil => simp at h
  | cons a l ih =>
    rw [List.nodup_cons] at hn
    cases i with
    | zero =>
      simp only [List.getElem?_cons_zero, Option.some.injEq] at h; subst h
      simp only [List.eraseIdx_cons_zero, ne_eq, not_true_eq_false, decide_false, Bool.false_eq_true,
        not_false_eq_true, List.filter_cons_of_neg]
      symm; rw [List.filter_eq_self]
      intro x hx; simp only [decide_eq_true_eq]; exact fun he => hn.1 (he ▸ hx)
    | succ i =>
      simp only [List.getElem?_cons_succ] at h
      have hb : b ∈ l := List.mem_of_getElem? h
      have hab : a ≠ b := fun he => hn.1 (he ▸ hb)
      simp only [List.eraseIdx_cons_succ]
      rw [List.filter_cons_of_pos (by simp [hab]), ih hn.2 h]

/-! ### operators -/

def MOp.isBrk : MOp → Bool
  | .wr _ | .rd _ => true
  | _ => false

/-- The operator of an event breakpoint. -/
def Brk.op (b : Brk) : MOp := if b.kind = .wr then .wr b.id else .rd b.id

/-- The breakpoint watches cell `i` of space `sp`. -/
def Brk.at_ (w : World) (sp i : Nat) (b : Brk) : Bool :=
  b.mem = sp ∧ (w.spaces sp).idx? b.addr = some i ∧ (b.kind = .rd ∨ b.kind = .wr)

/-- The invariant of the breakpoint tables. -/
structure BInv (s : BSt) : Prop where
  geo : ∀ sp, (s.w.spaces sp).start + (s.w.spaces sp).size < 2 ^ 32
  ffit : s.fbrk.Fits
  efit : s.ebrk.Fits
  fdel : 0 < s.fbrk.delta
  edel : 0 < s.ebrk.delta
  fsort : s.fbrk.items.Pairwise (fun a b => a.nr < b.nr)
  esort : s.ebrk.items.Pairwise (fun a b => a.nr < b.nr)
  cross : ∀ a ∈ s.fbrk.items, ∀ b ∈ s.ebrk.items, a.nr ≠ b.nr
  fnr : ∀ b ∈ s.fbrk.items, 1 ≤ b.nr ∧ b.nr ≤ s.counter
  enr : ∀ b ∈ s.ebrk.items, 1 ≤ b.nr ∧ b.nr ≤ s.counter
  fid : s.fbrk.items.Pairwise (fun a b => a.id ≠ b.id)
  eid : s.ebrk.items.Pairwise (fun a b => a.id ≠ b.id)
  cid : ∀ a ∈ s.fbrk.items, ∀ b ∈ s.ebrk.items, a.id ≠ b.id
  ffr : ∀ b ∈ s.fbrk.items, b.id < s.fresh
  efr : ∀ b ∈ s.ebrk.items, b.id < s.fresh
  fk : ∀ b ∈ s.fbrk.items, b.kind = .fetch ∧ b.mem = s.rom ∧ b.addr < 2 ^ 32
  ek : ∀ b ∈ s.ebrk.items, b.kind ≠ .fetch
  flag : ∀ i, i < (s.w.spaces s.rom).size →
    (((s.w.spaces s.rom).cells i).fetchBrk = true ↔ ∃ b ∈ s.fbrk.items, (s.w.spaces s.rom).idx? b.addr = some i)
  fuq : ∀ a ∈ s.fbrk.items, ∀ b ∈ s.fbrk.items, ∀ i, a.addr = b.addr → (s.w.spaces s.rom).idx? a.addr = some i → a = b
  ops : ∀ sp i, i < (s.w.spaces sp).size →
    ((s.w.spaces sp).cells i).ops.filter MOp.isBrk = (s.ebrk.items.filter (Brk.at_ s.w sp i)).map Brk.op

/-! ### setting and removing a breakpoint in memory -/

/-- The changes of `setBrk`/`delBrk` to the spaces: geometry is kept. -/
structure SameGeo (w w' : World) : Prop where
  start : ∀ sp, (w'.spaces sp).start = (w.spaces sp).start
  size : ∀ sp, (w'.spaces sp).size = (w.spaces sp).size

theorem SameGeo.idx {w w' : World} (h : SameGeo w w') (sp a : Nat) :
    (w'.spaces sp).idx? a = (w.spaces sp).idx? a := idx?_congr (h.start sp) (h.size sp) a

theorem SameGeo.at_ {w w' : World} (h : SameGeo w w') (sp i : Nat) : Brk.at_ w' sp i = Brk.at_ w sp i := by
  funext b; unfold Brk.at_; rw [h.idx]

theorem SameGeo.of_spaces {w w' : World} (h : w'.spaces = w.spaces) : SameGeo w w' :=
  ⟨fun _ => by rw [h], fun _ => by rw [h]⟩

theorem SameGeo.trans {a b c : World} (h : SameGeo a b) (g : SameGeo b c) : SameGeo a c :=
  ⟨fun sp => (g.start sp).trans (h.start sp), fun sp => (g.size sp).trans (h.size sp)⟩

theorem setCell_geo (w : World) (sp i : Nat) (c : Cell) : SameGeo w (w.setCell (.cell sp i) c) := by
  constructor <;> intro sp' <;> simp only [World.setCell, World.setSpace] <;>
  · by_cases h : sp' = sp
    · subst h; simp
    · rw [upd_other _ _ _ _ h]

theorem setCell_cells (w : World) (sp i : Nat) (c : Cell) (sp' j : Nat) :
    ((w.setCell (.cell sp i) c).spaces sp').cells j = if sp' = sp ∧ j = i then c else (w.spaces sp').cells j := by
  simp only [World.setCell, World.setSpace]
  by_cases h : sp' = sp
  · subst h
    simp only [upd_same, true_and]
    by_cases hj : j = i
    · subst hj; simp
    · rw [upd_other _ _ _ _ hj, if_neg hj]
  · rw [upd_other _ _ _ _ h, if_neg (fun hh => h hh.1)]

theorem setBrk_geo (w : World) (b : Brk) : SameGeo w (w.setBrk b) := by
  unfold World.setBrk
  split
  · exact SameGeo.of_spaces rfl
  · simp only; split
    · exact setCell_geo _ _ _ _
    · exact setCell_geo _ _ _ _
    · exact setCell_geo _ _ _ _
    · exact SameGeo.of_spaces rfl

theorem setBrk_flag (w : World) (b : Brk) (sp j : Nat) :
    (((w.setBrk b).spaces sp).cells j).fetchBrk =
      (((w.spaces sp).cells j).fetchBrk || decide (b.kind = .fetch ∧ b.mem = sp ∧ (w.spaces sp).idx? b.addr = some j)) := by
  unfold World.setBrk
  cases hi : (w.spaces b.mem).idx? b.addr with
  | none =>
    simp only
    rw [decide_eq_false, Bool.or_false]
    rintro ⟨_, rfl, h⟩; rw [h] at hi; cases hi
  | some i =>
    have key : (b.mem = sp ∧ (w.spaces sp).idx? b.addr = some j) ↔ (sp = b.mem ∧ j = i) := by
      constructor
      · rintro ⟨rfl, h⟩; rw [hi] at h; cases h; exact ⟨rfl, rfl⟩
      · rintro ⟨rfl, rfl⟩; exact ⟨rfl, hi⟩
    simp only [key]
    cases hk : b.kind <;> simp only [setCell_cells, reduceCtorEq, false_and, decide_false, Bool.or_false, true_and]
    · by_cases h : sp = b.mem ∧ j = i
      · rw [if_pos h]; simp [h]
      · rw [if_neg h]; simp [h]
    · by_cases h : sp = b.mem ∧ j = i
      · rw [if_pos h, h.1, h.2]
      · rw [if_neg h]
    · by_cases h : sp = b.mem ∧ j = i
      · rw [if_pos h, h.1, h.2]
      · rw [if_neg h]

theorem setBrk_ops (w : World) (b : Brk) (sp j : Nat) :
    (((w.setBrk b).spaces sp).cells j).ops =
      ((w.spaces sp).cells j).ops ++ if Brk.at_ w sp j b then [b.op] else [] := by
  unfold World.setBrk
  cases hi : (w.spaces b.mem).idx? b.addr with
  | none =>
    simp only
    rw [if_neg, List.append_nil]
    unfold Brk.at_
    simp only [decide_eq_true_eq]
    rintro ⟨rfl, h, _⟩; rw [h] at hi; cases hi
  | some i =>
    have key : Brk.at_ w sp j b = true ↔ ((sp = b.mem ∧ j = i) ∧ (b.kind = .rd ∨ b.kind = .wr)) := by
      unfold Brk.at_
      simp only [decide_eq_true_eq]
      constructor
      · rintro ⟨rfl, h, hk⟩; rw [hi] at h; cases h; exact ⟨⟨rfl, rfl⟩, hk⟩
      · rintro ⟨⟨rfl, rfl⟩, hk⟩; exact ⟨rfl, hi, hk⟩
    simp only [key, Brk.op]
    cases hk : b.kind <;> simp only [setCell_cells, reduceCtorEq, or_self, and_false, if_false, List.append_nil,
      or_true, true_or, and_true, if_true]
    · by_cases h : sp = b.mem ∧ j = i
      · rw [if_pos h, h.1, h.2]
      · rw [if_neg h]
    · by_cases h : sp = b.mem ∧ j = i
      · rw [if_pos h, if_pos h, h.1, h.2]
      · rw [if_neg h, if_neg h, List.append_nil]
    · by_cases h : sp = b.mem ∧ j = i
      · rw [if_pos h, if_pos h, h.1, h.2]
      · rw [if_neg h, if_neg h, List.append_nil]

theorem setBrk_rest (w : World) (b : Brk) :
    (w.setBrk b).bytes = w.bytes ∧ (w.setBrk b).brks = w.brks ∧ (w.setBrk b).events = w.events := by
  unfold World.setBrk; split
  · exact ⟨rfl, rfl, rfl⟩
  · simp only; split <;> exact ⟨rfl, rfl, rfl⟩

theorem delBrk_geo {w w' : World} {b : Brk} (h : w.delBrk b = some w') : SameGeo w w' := by
  unfold World.delBrk at h
  split at h
  · cases h; exact SameGeo.of_spaces rfl
  · simp only at h; split at h
    · cases h; exact setCell_geo _ _ _ _
    · split at h
      · cases h
      · cases h; exact setCell_geo _ _ _ _
    · split at h
      · cases h
      · cases h; exact setCell_geo _ _ _ _
    · cases h; exact SameGeo.of_spaces rfl

theorem delBrk_rest {w w' : World} {b : Brk} (h : w.delBrk b = some w') :
    w'.bytes = w.bytes ∧ w'.brks = w.brks ∧ w'.events = w.events := by
  unfold World.delBrk at h
  split at h
  · cases h; exact ⟨rfl, rfl, rfl⟩
  · simp only at h; split at h
    · cases h; exact ⟨rfl, rfl, rfl⟩
    · split at h
      · cases h
      · cases h; exact ⟨rfl, rfl, rfl⟩
    · split at h
      · cases h
      · cases h; exact ⟨rfl, rfl, rfl⟩
    · cases h; exact ⟨rfl, rfl, rfl⟩

theorem delBrk_flag {w w' : World} {b : Brk} (h : w.delBrk b = some w') (sp j : Nat) :
    ((w'.spaces sp).cells j).fetchBrk =
      (((w.spaces sp).cells j).fetchBrk && !decide (b.kind = .fetch ∧ b.mem = sp ∧ (w.spaces sp).idx? b.addr = some j)) := by
  unfold World.delBrk at h
  cases hi : (w.spaces b.mem).idx? b.addr with
  | none =>
    rw [hi] at h; cases h
    rw [decide_eq_false]; · simp
    rintro ⟨_, rfl, h⟩; rw [h] at hi; cases hi
  | some i =>
    have key : (b.mem = sp ∧ (w.spaces sp).idx? b.addr = some j) ↔ (sp = b.mem ∧ j = i) := by
      constructor
      · rintro ⟨rfl, h⟩; rw [hi] at h; cases h; exact ⟨rfl, rfl⟩
      · rintro ⟨rfl, rfl⟩; exact ⟨rfl, hi⟩
    simp only [key]
    rw [hi] at h
    cases hk : b.kind <;> rw [hk] at h <;> simp only at h
    · cases h
      simp only [setCell_cells]
      by_cases h : sp = b.mem ∧ j = i
      · rw [if_pos h]; simp [h]
      · rw [if_neg h]; simp [h]
    · split at h
      · cases h
      · cases h
        simp only [setCell_cells]
        by_cases h : sp = b.mem ∧ j = i
        · rw [if_pos h, h.1, h.2]; simp
        · rw [if_neg h]; simp
    · split at h
      · cases h
      · cases h
        simp only [setCell_cells]
        by_cases h : sp = b.mem ∧ j = i
        · rw [if_pos h, h.1, h.2]; simp
        · rw [if_neg h]; simp
    · cases h; simp

theorem delBrk_ops {w w' : World} {b : Brk} (h : w.delBrk b = some w') (sp j : Nat) :
    ((w'.spaces sp).cells j).ops =
      if Brk.at_ w sp j b then ((w.spaces sp).cells j).ops.filter (fun o => !o.matchBrk b.id)
      else ((w.spaces sp).cells j).ops := by
  unfold World.delBrk at h
  cases hi : (w.spaces b.mem).idx? b.addr with
  | none =>
    rw [hi] at h; cases h
    rw [if_neg]
    unfold Brk.at_
    simp only [decide_eq_true_eq]
    rintro ⟨rfl, h, _⟩; rw [h] at hi; cases hi
  | some i =>
    have key : Brk.at_ w sp j b = true ↔ ((sp = b.mem ∧ j = i) ∧ (b.kind = .rd ∨ b.kind = .wr)) := by
      unfold Brk.at_
      simp only [decide_eq_true_eq]
      constructor
      · rintro ⟨rfl, h, hk⟩; rw [hi] at h; cases h; exact ⟨⟨rfl, rfl⟩, hk⟩
      · rintro ⟨⟨rfl, rfl⟩, hk⟩; exact ⟨rfl, hi, hk⟩
    simp only [key]
    rw [hi] at h
    cases hk : b.kind <;> rw [hk] at h <;> simp only at h
    · cases h
      simp only [setCell_cells, reduceCtorEq, or_self, and_false, if_false]
      by_cases h : sp = b.mem ∧ j = i
      · rw [if_pos h, h.1, h.2]
      · rw [if_neg h]
    · split at h
      · cases h
      · cases h
        simp only [setCell_cells, true_or, and_true]
        by_cases h : sp = b.mem ∧ j = i
        · rw [if_pos h, if_pos h, h.1, h.2]
        · rw [if_neg h, if_neg h]
    · split at h
      · cases h
      · cases h
        simp only [setCell_cells, or_true, and_true]
        by_cases h : sp = b.mem ∧ j = i
        · rw [if_pos h, if_pos h, h.1, h.2]
        · rw [if_neg h, if_neg h]
    · cases h; simp

end Ucsim
