import Verif.Core.Decoder
import Verif.Proof.Pobj
import Verif.Proof.MemWorld

/-! Address decoders: the list of decoders describes the mapping. -/
namespace Ucsim

theorem slLoop_range {α : Type} (cmp : α → Int) (dup : Bool) (items : List α) (n : Nat) :
    ∀ (l h : Int) (res : Bool), (h - l + 1).toNat = n → 0 ≤ l → h < items.length → l ≤ h + 1 →
    ∃ (f : Bool) (k : Nat), slLoop cmp dup items l h res = some (f, (k : Int)) ∧ k ≤ items.length := by
  induction n using Nat.strongRecOn with
  | _ n ih =>
    intro l h res hn hl hh hlh
    rw [slLoop]
    by_cases hc : l ≤ h
    · rw [dif_pos hc]
      have hi0 : 0 ≤ (l + h) / 2 := by omega
      have hi1 : (l + h) / 2 ≤ h := by omega
      have hi2 : l ≤ (l + h) / 2 := by omega
      generalize (l + h) / 2 = i at *
      simp only
      rw [if_neg (by omega), List.getElem?_eq_getElem (by omega)]
      simp only
      split
      · exact ih _ (by omega) (i + 1) h res rfl (by omega) hh (by omega)
      · split
        · split
          · exact ih _ (by omega) l (i - 1) true rfl hl (by omega) (by omega)
          · exact ih _ (by omega) i (i - 1) true rfl (by omega) (by omega) (by omega)
        · exact ih _ (by omega) l (i - 1) res rfl hl (by omega) (by omega)
    · rw [dif_neg hc]
      refine ⟨res, l.toNat, ?_, by omega⟩
      rw [Int.toNat_of_nonneg hl]

theorem slSearch_range {α : Type} (cmp : α → Int) (dup : Bool) (items : List α) :
    ∃ (f : Bool) (k : Nat), slSearch cmp dup items = some (f, (k : Int)) ∧ k ≤ items.length := by
  unfold slSearch
  exact slLoop_range cmp dup items _ _ _ _ rfl (by omega) (by omega) (by omega)

theorem insertIdx_take_drop {α : Type} (l : List α) (i : Nat) (x : α) (h : i ≤ l.length) :
    l.insertIdx i x = l.take i ++ x :: l.drop i := by
  induction l generalizing i with
  | nil => simp at h; subst h; rfl
  | cons a l ih =>
    cases i with
    | zero => rfl
    | succ i => simp at h; simp [ih i h]

/-- addDec inserts somewhere. -/
theorem addDec_eq (s : Space) (d : Dec) :
    ∃ j, j ≤ s.decs.length ∧ s.addDec d = { s with decs := s.decs.take j ++ d :: s.decs.drop j } := by
  obtain ⟨f, k, h, hk⟩ := slSearch_range (fun y => Dec.cmp y d) true s.decs
  refine ⟨k, hk, ?_⟩
  unfold Space.addDec
  rw [h]
  simp only [Int.toNat_natCast]
  rw [insertIdx_take_drop _ _ _ hk]

theorem freshId_gt (l : List Dec) (d : Dec) (h : d ∈ l) :
    d.id < l.foldr (fun d m => max (d.id + 1) m) 0 := by
  induction l with
  | nil => cases h
  | cons x l ih =>
    simp only [List.foldr_cons]
    rcases List.mem_cons.1 h with rfl | h
    · omega
    · have := ih h; omega

theorem nodup_map_inj {l : List Dec} (h : (l.map Dec.id).Nodup) {x y : Dec} (hx : x ∈ l) (hy : y ∈ l)
    (hid : x.id = y.id) : x = y := by
  induction l with
  | nil => cases hx
  | cons z l ih =>
    rw [List.map_cons, List.nodup_cons] at h
    rcases List.mem_cons.1 hx with hx1 | hx1 <;> rcases List.mem_cons.1 hy with hy1 | hy1
    · rw [hx1, hy1]
    · exact absurd (List.mem_map.2 ⟨y, hy1, by rw [← hid, hx1]⟩) h.1
    · exact absurd (List.mem_map.2 ⟨x, hx1, by rw [hid, hy1]⟩) h.1
    · exact ih h.2 hx1 hy1

/-! ### cells -/

/-- The cell is decoded to slot `p` (`none`: it is not decoded). -/
def CellIs (c : Cell) (p : Option Ptr) : Prop := c.ptr = p.getD defPtr ∧ c.nonDec = p.isNone

/-- Two cells differ at most in the decoding. -/
def SameBut (c c' : Cell) : Prop := c' = { c with ptr := c'.ptr, nonDec := c'.nonDec }

theorem SameBut.refl (c : Cell) : SameBut c c := rfl
theorem SameBut.trans {a b c : Cell} (h : SameBut a b) (g : SameBut b c) : SameBut a c := by
  unfold SameBut at *; rw [g, h]

theorem decode_is (c : Cell) (p : Option Ptr) : CellIs (c.decode p) p := by
  cases p <;> exact ⟨rfl, rfl⟩

theorem decode_sameBut (c : Cell) (p : Option Ptr) : SameBut c (c.decode p) := by
  cases p <;> rfl

theorem unDecode_is {c : Cell} {p : Option Ptr} (h : CellIs c p) : CellIs c.unDecode none := by
  unfold Cell.unDecode
  cases p with
  | none => rw [if_pos (by rw [h.2]; rfl)]; exact h
  | some q => rw [if_neg (by rw [h.2]; simp)]; exact ⟨rfl, rfl⟩

theorem unDecode_sameBut (c : Cell) : SameBut c c.unDecode := by
  unfold Cell.unDecode; split <;> rfl

theorem unDecode_decode (c : Cell) (p : Option Ptr) : c.unDecode.decode p = c.decode p := by
  unfold Cell.unDecode; split
  · rfl
  · cases p <;> rfl

theorem decode_of_is {c : Cell} {p : Option Ptr} (h : CellIs c p) : c.decode p = c := by
  obtain ⟨h1, h2⟩ := h
  cases p with
  | none => cases c; simp_all [Cell.decode]
  | some q => cases c; simp_all [Cell.decode]

/-! ### loops -/

theorem Space.ext' {s t : Space} (h1 : s.start = t.start) (h2 : s.size = t.size) (h3 : s.width = t.width)
    (h4 : s.hasUc = t.hasUc) (h5 : s.cells = t.cells) (h6 : s.dummy = t.dummy) (h7 : s.decs = t.decs) :
    s = t := by
  cases s; cases t; simp_all

theorem undecodeN_eq (n : Nat) : ∀ (a : Nat) (s : Space), s.start + s.size < 4294967296 →
    s.start ≤ a → a + n ≤ s.start + s.size →
    s.undecodeN n a = { s with cells := fun i =>
      if a ≤ s.start + i ∧ s.start + i < a + n then (s.cells i).unDecode else s.cells i } := by
  induction n with
  | zero =>
    intro a s hb h1 h2
    apply Space.ext' <;> try rfl
    funext i
    show s.cells i = _
    simp only
    rw [if_neg (by omega)]
  | succ n ih =>
    intro a s hb h1 h2
    have hidx : s.idx? a = some (a - s.start) := by
      rw [idx?_eq _ _ (by omega) (by omega), if_pos (by omega)]
    unfold Space.undecodeN Space.undecodeCell
    rw [hidx]
    simp only
    have hu : u32 (a + 1) = a + 1 := by unfold u32; omega
    rw [hu, ih (a + 1) _ (by simpa using hb) (by simp; omega) (by simp; omega)]
    apply Space.ext' <;> try rfl
    funext i
    simp only
    by_cases hi : i = a - s.start
    · subst hi
      rw [if_neg (by omega), if_pos (by omega), upd_same]
    · rw [upd_other _ _ _ _ hi]
      by_cases hr : a + 1 ≤ s.start + i ∧ s.start + i < a + 1 + n
      · rw [if_pos hr, if_pos (by omega)]
      · rw [if_neg hr, if_neg (by omega)]

theorem decodeN_eq (chips : Nat → Chip) (m : Nat) (n : Nat) : ∀ (a ca : Nat) (s : Space),
    s.start + s.size < 4294967296 → s.start ≤ a → a + n ≤ s.start + s.size → ca + n < 4294967296 →
    s.decodeN chips m n a ca = { s with
     cells := fun i =>
      if a ≤ s.start + i ∧ s.start + i < a + n then
        Cell.decode (s.cells i) (getSlot chips m (ca + (s.start + i - a))) else s.cells i } := by
  induction n with
  | zero =>
    intro a ca s hb h1 h2 h3
    apply Space.ext' <;> try rfl
    funext i
    show s.cells i = _
    simp only
    rw [if_neg (by omega)]
  | succ n ih =>
    intro a ca s hb h1 h2 h3
    have hidx : s.idx? a = some (a - s.start) := by
      rw [idx?_eq _ _ (by omega) (by omega), if_pos (by omega)]
    have hcell : s.decodeCell chips a m ca = { s with
        cells := upd s.cells (a - s.start) ((s.cells (a - s.start)).decode (getSlot chips m ca)) } := by
      unfold Space.decodeCell
      rw [hidx]
      simp only
      split
      · rw [unDecode_decode]
      · rfl
    unfold Space.decodeN
    rw [hcell]
    have hu : u32 (a + 1) = a + 1 := by unfold u32; omega
    have hu2 : u32 (ca + 1) = ca + 1 := by unfold u32; omega
    rw [hu, hu2, ih (a + 1) (ca + 1) _ (by simpa using hb) (by simp; omega) (by simp; omega) (by omega)]
    apply Space.ext' <;> try rfl
    funext i
    simp only
    by_cases hi : i = a - s.start
    · subst hi
      rw [if_neg (by omega), if_pos (by omega), upd_same]
      have e : ca + (s.start + (a - s.start) - a) = ca := by omega
      rw [e]
    · rw [upd_other _ _ _ _ hi]
      by_cases hr : a + 1 ≤ s.start + i ∧ s.start + i < a + 1 + n
      · rw [if_pos hr, if_pos (by omega)]
        have e : ca + 1 + (s.start + i - (a + 1)) = ca + (s.start + i - a) := by omega
        rw [e]
      · rw [if_neg hr, if_neg (by omega)]

/-! ### invariant -/

/-- A decoder in the list, other than `skip`, maps `a` to element `k` of chip `m`. -/
def Tgt (s : Space) (skip a m k : Nat) : Prop :=
  ∃ d ∈ s.decs, d.id ≠ skip ∧ d.asb ≤ a ∧ a ≤ d.ase ∧ d.chip = some m ∧ k = d.cb + (a - d.asb)

structure ValidDec (chips : Nat → Chip) (s : Space) (d : Dec) : Prop where
  ord : d.asb ≤ d.ase
  lo : s.start ≤ d.asb
  hi : d.ase < s.start + s.size
  chip : ∃ m, d.chip = some m ∧ d.cb + (d.ase - d.asb) ≤ (chips m).size

/-- No common address. -/
def Apart (d : Dec) (b e : Nat) : Prop := d.ase < b ∨ e < d.asb

structure DInv (chips : Nat → Chip) (skip : Nat) (s : Space) : Prop where
  nodup : (s.decs.map Dec.id).Nodup
  bound : s.start + s.size < 4294967296
  valid : ∀ d ∈ s.decs, ValidDec chips s d
  disj : ∀ d ∈ s.decs, ∀ d' ∈ s.decs, d.id ≠ skip → d'.id ≠ skip → d.id ≠ d'.id →
    Apart d d'.asb d'.ase
  mapped : ∀ i, i < s.size → ∀ m k, Tgt s skip (s.start + i) m k → CellIs (s.cells i) (getSlot chips m k)
  unmapped : ∀ i, i < s.size → (∀ m k, ¬ Tgt s skip (s.start + i) m k) → CellIs (s.cells i) none

theorem DInv.cellIs {chips skip s} (h : DInv chips skip s) (i : Nat) (hi : i < s.size) :
    ∃ p, CellIs (s.cells i) p := by
  by_cases ht : ∃ m k, Tgt s skip (s.start + i) m k
  · obtain ⟨m, k, ht⟩ := ht
    exact ⟨_, h.mapped i hi m k ht⟩
  · exact ⟨none, h.unmapped i hi (fun m k hh => ht ⟨m, k, hh⟩)⟩

/-- Nothing but cells (their decoding) and decoders changes. -/
structure Frame (s s' : Space) : Prop where
  start : s'.start = s.start
  size : s'.size = s.size
  width : s'.width = s.width
  hasUc : s'.hasUc = s.hasUc
  dummy : s'.dummy = s.dummy
  cells : ∀ i, SameBut (s.cells i) (s'.cells i)

theorem Frame.refl (s : Space) : Frame s s := ⟨rfl, rfl, rfl, rfl, rfl, fun _ => SameBut.refl _⟩
theorem Frame.trans {a b c : Space} (h : Frame a b) (g : Frame b c) : Frame a c :=
  ⟨g.1.trans h.1, g.2.trans h.2, g.3.trans h.3, g.4.trans h.4, g.5.trans h.5,
   fun i => (h.cells i).trans (g.cells i)⟩

/-- Result of clearing (a part of) [b,e]. -/
structure Cleared (chips : Nat → Chip) (skip b e : Nat) (s s' : Space) : Prop where
  inv : DInv chips skip s'
  frame : Frame s s'
  skipIn : ∀ d, d.id = skip → (d ∈ s'.decs ↔ d ∈ s.decs)
  outside : ∀ a, ¬(b ≤ a ∧ a ≤ e) → ∀ m k, Tgt s' skip a m k ↔ Tgt s skip a m k

theorem Cleared.trans {chips skip b e s s' s''} (h : Cleared chips skip b e s s')
    (g : Cleared chips skip b e s' s'') : Cleared chips skip b e s s'' :=
  ⟨g.inv, h.frame.trans g.frame, fun d hd => (g.skipIn d hd).trans (h.skipIn d hd),
   fun a ha m k => (g.outside a ha m k).trans (h.outside a ha m k)⟩

/-- Replacing decoder `d` by pieces of it that leave out [b,e]. -/
theorem replace_step {chips : Nat → Chip} {skip b e : Nat} {s s1 : Space} (h : DInv chips skip s)
    {d : Dec} (hd : d ∈ s.decs) (hds : d.id ≠ skip) (pieces : List Dec)
    (hmem : ∀ x, x ∈ s1.decs ↔ (x ∈ s.decs ∧ x.id ≠ d.id) ∨ x ∈ pieces)
    (hnd : (s1.decs.map Dec.id).Nodup) (hframe : Frame s s1)
    (hp : ∀ p ∈ pieces, p.id ≠ skip ∧ p.asb ≤ p.ase ∧ d.asb ≤ p.asb ∧ p.ase ≤ d.ase ∧
      p.chip = d.chip ∧ p.cb = d.cb + (p.asb - d.asb) ∧ Apart p b e)
    (hpp : ∀ p ∈ pieces, ∀ q ∈ pieces, p.id ≠ q.id → Apart p q.asb q.ase)
    (hcov : ∀ a, d.asb ≤ a → a ≤ d.ase → ¬(b ≤ a ∧ a ≤ e) → ∃ p ∈ pieces, p.asb ≤ a ∧ a ≤ p.ase)
    (hc1 : ∀ i, i < s.size → (d.asb ≤ s.start + i ∧ s.start + i ≤ d.ase) → (b ≤ s.start + i ∧ s.start + i ≤ e) →
      CellIs (s1.cells i) none)
    (hc2 : ∀ i, i < s.size → ¬((d.asb ≤ s.start + i ∧ s.start + i ≤ d.ase) ∧
      (b ≤ s.start + i ∧ s.start + i ≤ e)) → s1.cells i = s.cells i) :
    Cleared chips skip b e s s1 := by
  have hvd := h.valid d hd
  -- other decoders do not meet d
  have hoth : ∀ x ∈ s.decs, x.id ≠ skip → x.id ≠ d.id → Apart x d.asb d.ase :=
    fun x hx hxs hxd => h.disj x hx d hd hxs hds hxd
  -- targets of s1 away from the cleared part are those of s and conversely
  have hfwd : ∀ a m k, Tgt s1 skip a m k → Tgt s skip a m k := by
    rintro a m k ⟨x, hx, hxs, h1, h2, h3, h4⟩
    rcases (hmem x).1 hx with ⟨hx, _⟩ | hx
    · exact ⟨x, hx, hxs, h1, h2, h3, h4⟩
    · obtain ⟨q1, q2, q3, q4, q5, q6, q7⟩ := hp x hx
      exact ⟨d, hd, hds, by omega, by omega, q5 ▸ h3, by omega⟩
  have hbwd : ∀ a m k, ¬((d.asb ≤ a ∧ a ≤ d.ase) ∧ b ≤ a ∧ a ≤ e) → Tgt s skip a m k → Tgt s1 skip a m k := by
    rintro a m k hab ⟨x, hx, hxs, h1, h2, h3, h4⟩
    by_cases hxd : x.id = d.id
    · have hxeq : x = d := by
        have := nodup_map_inj h.nodup hx hd hxd
        exact this
      subst hxeq
      obtain ⟨p, hpm, p1, p2⟩ := hcov a h1 h2 (by intro hh; exact hab ⟨⟨h1, h2⟩, hh⟩)
      obtain ⟨q1, q2, q3, q4, q5, q6, q7⟩ := hp p hpm
      exact ⟨p, (hmem p).2 (Or.inr hpm), q1, p1, p2, by rw [q5]; exact h3, by omega⟩
    · exact ⟨x, (hmem x).2 (Or.inl ⟨hx, hxd⟩), hxs, h1, h2, h3, h4⟩
  have hnone : ∀ a m k, (d.asb ≤ a ∧ a ≤ d.ase) → (b ≤ a ∧ a ≤ e) → ¬ Tgt s1 skip a m k := by
    rintro a m k hda hba ⟨x, hx, hxs, h1, h2, h3, h4⟩
    rcases (hmem x).1 hx with ⟨hx, hxd⟩ | hx
    · have := hoth x hx hxs hxd
      unfold Apart at this; omega
    · obtain ⟨q1, q2, q3, q4, q5, q6, q7⟩ := hp x hx
      unfold Apart at q7; omega
  refine ⟨⟨hnd, ?_, ?_, ?_, ?_, ?_⟩, hframe, ?_, ?_⟩
  · rw [hframe.start, hframe.size]; exact h.bound
  · intro x hx
    rcases (hmem x).1 hx with ⟨hx, _⟩ | hx
    · obtain ⟨v1, v2, v3, v4⟩ := h.valid x hx
      exact ⟨v1, by rw [hframe.start]; exact v2, by rw [hframe.start, hframe.size]; exact v3, v4⟩
    · obtain ⟨q1, q2, q3, q4, q5, q6, q7⟩ := hp x hx
      obtain ⟨v1, v2, v3, m, v4, v5⟩ := hvd
      exact ⟨q2, by rw [hframe.start]; omega, by rw [hframe.start, hframe.size]; omega, m,
        by rw [q5]; exact v4, by omega⟩
  · intro x hx y hy hxs hys hxy
    rcases (hmem x).1 hx with ⟨hx, hxd⟩ | hx <;> rcases (hmem y).1 hy with ⟨hy, hyd⟩ | hy
    · exact h.disj x hx y hy hxs hys hxy
    · obtain ⟨q1, q2, q3, q4, q5, q6, q7⟩ := hp y hy
      have := hoth x hx hxs hxd
      unfold Apart at *; omega
    · obtain ⟨q1, q2, q3, q4, q5, q6, q7⟩ := hp x hx
      have := hoth y hy hys hyd
      have := (h.valid y hy).ord
      unfold Apart at *; omega
    · exact hpp x hx y hy hxy
  · intro i hi m k ht
    rw [hframe.start] at ht; rw [hframe.size] at hi
    by_cases hin : (d.asb ≤ s.start + i ∧ s.start + i ≤ d.ase) ∧ (b ≤ s.start + i ∧ s.start + i ≤ e)
    · exact absurd ht (hnone _ m k hin.1 hin.2)
    · rw [hc2 i hi hin]; exact h.mapped i hi m k (hfwd _ m k ht)
  · intro i hi hn
    rw [hframe.start] at hn; rw [hframe.size] at hi
    by_cases hin : (d.asb ≤ s.start + i ∧ s.start + i ≤ d.ase) ∧ (b ≤ s.start + i ∧ s.start + i ≤ e)
    · exact hc1 i hi hin.1 hin.2
    · rw [hc2 i hi hin]; exact h.unmapped i hi (fun m k ht => hn m k (hbwd _ m k hin ht))
  · intro x hx
    constructor
    · intro hm
      rcases (hmem x).1 hm with ⟨hm, _⟩ | hm
      · exact hm
      · exact absurd hx (hp x hm).1
    · intro hm
      exact (hmem x).2 (Or.inl ⟨hm, by rw [hx]; exact fun hh => hds hh.symm⟩)
  · intro a ha m k
    exact ⟨hfwd a m k, hbwd a m k (fun hh => ha hh.2)⟩

end Ucsim
