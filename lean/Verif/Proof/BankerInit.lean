import Verif.Proof.BankerRun

/-! Bankers: init and add_bank. -/
namespace Ucsim

/-! ### masks -/

/-- `r` ones from bit `p` up. -/
def fieldMask (p r : Nat) : W := BitVec.ofNat 32 ((2 ^ r - 1) * 2 ^ p)

theorem maskScan_field : ∀ p r, 1 ≤ r → p + r ≤ 31 → maskScan (fieldMask p r) = some (p, r) ∧ fieldMask p r ≠ 0#32 := by
  have h1 : ∀ p < 32, ∀ r < 32, 1 ≤ r ∧ p + r ≤ 31 → maskScan (fieldMask p r) = some (p, r) := by
    decide +kernel
  have h2 : ∀ p < 32, ∀ r < 32, 1 ≤ r ∧ p + r ≤ 31 → ¬ fieldMask p r = 0#32 := by
    decide +kernel
  intro p r g1 g2
  exact ⟨h1 p (by omega) r (by omega) ⟨g1, g2⟩, h2 p (by omega) r (by omega) ⟨g1, g2⟩⟩

theorem fieldMask_bit (p r i : Nat) (hi : i < 32) :
    (fieldMask p r).getLsbD i = decide (p ≤ i ∧ i < p + r) := by
  unfold fieldMask
  rw [BitVec.getLsbD_ofNat]
  simp only [hi, decide_true, Bool.true_and]
  rw [Nat.testBit_mul_two_pow]
  rw [Nat.testBit_two_pow_sub_one]
  by_cases h : p ≤ i <;> simp [h]
  omega

theorem field_value (v : W) (p r : Nat) :
    ((v &&& fieldMask p r) >>> p).toNat = v.toNat / 2 ^ p % 2 ^ r := by
  apply Nat.eq_of_testBit_eq
  intro i
  rw [Nat.testBit_mod_two_pow, Nat.testBit_div_two_pow, BitVec.testBit_toNat, BitVec.getLsbD_ushiftRight,
    BitVec.getLsbD_and, BitVec.testBit_toNat]
  by_cases h : p + i < 32
  · rw [fieldMask_bit p r _ h, Nat.add_comm i p]
    by_cases hi : i < r
    · simp [hi]
    · simp [hi]
  · rw [Nat.add_comm i p, BitVec.getLsbD_of_ge v _ (by omega)]; simp

theorem field_value2 (v : W) (p r s : Nat) (h : s + r ≤ 32) :
    ((((v &&& fieldMask p r) >>> p) <<< s)).toNat = (v.toNat / 2 ^ p % 2 ^ r) * 2 ^ s := by
  rw [BitVec.toNat_shiftLeft, field_value, Nat.shiftLeft_eq, Nat.mod_eq_of_lt]
  have h1 : v.toNat / 2 ^ p % 2 ^ r < 2 ^ r := Nat.mod_lt _ (Nat.two_pow_pos _)
  calc v.toNat / 2 ^ p % 2 ^ r * 2 ^ s < 2 ^ r * 2 ^ s := Nat.mul_lt_mul_of_pos_right h1 (Nat.two_pow_pos _)
    _ = 2 ^ (s + r) := by rw [← Nat.pow_add, Nat.add_comm]
    _ ≤ 2 ^ 32 := Nat.pow_le_pow_right (by omega) h

/-! ### init -/

/-- Spaces that differ in operators of cells only. -/
structure OpsOnly (S S' : Nat → Space) : Prop where
  start : ∀ sp, (S' sp).start = (S sp).start
  size : ∀ sp, (S' sp).size = (S sp).size
  dummy : ∀ sp, (S' sp).dummy = (S sp).dummy
  cells : ∀ sp i, (S' sp).cells i = { (S sp).cells i with ops := ((S' sp).cells i).ops }

theorem OpsOnly.idx {S S'} (h : OpsOnly S S') (sp a : Nat) : (S' sp).idx? a = (S sp).idx? a :=
  idx?_congr (h.start sp) (h.size sp) a

theorem prepend_eq (w : World) (sp i : Nat) (o : MOp) :
    (w.prependOp (.cell sp i) o).bytes = w.bytes ∧ (w.prependOp (.cell sp i) o).bankers = w.bankers ∧
    (w.prependOp (.cell sp i) o).ub = w.ub ∧ OpsOnly w.spaces (w.prependOp (.cell sp i) o).spaces ∧
    ∀ sp' i', ((((w.prependOp (.cell sp i) o).spaces sp').cells i').ops) =
      if sp' = sp ∧ i' = i then o :: ((w.spaces sp').cells i').ops else ((w.spaces sp').cells i').ops := by
  unfold World.prependOp
  refine ⟨rfl, rfl, rfl, ?_, ?_⟩
  · constructor <;> intro sp'
    · rw [setCell_cell]; split <;> simp_all
    · rw [setCell_cell]; split <;> simp_all
    · rw [setCell_cell]; split <;> simp_all
    · intro i'
      rw [setCell_cell]
      split
      · rename_i h; subst h
        simp only [upd, World.cell]
        split
        · rename_i h; subst h; rfl
        · rfl
      · rfl
  · intro sp' i'
    rw [setCell_cell]
    by_cases h : sp' = sp
    · subst h
      simp only [if_true, upd, World.cell, true_and]
      split
      · rename_i h; subst h; rfl
      · rfl
    · rw [if_neg h, if_neg (fun g => h g.1)]

/-- The world after bankerInit, when the selectors exist and masks are runs of
ones. -/
structure Inited (w w' : World) (k : Nat) (bk : Banker) : Prop where
  bankers : w'.bankers = upd w.bankers k bk
  bytes : w'.bytes = w.bytes
  ub : w'.ub = w.ub
  ops : OpsOnly w.spaces w'.spaces
  opsOf : ∀ sp i o, o ∈ ((w'.spaces sp).cells i).ops ↔
    o ∈ ((w.spaces sp).cells i).ops ∨ (o = .bank k ∧ IsSel w.spaces bk sp i)

/-- The object of a banker with one selector. -/
def mkBanker1 (selSp selAddr p r sp asb ase : Nat) : Banker :=
  ⟨selSp, selAddr, fieldMask p r, none, 0#32, 0, sp, asb, ase, p, 0, 2 ^ r, fun _ => none, none⟩

/-- The object of a banker with two selectors. -/
def mkBanker2 (selSp selAddr p r sp2 a2 p2 r2 s sp asb ase : Nat) : Banker :=
  ⟨selSp, selAddr, fieldMask p r, some (sp2, a2), fieldMask p2 r2, s, sp, asb, ase, p, p2, 2 ^ (r + r2),
   fun _ => none, none⟩

theorem tableSize_pow (r : Nat) (h : r ≤ 30) : tableSize (2 ^ r) = 2 ^ r := by
  unfold tableSize
  rw [if_neg]
  have : 2 ^ r ≤ 2 ^ 30 := Nat.pow_le_pow_right (by omega) h
  omega

theorem init1 (w : World) (k selSp selAddr p r sp asb ase : Nat) (h1 : 1 ≤ r) (h2 : p + r ≤ 31) (h3 : r ≤ 30) {i : Nat}
    (hi : (w.spaces selSp).idx? selAddr = some i) :
    ∃ w', w.bankerInit k selSp selAddr (fieldMask p r) none 0#32 0 sp asb ase = some w' ∧
      Inited w w' k (mkBanker1 selSp selAddr p r sp asb ase) := by
  obtain ⟨m1, m2⟩ := maskScan_field p r h1 h2
  unfold World.bankerInit
  rw [if_neg m2, m1]
  simp only [Option.map_some, Option.isNone_none, true_or, if_true, Nat.pow_zero, Nat.mul_one, tableSize_pow r h3]
  unfold World.getCell
  simp only [hi]
  refine ⟨_, rfl, ?_⟩
  obtain ⟨q1, q2, q3, q4, q5⟩ := prepend_eq
    { w with bankers := upd w.bankers k (mkBanker1 selSp selAddr p r sp asb ase) } selSp i (.bank k)
  refine ⟨q2, q1, q3, q4, ?_⟩
  intro sp' i' o
  have hx : IsSel w.spaces (mkBanker1 selSp selAddr p r sp asb ase) sp' i' ↔ sp' = selSp ∧ i' = i := by
    unfold IsSel Banker.selAt mkBanker1
    simp only [reduceCtorEq, false_and, or_false]
    constructor
    · rintro ⟨a, ⟨rfl, rfl⟩, h⟩; rw [hi] at h; cases h; exact ⟨rfl, rfl⟩
    · rintro ⟨rfl, rfl⟩; exact ⟨_, ⟨rfl, rfl⟩, hi⟩
  rw [hx]
  have := q5 sp' i'
  unfold mkBanker1 at this
  rw [this]
  by_cases hc : sp' = selSp ∧ i' = i
  · rw [if_pos hc]; simp [hc, or_comm]
  · rw [if_neg hc]; simp [hc]

theorem init2 (w : World) (k selSp selAddr p r sp2 a2 p2 r2 s sp asb ase : Nat) (h1 : 1 ≤ r) (h2 : p + r ≤ 31)
    (h3 : 1 ≤ r2) (h4 : p2 + r2 ≤ 31) (h5 : r + r2 ≤ 30) {i i2 : Nat}
    (hi : (w.spaces selSp).idx? selAddr = some i) (hi2 : (w.spaces sp2).idx? a2 = some i2) :
    ∃ w', w.bankerInit k selSp selAddr (fieldMask p r) (some (sp2, a2)) (fieldMask p2 r2) s sp asb ase = some w' ∧
      Inited w w' k (mkBanker2 selSp selAddr p r sp2 a2 p2 r2 s sp asb ase) := by
  obtain ⟨m1, m2⟩ := maskScan_field p r h1 h2
  obtain ⟨m3, m4⟩ := maskScan_field p2 r2 h3 h4
  unfold World.bankerInit
  rw [if_neg m2, m1]
  simp only [Option.map_some, Option.isNone_some, Bool.false_eq_true, false_or, m4, if_false, m3, ← Nat.pow_add,
    tableSize_pow _ h5]
  obtain ⟨q1, q2, q3, q4, q5⟩ := prepend_eq
    { w with bankers := upd w.bankers k (mkBanker2 selSp selAddr p r sp2 a2 p2 r2 s sp asb ase) } selSp i (.bank k)
  have hg1 : World.getCell { w with
      bankers := upd w.bankers k (mkBanker2 selSp selAddr p r sp2 a2 p2 r2 s sp asb ase) } selSp selAddr =
      ({ w with bankers := upd w.bankers k (mkBanker2 selSp selAddr p r sp2 a2 p2 r2 s sp asb ase) }, .cell selSp i) := by
    unfold World.getCell; simp only [hi]
  unfold mkBanker2 at hg1 q1 q2 q3 q4 q5
  simp only [hg1]
  generalize hw2 : World.prependOp _ (CRef.cell selSp i) (MOp.bank k) = w2 at *
  have hg2 : w2.getCell sp2 a2 = (w2, .cell sp2 i2) := by
    unfold World.getCell; rw [q4.idx]; simp only [hi2]
  simp only [hg2]
  obtain ⟨t1, t2, t3, t4, t5⟩ := prepend_eq w2 sp2 i2 (.bank k)
  refine ⟨_, rfl, ⟨t2.trans q2, t1.trans q1, t3.trans q3, ?_, ?_⟩⟩
  · constructor
    · intro x; rw [t4.start, q4.start]
    · intro x; rw [t4.size, q4.size]
    · intro x; rw [t4.dummy, q4.dummy]
    · intro x j; rw [t4.cells, q4.cells]
  · intro sp' i' o
    have hx : IsSel w.spaces (mkBanker2 selSp selAddr p r sp2 a2 p2 r2 s sp asb ase) sp' i' ↔
        (sp' = selSp ∧ i' = i) ∨ (sp' = sp2 ∧ i' = i2) := by
      unfold IsSel Banker.selAt mkBanker2
      simp only [Option.some.injEq, Prod.mk.injEq]
      constructor
      · rintro ⟨a, h | h, ha⟩
        · obtain ⟨rfl, rfl⟩ := h; rw [hi] at ha; cases ha; exact .inl ⟨rfl, rfl⟩
        · obtain ⟨⟨rfl, rfl⟩, _⟩ := h; rw [hi2] at ha; cases ha; exact .inr ⟨rfl, rfl⟩
      · rintro (⟨rfl, rfl⟩ | ⟨rfl, rfl⟩)
        · exact ⟨_, .inl ⟨rfl, rfl⟩, hi⟩
        · exact ⟨_, .inr ⟨⟨rfl, rfl⟩, m4⟩, hi2⟩
    rw [hx, t5, q5]
    by_cases hc : sp' = selSp ∧ i' = i <;> by_cases hc2 : sp' = sp2 ∧ i' = i2 <;>
      simp only [hc, hc2, if_true, if_false, List.mem_cons, true_and, and_self, or_true, or_false, and_true, and_false] <;>
      grind

theorem index1 (selSp selAddr p r sp asb ase : Nat) (v1 v2 : W) :
    (mkBanker1 selSp selAddr p r sp asb ase).index v1 v2 = v1.toNat / 2 ^ p % 2 ^ r := field_value v1 p r

theorem index2 (selSp selAddr p r sp2 a2 p2 r2 s sp asb ase : Nat) (h3 : 1 ≤ r2) (h4 : p2 + r2 ≤ 31)
    (hs : s + r2 ≤ 32) (v1 v2 : W) :
    (mkBanker2 selSp selAddr p r sp2 a2 p2 r2 s sp asb ase).index v1 v2 =
      (v1.toNat / 2 ^ p % 2 ^ r) ||| ((v2.toNat / 2 ^ p2 % 2 ^ r2) * 2 ^ s) := by
  unfold Banker.index mkBanker2
  simp only
  rw [if_neg (maskScan_field p2 r2 h3 h4).2, BitVec.toNat_or, field_value, field_value2 _ _ _ _ hs]

/-- What a new banker needs. -/
structure BankerFits (chips : Nat → Chip) (K : Nat → Prop) (S : Nat → Space) (B : Nat → Banker) (bk : Banker) :
    Prop where
  idx : ∀ sp a, bk.selAt sp a → ∃ i, (S sp).idx? a = some i
  blk : ∀ sp i, IsSel S bk sp i → ((S sp).cells i).ptr.blk ≠ none
  plain : ∀ sp i, IsSel S bk sp i → PlainCell ((S sp).cells i)
  apart : ∀ sp i, IsSel S bk sp i → ∀ sp' i', i' < (S sp').size → (sp', i') ≠ (sp, i) →
    Apart2 ((S sp').cells i') ((S sp).cells i)
  area : (S bk.sp).start ≤ bk.asb ∧ bk.asb ≤ bk.ase ∧ bk.ase < (S bk.sp).start + (S bk.sp).size
  areaSelf : ∀ sp i, InArea S bk sp i → ¬ IsSel S bk sp i
  areaSel : ∀ j, K j → ∀ sp i, InArea S bk sp i → ¬ IsSel S (B j) sp i
  areaSel' : ∀ j, K j → ∀ sp i, InArea S (B j) sp i → ¬ IsSel S bk sp i
  areaDisj : ∀ j, K j → ∀ sp i, InArea S bk sp i → ¬ InArea S (B j) sp i
  bankApart : ∀ j, K j → ∀ sp i, InArea S (B j) sp i → ∀ sp' i', IsSel S bk sp' i' →
    ∀ b chip cb, (B j).banks b = some (chip, cb) →
    Apart2 (((S sp).cells i).decode (getSlot chips chip (u32 (cb + ((S sp).start + i - (B j).asb)))))
      ((S sp').cells i')
  index : ∀ v1 v2, bk.index v1 v2 < bk.nuof
  banks : ∀ b, bk.banks b = none
  bank : bk.bank = none

theorem OpsOnly.isSel {S S'} (h : OpsOnly S S') (bk : Banker) (sp i : Nat) : IsSel S' bk sp i ↔ IsSel S bk sp i := by
  unfold IsSel; simp only [h.idx]
theorem OpsOnly.inArea {S S'} (h : OpsOnly S S') (bk : Banker) (sp i : Nat) :
    InArea S' bk sp i ↔ InArea S bk sp i := by
  unfold InArea; simp only [h.size, h.start]
theorem OpsOnly.ptr {S S'} (h : OpsOnly S S') (sp i : Nat) : ((S' sp).cells i).ptr = ((S sp).cells i).ptr := by
  rw [h.cells]
theorem OpsOnly.kind {S S'} (h : OpsOnly S S') (sp i : Nat) : ((S' sp).cells i).kind = ((S sp).cells i).kind := by
  rw [h.cells]
theorem OpsOnly.plain {S S'} (h : OpsOnly S S') (sp i : Nat) (hp : PlainCell ((S sp).cells i)) :
    PlainCell ((S' sp).cells i) := by
  rw [h.cells]; exact ⟨hp.1, hp.2, hp.3, hp.4⟩
theorem OpsOnly.apart {S S'} (h : OpsOnly S S') (sp i sp' i' : Nat) :
    Apart2 ((S' sp).cells i) ((S' sp').cells i') ↔ Apart2 ((S sp).cells i) ((S sp').cells i') :=
  apart2_congr (h.ptr _ _) (h.kind _ _) (h.ptr _ _) (h.kind _ _)
theorem OpsOnly.apart' {S S'} (h : OpsOnly S S') (p : Option Ptr) (sp i sp' i' : Nat) :
    Apart2 (((S' sp).cells i).decode p) ((S' sp').cells i') ↔ Apart2 (((S sp).cells i).decode p) ((S sp').cells i') :=
  apart2_congr (by rw [decode_ptr, decode_ptr]) (by rw [decode_kind, decode_kind, h.kind]) (h.ptr _ _) (h.kind _ _)

theorem inited_inStep {env : Env} {K : Nat → Prop} {w w' : World} {k : Nat} {bk : Banker} (H : InStep env K w)
    (hk : ¬ K k) (F : BankerFits env.chips K w.spaces w.bankers bk) (I : Inited w w' k bk) :
    InStep env (fun j => K j ∨ j = k) w' := by
  have G := H.base.geo
  have O := I.ops
  have hold : ∀ j, K j → w'.bankers j = w.bankers j := by
    intro j hj; rw [I.bankers, upd_other]; intro e; subst e; exact hk hj
  have hnew : w'.bankers k = bk := by rw [I.bankers, upd_same]
  have hgeo : Geo env.chips (fun j => K j ∨ j = k) w'.spaces w'.bankers := by
    constructor
    case bound => intro sp; rw [O.start, O.size]; exact G.bound sp
    case dptr => intro sp; rw [O.dummy]; exact G.dptr sp
    case dops => intro sp; rw [O.dummy]; exact G.dops sp
    case ops =>
      intro sp i hi o ho
      rw [O.size] at hi
      rcases (I.opsOf sp i o).1 ho with ho | ⟨rfl, hs⟩
      · rcases G.ops sp i hi o ho with h | h | ⟨j, hj, h1, h2⟩
        · exact .inl h
        · exact .inr (.inl h)
        · exact .inr (.inr ⟨j, .inl hj, h1, by rw [hold j hj, O.isSel]; exact h2⟩)
      · exact .inr (.inr ⟨k, .inr rfl, rfl, by rw [hnew, O.isSel]; exact hs⟩)
    case selIdx =>
      rintro j (hj | rfl) sp a h
      · rw [hold j hj] at h; rw [O.idx]; exact G.selIdx j hj sp a h
      · rw [hnew] at h; rw [O.idx]; exact F.idx sp a h
    case selOp =>
      rintro j (hj | rfl) sp i h
      · rw [hold j hj, O.isSel] at h; exact (I.opsOf sp i _).2 (.inl (G.selOp j hj sp i h))
      · rw [hnew, O.isSel] at h; exact (I.opsOf sp i _).2 (.inr ⟨rfl, h⟩)
    case selBlk =>
      rintro j (hj | rfl) sp i h
      · rw [hold j hj, O.isSel] at h; rw [O.ptr]; exact G.selBlk j hj sp i h
      · rw [hnew, O.isSel] at h; rw [O.ptr]; exact F.blk sp i h
    case selPlain =>
      rintro j (hj | rfl) sp i h
      · rw [hold j hj, O.isSel] at h; exact O.plain sp i (G.selPlain j hj sp i h)
      · rw [hnew, O.isSel] at h; exact O.plain sp i (F.plain sp i h)
    case selApart =>
      rintro j (hj | rfl) sp i h sp' i' hi' hne
      · rw [hold j hj, O.isSel] at h; rw [O.size] at hi'; rw [O.apart]; exact G.selApart j hj sp i h sp' i' hi' hne
      · rw [hnew, O.isSel] at h; rw [O.size] at hi'; rw [O.apart]; exact F.apart sp i h sp' i' hi' hne
    case area =>
      rintro j (hj | rfl)
      · rw [hold j hj, O.start, O.size]; exact G.area j hj
      · rw [hnew, O.start, O.size]; exact F.area
    case areaSel =>
      rintro j (hj | rfl) l (hl | rfl) sp i h
      · rw [hold j hj, O.inArea] at h; rw [hold l hl, O.isSel]; exact G.areaSel j hj l hl sp i h
      · rw [hold j hj, O.inArea] at h; rw [hnew, O.isSel]; exact F.areaSel' j hj sp i h
      · rw [hnew, O.inArea] at h; rw [hold l hl, O.isSel]; exact F.areaSel l hl sp i h
      · rw [hnew, O.inArea] at h; rw [hnew, O.isSel]; exact F.areaSelf sp i h
    case areaDisj =>
      rintro j (hj | rfl) l (hl | rfl) hne sp i h
      · rw [hold j hj, O.inArea] at h; rw [hold l hl, O.inArea]; exact G.areaDisj j hj l hl hne sp i h
      · rw [hold j hj, O.inArea] at h; rw [hnew, O.inArea]; exact fun g => F.areaDisj j hj sp i g h
      · rw [hnew, O.inArea] at h; rw [hold l hl, O.inArea]; exact F.areaDisj l hl sp i h
      · exact absurd rfl hne
    case bankApart =>
      rintro j (hj | rfl) l (hl | rfl) sp i h sp' i' h' b chip cb hb
      · rw [hold j hj] at h hb; rw [O.inArea] at h; rw [hold l hl, O.isSel] at h'
        rw [hold j hj, O.start, O.apart']; exact G.bankApart j hj l hl sp i h sp' i' h' b chip cb hb
      · rw [hold j hj] at h hb; rw [O.inArea] at h; rw [hnew, O.isSel] at h'
        rw [hold j hj, O.start, O.apart']; exact F.bankApart j hj sp i h sp' i' h' b chip cb hb
      · rw [hnew, F.banks] at hb; simp at hb
      · rw [hnew, F.banks] at hb; simp at hb
    case index =>
      rintro j (hj | rfl)
      · rw [hold j hj]; exact G.index j hj
      · rw [hnew]; exact F.index
  refine ⟨⟨hgeo, I.ub.trans H.base.ub, ?_⟩, ?_⟩
  · rintro j (hj | rfl)
    · constructor
      intro b hb
      rw [hold j hj] at hb ⊢
      obtain ⟨chip, cb, h1, h2⟩ := (H.base.placed j hj).placed b hb
      refine ⟨chip, cb, h1, ?_⟩
      intro i hi
      rw [O.inArea] at hi
      have := h2 i hi
      rw [O.start]
      rw [O.cells]; exact this
    · constructor
      intro b hb
      rw [hnew, F.bank] at hb; simp at hb
  · rintro j (hj | rfl)
    · have : wanted w' j = wanted w j := by
        refine wanted_congr ⟨_, _, by rw [hold j hj]⟩ ?_
        intro sp a hs
        obtain ⟨i, hi⟩ := G.selIdx j hj sp a hs
        refine selVal_congr hi (by rw [O.idx]; exact hi) ?_
        rw [O.cells, I.bytes]; rfl
      unfold Sync; rw [this, hold j hj]; exact H.sync j hj
    · intro h; rw [hnew, F.banks] at h; exact absurd rfl h

/-! ### add_bank -/

/-- No part of the new bank is a selector. -/
def BankFits (env : Env) (K : Nat → Prop) (w : World) (k chip cb : Nat) : Prop :=
  ∀ j, K j → ∀ sp i, InArea w.spaces (w.bankers k) sp i → ∀ sp' i', IsSel w.spaces (w.bankers j) sp' i' →
    Apart2 (((w.spaces sp).cells i).decode
        (getSlot env.chips chip (u32 (cb + ((w.spaces sp).start + i - (w.bankers k).asb)))))
      ((w.spaces sp').cells i')

theorem addBank_inStep {env : Env} {K : Nat → Prop} {w : World} (H : InStep env K w) {k nr chip cb : Nat} (hk : K k)
    (hfree : (w.bankers k).banks nr = none) (hfit : BankFits env K w k chip cb) :
    ∃ w', w.addBank env k nr chip cb = some w' ∧ InStep env K w' ∧ w'.bytes = w.bytes ∧ SpEq w.spaces w'.spaces ∧
      ∀ j, ∃ x, w'.bankers j = { w.bankers j with
        bank := x
        banks := if j = k ∧ nr < (w.bankers k).nuof then upd (w.bankers k).banks nr (some (chip, cb))
          else (w.bankers j).banks } := by
  unfold World.addBank
  simp only
  by_cases hn : (nr : Int) ≥ ((w.bankers k).nuof : Int)
  · rw [if_pos hn]
    refine ⟨w, rfl, H, rfl, SpEq.refl _, fun j => ⟨(w.bankers j).bank, ?_⟩⟩
    rw [if_neg (by omega)]
  rw [if_neg hn, if_neg (by omega)]
  simp only [Int.toNat_natCast, hfree, Option.map_some]
  have G := H.base.geo
  generalize hB : upd w.bankers k { w.bankers k with banks := upd (w.bankers k).banks nr (some (chip, cb)) } = B'
  have hB' : ∀ j, B' j = { w.bankers j with
      banks := if j = k then upd (w.bankers k).banks nr (some (chip, cb)) else (w.bankers j).banks } := by
    intro j; rw [← hB]
    by_cases hj : j = k
    · subst hj; simp
    · rw [upd_other _ _ _ _ hj]; simp [hj]
  have hbase : Base env K { w with bankers := B' } := by
    refine ⟨?_, H.base.ub, fun j hj => ⟨?_⟩⟩
    · show Geo env.chips K w.spaces B'
      constructor
      case bound => exact G.bound
      case dptr => exact G.dptr
      case dops => exact G.dops
      case ops => intro sp i hi o ho; simp only [hB']; exact G.ops sp i hi o ho
      case selIdx => intro j hj sp a h; rw [hB'] at h; exact G.selIdx j hj sp a h
      case selOp => intro j hj sp i h; rw [hB'] at h; exact G.selOp j hj sp i h
      case selBlk => intro j hj sp i h; rw [hB'] at h; exact G.selBlk j hj sp i h
      case selPlain => intro j hj sp i h; rw [hB'] at h; exact G.selPlain j hj sp i h
      case selApart => intro j hj sp i h; rw [hB'] at h; exact G.selApart j hj sp i h
      case area => intro j hj; rw [hB']; exact G.area j hj
      case areaSel => intro j hj l hl sp i h; rw [hB'] at h ⊢; exact G.areaSel j hj l hl sp i h
      case areaDisj => intro j hj l hl hne sp i h; rw [hB'] at h ⊢; exact G.areaDisj j hj l hl hne sp i h
      case bankApart =>
        intro j hj l hl sp i h sp' i' h' b c' cb' hb
        rw [hB'] at h h' hb ⊢
        simp only at hb ⊢
        by_cases hjk : j = k
        · subst hjk
          rw [if_pos rfl] at hb
          unfold upd at hb
          split at hb
          · cases hb; exact hfit l hl sp i h sp' i' h'
          · exact G.bankApart j hj l hl sp i h sp' i' h' b c' cb' hb
        · rw [if_neg hjk] at hb; exact G.bankApart j hj l hl sp i h sp' i' h' b c' cb' hb
      case index => intro j hj; rw [hB']; exact G.index j hj
    · intro b hb
      simp only at hb ⊢
      rw [hB'] at hb ⊢
      simp only at hb ⊢
      obtain ⟨c', cb', h1, h2⟩ := (H.base.placed j hj).placed b hb
      refine ⟨c', cb', ?_, h2⟩
      by_cases hjk : j = k
      · subst hjk
        rw [if_pos rfl, upd_other]
        · exact h1
        · intro e; subst e; rw [hfree] at h1; simp at h1
      · rw [if_neg hjk]; exact h1
  have hsw := activate_switched hbase hk
  refine ⟨_, rfl, ⟨hsw.base, ?_⟩, hsw.bytes, hsw.sp, ?_⟩
  · intro j hj
    by_cases hjk : j = k
    · subst hjk; exact hsw.sync
    · rw [hsw.others j hj hjk]
      have hw : wanted { w with bankers := B' } j = wanted w j :=
        wanted_congr ⟨_, _, hB' j⟩ (fun sp a hs => by
          obtain ⟨i, hi⟩ := G.selIdx j hj sp a hs
          exact selVal_congr hi hi rfl)
      unfold Sync; rw [hw]; simp only [hB', if_neg hjk]; exact H.sync j hj
  · intro j
    refine ⟨((World.bankActivate env { w with bankers := B' } k).bankers j).bank, ?_⟩
    rw [hsw.bk.eq j]
    simp only [hB']
    by_cases hjk : j = k
    · rw [if_pos hjk, if_pos ⟨hjk, by omega⟩]
    · rw [if_neg hjk, if_neg (fun g => hjk g.1)]

end Ucsim
