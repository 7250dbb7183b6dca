import Verif.Core.Banker
import Verif.Proof.Decoder
import Verif.Proof.MemExtra

/-! Lemmas on bankers. -/
namespace Ucsim
open Spec (Act)

/-- The cells use different bytes. -/
def Apart2 (c s : Cell) : Prop :=
  c.ptr.blk ≠ s.ptr.blk ∨ c.ptr.off + c.kind.bytes ≤ s.ptr.off ∨ s.ptr.off + s.kind.bytes ≤ c.ptr.off

theorem d_congr (c : Cell) (m m' : Bytes)
    (h : ∀ o, c.ptr.off ≤ o → o < c.ptr.off + c.kind.bytes → m' c.ptr.blk o = m c.ptr.blk o) :
    c.d m' = c.d m := by
  have e : ∀ j, j < c.kind.bytes → m' c.ptr.blk (c.ptr.off + j) = m c.ptr.blk (c.ptr.off + j) :=
    fun j hj => h _ (by omega) (by omega)
  have e8 : 0 < c.kind.bytes → m'.load8 c.ptr = m.load8 c.ptr := fun h => e 0 h
  have e16 : 1 < c.kind.bytes → m'.load16 c.ptr = m.load16 c.ptr := fun h => by
    unfold Bytes.load16; rw [e 1 h, show m' c.ptr.blk c.ptr.off = _ from e 0 (by omega)]; rfl
  have e32 : 3 < c.kind.bytes → m'.load32 c.ptr = m.load32 c.ptr := fun h => by
    unfold Bytes.load32
    rw [e 1 (by omega), e 2 (by omega), e 3 h, show m' c.ptr.blk c.ptr.off = _ from e 0 (by omega)]; rfl
  unfold Cell.d
  cases hk : c.kind <;> rw [hk] at e8 e16 e32 <;> simp only [Kind.bytes] at e8 e16 e32 ⊢
  · rw [e8 (by omega)]
  · rw [e8 (by omega)]
  · rw [e16 (by omega)]
  · rw [e32 (by omega)]
  · rw [e32 (by omega)]

theorem d_put_apart (c s : Cell) (m : Bytes) (v : W) (h : Apart2 c s) : s.d (c.put m v) = s.d m := by
  apply d_congr
  intro o h1 h2
  apply put_off'
  rcases h with h | h | h
  · exact .inl (fun e => h e.symm)
  · exact .inr (.inr (by omega))
  · exact .inr (.inl (by omega))

theorem d_set_apart (c s : Cell) (m : Bytes) (v : W) (h : Apart2 c s) : s.d (c.set m v) = s.d m := by
  unfold Cell.set; split
  · rfl
  · exact d_put_apart c s m v h

/-- A normal cell, as made by an address space (not a bit). -/
structure PlainCell (c : Cell) : Prop where
  w1 : 2 ≤ c.width
  w2 : c.width ≤ 32
  kind : c.kind = kindOf c.width
  mask : c.mask = maskOf c.width

theorem plain_put {c : Cell} (h : PlainCell c) (m : Bytes) (v : W) :
    (c.d (c.put m v)).toNat = v.toNat % 2 ^ c.width :=
  (put_d m c v h.kind (by have := h.w1; omega) h.w2).1 (by have := h.w1; omega) h.mask

/-- Value `v` is what is in the cell, and storing it changes nothing. -/
def Stable (c : Cell) (m : Bytes) (v : W) : Prop := c.d m = v ∧ ∀ m', c.d m' = v → c.d (c.set m' v) = v

theorem stable_after {c : Cell} (h : PlainCell c) (m : Bytes) (v : W) :
    Stable c (c.set m v) (c.d (c.set m v)) := by
  refine ⟨rfl, fun m' hm' => ?_⟩
  by_cases hr : c.ro
  · unfold Cell.set; rw [if_pos hr]; unfold Cell.set at hm'; rw [if_pos hr] at hm' ⊢; exact hm'
  · have e : ∀ m v, c.set m v = c.put m v := fun m v => by unfold Cell.set; rw [if_neg hr]
    rw [e, e]
    apply BitVec.eq_of_toNat_eq
    rw [plain_put h, plain_put h, Nat.mod_mod]

/-! ### geometry -/

/-- (sp, a) is a selector location of the banker. -/
def Banker.selAt (bk : Banker) (sp a : Nat) : Prop :=
  (sp = bk.selSp ∧ a = bk.selAddr) ∨ (bk.sel2 = some (sp, a) ∧ bk.sel2Mask ≠ 0#32)

def IsSel (S : Nat → Space) (bk : Banker) (sp i : Nat) : Prop :=
  ∃ a, bk.selAt sp a ∧ (S sp).idx? a = some i

def InArea (S : Nat → Space) (bk : Banker) (sp i : Nat) : Prop :=
  sp = bk.sp ∧ i < (S sp).size ∧ bk.asb ≤ (S sp).start + i ∧ (S sp).start + i ≤ bk.ase

/-- The bank number that actual_bank computes from the selector values. -/
def Banker.index (bk : Banker) (v1 v2 : W) : Nat :=
  let v := (v1 &&& bk.selMask) >>> bk.shiftBy
  match bk.sel2 with
  | none => v.toNat
  | some _ =>
    if bk.sel2Mask = 0#32 then v.toNat
    else (v ||| (((v2 &&& bk.sel2Mask) >>> bk.shift2By) <<< bk.sel2Shift)).toNat

/-- Arrangement of the spaces and bankers K. -/
structure Geo (chips : Nat → Chip) (K : Nat → Prop) (S : Nat → Space) (B : Nat → Banker) : Prop where
  bound : ∀ sp, (S sp).start + (S sp).size < 4294967296
  dptr : ∀ sp, (S sp).dummy.ptr = defPtr
  dops : ∀ sp, quietOps (S sp).dummy.ops
  ops : ∀ sp i, i < (S sp).size → ∀ o ∈ ((S sp).cells i).ops,
    (∃ b, o = .wr b) ∨ (∃ b, o = .rd b) ∨ ∃ k, K k ∧ o = .bank k ∧ IsSel S (B k) sp i
  selIdx : ∀ k, K k → ∀ sp a, (B k).selAt sp a → ∃ i, (S sp).idx? a = some i
  selOp : ∀ k, K k → ∀ sp i, IsSel S (B k) sp i → .bank k ∈ ((S sp).cells i).ops
  selBlk : ∀ k, K k → ∀ sp i, IsSel S (B k) sp i → ((S sp).cells i).ptr.blk ≠ none
  selPlain : ∀ k, K k → ∀ sp i, IsSel S (B k) sp i → PlainCell ((S sp).cells i)
  selApart : ∀ k, K k → ∀ sp i, IsSel S (B k) sp i → ∀ sp' i', i' < (S sp').size → (sp', i') ≠ (sp, i) →
    Apart2 ((S sp').cells i') ((S sp).cells i)
  area : ∀ k, K k → (S (B k).sp).start ≤ (B k).asb ∧ (B k).asb ≤ (B k).ase ∧
    (B k).ase < (S (B k).sp).start + (S (B k).sp).size
  areaSel : ∀ k, K k → ∀ j, K j → ∀ sp i, InArea S (B k) sp i → ¬ IsSel S (B j) sp i
  areaDisj : ∀ k, K k → ∀ j, K j → j ≠ k → ∀ sp i, InArea S (B k) sp i → ¬ InArea S (B j) sp i
  bankApart : ∀ k, K k → ∀ j, K j → ∀ sp i, InArea S (B k) sp i → ∀ sp' i', IsSel S (B j) sp' i' →
    ∀ b chip cb, (B k).banks b = some (chip, cb) →
    Apart2 (((S sp).cells i).decode (getSlot chips chip (u32 (cb + ((S sp).start + i - (B k).asb)))))
      ((S sp').cells i')
  index : ∀ k, K k → ∀ v1 v2, (B k).index v1 v2 < (B k).nuof

/-- Value of a selector. -/
def selVal (w : World) (sp a : Nat) : W := (w.get sp a).2

/-- The bank number the selectors of banker k ask for. -/
def wanted (w : World) (k : Nat) : Nat :=
  (w.bankers k).index (selVal w (w.bankers k).selSp (w.bankers k).selAddr)
    (match (w.bankers k).sel2 with | none => 0#32 | some (sp2, a2) => selVal w sp2 a2)

/-- Area of banker k is decoded to the given chip part. -/
def AreaIs (chips : Nat → Chip) (S : Nat → Space) (bk : Banker) (chip cb : Nat) : Prop :=
  ∀ i, InArea S bk bk.sp i →
    CellIs ((S bk.sp).cells i) (getSlot chips chip (u32 (cb + ((S bk.sp).start + i - bk.asb))))

structure Placed (chips : Nat → Chip) (w : World) (k : Nat) : Prop where
  placed : ∀ b, (w.bankers k).bank = some b →
    ∃ chip cb, (w.bankers k).banks b = some (chip, cb) ∧ AreaIs chips w.spaces (w.bankers k) chip cb

def Sync (w : World) (k : Nat) : Prop :=
  (w.bankers k).banks (wanted w k) ≠ none → (w.bankers k).bank = some (wanted w k)

/-! ### the loop of activate -/

theorem setCell_cell (w : World) (sp i : Nat) (c : Cell) (sp' : Nat) :
    (w.setCell (.cell sp i) c).spaces sp' =
      if sp' = sp then { w.spaces sp with cells := upd (w.spaces sp).cells i c } else w.spaces sp' := by
  simp only [World.setCell, World.setSpace, upd]

theorem bankCell_eq (env : Env) (w : World) (sp asb chip cb i j : Nat)
    (h : (w.spaces sp).idx? (u32 (asb + i)) = some j) :
    w.bankCell env sp asb chip cb i = w.setSpace sp { w.spaces sp with
      cells := upd (w.spaces sp).cells j
        (((w.spaces sp).cells j).decode (getSlot env.chips chip (u32 (cb + i)))) } := by
  unfold World.bankCell World.getCell
  rw [h]
  rfl

theorem bankLoop_eq (env : Env) (sp asb chip cb : Nat) (n : Nat) (w : World)
    (h1 : (w.spaces sp).start + (w.spaces sp).size ≤ 4294967296) (h2 : (w.spaces sp).start ≤ asb)
    (h3 : asb + n ≤ (w.spaces sp).start + (w.spaces sp).size) :
    World.bankLoop env sp asb chip cb n w =
      w.setSpace sp { w.spaces sp with
        cells := fun i => if asb ≤ (w.spaces sp).start + i ∧ (w.spaces sp).start + i < asb + n
          then ((w.spaces sp).cells i).decode
            (getSlot env.chips chip (u32 (cb + ((w.spaces sp).start + i - asb))))
          else (w.spaces sp).cells i } := by
  induction n with
  | zero =>
    simp only [World.bankLoop, World.setSpace]
    have e : (fun i => if asb ≤ (w.spaces sp).start + i ∧ (w.spaces sp).start + i < asb + 0
        then ((w.spaces sp).cells i).decode
          (getSlot env.chips chip (u32 (cb + ((w.spaces sp).start + i - asb))))
        else (w.spaces sp).cells i) = (w.spaces sp).cells := by
      funext i; rw [if_neg (by omega)]
    rw [e]
    have : upd w.spaces sp (w.spaces sp) = w.spaces := by
      funext x; simp only [upd]; split <;> simp_all
    have e2 : ({ w.spaces sp with cells := (w.spaces sp).cells } : Space) = w.spaces sp := rfl
    rw [this]
  | succ n ih =>
    rw [World.bankLoop, ih (by omega)]
    rw [bankCell_eq _ _ _ _ _ _ _ (asb + n - (w.spaces sp).start)
      (by
        rw [show u32 (asb + n) = asb + n from Nat.mod_eq_of_lt (by omega)]
        simp only [World.setSpace, upd_same]
        rw [idx?_eq _ _ (by simp only; omega) (by omega), if_pos (by simp only; omega)])]
    simp only [World.setSpace, upd_same]
    congr 1
    funext x
    simp only [upd]
    split
    · congr 1
      funext i
      by_cases hi : i = asb + n - (w.spaces sp).start
      · rw [hi, upd_same, if_neg (by omega), if_pos (by omega)]
        congr 3
        omega
      · rw [upd_other _ _ _ _ hi]
        by_cases hc : asb ≤ (w.spaces sp).start + i ∧ (w.spaces sp).start + i < asb + n
        · rw [if_pos hc, if_pos (by omega)]
        · rw [if_neg hc, if_neg (by omega)]
    · rfl

/-! ### changes that keep the arrangement -/

/-- Spaces that differ only in where cells lead. -/
structure SpEq (S S' : Nat → Space) : Prop where
  start : ∀ sp, (S' sp).start = (S sp).start
  size : ∀ sp, (S' sp).size = (S sp).size
  dummy : ∀ sp, (S' sp).dummy.ptr = (S sp).dummy.ptr ∧ (S' sp).dummy.ops = (S sp).dummy.ops
  ops : ∀ sp i, ((S' sp).cells i).ops = ((S sp).cells i).ops
  kind : ∀ sp i, ((S' sp).cells i).kind = ((S sp).cells i).kind

theorem SpEq.idx {S S'} (h : SpEq S S') (sp a : Nat) : (S' sp).idx? a = (S sp).idx? a :=
  idx?_congr (h.start sp) (h.size sp) a

/-- Bankers that differ only in the active bank. -/
structure BkEq (B B' : Nat → Banker) : Prop where
  eq : ∀ k, B' k = { B k with bank := (B' k).bank }

theorem BkEq.selAt {B B'} (h : BkEq B B') (k sp a : Nat) : (B' k).selAt sp a ↔ (B k).selAt sp a := by
  rw [h.eq k]; exact Iff.rfl

theorem isSel_congr {S S' B B'} (h : SpEq S S') (g : BkEq B B') (k sp i : Nat) :
    IsSel S' (B' k) sp i ↔ IsSel S (B k) sp i := by
  unfold IsSel; simp only [g.selAt, h.idx]

theorem inArea_congr {S S' B B'} (h : SpEq S S') (g : BkEq B B') (k sp i : Nat) :
    InArea S' (B' k) sp i ↔ InArea S (B k) sp i := by
  rw [g.eq k]; unfold InArea; simp only [h.size, h.start]

theorem apart2_congr {c c' s s' : Cell} (h1 : c'.ptr = c.ptr) (h2 : c'.kind = c.kind) (h3 : s'.ptr = s.ptr)
    (h4 : s'.kind = s.kind) : Apart2 c' s' ↔ Apart2 c s := by
  unfold Apart2; rw [h1, h2, h3, h4]

theorem decode_kind (c : Cell) (p : Option Ptr) : (c.decode p).kind = c.kind := by cases p <;> rfl
theorem decode_ops' (c : Cell) (p : Option Ptr) : (c.decode p).ops = c.ops := by cases p <;> rfl
theorem decode_ptr (c : Cell) (p : Option Ptr) : (c.decode p).ptr = p.getD defPtr := by cases p <;> rfl

theorem Geo.change {chips : Nat → Chip} {K : Nat → Prop} {S S' : Nat → Space} {B B' : Nat → Banker}
    (G : Geo chips K S B) (hs : SpEq S S') (hb : BkEq B B')
    (hsel : ∀ k, K k → ∀ sp i, IsSel S (B k) sp i → ((S' sp).cells i).ptr = ((S sp).cells i).ptr ∧
      PlainCell ((S' sp).cells i))
    (hap : ∀ k, K k → ∀ sp i, IsSel S (B k) sp i → ∀ sp' i', i' < (S sp').size → (sp', i') ≠ (sp, i) →
      Apart2 ((S' sp').cells i') ((S sp).cells i)) : Geo chips K S' B' := by
  have e1 : ∀ k, (B' k).asb = (B k).asb := fun k => by rw [hb.eq k]
  have e2 : ∀ k, (B' k).ase = (B k).ase := fun k => by rw [hb.eq k]
  have e3 : ∀ k, (B' k).sp = (B k).sp := fun k => by rw [hb.eq k]
  have e4 : ∀ k, (B' k).banks = (B k).banks := fun k => by rw [hb.eq k]
  have e5 : ∀ k, (B' k).nuof = (B k).nuof := fun k => by rw [hb.eq k]
  have e6 : ∀ k, (B' k).index = (B k).index := fun k => by rw [hb.eq k]; rfl
  constructor
  case bound => intro sp; rw [hs.start, hs.size]; exact G.bound sp
  case dptr => intro sp; rw [(hs.dummy sp).1]; exact G.dptr sp
  case dops => intro sp; rw [(hs.dummy sp).2]; exact G.dops sp
  case ops =>
    intro sp i hi o ho
    rw [hs.size] at hi; rw [hs.ops] at ho
    simp only [isSel_congr hs hb]
    exact G.ops sp i hi o ho
  case selIdx => intro k hk sp a h; rw [hb.selAt] at h; rw [hs.idx]; exact G.selIdx k hk sp a h
  case selOp => intro k hk sp i h; rw [isSel_congr hs hb] at h; rw [hs.ops]; exact G.selOp k hk sp i h
  case selBlk =>
    intro k hk sp i h; rw [isSel_congr hs hb] at h
    rw [(hsel k hk sp i h).1]; exact G.selBlk k hk sp i h
  case selPlain => intro k hk sp i h; rw [isSel_congr hs hb] at h; exact (hsel k hk sp i h).2
  case selApart =>
    intro k hk sp i h sp' i' hi hne
    rw [isSel_congr hs hb] at h
    rw [hs.size] at hi
    rw [apart2_congr rfl rfl (hsel k hk sp i h).1 (hs.kind sp i)]
    exact hap k hk sp i h sp' i' hi hne
  case area => intro k hk; rw [e1, e2, e3, hs.start, hs.size]; exact G.area k hk
  case areaSel =>
    intro k hk j hj sp i h
    rw [inArea_congr hs hb] at h; rw [isSel_congr hs hb]
    exact G.areaSel k hk j hj sp i h
  case areaDisj =>
    intro k hk j hj hjk sp i h
    rw [inArea_congr hs hb] at h ⊢
    exact G.areaDisj k hk j hj hjk sp i h
  case bankApart =>
    intro k hk j hj sp i h sp' i' h' b chip cb hbk
    rw [inArea_congr hs hb] at h; rw [isSel_congr hs hb] at h'
    rw [e4] at hbk
    rw [e1, hs.start]
    rw [apart2_congr (c := ((S sp).cells i).decode (getSlot chips chip (u32 (cb + ((S sp).start + i - (B k).asb)))))
      (by rw [decode_ptr, decode_ptr]) (by rw [decode_kind, decode_kind, hs.kind])
      (hsel j hj sp' i' h').1 (hs.kind sp' i')]
    exact G.bankApart k hk j hj sp i h sp' i' h' b chip cb hbk
  case index => intro k hk v1 v2; rw [e5, e6]; exact G.index k hk v1 v2

/-- Reading with breakpoint and bank operators only. -/
theorem readOps_nohw (env : Env) (r : CRef) (l : List MOp) (hl : ∀ h, .hw h ∉ l) (w : World) (x : W)
    (hx : l = [] → x = w.cget r) :
    SameMem w (World.readOps env r l w x).1 ∧ (World.readOps env r l w x).2 = w.cget r := by
  induction l generalizing w x with
  | nil => exact ⟨SameMem.refl w, hx rfl⟩
  | cons o os ih =>
    have hos : ∀ h, MOp.hw h ∉ os := fun h' h => hl h' (List.mem_cons_of_mem _ h)
    cases o with
    | wr b => exact ih hos w (w.cget r) (fun _ => rfl)
    | bank b => exact ih hos w (w.cget r) (fun _ => rfl)
    | rd b =>
      have hs := event_same env w b
      have := ih hos (w.event env b) ((w.event env b).cget r) (fun _ => rfl)
      simp only [World.readOps, World.opRead]
      exact ⟨hs.trans this.1, this.2.trans (hs.cget r)⟩
    | hw b => exact absurd List.mem_cons_self (hl b)

theorem cread_nohw (env : Env) (w : World) (r : CRef) (h : ∀ h, .hw h ∉ (w.cell r).ops) :
    SameMem w (w.cread env r).1 ∧ (w.cread env r).2 = w.cget r := by
  unfold World.cread
  rcases hc : (w.cell r).ops with _ | ⟨o, os⟩
  · exact ⟨SameMem.refl w, rfl⟩
  · rw [hc] at h
    exact readOps_nohw env r (o :: os) h w 0#32 (by simp)

theorem Geo.nohw {chips K S B} (G : Geo chips K S B) {sp i : Nat} (hi : i < (S sp).size) (h : Nat) :
    .hw h ∉ ((S sp).cells i).ops := by
  intro hm
  rcases G.ops sp i hi _ hm with ⟨b, hb⟩ | ⟨b, hb⟩ | ⟨k, _, hb, _⟩ <;> simp at hb

theorem read_sel {env : Env} {K : Nat → Prop} {w : World} (G : Geo env.chips K w.spaces w.bankers) {k : Nat}
    (hk : K k) {sp a : Nat} (h : (w.bankers k).selAt sp a) :
    SameMem w (w.read env sp a).1 ∧ (w.read env sp a).2 = selVal w sp a := by
  obtain ⟨i, hi⟩ := G.selIdx k hk sp a h
  have hl := idx?_lt hi
  unfold selVal World.get World.read
  rw [hi]
  exact cread_nohw env w (.cell sp i) (fun h => G.nohw hl h)

theorem selVal_same {w w' : World} (h : SameMem w w') (sp a : Nat) : selVal w' sp a = selVal w sp a := by
  unfold selVal World.get
  rw [h.spaces]
  cases (w.spaces sp).idx? a with
  | none =>
    simp only [World.cget, World.cell, err_spaces, err_bytes, h.spaces, h.bytes]
  | some i => exact h.cget _

theorem actualBank_eq {env : Env} {K : Nat → Prop} {w : World} (G : Geo env.chips K w.spaces w.bankers) {k : Nat}
    (hk : K k) : SameMem w (w.actualBank env k).1 ∧ (w.actualBank env k).2 = wanted w k := by
  have h1 := read_sel G hk (sp := (w.bankers k).selSp) (a := (w.bankers k).selAddr) (.inl ⟨rfl, rfl⟩)
  unfold World.actualBank wanted Banker.index
  simp only
  rcases hr : w.read env (w.bankers k).selSp (w.bankers k).selAddr with ⟨w1, v⟩
  rw [hr] at h1
  simp only at h1 ⊢
  cases h2 : (w.bankers k).sel2 with
  | none => exact ⟨h1.1, by rw [h1.2]⟩
  | some p =>
    obtain ⟨sp2, a2⟩ := p
    simp only
    by_cases hm : (w.bankers k).sel2Mask = 0#32
    · rw [if_pos hm, if_pos hm]; exact ⟨h1.1, by rw [h1.2]⟩
    · rw [if_neg hm, if_neg hm]
      have G1 : Geo env.chips K w1.spaces w1.bankers := by rw [h1.1.spaces, h1.1.bankers]; exact G
      have h3 := read_sel G1 hk (sp := sp2) (a := a2) (by rw [h1.1.bankers]; exact .inr ⟨h2, hm⟩)
      rcases hr2 : w1.read env sp2 a2 with ⟨w2, v2⟩
      rw [hr2] at h3
      simp only at h3 ⊢
      exact ⟨h1.1.trans h3.1, by rw [h1.2, h3.2, selVal_same h1.1]⟩

/-- `wanted` depends on the selectors only. -/
theorem wanted_congr {w w' : World} {k : Nat}
    (hb : ∃ x y, w'.bankers k = { w.bankers k with bank := x, banks := y })
    (hs : ∀ sp a, (w.bankers k).selAt sp a → selVal w' sp a = selVal w sp a) :
    wanted w' k = wanted w k := by
  obtain ⟨x, y, hb⟩ := hb
  unfold wanted
  rw [hb]
  have e : ({ w.bankers k with bank := x, banks := y } : Banker).index = (w.bankers k).index := rfl
  rw [e]
  simp only
  rw [hs _ _ (.inl ⟨rfl, rfl⟩)]
  cases h2 : (w.bankers k).sel2 with
  | none => rfl
  | some p =>
    obtain ⟨sp2, a2⟩ := p
    simp only
    by_cases hm : (w.bankers k).sel2Mask = 0#32
    · unfold Banker.index; simp only [h2, hm, if_true]
    · rw [hs sp2 a2 (.inr ⟨h2, hm⟩)]

end Ucsim
