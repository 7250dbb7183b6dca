import Verif.Proof.Banker

/-! Bankers: switching, writing, histories. -/
namespace Ucsim
open Spec (Act)

/-- State of the machine with bankers K, without the claim that the banks are
what the selectors ask for. -/
structure Base (env : Env) (K : Nat → Prop) (w : World) : Prop where
  geo : Geo env.chips K w.spaces w.bankers
  ub : w.ub = false
  placed : ∀ k, K k → Placed env.chips w k

theorem Base.same {env K w w'} (h : Base env K w) (s : SameMem w w') : Base env K w' := by
  refine ⟨by rw [s.spaces, s.bankers]; exact h.geo, by rw [s.ub]; exact h.ub, fun k hk => ⟨?_⟩⟩
  rw [s.spaces, s.bankers]; exact (h.placed k hk).placed

theorem sync_same {w w'} (s : SameMem w w') (k : Nat) : Sync w' k ↔ Sync w k := by
  have : wanted w' k = wanted w k :=
    wanted_congr ⟨_, _, by rw [s.bankers]⟩ (fun sp a _ => selVal_same s sp a)
  unfold Sync; rw [this, s.bankers]

/-- The spaces after the loop of activate. -/
def areaSet (chips : Nat → Chip) (S : Nat → Space) (bk : Banker) (chip cb : Nat) : Nat → Space :=
  upd S bk.sp { S bk.sp with
    cells := fun i => if bk.asb ≤ (S bk.sp).start + i ∧ (S bk.sp).start + i ≤ bk.ase
      then ((S bk.sp).cells i).decode (getSlot chips chip (u32 (cb + ((S bk.sp).start + i - bk.asb))))
      else (S bk.sp).cells i }

theorem areaSet_cell (chips : Nat → Chip) (S : Nat → Space) (bk : Banker) (chip cb sp i : Nat) :
    ((areaSet chips S bk chip cb sp).cells i) =
      if sp = bk.sp ∧ bk.asb ≤ (S bk.sp).start + i ∧ (S bk.sp).start + i ≤ bk.ase
      then ((S sp).cells i).decode (getSlot chips chip (u32 (cb + ((S sp).start + i - bk.asb))))
      else (S sp).cells i := by
  unfold areaSet upd
  by_cases h : sp = bk.sp
  · subst h; simp only [if_true, true_and]
  · rw [if_neg h, if_neg (fun g => h g.1)]

theorem areaSet_spEq (chips : Nat → Chip) (S : Nat → Space) (bk : Banker) (chip cb : Nat) :
    SpEq S (areaSet chips S bk chip cb) := by
  constructor
  · intro sp; unfold areaSet upd; split <;> simp_all
  · intro sp; unfold areaSet upd; split <;> simp_all
  · intro sp; unfold areaSet upd; split <;> simp_all
  · intro sp i; rw [areaSet_cell]; split
    · exact decode_ops' _ _
    · rfl
  · intro sp i; rw [areaSet_cell]; split
    · exact decode_kind _ _
    · rfl

/-- switch_to of a banker to a defined bank other than the active one. -/
theorem switchTo_eq {env : Env} {K : Nat → Prop} {w : World} (G : Geo env.chips K w.spaces w.bankers) {k b chip cb : Nat}
    (hk : K k) (hb : b < (w.bankers k).nuof) (hne : (w.bankers k).bank ≠ some b)
    (hbk : (w.bankers k).banks b = some (chip, cb)) :
    w.switchTo env k b = { w with
      spaces := areaSet env.chips w.spaces (w.bankers k) chip cb
      bankers := upd w.bankers k { w.bankers k with bank := some b } } := by
  unfold World.switchTo
  obtain ⟨a1, a2, a3⟩ := G.area k hk
  have hbd := G.bound (w.bankers k).sp
  simp only
  rw [if_neg hne, if_neg (by omega), hbk]
  simp only
  have hn : u32 (subU (w.bankers k).ase (w.bankers k).asb + 1) = (w.bankers k).ase + 1 - (w.bankers k).asb := by
    unfold u32 subU; omega
  rw [hn, bankLoop_eq _ _ _ _ _ _ _ (Nat.le_of_lt hbd) a1 (by omega)]
  unfold areaSet World.setSpace
  simp only
  congr 2
  · congr 1
    funext i
    have : ((w.spaces (w.bankers k).sp).start + i < (w.bankers k).asb + ((w.bankers k).ase + 1 - (w.bankers k).asb)) ↔
      (w.spaces (w.bankers k).sp).start + i ≤ (w.bankers k).ase := by omega
    simp only [this]

theorem isSel_of {S : Nat → Space} {bk : Banker} {sp a i : Nat} (h : bk.selAt sp a) (hi : (S sp).idx? a = some i) :
    IsSel S bk sp i := ⟨a, h, hi⟩

/-- The value of a selector depends on its cell and the bytes of that cell. -/
theorem selVal_congr {w w' : World} {sp a i : Nat} (hi : (w.spaces sp).idx? a = some i)
    (hi' : (w'.spaces sp).idx? a = some i)
    (hc : ((w'.spaces sp).cells i).d w'.bytes = ((w.spaces sp).cells i).d w.bytes) :
    selVal w' sp a = selVal w sp a := by
  unfold selVal World.get
  rw [hi, hi']
  exact hc

/-- Effect of activating banker k. -/
structure Switched (env : Env) (K : Nat → Prop) (k : Nat) (w w' : World) : Prop where
  base : Base env K w'
  bytes : w'.bytes = w.bytes
  sync : Sync w' k
  others : ∀ j, K j → j ≠ k → (Sync w' j ↔ Sync w j)
  sel : ∀ j, K j → ∀ sp i, IsSel w.spaces (w.bankers j) sp i → (w'.spaces sp).cells i = (w.spaces sp).cells i
  isSel : ∀ j sp i, IsSel w'.spaces (w'.bankers j) sp i ↔ IsSel w.spaces (w.bankers j) sp i
  bk : BkEq w.bankers w'.bankers
  sp : SpEq w.spaces w'.spaces

theorem SpEq.refl (S : Nat → Space) : SpEq S S :=
  ⟨fun _ => rfl, fun _ => rfl, fun _ => ⟨rfl, rfl⟩, fun _ _ => rfl, fun _ _ => rfl⟩
theorem SpEq.trans {S T U : Nat → Space} (h : SpEq S T) (g : SpEq T U) : SpEq S U :=
  ⟨fun x => (g.start x).trans (h.start x), fun x => (g.size x).trans (h.size x),
   fun x => ⟨(g.dummy x).1.trans (h.dummy x).1, (g.dummy x).2.trans (h.dummy x).2⟩,
   fun x i => (g.ops x i).trans (h.ops x i), fun x i => (g.kind x i).trans (h.kind x i)⟩
theorem BkEq.refl (B : Nat → Banker) : BkEq B B := ⟨fun _ => rfl⟩
theorem BkEq.trans {A B C : Nat → Banker} (h : BkEq A B) (g : BkEq B C) : BkEq A C := by
  constructor; intro k; rw [g.eq k, h.eq k]

theorem Switched.refl {env K w k} (h : Base env K w) (hs : Sync w k) : Switched env K k w w :=
  ⟨h, rfl, hs, fun _ _ _ => Iff.rfl, fun _ _ _ _ _ => rfl, fun _ _ _ => Iff.rfl, BkEq.refl _, SpEq.refl _⟩

theorem switch_wanted {env : Env} {K : Nat → Prop} {w : World} (H : Base env K w) {k : Nat} (hk : K k) :
    Switched env K k w (w.switchTo env k (wanted w k)) := by
  have G := H.geo
  have hlt : wanted w k < (w.bankers k).nuof := G.index k hk _ _
  by_cases hcur : (w.bankers k).bank = some (wanted w k)
  · have : w.switchTo env k (wanted w k) = w := by unfold World.switchTo; simp only [hcur, if_true]
    rw [this]
    exact Switched.refl H (fun _ => hcur)
  cases hbk : (w.bankers k).banks (wanted w k) with
  | none =>
    have : w.switchTo env k (wanted w k) = w := by
      unfold World.switchTo; simp only
      rw [if_neg hcur, if_neg (by omega), hbk]
    rw [this]
    exact Switched.refl H (fun h => absurd hbk h)
  | some p =>
    obtain ⟨chip, cb⟩ := p
    rw [switchTo_eq G hk hlt hcur hbk]
    have hsp := areaSet_spEq env.chips w.spaces (w.bankers k) chip cb
    have hbe : BkEq w.bankers (upd w.bankers k { w.bankers k with bank := some (wanted w k) }) := by
      constructor; intro j; simp only [upd]; split <;> simp_all
    have hin : ∀ sp i, i < (w.spaces sp).size →
        (sp = (w.bankers k).sp ∧ (w.bankers k).asb ≤ (w.spaces (w.bankers k).sp).start + i ∧
          (w.spaces (w.bankers k).sp).start + i ≤ (w.bankers k).ase) → InArea w.spaces (w.bankers k) sp i := by
      rintro sp i hi ⟨rfl, h1, h2⟩; exact ⟨rfl, hi, h1, h2⟩
    have hselc : ∀ j, K j → ∀ sp i, IsSel w.spaces (w.bankers j) sp i →
        (areaSet env.chips w.spaces (w.bankers k) chip cb sp).cells i = (w.spaces sp).cells i := by
      intro j hj sp i hs
      rw [areaSet_cell, if_neg]
      intro hc
      obtain ⟨a, _, ha⟩ := id hs
      exact G.areaSel k hk j hj sp i (hin sp i (idx?_lt ha) hc) hs
    have hgeo : Geo env.chips K (areaSet env.chips w.spaces (w.bankers k) chip cb)
        (upd w.bankers k { w.bankers k with bank := some (wanted w k) }) := by
      refine G.change hsp hbe ?_ ?_
      · intro j hj sp i hs
        rw [hselc j hj sp i hs]
        exact ⟨rfl, G.selPlain j hj sp i hs⟩
      · intro j hj sp i hs sp' i' hi' hne
        rw [areaSet_cell]
        split
        · rename_i hc
          exact G.bankApart k hk j hj sp' i' (hin sp' i' hi' hc) sp i hs _ chip cb hbk
        · exact G.selApart j hj sp i hs sp' i' hi' hne
    have hwant : ∀ j, K j → wanted { w with
        spaces := areaSet env.chips w.spaces (w.bankers k) chip cb
        bankers := upd w.bankers k { w.bankers k with bank := some (wanted w k) } } j = wanted w j := by
      intro j hj
      refine wanted_congr ⟨_, (w.bankers j).banks, hbe.eq j⟩ ?_
      intro sp a hs
      obtain ⟨i, hi⟩ := G.selIdx j hj sp a hs
      refine selVal_congr hi (by rw [hsp.idx]; exact hi) ?_
      rw [hselc j hj sp i ⟨a, hs, hi⟩]
    have hbase : Base env K { w with
        spaces := areaSet env.chips w.spaces (w.bankers k) chip cb
        bankers := upd w.bankers k { w.bankers k with bank := some (wanted w k) } } := by
      refine ⟨hgeo, H.ub, fun j hj => ⟨?_⟩⟩
      intro b hb
      by_cases hjk : j = k
      · subst hjk
        simp only [upd_same] at hb ⊢
        cases hb
        refine ⟨chip, cb, hbk, ?_⟩
        intro i hi
        obtain ⟨_, h2, h3, h4⟩ := hi
        simp only at h2 h3 h4 ⊢
        rw [hsp.start] at h3 h4
        rw [areaSet_cell, if_pos ⟨rfl, h3, h4⟩, hsp.start]
        exact decode_is _ _
      · simp only [upd_other _ _ _ _ hjk] at hb ⊢
        obtain ⟨c', cb', h1, h2⟩ := (H.placed j hj).placed b hb
        refine ⟨c', cb', h1, ?_⟩
        intro i hi
        have hi' : InArea w.spaces (w.bankers j) (w.bankers j).sp i := by
          unfold InArea at hi ⊢; rw [hsp.start, hsp.size] at hi; exact hi
        have := h2 i hi'
        rw [areaSet_cell, if_neg, hsp.start]
        · exact this
        · intro hc
          exact G.areaDisj k hk j hj hjk _ i (hin _ i hi'.2.1 hc) hi'
    refine ⟨hbase, rfl, ?_, ?_, hselc, fun j sp i => isSel_congr hsp hbe j sp i, hbe, hsp⟩
    · intro _
      rw [hwant k hk]
      simp only [upd_same]
    · intro j hj hjk
      unfold Sync
      rw [hwant j hj]
      simp only [upd_other _ _ _ _ hjk]

theorem activate_switched {env : Env} {K : Nat → Prop} {w : World} (H : Base env K w) {k : Nat} (hk : K k) :
    Switched env K k w (w.bankActivate env k) := by
  unfold World.bankActivate
  have hab := actualBank_eq H.geo hk
  rcases h : w.actualBank env k with ⟨w1, b⟩
  rw [h] at hab
  simp only at hab ⊢
  obtain ⟨s, rfl⟩ := hab
  have hw : wanted w1 k = wanted w k :=
    wanted_congr ⟨_, _, by rw [s.bankers]⟩ (fun sp a _ => selVal_same s sp a)
  rw [← hw]
  have := switch_wanted (H.same s) hk
  constructor
  · exact this.base
  · rw [this.bytes, s.bytes]
  · exact this.sync
  · intro j hj hjk; rw [this.others j hj hjk, sync_same s]
  · intro j hj sp i hs
    have := this.sel j hj sp i (by rw [s.spaces, s.bankers]; exact hs)
    rw [this, s.spaces]
  · intro j sp i; rw [this.isSel, s.spaces, s.bankers]
  · have := this.bk; rw [s.bankers] at this; exact this
  · have := this.sp; rw [s.spaces] at this; exact this

/-! ### writing -/

theorem Base.setBytes {env K w} (H : Base env K w) (m : Bytes) : Base env K { w with bytes := m } :=
  ⟨H.geo, H.ub, fun k hk => ⟨(H.placed k hk).placed⟩⟩

/-- Storing bytes that no selector of j shows. -/
theorem sync_bytes {env K w} (H : Base env K w) (m : Bytes) {j : Nat} (hj : K j)
    (h : ∀ sp i, IsSel w.spaces (w.bankers j) sp i → ((w.spaces sp).cells i).d m = ((w.spaces sp).cells i).d w.bytes) :
    Sync { w with bytes := m } j ↔ Sync w j := by
  have : wanted { w with bytes := m } j = wanted w j := by
    refine wanted_congr ⟨_, _, rfl⟩ ?_
    intro sp a hs
    obtain ⟨i, hi⟩ := H.geo.selIdx j hj sp a hs
    exact selVal_congr hi hi (h sp i ⟨a, hs, hi⟩)
  unfold Sync; rw [this]

theorem sync_set_other {env K w} (H : Base env K w) {sp i : Nat} (hi : i < (w.spaces sp).size) (v : W) {j : Nat}
    (hj : K j) (hns : ¬ IsSel w.spaces (w.bankers j) sp i) :
    Sync { w with bytes := ((w.spaces sp).cells i).set w.bytes v } j ↔ Sync w j := by
  apply sync_bytes H _ hj
  intro sp' i' hs
  apply d_set_apart
  apply H.geo.selApart j hj sp' i' hs sp i hi
  rintro h
  cases h; exact hns hs

theorem sync_set_stable {env K w} (H : Base env K w) {sp i : Nat} (hi : i < (w.spaces sp).size) (v : W)
    (hst : Stable ((w.spaces sp).cells i) w.bytes v) {j : Nat} (hj : K j) :
    Sync { w with bytes := ((w.spaces sp).cells i).set w.bytes v } j ↔ Sync w j := by
  apply sync_bytes H _ hj
  intro sp' i' hs
  by_cases h : (sp, i) = (sp', i')
  · cases h; rw [hst.2 _ hst.1, hst.1]
  · exact d_set_apart _ _ _ _ (H.geo.selApart j hj sp' i' hs sp i hi h)

theorem writeOps_bank {env : Env} {K : Nat → Prop} (sp i : Nat) (os : List MOp) : ∀ (w : World) (v : W),
    Base env K w → i < (w.spaces sp).size → (∀ o ∈ os, o ∈ ((w.spaces sp).cells i).ops) →
    (((∀ j, K j → Sync w j) ∧ ∀ j, .bank j ∈ ((w.spaces sp).cells i).ops → .bank j ∈ os) ∨
      (Stable ((w.spaces sp).cells i) w.bytes v ∧ ∀ j, K j → Sync w j ∨ .bank j ∈ os)) →
    let r := World.writeOps env (.cell sp i) os w v
    Base env K r.1 ∧ SpEq w.spaces r.1.spaces ∧ BkEq w.bankers r.1.bankers ∧ (∀ j, K j → Sync r.1 j) ∧
      ((r.1.spaces sp).cells i = (w.spaces sp).cells i) ∧
      ((∀ j, .bank j ∉ ((w.spaces sp).cells i).ops) ∨ Stable ((w.spaces sp).cells i) r.1.bytes r.2) := by
  induction os with
  | nil =>
    intro w v H hi hos hA
    refine ⟨H, SpEq.refl _, BkEq.refl _, ?_, rfl, ?_⟩
    · rcases hA with hA | hA
      · exact hA.1
      · intro j hj; exact (hA.2 j hj).resolve_right (by simp)
    · rcases hA with hA | hA
      · exact .inl (fun j hj => by have := hA.2 j hj; simp at this)
      · exact .inr hA.1
  | cons o os ih =>
    intro w v H hi hos hA
    have hos' : ∀ o ∈ os, o ∈ ((w.spaces sp).cells i).ops := fun o h => hos o (List.mem_cons_of_mem _ h)
    rcases H.geo.ops sp i hi o (hos o List.mem_cons_self) with ⟨b, rfl⟩ | ⟨b, rfl⟩ | ⟨k, hk, rfl, hsel⟩
    · -- write event
      have s := event_same env w b
      have hA' : (((∀ j, K j → Sync (w.event env b) j) ∧
          ∀ j, .bank j ∈ (((w.event env b).spaces sp).cells i).ops → .bank j ∈ os) ∨
        (Stable (((w.event env b).spaces sp).cells i) (w.event env b).bytes v ∧
          ∀ j, K j → Sync (w.event env b) j ∨ .bank j ∈ os)) := by
        rw [s.spaces, s.bytes]
        simp only [sync_same s]
        rcases hA with hA | hA
        · exact .inl ⟨hA.1, fun j hj => by have := hA.2 j hj; simpa using this⟩
        · exact .inr ⟨hA.1, fun j hj => by have := hA.2 j hj; simpa using this⟩
      have := ih (w.event env b) v (H.same s) (by rw [s.spaces]; exact hi) (by rw [s.spaces]; exact hos') hA'
      rw [s.spaces, s.bankers] at this
      exact this
    · have := ih w v H hi hos' (by
        rcases hA with hA | hA
        · exact .inl ⟨hA.1, fun j hj => by have := hA.2 j hj; simpa using this⟩
        · exact .inr ⟨hA.1, fun j hj => by have := hA.2 j hj; simpa using this⟩)
      exact this
    · -- bank switcher
      have hcell : ∀ u : World, u.cell (.cell sp i) = (u.spaces sp).cells i := fun _ => rfl
      have hw1 : w.cset env (.cell sp i) v = { w with bytes := ((w.spaces sp).cells i).set w.bytes v } := rfl
      have H1 : Base env K (w.cset env (.cell sp i) v) := H.setBytes _
      have hsw := activate_switched H1 hk
      have hc2 := hsw.sel k hk sp i hsel
      have hpl := H.geo.selPlain k hk sp i hsel
      have hst : Stable ((w.spaces sp).cells i) ((w.cset env (.cell sp i) v).bankActivate env k).bytes
          (((w.cset env (.cell sp i) v).bankActivate env k).cget (.cell sp i)) := by
        unfold World.cget
        rw [hcell, hc2, hsw.bytes]
        exact stable_after hpl w.bytes v
      have hA' : ∀ j, K j → Sync ((w.cset env (.cell sp i) v).bankActivate env k) j ∨ .bank j ∈ os := by
        intro j hj
        by_cases hjk : j = k
        · subst hjk; exact .inl hsw.sync
        rw [hsw.others j hj hjk]
        rcases hA with hA | hA
        · by_cases hs : IsSel w.spaces (w.bankers j) sp i
          · have := hA.2 j (H.geo.selOp j hj sp i hs)
            simp only [List.mem_cons, MOp.bank.injEq, hjk, false_or] at this
            exact .inr this
          · left
            rw [hw1, sync_set_other H hi v hj hs]
            exact hA.1 j hj
        · have := hA.2 j hj
          simp only [List.mem_cons, MOp.bank.injEq, hjk, false_or] at this
          rcases this with h | h
          · left
            rw [hw1, sync_set_stable H hi v hA.1 hj]
            exact h
          · exact .inr h
      have := ih _ _ hsw.base (by rw [hsw.sp.size]; exact hi)
        (by rw [hc2]; exact hos') (.inr ⟨by rw [hc2]; exact hst, hA'⟩)
      simp only at this
      obtain ⟨t1, t2, t3, t4, t5, t6⟩ := this
      refine ⟨t1, ?_, ?_, t4, ?_, ?_⟩
      · exact SpEq.trans hsw.sp t2
      · exact BkEq.trans hsw.bk t3
      · exact t5.trans hc2
      · rw [hc2] at t6; exact t6

/-- What an access may do: write and read anything; set and download (which
bypass the operators) anything but selectors. -/
def ActFits (K : Nat → Prop) (w : World) : Act → Prop
  | .write _ a _ | .read _ a | .get _ a | .setRo _ a _ => a < 4294967296
  | .set sp a _ | .download sp a _ => a < 4294967296 ∧ ∀ k, K k → ¬ (w.bankers k).selAt sp a

/-- All the bankers K are in step with their selectors. -/
structure InStep (env : Env) (K : Nat → Prop) (w : World) : Prop where
  base : Base env K w
  sync : ∀ k, K k → Sync w k

/-- Changes that do not matter for banking. -/
theorem InStep.errors {env K w} (H : InStep env K w) {w' : World} (h1 : w'.spaces = w.spaces)
    (h2 : w'.bankers = w.bankers) (h3 : w'.bytes = w.bytes) (h4 : w'.ub = w.ub) : InStep env K w' := by
  refine ⟨⟨by rw [h1, h2]; exact H.base.geo, by rw [h4]; exact H.base.ub, fun k hk => ⟨?_⟩⟩, ?_⟩
  · rw [h1, h2]; exact (H.base.placed k hk).placed
  · intro k hk
    have : wanted w' k = wanted w k := by
      refine wanted_congr ⟨_, _, by rw [h2]⟩ ?_
      intro sp a hs
      obtain ⟨i, hi⟩ := H.base.geo.selIdx k hk sp a hs
      exact selVal_congr hi (by rw [h1]; exact hi) (by rw [h1, h3])
    unfold Sync; rw [this, h2]; exact H.sync k hk

theorem InStep.putBytes {env K w} (H : InStep env K w) (m : Bytes)
    (h : ∀ j, K j → ∀ sp i, IsSel w.spaces (w.bankers j) sp i →
      ((w.spaces sp).cells i).d m = ((w.spaces sp).cells i).d w.bytes) : InStep env K { w with bytes := m } :=
  ⟨H.base.setBytes m, fun j hj => (sync_bytes H.base m hj (h j hj)).2 (H.sync j hj)⟩

theorem dummy_apart {env K w} (H : InStep env K w) (sp : Nat) {j : Nat} (hj : K j) {sp' i : Nat}
    (h : IsSel w.spaces (w.bankers j) sp' i) : Apart2 (w.spaces sp).dummy ((w.spaces sp').cells i) := by
  left
  rw [H.base.geo.dptr]
  exact fun e => H.base.geo.selBlk j hj sp' i h e.symm

theorem store32_sel (m : Bytes) (c s : Cell) (v : W) (hc : c.ptr = defPtr) (hs : s.ptr.blk ≠ none) :
    s.d (m.store32 c.ptr v) = s.d m := by
  apply d_congr
  intro o _ _
  apply store32_off
  left
  rw [hc]; exact hs

theorem InStep.dummyStore {env K w} (H : InStep env K w) (sp : Nat) : InStep env K (w.dummyStore env sp) := by
  have h1 := H.putBytes (w.bytes.store32 (w.spaces sp).dummy.ptr (env.rnd w.nrnd &&& (w.spaces sp).dummy.mask))
    (fun j hj sp' i hs => store32_sel _ _ _ _ (H.base.geo.dptr sp) (H.base.geo.selBlk j hj sp' i hs))
  exact h1.errors rfl rfl rfl rfl

theorem InStep.err {env K w} (H : InStep env K w) (sp a : Nat) : InStep env K (w.err sp a) := by
  refine H.errors (err_spaces w sp a) ?_ (err_bytes w sp a) ?_ <;> (unfold World.err; split <;> rfl)

theorem InStep.same {env K w w'} (H : InStep env K w) (s : SameMem w w') : InStep env K w' :=
  H.errors s.spaces s.bankers s.bytes s.ub

theorem notSel_of {env K w} (H : InStep env K w) {sp a i : Nat} (ha : a < 4294967296)
    (hi : (w.spaces sp).idx? a = some i) {j : Nat} (hj : K j)
    (h32 : ∀ sp a, (w.bankers j).selAt sp a → a < 4294967296) (hns : ¬ (w.bankers j).selAt sp a) :
    ¬ IsSel w.spaces (w.bankers j) sp i := by
  rintro ⟨a', hs, hi'⟩
  have hb := H.base.geo.bound sp
  have h3 := h32 sp a' hs
  rw [idx?_eq _ _ (by omega) ha] at hi
  rw [idx?_eq _ _ (by omega) h3] at hi'
  split at hi <;> split at hi' <;> simp at hi hi'
  have : a = a' := by omega
  subst this; exact hns hs

theorem act_inStep {env K w} (H : InStep env K w) (x : Act) (hx : ActFits K w x)
    (h32 : ∀ k, K k → ∀ sp a, (w.bankers k).selAt sp a → a < 4294967296) :
    InStep env K (w.act env x) ∧ BkEq w.bankers (w.act env x).bankers ∧ SpEq w.spaces (w.act env x).spaces := by
  have G := H.base.geo
  cases x with
  | write sp a v =>
    simp only [World.act, World.write]
    cases hi : (w.spaces sp).idx? a with
    | none =>
      simp only [World.cwrite]
      have he : (w.err sp a).spaces = w.spaces := err_spaces w sp a
      have heb : (w.err sp a).bankers = w.bankers := by unfold World.err; split <;> rfl
      refine ⟨(H.err sp a).dummyStore sp, ?_, ?_⟩
      · simp only [World.dummyStore, heb]; exact BkEq.refl _
      · simp only [World.dummyStore, he]; exact SpEq.refl _
    | some i =>
      simp only [World.cwrite]
      have hlt := idx?_lt hi
      have h := writeOps_bank (env := env) (K := K) sp i ((w.cell (.cell sp i)).ops) w v H.base hlt
        (fun o ho => ho) (.inl ⟨H.sync, fun j hj => hj⟩)
      simp only at h
      rcases hw : World.writeOps env (.cell sp i) (w.cell (.cell sp i)).ops w v with ⟨w', v'⟩
      rw [hw] at h
      simp only at h ⊢
      obtain ⟨t1, t2, t3, t4, t5, t6⟩ := h
      refine ⟨⟨t1.setBytes _, ?_⟩, t3, t2⟩
      intro j hj
      have hlt' : i < (w'.spaces sp).size := by rw [t2.size]; exact hlt
      rcases t6 with t6 | t6
      · have hns : ¬ IsSel w'.spaces (w'.bankers j) sp i := by
          rw [isSel_congr t2 t3]
          intro hs; exact t6 j (G.selOp j hj sp i hs)
        exact (sync_set_other t1 hlt' v' hj hns).2 (t4 j hj)
      · exact (sync_set_stable t1 hlt' v' (by rw [t5]; exact t6) hj).2 (t4 j hj)
  | set sp a v =>
    simp only [World.act, World.set]
    cases hi : (w.spaces sp).idx? a with
    | none =>
      have he : (w.err sp a).spaces = w.spaces := err_spaces w sp a
      have heb : (w.err sp a).bankers = w.bankers := by unfold World.err; split <;> rfl
      refine ⟨(H.err sp a).dummyStore sp, ?_, ?_⟩
      · simp only [World.cset, World.dummyStore, heb]; exact BkEq.refl _
      · simp only [World.cset, World.dummyStore, he]; exact SpEq.refl _
    | some i =>
      refine ⟨⟨H.base.setBytes _, fun j hj => ?_⟩, BkEq.refl _, SpEq.refl _⟩
      exact (sync_set_other H.base (idx?_lt hi) v hj
        (notSel_of H hx.1 hi hj (h32 j hj) (hx.2 j hj))).2 (H.sync j hj)
  | download sp a v =>
    simp only [World.act, World.download]
    cases hi : (w.spaces sp).idx? a with
    | none =>
      have he : (w.err sp a).spaces = w.spaces := err_spaces w sp a
      have heb : (w.err sp a).bankers = w.bankers := by unfold World.err; split <;> rfl
      have H1 := H.err sp a
      refine ⟨?_, ?_, ?_⟩
      · unfold World.cdownload
        refine H1.putBytes _ (fun j hj sp' i' hs => ?_)
        exact d_put_apart _ _ _ _ (dummy_apart H1 sp hj hs)
      · simp only [World.cdownload, heb]; exact BkEq.refl _
      · simp only [World.cdownload, he]; exact SpEq.refl _
    | some i =>
      refine ⟨?_, BkEq.refl _, SpEq.refl _⟩
      unfold World.cdownload
      refine H.putBytes _ (fun j hj sp' i' hs => ?_)
      refine d_put_apart _ _ _ _ (G.selApart j hj sp' i' hs sp i (idx?_lt hi) ?_)
      intro h; cases h
      exact notSel_of H hx.1 hi hj (h32 j hj) (hx.2 j hj) hs
  | read sp a =>
    simp only [World.act, World.read]
    cases hi : (w.spaces sp).idx? a with
    | none =>
      have H1 := H.err sp a
      have s := (cread_quiet env (w.err sp a) (.dummy sp) (by
        simp only [World.cell, err_spaces]; exact G.dops sp)).1
      have he : (w.err sp a).spaces = w.spaces := err_spaces w sp a
      have heb : (w.err sp a).bankers = w.bankers := by unfold World.err; split <;> rfl
      refine ⟨H1.same s, ?_, ?_⟩
      · simp only [s.bankers, heb]; exact BkEq.refl _
      · simp only [s.spaces, he]; exact SpEq.refl _
    | some i =>
      have s := (cread_nohw env w (.cell sp i) (fun h => G.nohw (idx?_lt hi) h)).1
      refine ⟨H.same s, ?_, ?_⟩
      · simp only [s.bankers]; exact BkEq.refl _
      · simp only [s.spaces]; exact SpEq.refl _
  | get sp a =>
    simp only [World.act, World.get]
    cases hi : (w.spaces sp).idx? a with
    | none =>
      have he : (w.err sp a).spaces = w.spaces := err_spaces w sp a
      have heb : (w.err sp a).bankers = w.bankers := by unfold World.err; split <;> rfl
      refine ⟨H.err sp a, ?_, ?_⟩
      · simp only [heb]; exact BkEq.refl _
      · simp only [he]; exact SpEq.refl _
    | some i => exact ⟨H, BkEq.refl _, SpEq.refl _⟩
  | setRo sp a b =>
    simp only [World.act]
    have hcells := setRo_cells w sp a b
    have hb : (w.setRo sp a b).bankers = w.bankers ∧ (w.setRo sp a b).bytes = w.bytes ∧
        (w.setRo sp a b).ub = w.ub := by
      unfold World.setRo; split <;> exact ⟨rfl, rfl, rfl⟩
    have hsp : SpEq w.spaces (w.setRo sp a b).spaces := by
      constructor
      · intro sp'; obtain ⟨_, _, h, _⟩ := hcells sp' 0; exact h
      · intro sp'; obtain ⟨_, _, _, h, _⟩ := hcells sp' 0; exact h
      · intro sp'; obtain ⟨_, _, _, _, h1, _, h2, _⟩ := hcells sp' 0; exact ⟨h1, h2⟩
      · intro sp' i; obtain ⟨_, h, _⟩ := hcells sp' i; rw [h]
      · intro sp' i; obtain ⟨_, h, _⟩ := hcells sp' i; rw [h]
    have hptr : ∀ sp' i, (((w.setRo sp a b).spaces sp').cells i).ptr = ((w.spaces sp').cells i).ptr := by
      intro sp' i; obtain ⟨_, h, _⟩ := hcells sp' i; rw [h]
    have hbk : BkEq w.bankers (w.setRo sp a b).bankers := by rw [hb.1]; exact BkEq.refl _
    refine ⟨⟨⟨?_, by rw [hb.2.2]; exact H.base.ub, fun k hk => ⟨?_⟩⟩, ?_⟩, hbk, hsp⟩
    · refine G.change hsp hbk ?_ ?_
      · intro k hk sp' i hs
        refine ⟨hptr sp' i, ?_⟩
        have := G.selPlain k hk sp' i hs
        obtain ⟨_, h, _⟩ := hcells sp' i
        rw [h]; exact ⟨this.1, this.2, this.3, this.4⟩
      · intro k hk sp' i hs sp'' i'' hi hne
        rw [apart2_congr (hptr sp'' i'') (hsp.kind sp'' i'') rfl rfl]
        exact G.selApart k hk sp' i hs sp'' i'' hi hne
    · intro bn hbn
      rw [hb.1] at hbn ⊢
      obtain ⟨chip, cb, h1, h2⟩ := (H.base.placed k hk).placed bn hbn
      refine ⟨chip, cb, h1, ?_⟩
      intro i hi
      have hi' : InArea w.spaces (w.bankers k) (w.bankers k).sp i := by
        unfold InArea at hi ⊢; rw [hsp.start, hsp.size] at hi; exact hi
      have := h2 i hi'
      obtain ⟨_, h, _⟩ := hcells (w.bankers k).sp i
      rw [h, hsp.start]
      exact this
    · intro k hk
      have : wanted (w.setRo sp a b) k = wanted w k := by
        refine wanted_congr ⟨_, _, by rw [hb.1]⟩ ?_
        intro sp' a' hs
        obtain ⟨i, hi⟩ := G.selIdx k hk sp' a' hs
        refine selVal_congr hi (by rw [hsp.idx]; exact hi) ?_
        obtain ⟨_, h, _⟩ := hcells sp' i
        rw [h, hb.2.1]; rfl
      unfold Sync; rw [this, hb.1]; exact H.sync k hk

end Ucsim
