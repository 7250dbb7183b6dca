import Verif.Proof.Brk

namespace Ucsim
open Spec Props

theorem BInv.bpAt {s : BSt} (h : BInv s) {a : Nat} (ha : a < 2 ^ 32) :
    s.bpAt a = true ↔ (∃ i, (s.w.spaces s.rom).idx? a = some i) ∧ ∃ b ∈ s.fbrk.items, b.addr = a := by
  unfold BSt.bpAt
  rw [Bool.and_eq_true, validAddr_iff (h.geo _) ha]
  constructor
  · rintro ⟨⟨i, hi⟩, hf⟩
    refine ⟨⟨i, hi⟩, ?_⟩
    unfold World.fetchFlag at hf
    rw [hi] at hf
    obtain ⟨b, hb, hbi⟩ := (h.flag i (idx?_lt hi)).1 hf
    exact ⟨b, hb, idx_inj (h.geo _) (h.fk b hb).2.2 ha hbi hi⟩
  · rintro ⟨⟨i, hi⟩, b, hb, rfl⟩
    refine ⟨⟨i, hi⟩, ?_⟩
    unfold World.fetchFlag
    rw [hi]
    exact (h.flag i (idx?_lt hi)).2 ⟨b, hb, hi⟩

theorem BInv.getBp_none {s : BSt} (h : BInv s) {a : Nat} (ha : a < 2 ^ 32) (hn : s.getBp a = none) :
    ∀ b ∈ s.fbrk.items, b.addr = a → (s.w.spaces s.rom).idx? a = none := by
  intro b hb hba
  cases hi : (s.w.spaces s.rom).idx? a with
  | none => rfl
  | some i =>
    exfalso
    unfold BSt.getBp at hn
    rw [if_pos ((h.bpAt ha).2 ⟨⟨i, hi⟩, b, hb, hba⟩)] at hn
    cases hf : s.fbrk.items.findIdx? (fun b => b.addr = a) with
    | none =>
      rw [List.findIdx?_eq_none_iff] at hf
      have := hf b hb; simp [hba] at this
    | some k =>
      rw [hf] at hn
      obtain ⟨hk, _⟩ := List.findIdx?_eq_some_iff_getElem.1 hf
      simp [hk] at hn

theorem BInv.getBp_some {s : BSt} (h : BInv s) {a k : Nat} {b : Brk} (ha : a < 2 ^ 32) (hn : s.getBp a = some (k, b)) :
    s.fbrk.items[k]? = some b ∧ b.addr = a ∧ ∃ i, (s.w.spaces s.rom).idx? a = some i := by
  unfold BSt.getBp at hn
  split at hn
  · rename_i hc
    have hi := ((h.bpAt ha).1 hc).1
    cases hf : s.fbrk.items.findIdx? (fun b => b.addr = a) with
    | none => rw [hf] at hn; cases hn
    | some j =>
      rw [hf] at hn
      obtain ⟨hk, h1, _⟩ := List.findIdx?_eq_some_iff_getElem.1 hf
      simp only [List.getElem?_eq_getElem hk, Option.map_some, Option.some.injEq, Prod.mk.injEq] at hn
      obtain ⟨rfl, rfl⟩ := hn
      exact ⟨List.getElem?_eq_getElem hk, by simpa using h1, hi⟩
  · cases hn

theorem BInv.newNr {s : BSt} (h : BInv s) :
    1 ≤ s.newNr ∧ (∀ b ∈ s.fbrk.items, b.nr < s.newNr) ∧ (∀ b ∈ s.ebrk.items, b.nr < s.newNr) := by
  unfold BSt.newNr
  by_cases hz : s.counter = 0
  · rw [if_pos hz]
    refine ⟨by omega, ?_, ?_⟩ <;> intro b hb
    · have := h.fnr b hb; omega
    · have := h.enr b hb; omega
  · rw [if_neg hz]
    split
    · rename_i he
      unfold CList.count at he
      have hf : s.fbrk.items = [] := List.length_eq_zero_iff.1 he.1
      have hee : s.ebrk.items = [] := List.length_eq_zero_iff.1 he.2
      rw [hf, hee]; simp
    · rename_i hne
      have hc : 1 ≤ s.counter := by
        unfold CList.count at hne
        rcases hf : s.fbrk.items with _ | ⟨b, l⟩
        · rcases he : s.ebrk.items with _ | ⟨b, l⟩
          · rw [hf, he] at hne; simp at hne
          · have := h.enr b (by rw [he]; exact List.mem_cons_self); omega
        · have := h.fnr b (by rw [hf]; exact List.mem_cons_self); omega
      refine ⟨by omega, ?_, ?_⟩ <;> intro b hb
      · have := h.fnr b hb; omega
      · have := h.enr b hb; omega

theorem pairwise_append_one {α : Type} {R : α → α → Prop} {l : List α} (h : l.Pairwise R) (x : α)
    (hx : ∀ y ∈ l, R y x) : (l ++ [x]).Pairwise R := by
  rw [List.pairwise_append]
  refine ⟨h, List.pairwise_singleton _ _, ?_⟩
  intro a ha b hb
  rw [List.mem_singleton] at hb; subst hb; exact hx a ha

theorem op_isBrk (b : Brk) : b.op.isBrk = true := by unfold Brk.op; split <;> rfl

/-- A new fetch breakpoint. -/
theorem addF_inv {s s' : BSt} (h : BInv s) (a : Nat) (ha : a < 2 ^ 32) (dyn : Bool) (hit : Int) (cond : Bool)
    (hnew : ∀ b ∈ s.fbrk.items, b.addr = a → (s.w.spaces s.rom).idx? a = none)
    (hok : s.addBp ⟨s.fresh, s.newNr, .fetch, s.rom, a, dyn⟩ hit cond = .ok s') :
    BInv s' ∧ s'.fbrk.items = s.fbrk.items ++ [⟨s.fresh, s.newNr, .fetch, s.rom, a, dyn⟩] ∧
    s'.ebrk = s.ebrk ∧ s'.counter = s.newNr ∧ s'.fresh = s.fresh + 1 ∧ s'.rom = s.rom ∧
    s'.w.brks = upd s.w.brks s.fresh ⟨hit, hit, cond⟩ ∧ s'.w.events = s.w.events ∧ SameGeo s.w s'.w := by
  obtain ⟨hn1, hnf, hne⟩ := h.newNr
  unfold BSt.addBp at hok
  simp only at hok
  generalize hb : (⟨s.fresh, s.newNr, .fetch, s.rom, a, dyn⟩ : Brk) = b at hok
  have e1 : b.nr = s.newNr := by rw [← hb]
  have e2 : b.id = s.fresh := by rw [← hb]
  have e3 : b.kind = .fetch := by rw [← hb]
  have e4 : b.mem = s.rom := by rw [← hb]
  have e5 : b.addr = a := by rw [← hb]
  have hadd := (slAdd_append s.fbrk h.ffit h.fdel h.fsort b (by rw [e1]; exact hnf)).2
  split at hok
  · rename_i l hl
    cases hok
    obtain ⟨hfit, hdel, hit'⟩ := hadd l hl
    have hgeo := setBrk_geo { s.w with brks := upd s.w.brks s.fresh ⟨hit, hit, cond⟩ } b
    obtain ⟨hr1, hr2, hr3⟩ := setBrk_rest { s.w with brks := upd s.w.brks s.fresh ⟨hit, hit, cond⟩ } b
    have hflag := setBrk_flag { s.w with brks := upd s.w.brks s.fresh ⟨hit, hit, cond⟩ } b
    have hops := setBrk_ops { s.w with brks := upd s.w.brks s.fresh ⟨hit, hit, cond⟩ } b
    generalize hw' : World.setBrk { s.w with brks := upd s.w.brks s.fresh ⟨hit, hit, cond⟩ } b = w' at *
    simp only at hr2 hr3 hflag hops
    have hg : SameGeo s.w w' := ⟨hgeo.start, hgeo.size⟩
    refine ⟨?_, hit', rfl, rfl, rfl, rfl, hr2, hr3, hg⟩
    constructor <;> simp only
    · intro sp; rw [hg.start, hg.size]; exact h.geo sp
    · exact hfit
    · exact h.efit
    · rw [hdel]; exact h.fdel
    · exact h.edel
    · rw [hit']; exact pairwise_append_one h.fsort b (by rw [e1]; exact hnf)
    · exact h.esort
    · rw [hit']; intro x hx y hy
      rcases List.mem_append.1 hx with hx | hx
      · exact h.cross x hx y hy
      · rw [List.mem_singleton] at hx; subst hx; have := hne y hy; omega
    · rw [hit']; intro x hx
      rcases List.mem_append.1 hx with hx | hx
      · have := hnf x hx; have := h.fnr x hx; omega
      · rw [List.mem_singleton] at hx; subst hx; omega
    · intro x hx; have := hne x hx; have := h.enr x hx; omega
    · rw [hit']; exact pairwise_append_one h.fid b (fun y hy => by have := h.ffr y hy; omega)
    · exact h.eid
    · rw [hit']; intro x hx y hy
      rcases List.mem_append.1 hx with hx | hx
      · exact h.cid x hx y hy
      · rw [List.mem_singleton] at hx; subst hx; have := h.efr y hy; omega
    · rw [hit']; intro x hx
      rcases List.mem_append.1 hx with hx | hx
      · have := h.ffr x hx; omega
      · rw [List.mem_singleton] at hx; subst hx; omega
    · intro x hx; have := h.efr x hx; omega
    · rw [hit']; intro x hx
      rcases List.mem_append.1 hx with hx | hx
      · exact h.fk x hx
      · rw [List.mem_singleton] at hx; subst hx; exact ⟨e3, e4, e5 ▸ ha⟩
    · exact h.ek
    · intro i hi
      rw [hg.size] at hi
      rw [hflag, Bool.or_eq_true, h.flag i hi, hit']
      simp only [decide_eq_true_eq, e3, e4, true_and, List.mem_append, List.mem_singleton]
      simp only [hg.idx]
      constructor
      · rintro (⟨x, hx, hxi⟩ | hxi)
        · exact ⟨x, Or.inl hx, hxi⟩
        · exact ⟨b, Or.inr rfl, hxi⟩
      · rintro ⟨x, hx | rfl, hxi⟩
        · exact Or.inl ⟨x, hx, hxi⟩
        · exact Or.inr hxi
    · rw [hit']
      intro x hx y hy i hxy hxi
      rw [hg.idx] at hxi
      rcases List.mem_append.1 hx with hx1 | hx1 <;> rcases List.mem_append.1 hy with hy1 | hy1
      · exact h.fuq x hx1 y hy1 i hxy hxi
      · rw [List.mem_singleton] at hy1; rw [hy1] at hxy
        have h0 := hnew x hx1 (hxy.trans e5)
        rw [hxy, e5, h0] at hxi; cases hxi
      · rw [List.mem_singleton] at hx1; rw [hx1] at hxy hxi
        have h0 := hnew y hy1 (hxy.symm.trans e5)
        rw [e5, h0] at hxi; cases hxi
      · rw [List.mem_singleton] at hx1 hy1; rw [hx1, hy1]
    · intro sp i hi
      rw [hg.size] at hi
      rw [hops, if_neg (by unfold Brk.at_; rw [e3]; simp), List.append_nil, hg.at_]
      exact h.ops sp i hi
  · cases hok

/-- A new event breakpoint. -/
theorem addE_inv {s s' : BSt} (h : BInv s) (k : BKind) (hk : k ≠ .fetch) (mem a : Nat) (dyn : Bool) (hit : Int) (cond : Bool)
    (hok : s.addBp ⟨s.fresh, s.newNr, k, mem, a, dyn⟩ hit cond = .ok s') :
    BInv s' ∧ s'.ebrk.items = s.ebrk.items ++ [⟨s.fresh, s.newNr, k, mem, a, dyn⟩] ∧
    s'.fbrk = s.fbrk ∧ s'.counter = s.newNr ∧ s'.fresh = s.fresh + 1 ∧ s'.rom = s.rom ∧
    s'.w.brks = upd s.w.brks s.fresh ⟨hit, hit, cond⟩ ∧ s'.w.events = s.w.events ∧ SameGeo s.w s'.w := by
  obtain ⟨hn1, hnf, hne⟩ := h.newNr
  have hok : (match slAdd cmpNr false s.ebrk ⟨s.fresh, s.newNr, k, mem, a, dyn⟩ with
    | .ok l => BRes.ok { s with
        w := World.setBrk { s.w with brks := upd s.w.brks s.fresh ⟨hit, hit, cond⟩ } ⟨s.fresh, s.newNr, k, mem, a, dyn⟩
        ebrk := l
        counter := s.newNr
        fresh := s.fresh + 1 }
    | _ => .bad) = .ok s' := by
    rw [← hok]; unfold BSt.addBp
    cases k <;> first | exact absurd rfl hk | rfl
  generalize hb : (⟨s.fresh, s.newNr, k, mem, a, dyn⟩ : Brk) = b at hok
  have e1 : b.nr = s.newNr := by rw [← hb]
  have e2 : b.id = s.fresh := by rw [← hb]
  have e3 : b.kind = k := by rw [← hb]
  have hadd := (slAdd_append s.ebrk h.efit h.edel h.esort b (by rw [e1]; exact hne)).2
  split at hok
  · rename_i l hl
    cases hok
    obtain ⟨hfit, hdel, hit'⟩ := hadd l hl
    have hgeo := setBrk_geo { s.w with brks := upd s.w.brks s.fresh ⟨hit, hit, cond⟩ } b
    obtain ⟨hr1, hr2, hr3⟩ := setBrk_rest { s.w with brks := upd s.w.brks s.fresh ⟨hit, hit, cond⟩ } b
    have hflag := setBrk_flag { s.w with brks := upd s.w.brks s.fresh ⟨hit, hit, cond⟩ } b
    have hops := setBrk_ops { s.w with brks := upd s.w.brks s.fresh ⟨hit, hit, cond⟩ } b
    generalize hw' : World.setBrk { s.w with brks := upd s.w.brks s.fresh ⟨hit, hit, cond⟩ } b = w' at *
    simp only at hr2 hr3 hflag hops
    have hg : SameGeo s.w w' := ⟨hgeo.start, hgeo.size⟩
    refine ⟨?_, hit', rfl, rfl, rfl, rfl, hr2, hr3, hg⟩
    constructor <;> simp only
    · intro sp; rw [hg.start, hg.size]; exact h.geo sp
    · exact h.ffit
    · exact hfit
    · exact h.fdel
    · rw [hdel]; exact h.edel
    · exact h.fsort
    · rw [hit']; exact pairwise_append_one h.esort b (by rw [e1]; exact hne)
    · rw [hit']; intro x hx y hy
      rcases List.mem_append.1 hy with hy | hy
      · exact h.cross x hx y hy
      · rw [List.mem_singleton] at hy; subst hy; have := hnf x hx; omega
    · intro x hx; have := hnf x hx; have := h.fnr x hx; omega
    · rw [hit']; intro x hx
      rcases List.mem_append.1 hx with hx | hx
      · have := hne x hx; have := h.enr x hx; omega
      · rw [List.mem_singleton] at hx; subst hx; omega
    · exact h.fid
    · rw [hit']; exact pairwise_append_one h.eid b (fun y hy => by have := h.efr y hy; omega)
    · rw [hit']; intro x hx y hy
      rcases List.mem_append.1 hy with hy | hy
      · exact h.cid x hx y hy
      · rw [List.mem_singleton] at hy; subst hy; have := h.ffr x hx; omega
    · intro x hx; have := h.ffr x hx; omega
    · rw [hit']; intro x hx
      rcases List.mem_append.1 hx with hx | hx
      · have := h.efr x hx; omega
      · rw [List.mem_singleton] at hx; subst hx; omega
    · exact h.fk
    · rw [hit']; intro x hx
      rcases List.mem_append.1 hx with hx | hx
      · exact h.ek x hx
      · rw [List.mem_singleton] at hx; subst hx; rw [e3]; exact hk
    · intro i hi
      rw [hg.size] at hi
      rw [hflag, e3]
      simp only [hk, false_and, decide_false, Bool.or_false, hg.idx]
      exact h.flag i hi
    · intro x hx y hy i hxy hxi
      rw [hg.idx] at hxi
      exact h.fuq x hx y hy i hxy hxi
    · intro sp i hi
      rw [hg.size] at hi
      rw [hops, List.filter_append, h.ops sp i hi, hit', hg.at_, List.filter_append, List.map_append]
      congr 1
      have : Brk.at_ { s.w with brks := upd s.w.brks s.fresh ⟨hit, hit, cond⟩ } sp i = Brk.at_ s.w sp i := rfl
      rw [this]
      by_cases hat : Brk.at_ s.w sp i b = true
      · simp [hat, op_isBrk]
      · simp [hat]
  · cases hok

/-- Removing a fetch breakpoint. -/
theorem delF_inv {s s' : BSt} (h : BInv s) {w' : World} {k : Nat} {b : Brk} (hb : s.fbrk.items[k]? = some b)
    (hw : s.w.delBrk b = some w') (hok : s.freeF w' k = .ok s') :
    BInv s' ∧ s'.fbrk.items = s.fbrk.items.filter (fun x => x ≠ b) ∧ s' = { s with w := w', fbrk := s'.fbrk } := by
  have hmem : b ∈ s.fbrk.items := List.mem_of_getElem? hb
  obtain ⟨l', hl, hfit, hdel, _, _⟩ := disconnAt_mem s.fbrk h.ffit (nodup_of_nr h.fsort) k b hb
  have hitems : l'.items = s.fbrk.items.filter (fun x => x ≠ b) := by
    rw [← eraseIdx_filter (nodup_of_nr h.fsort) hb]
    unfold CList.disconnAt at hl
    split at hl
    · cases hl
    · cases hl; rfl
  unfold BSt.freeF at hok
  rw [hl] at hok
  cases hok
  refine ⟨?_, hitems, rfl⟩
  have hg := delBrk_geo hw
  obtain ⟨ek1, ek2, ek3⟩ := h.fk b hmem
  have hsub : ∀ x, x ∈ l'.items ↔ x ∈ s.fbrk.items ∧ x ≠ b := by
    intro x; rw [hitems, List.mem_filter]; simp
  have hsl : l'.items.Sublist s.fbrk.items := by rw [hitems]; exact List.filter_sublist
  constructor <;> simp only
  · intro sp; rw [hg.start, hg.size]; exact h.geo sp
  · exact hfit
  · exact h.efit
  · rw [hdel]; exact h.fdel
  · exact h.edel
  · exact h.fsort.sublist hsl
  · exact h.esort
  · intro x hx; exact h.cross x ((hsub x).1 hx).1
  · intro x hx; exact h.fnr x ((hsub x).1 hx).1
  · exact h.enr
  · exact h.fid.sublist hsl
  · exact h.eid
  · intro x hx; exact h.cid x ((hsub x).1 hx).1
  · intro x hx; exact h.ffr x ((hsub x).1 hx).1
  · exact h.efr
  · intro x hx; exact h.fk x ((hsub x).1 hx).1
  · exact h.ek
  · intro i hi
    rw [hg.size] at hi
    rw [delBrk_flag hw, Bool.and_eq_true, h.flag i hi]
    simp only [ek1, ek2, true_and, Bool.not_eq_true', decide_eq_false_iff_not, hg.idx]
    constructor
    · rintro ⟨⟨x, hx, hxi⟩, hbi⟩
      exact ⟨x, (hsub x).2 ⟨hx, fun he => hbi (he ▸ hxi)⟩, hxi⟩
    · rintro ⟨x, hx, hxi⟩
      obtain ⟨hx1, hx2⟩ := (hsub x).1 hx
      refine ⟨⟨x, hx1, hxi⟩, fun hbi => hx2 ?_⟩
      exact h.fuq x hx1 b hmem i (idx_inj (h.geo _) (h.fk x hx1).2.2 ek3 hxi hbi) hxi
  · intro x hx y hy i hxy hxi
    rw [hg.idx] at hxi
    exact h.fuq x ((hsub x).1 hx).1 y ((hsub y).1 hy).1 i hxy hxi
  · intro sp i hi
    rw [hg.size] at hi
    rw [delBrk_ops hw, if_neg (by unfold Brk.at_; rw [ek1]; simp), hg.at_]
    exact h.ops sp i hi

theorem matchBrk_op (x : Brk) (n : Nat) : x.op.matchBrk n = decide (x.id = n) := by
  unfold Brk.op; split <;> (unfold MOp.matchBrk; simp only; by_cases h : x.id = n <;> simp [h])

theorem eid_inj {s : BSt} (h : BInv s) {a b : Brk} (ha : a ∈ s.ebrk.items) (hb : b ∈ s.ebrk.items)
    (he : a.id = b.id) : a = b := by
  obtain ⟨i, hi, rfl⟩ := List.mem_iff_getElem.1 ha
  obtain ⟨j, hj, rfl⟩ := List.mem_iff_getElem.1 hb
  have hpw := List.pairwise_iff_getElem.1 h.eid
  rcases Nat.lt_trichotomy i j with hij | rfl | hij
  · exact absurd he (hpw i j hi hj hij)
  · rfl
  · exact absurd he.symm (hpw j i hj hi hij)

/-- Event breakpoints of the table are in place: del_operator never meets an
empty operator table. -/
theorem BInv.delBrk_some {s : BSt} (h : BInv s) {b : Brk} (hb : b ∈ s.ebrk.items) : ∃ w', s.w.delBrk b = some w' := by
  unfold World.delBrk
  cases hi : (s.w.spaces b.mem).idx? b.addr with
  | none => exact ⟨_, rfl⟩
  | some i =>
    simp only
    have hops := h.ops b.mem i (idx?_lt hi)
    have hne : b.kind = .rd ∨ b.kind = .wr → ¬ ((s.w.spaces b.mem).cells i).ops = [] := by
      intro hk h0
      rw [h0] at hops
      have : b ∈ s.ebrk.items.filter (Brk.at_ s.w b.mem i) := by
        rw [List.mem_filter]; refine ⟨hb, ?_⟩
        unfold Brk.at_; simp [hi, hk]
      have h1 : (s.ebrk.items.filter (Brk.at_ s.w b.mem i)).map Brk.op = [] := by rw [← hops]; rfl
      rw [List.map_eq_nil_iff] at h1
      rw [h1] at this; cases this
    cases hk : b.kind
    · exact ⟨_, rfl⟩
    · simp only; rw [if_neg (hne (Or.inl hk))]; exact ⟨_, rfl⟩
    · simp only; rw [if_neg (hne (Or.inr hk))]; exact ⟨_, rfl⟩
    · exact ⟨_, rfl⟩

theorem delE_inv {s s' : BSt} (h : BInv s) {w' : World} {k : Nat} {b : Brk} (hb : s.ebrk.items[k]? = some b)
    (hw : s.w.delBrk b = some w') (hok : s.freeE w' k = .ok s') :
    BInv s' ∧ s'.ebrk.items = s.ebrk.items.filter (fun x => x ≠ b) ∧ s' = { s with w := w', ebrk := s'.ebrk } := by
  have hmem : b ∈ s.ebrk.items := List.mem_of_getElem? hb
  obtain ⟨l', hl, hfit, hdel, _, _⟩ := disconnAt_mem s.ebrk h.efit (nodup_of_nr h.esort) k b hb
  have hitems : l'.items = s.ebrk.items.filter (fun x => x ≠ b) := by
    rw [← eraseIdx_filter (nodup_of_nr h.esort) hb]
    unfold CList.disconnAt at hl
    split at hl
    · cases hl
    · cases hl; rfl
  unfold BSt.freeE at hok
  rw [hl] at hok
  cases hok
  refine ⟨?_, hitems, rfl⟩
  have hg := delBrk_geo hw
  have ek := h.ek b hmem
  have hsub : ∀ x, x ∈ l'.items ↔ x ∈ s.ebrk.items ∧ x ≠ b := by
    intro x; rw [hitems, List.mem_filter]; simp
  have hsl : l'.items.Sublist s.ebrk.items := by rw [hitems]; exact List.filter_sublist
  constructor <;> simp only
  · intro sp; rw [hg.start, hg.size]; exact h.geo sp
  · exact h.ffit
  · exact hfit
  · exact h.fdel
  · rw [hdel]; exact h.edel
  · exact h.fsort
  · exact h.esort.sublist hsl
  · intro x hx y hy; exact h.cross x hx y ((hsub y).1 hy).1
  · exact h.fnr
  · intro x hx; exact h.enr x ((hsub x).1 hx).1
  · exact h.fid
  · exact h.eid.sublist hsl
  · intro x hx y hy; exact h.cid x hx y ((hsub y).1 hy).1
  · exact h.ffr
  · intro x hx; exact h.efr x ((hsub x).1 hx).1
  · exact h.fk
  · intro x hx; exact h.ek x ((hsub x).1 hx).1
  · intro i hi
    rw [hg.size] at hi
    rw [delBrk_flag hw]
    simp only [ek, false_and, decide_false, Bool.not_false, Bool.and_true, hg.idx]
    exact h.flag i hi
  · intro x hx y hy i hxy hxi
    rw [hg.idx] at hxi
    exact h.fuq x hx y hy i hxy hxi
  · intro sp i hi
    rw [hg.size] at hi
    rw [delBrk_ops hw, hg.at_, hitems]
    by_cases hat : Brk.at_ s.w sp i b = true
    · rw [if_pos hat, List.filter_filter]
      have : (((s.w.spaces sp).cells i).ops.filter (fun a => a.isBrk && !a.matchBrk b.id)) =
          (((s.w.spaces sp).cells i).ops.filter MOp.isBrk).filter (fun a => !a.matchBrk b.id) := by
        rw [List.filter_filter]; congr 1; funext a; rw [Bool.and_comm]
      rw [this, h.ops sp i hi, List.filter_map]
      congr 1
      rw [List.filter_filter, List.filter_filter]
      apply List.filter_congr
      intro x hx
      simp only [Function.comp, matchBrk_op]
      by_cases hxb : x = b
      · subst hxb; simp
      · have : x.id ≠ b.id := fun he => hxb (eid_inj h hx hmem he)
        simp [hxb, this]
    · rw [if_neg hat, h.ops sp i hi]
      congr 1
      rw [List.filter_filter]
      apply List.filter_congr
      intro x hx
      by_cases hxb : x = b
      · subst hxb; simp [hat]
      · simp [hxb]

/-- Changes of counters, events, bytes and read-only flags do not matter. -/
theorem BInv.of_wiring {s : BSt} (h : BInv s) {w' : World} (hw : SameWiring s.w w') : BInv { s with w := w' } := by
  have hg : SameGeo s.w w' := ⟨hw.start, hw.size⟩
  have hc : ∀ sp i, ((w'.spaces sp).cells i).fetchBrk = ((s.w.spaces sp).cells i).fetchBrk ∧
      ((w'.spaces sp).cells i).ops = ((s.w.spaces sp).cells i).ops := by
    intro sp i; obtain ⟨r, hr⟩ := hw.cells sp i; rw [hr]; exact ⟨rfl, rfl⟩
  constructor <;> simp only
  · intro sp; rw [hg.start, hg.size]; exact h.geo sp
  · exact h.ffit
  · exact h.efit
  · exact h.fdel
  · exact h.edel
  · exact h.fsort
  · exact h.esort
  · exact h.cross
  · exact h.fnr
  · exact h.enr
  · exact h.fid
  · exact h.eid
  · exact h.cid
  · exact h.ffr
  · exact h.efr
  · exact h.fk
  · exact h.ek
  · intro i hi; rw [hg.size] at hi; rw [(hc _ i).1]; simp only [hg.idx]; exact h.flag i hi
  · intro x hx y hy i; rw [hg.idx]; exact h.fuq x hx y hy i
  · intro sp i hi; rw [hg.size] at hi; rw [(hc sp i).2, hg.at_]; exact h.ops sp i hi

end Ucsim
