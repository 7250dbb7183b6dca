import Verif.Core.Ticker
import Verif.Proof.Pobj

namespace Ucsim
open Spec

/-- The counters by number. -/
def tmap (cs : Counters) : TMap := fun n => (cs.items[n]?).join

structure TInv (cs : Counters) : Prop where
  fit : CList.Fits cs
  del : 0 < cs.delta
  zero : cs.items[0]? = some none
  uq : ∀ i j t t' s, tmap cs i = some t → tmap cs j = some t' → t.name = some s → t'.name = some s → i = j

theorem tmap_some {cs : Counters} {n : Nat} {t : Ticker} : tmap cs n = some t ↔ cs.items[n]? = some (some t) := by
  unfold tmap
  cases h : cs.items[n]? with
  | none => simp
  | some x => simp

theorem TInv.pos {cs : Counters} (h : TInv cs) {n : Nat} {t : Ticker} (hn : tmap cs n = some t) : 1 ≤ n := by
  rcases n with _ | n
  · rw [tmap_some, h.zero] at hn; cases hn
  · omega

theorem cAdd_spec {cs : Counters} (hf : CList.Fits cs) (hd : 0 < cs.delta) (hl : cs.items.length < maxListSize) (x : Option Ticker) :
    ∃ lim, CList.add cs x = .ok ⟨cs.items ++ [x], lim, cs.delta⟩ ∧ CList.Fits ⟨cs.items ++ [x], lim, cs.delta⟩ := by
  obtain ⟨lim, h1, h2, h3⟩ := CList.addAt_ok cs cs.items.length x hf hd hl (Nat.le_refl _)
  refine ⟨lim, ?_, ?_⟩
  · unfold CList.add CList.count
    rw [h1, List.insertIdx_length_self]
  · unfold CList.Fits; simp only [List.length_append, List.length_cons, List.length_nil]; omega

theorem cAdd_bad {cs : Counters} (hf : CList.Fits cs) (hl : cs.items.length = maxListSize) (x : Option Ticker) :
    CList.add cs x = .ub := by
  unfold CList.add CList.addAt CList.count
  have h2 := hf.1; have h3 := hf.2
  rw [if_neg (by omega), if_pos (by omega), CList.setLimit_ok _ _ (by omega)]
  simp only
  rw [if_neg (by simp), if_pos (by omega)]

/-- grow appends empty places. -/
theorem grow_spec (f : Nat) {cs : Counters} (hf : CList.Fits cs) (hd : 0 < cs.delta) (n : Nat) (hfu : n + 1 - cs.items.length < f) :
    (n < maxListSize → ∃ lim, Counters.grow f cs n = .ok ⟨cs.items ++ List.replicate (n + 1 - cs.items.length) none, lim, cs.delta⟩ ∧
      CList.Fits ⟨cs.items ++ List.replicate (n + 1 - cs.items.length) none, lim, cs.delta⟩) ∧
    (maxListSize ≤ n → Counters.grow f cs n = .ub) := by
  induction f generalizing cs with
  | zero => omega
  | succ f ih =>
    unfold Counters.grow CList.count
    by_cases hc : (cs.items.length : Int) ≤ n
    · rw [if_pos hc]
      by_cases hl : cs.items.length < maxListSize
      · obtain ⟨lim, h1, h2⟩ := cAdd_spec hf hd hl none
        rw [h1]
        simp only
        obtain ⟨g1, g2⟩ := ih (cs := ⟨cs.items ++ [none], lim, cs.delta⟩) h2 hd (by simp; omega)
        refine ⟨fun hn => ?_, g2⟩
        obtain ⟨lim', k1, k2⟩ := g1 hn
        have e : cs.items ++ [none] ++ List.replicate (n + 1 - (cs.items ++ [none]).length) none =
            cs.items ++ List.replicate (n + 1 - cs.items.length) none := by
          rw [List.append_assoc]
          congr 1
          rw [show n + 1 - cs.items.length = (n + 1 - (cs.items ++ [none]).length) + 1 by simp; omega, List.replicate_succ]
          rfl
        rw [e] at k1 k2
        exact ⟨lim', k1, k2⟩
      · have hb := cAdd_bad hf (by have := hf.1; have := hf.2; omega) none
        rw [hb]
        exact ⟨fun hn => by have := hf.1; have := hf.2; omega, fun _ => rfl⟩
    · rw [if_neg hc]
      have e : n + 1 - cs.items.length = 0 := by omega
      rw [e]
      have h1 := hf.1; have h2 := hf.2
      refine ⟨fun _ => ⟨cs.limit, ?_, ?_⟩, fun hn => by omega⟩
      · simp
      · simpa using hf

theorem putAt_ok {cs : Counters} {n : Nat} (h : n < cs.items.length) (x : Option Ticker) :
    CList.putAt cs n x = .ok { cs with items := cs.items.set n x } := by
  unfold CList.putAt CList.count
  rw [if_neg (by omega), if_neg (by omega)]
  rfl

/-- One place of the table is assigned. -/
theorem set_map {cs : Counters} {n : Nat} (h : n < cs.items.length) (x : Option Ticker) (lim d : Nat) :
    tmap ⟨cs.items.set n x, lim, d⟩ = (tmap cs).upd n x := by
  funext k
  unfold tmap TMap.upd
  simp only
  by_cases hk : k = n
  · subst hk; rw [if_pos rfl, List.getElem?_set_self h]; rfl
  · rw [if_neg hk, List.getElem?_set_ne (by omega)]

theorem set_inv {cs : Counters} (hi : TInv cs) {n : Nat} (h : n < cs.items.length) (hn : 1 ≤ n) (x : Option Ticker)
    (hx : ∀ t s, x = some t → t.name = some s → ∀ j t', tmap cs j = some t' → t'.name = some s → j = n) :
    TInv { cs with items := cs.items.set n x } := by
  refine ⟨?_, hi.del, ?_, ?_⟩
  · have := hi.fit; unfold CList.Fits at *; simpa using this
  · show (cs.items.set n x)[0]? = _
    rw [List.getElem?_set_ne (by omega)]; exact hi.zero
  · intro i j t t' s h1 h2 h3 h4
    rw [set_map h] at h1 h2
    unfold TMap.upd at h1 h2
    by_cases hin : i = n <;> by_cases hjn : j = n
    · omega
    · rw [if_pos hin] at h1; rw [if_neg hjn] at h2; rw [hx t s h1 h3 j t' h2 h4, hin]
    · rw [if_neg hin] at h1; rw [if_pos hjn] at h2; rw [hx t' s h2 h4 i t h1 h3, hjn]
    · rw [if_neg hin] at h1; rw [if_neg hjn] at h2; exact hi.uq i j t t' s h1 h2 h3 h4

theorem app_none_map (cs : Counters) (k lim d : Nat) : tmap ⟨cs.items ++ List.replicate k none, lim, d⟩ = tmap cs := by
  funext n
  unfold tmap
  simp only
  by_cases h : n < cs.items.length
  · rw [List.getElem?_append_left h]
  · rw [List.getElem?_append_right (by omega), List.getElem?_eq_none (l := cs.items) (by omega), List.getElem?_replicate]
    split <;> rfl

theorem app_none_inv {cs : Counters} (hi : TInv cs) (k lim : Nat)
    (hf : CList.Fits (⟨cs.items ++ List.replicate k none, lim, cs.delta⟩ : Counters)) :
    TInv ⟨cs.items ++ List.replicate k none, lim, cs.delta⟩ := by
  refine ⟨hf, hi.del, ?_, ?_⟩
  · have hz := hi.zero
    have : 0 < cs.items.length := by
      rcases hl : cs.items with _ | ⟨a, l⟩
      · rw [hl] at hz; cases hz
      · simp
    show (cs.items ++ List.replicate k none)[0]? = _
    rw [List.getElem?_append_left this]; exact hz
  · rw [app_none_map]; exact hi.uq

theorem app_some_map (cs : Counters) (x : Option Ticker) (lim d : Nat) :
    tmap ⟨cs.items ++ [x], lim, d⟩ = (tmap cs).upd cs.items.length x := by
  funext n
  unfold tmap TMap.upd
  simp only
  by_cases h : n < cs.items.length
  · rw [List.getElem?_append_left h, if_neg (by omega)]
  · rw [List.getElem?_append_right (by omega)]
    by_cases he : n = cs.items.length
    · subst he; simp
    · rw [if_neg he, List.getElem?_eq_none (l := cs.items) (by omega), List.getElem?_eq_none (by simp; omega)]

/-! ### lookup -/

theorem look_nr {cs : Counters} {n : Nat} (_h1 : 1 ≤ n) : cs.look (.nr n) = some (.ok (tmap cs n)) := by
  unfold Counters.look
  simp only
  rw [if_neg (by omega)]
  unfold Counters.getNr CList.get CList.count tmap
  by_cases h : (n : Int) ≥ cs.items.length
  · rw [if_pos h, List.getElem?_eq_none (by omega)]; rfl
  · rw [if_neg h, if_neg (by omega), Int.toNat_natCast, List.getElem?_eq_getElem (by omega)]
    rfl

theorem findIdx_named {cs : Counters} (hi : TInv cs) {s : List Nat} {n : Nat} {t : Ticker} (hn : tmap cs n = some t)
    (hs : t.name = some s) : cs.items.findIdx? (isNamed s) = some n ∧ cs.getName s = some t := by
  have hget := tmap_some.1 hn
  have hlt : n < cs.items.length := by
    rcases Nat.lt_or_ge n cs.items.length with h | h
    · exact h
    · rw [List.getElem?_eq_none h] at hget; cases hget
  have h1 : cs.items.findIdx? (isNamed s) = some n := by
    rw [List.findIdx?_eq_some_iff_getElem]
    refine ⟨hlt, ?_, ?_⟩
    · rw [List.getElem?_eq_getElem hlt] at hget
      rw [Option.some.inj hget]; unfold isNamed; simp [hs]
    · intro j hj
      rcases hx : cs.items[j] with _ | u
      · simp [isNamed]
      · simp only [isNamed, decide_eq_true_eq]
        intro hu
        have := hi.uq j n u t s (tmap_some.2 (by rw [List.getElem?_eq_getElem (by omega), hx])) hn hu hs
        omega
  refine ⟨h1, ?_⟩
  unfold Counters.getName
  have h2 := List.findIdx?_eq_some_iff_findIdx_eq.1 h1
  have : cs.items.find? (isNamed s) = some (some t) := by
    rw [List.find?_eq_some_iff_getElem]
    rw [List.findIdx?_eq_some_iff_getElem] at h1
    obtain ⟨_, g1, g2⟩ := h1
    have e : cs.items[n] = some t := by rw [List.getElem?_eq_getElem hlt] at hget; exact Option.some.inj hget
    refine ⟨by rw [← e]; exact g1, n, hlt, e, fun j hj => by simpa using g2 j hj⟩
  rw [this]; rfl

theorem getName_none {cs : Counters} {s : List Nat} (h : ∀ n t, tmap cs n = some t → t.name ≠ some s) : cs.getName s = none := by
  unfold Counters.getName
  have : cs.items.find? (isNamed s) = none := by
    rw [List.find?_eq_none]
    intro x hx
    obtain ⟨i, hi, rfl⟩ := List.mem_iff_getElem.1 hx
    rcases hu : cs.items[i] with _ | u
    · simp [isNamed]
    · simp only [isNamed, decide_eq_true_eq]
      exact h i u (tmap_some.2 (by rw [List.getElem?_eq_getElem hi, hu]))
  rw [this]; rfl

/-- What the lookup of a command says. -/
theorem look_spec {cs : Counters} (hi : TInv cs) (id : TId) :
    (∃ n t, tmap cs n = some t ∧ id.names n t ∧ 1 ≤ n ∧ n < cs.items.length ∧ cs.look id = some (.ok (some t)) ∧
      (match id with | .nr k => k = n | .name s => cs.items.findIdx? (isNamed s) = some n)) ∨
    ((∀ n t, tmap cs n = some t → ¬ id.names n t) ∧
      (cs.look id = some (.ok none) ∧ (match id with | .nr k => 1 ≤ k ∧ tmap cs k.toNat = none | .name _ => True) ∨
       (cs.look id = none ∧ match id with | .nr k => k ≤ 0 | .name _ => False))) := by
  have hlt : ∀ n t, tmap cs n = some t → n < cs.items.length := by
    intro n t hn
    rw [tmap_some] at hn
    rcases Nat.lt_or_ge n cs.items.length with h | h
    · exact h
    · rw [List.getElem?_eq_none h] at hn; cases hn
  cases id with
  | nr k =>
    by_cases hk : k ≤ 0
    · right
      refine ⟨?_, Or.inr ⟨by unfold Counters.look; simp only; rw [if_pos hk], hk⟩⟩
      rintro n t _ ⟨h1, h2⟩; omega
    · obtain ⟨n, rfl⟩ : ∃ n : Nat, k = n := ⟨k.toNat, by omega⟩
      have h1 : 1 ≤ n := by omega
      rw [look_nr h1]
      cases hn : tmap cs n with
      | some t => left; exact ⟨n, t, hn, ⟨rfl, h1⟩, h1, hlt n t hn, rfl, rfl⟩
      | none =>
        right
        refine ⟨?_, Or.inl ⟨rfl, by omega, by simpa using hn⟩⟩
        rintro n' t hn' ⟨h2, h3⟩
        have : n = n' := by omega
        subst this; rw [hn] at hn'; cases hn'
  | name s =>
    by_cases hex : ∃ n t, tmap cs n = some t ∧ t.name = some s
    · obtain ⟨n, t, hn, hs⟩ := hex
      left
      obtain ⟨g1, g2⟩ := findIdx_named hi hn hs
      refine ⟨n, t, hn, hs, hi.pos hn, hlt n t hn, ?_, g1⟩
      unfold Counters.look; simp only; rw [g2]
    · have hno : ∀ n t, tmap cs n = some t → t.name ≠ some s := fun n t hn hs => hex ⟨n, t, hn, hs⟩
      right
      refine ⟨hno, Or.inl ⟨?_, trivial⟩⟩
      unfold Counters.look; simp only; rw [getName_none hno]

/-! ### the steps -/

theorem pass_eq (c : Int) (isr : Bool) (st : CpuState) (x : Option Ticker) :
    tickOne c (if isr then 0 else -1) st x = x.map (fun t => t.pass c isr st) := by
  cases x with
  | none => rfl
  | some t =>
    obtain ⟨nm, dir, ty, run, user, ticks⟩ := t
    simp only [tickOne, Option.map_some, Ticker.pass, tickerTick, TType.counts]
    cases run <;> simp only [Bool.false_and, Bool.true_and, if_true, if_false, Bool.false_eq_true]
    cases ty <;> cases isr <;> cases st <;> simp <;> split <;> rfl

theorem tick_spec {cs : Counters} (hi : TInv cs) (c : Int) (isr : Bool) (st : CpuState) :
    TInv (cs.tick c (if isr then 0 else -1) st) ∧
    tmap (cs.tick c (if isr then 0 else -1) st) = fun n => (tmap cs n).map (fun t => t.pass c isr st) := by
  have hm : tmap (cs.tick c (if isr then 0 else -1) st) = fun n => (tmap cs n).map (fun t => t.pass c isr st) := by
    funext n
    unfold tmap Counters.tick
    simp only [List.getElem?_map]
    cases cs.items[n]? with
    | none => rfl
    | some x => simp [pass_eq]
  refine ⟨⟨?_, hi.del, ?_, ?_⟩, hm⟩
  · have := hi.fit; unfold CList.Fits Counters.tick at *; simpa using this
  · unfold Counters.tick; simp only [List.getElem?_map, hi.zero, Option.map_some, tickOne]
  · rw [hm]
    intro i j t t' s h1 h2 h3 h4
    obtain ⟨u, hu, rfl⟩ := Option.map_eq_some_iff.1 h1
    obtain ⟨u', hu', rfl⟩ := Option.map_eq_some_iff.1 h2
    have e : ∀ t : Ticker, (t.pass c isr st).name = t.name := by intro t; unfold Ticker.pass; split <;> rfl
    rw [e] at h3 h4
    exact hi.uq i j u u' s hu hu' h3 h4

theorem modify_eq_set {α : Type} (l : List α) (n : Nat) (f : α → α) (h : n < l.length) : l.modify n f = l.set n (f l[n]) := by
  apply List.ext_getElem
  · simp
  · intro i h1 h2
    rw [List.getElem_modify, List.getElem_set]
    split
    · rename_i he; subst he; rfl
    · rfl

theorem with_spec {cs : Counters} (hi : TInv cs) (id : TId) (f : Ticker → Ticker) (hf : ∀ t, (f t).name = t.name) :
    ∃ cs', cs.withTicker id f = .ok cs' ∧ TInv cs' ∧ (tmap cs).change (tmap cs') id (fun t => some (f t)) := by
  rcases look_spec hi id with ⟨n, t, h1, h2, h3, h4, h5, h6⟩ | ⟨h1, h2 | h2⟩
  · have hget : cs.items[n] = some t := by
      have := tmap_some.1 h1; rw [List.getElem?_eq_getElem h4] at this; exact Option.some.inj this
    have hp : cs.poke f id = { cs with items := cs.items.set n (some (f t)) } := by
      have key : cs.items.modify n (Option.map f) = cs.items.set n (some (f t)) := by
        rw [modify_eq_set _ _ _ h4, hget]; rfl
      cases id with
      | nr k => subst h6; simp only [Counters.poke, Int.toNat_natCast, key]
      | name s => simp only [Counters.poke, h6, key]
    refine ⟨_, by unfold Counters.withTicker; rw [h5], ?_, ?_⟩
    · rw [hp]
      apply set_inv hi h4 h3
      intro t0 s he hs j t' hj hs'
      cases he
      rw [hf] at hs
      exact hi.uq j n t' t s hj h1 hs' hs
    · left
      refine ⟨n, t, h1, h2, ?_⟩
      rw [hp]; exact set_map h4 _ _ _
  · exact ⟨cs, by unfold Counters.withTicker; rw [h2.1], hi, Or.inr ⟨h1, rfl⟩⟩
  · exact ⟨cs, by unfold Counters.withTicker; rw [h2.1], hi, Or.inr ⟨h1, rfl⟩⟩

theorem del_spec' {cs : Counters} (hi : TInv cs) (id : TId) :
    ∃ cs', cs.delCmd id = .ok cs' ∧ TInv cs' ∧ (tmap cs).change (tmap cs') id (fun t => if t.user then none else some t) := by
  rcases look_spec hi id with ⟨n, t, h1, h2, h3, h4, h5, h6⟩ | ⟨h1, h2 | h2⟩
  · unfold Counters.delCmd
    rw [h5]
    simp only
    by_cases hu : t.user = true
    · rw [if_pos hu]
      have hd : ∃ r, (match id with | .nr n => cs.delNr n | .name s => cs.delName s) = r ∧
          r = .ok { cs with items := cs.items.set n none } := by
        cases id with
        | nr k =>
          subst h6
          refine ⟨_, rfl, ?_⟩
          show cs.delNr (n : Int) = _
          unfold Counters.delNr
          have hg : CList.get cs 0 = .ok none := by
            unfold CList.get CList.count
            rw [if_neg (by omega), show Int.toNat 0 = 0 from rfl, hi.zero]
          rw [hg, if_neg (show ¬ (n : Int) ≥ (CList.count cs : Int) by unfold CList.count; omega)]
          exact putAt_ok h4 none
        | name s =>
          refine ⟨_, rfl, ?_⟩
          simp only [Counters.delName, h6]
          exact putAt_ok h4 none
      obtain ⟨r, hr1, hr2⟩ := hd
      refine ⟨_, hr1.trans hr2, ?_, ?_⟩
      · apply set_inv hi h4 h3
        intro t0 s he; cases he
      · left
        refine ⟨n, t, h1, h2, ?_⟩
        show _ = (tmap cs).upd n (if t.user = true then none else some t)
        rw [if_pos hu]
        exact set_map h4 _ _ _
    · rw [if_neg hu]
      refine ⟨cs, rfl, hi, Or.inl ⟨n, t, h1, h2, ?_⟩⟩
      show _ = (tmap cs).upd n (if t.user = true then none else some t)
      rw [if_neg hu]
      funext k
      unfold TMap.upd
      split
      · rename_i he; subst he; exact h1
      · rfl
  · exact ⟨cs, by unfold Counters.delCmd; rw [h2.1], hi, Or.inr ⟨h1, rfl⟩⟩
  · exact ⟨cs, by unfold Counters.delCmd; rw [h2.1], hi, Or.inr ⟨h1, rfl⟩⟩

theorem freeFrom_spec (items : List (Option Ticker)) (f i : Nat) (hf : items.length - i < f) :
    match freeFrom items f i with
    | some k => i ≤ k ∧ items[k]? = some none
    | none => ∀ k, i ≤ k → k < items.length → ∃ t, items[k]? = some (some t) := by
  induction f generalizing i with
  | zero => omega
  | succ f ih =>
    unfold freeFrom
    cases h : items[i]? with
    | none =>
      simp only
      intro k h1 h2
      rw [List.getElem?_eq_none_iff] at h; omega
    | some x =>
      have hlt : i < items.length := by
        rcases Nat.lt_or_ge i items.length with g | g
        · exact g
        · rw [List.getElem?_eq_none g] at h; cases h
      cases x with
      | none => simp only; exact ⟨Nat.le_refl _, h⟩
      | some t =>
        simp only
        have := ih (i + 1) (by omega)
        split
        · rename_i k hk; rw [hk] at this; exact ⟨by omega, this.2⟩
        · rename_i hk
          rw [hk] at this
          intro k h1 h2
          by_cases he : k = i
          · subst he; exact ⟨t, h⟩
          · exact this k (by omega) h2

/-- Adding by name. -/
theorem addName_spec {cs : Counters} (hi : TInv cs) (t : Ticker)
    (hs : ∀ s, t.name = some s → ∀ n u, tmap cs n = some u → u.name ≠ some s) :
    (∃ cs', cs.addName t = .ok cs' ∧ TInv cs' ∧ ∃ n, 1 ≤ n ∧ tmap cs n = none ∧ tmap cs' = (tmap cs).upd n (some t)) ∨
    (cs.addName t = .ub ∧ cs.items.length = maxListSize ∧ ∀ n, 1 ≤ n → n < maxListSize → tmap cs n ≠ none) := by
  have hpos : 1 ≤ cs.items.length := by
    have hz := hi.zero
    rcases hl : cs.items with _ | ⟨a, l⟩
    · rw [hl] at hz; cases hz
    · simp
  unfold Counters.addName CList.count
  rw [if_neg (by omega)]
  simp only
  have hfr := freeFrom_spec cs.items (cs.items.length + 1) 1 (by omega)
  cases hk : freeFrom cs.items (cs.items.length + 1) 1 with
  | some k =>
    rw [hk] at hfr
    simp only at hfr ⊢
    obtain ⟨g1, g2⟩ := hfr
    have hlt : k < cs.items.length := by
      rcases Nat.lt_or_ge k cs.items.length with g | g
      · exact g
      · rw [List.getElem?_eq_none g] at g2; cases g2
    left
    refine ⟨_, putAt_ok hlt _, ?_, k, g1, by unfold tmap; rw [g2]; rfl, set_map hlt _ _ _⟩
    apply set_inv hi hlt g1
    intro t0 s he hn j u hj hu
    cases he
    exact absurd hu (hs s hn j u hj)
  | none =>
    rw [hk] at hfr
    simp only at hfr ⊢
    by_cases hl : cs.items.length < maxListSize
    · obtain ⟨lim, h1, h2⟩ := cAdd_spec hi.fit hi.del hl (some t)
      left
      have hm := app_some_map cs (some t) lim cs.delta
      have hnone : tmap cs cs.items.length = none := by unfold tmap; rw [List.getElem?_eq_none (Nat.le_refl _)]; rfl
      refine ⟨_, h1, ⟨h2, hi.del, ?_, ?_⟩, cs.items.length, hpos, hnone, hm⟩
      · show (cs.items ++ [some t])[0]? = _
        rw [List.getElem?_append_left (by omega)]; exact hi.zero
      · rw [hm]
        intro i j a b s h1 h2 h3 h4
        unfold TMap.upd at h1 h2
        by_cases hin : i = cs.items.length <;> by_cases hjn : j = cs.items.length
        · omega
        · rw [if_pos hin] at h1; rw [if_neg hjn] at h2; cases h1; exact absurd h4 (hs s h3 j b h2)
        · rw [if_neg hin] at h1; rw [if_pos hjn] at h2; cases h2; exact absurd h3 (hs s h4 i a h1)
        · rw [if_neg hin] at h1; rw [if_neg hjn] at h2; exact hi.uq i j a b s h1 h2 h3 h4
    · have h1 := hi.fit.1; have h2 := hi.fit.2
      have he : cs.items.length = maxListSize := by omega
      right
      refine ⟨cAdd_bad hi.fit he _, he, ?_⟩
      intro n g1 g2
      obtain ⟨u, hu⟩ := hfr n g1 (by omega)
      unfold tmap; rw [hu]; simp

/-- Adding by number. -/
theorem addNr_spec {cs : Counters} (hi : TInv cs) (t : Ticker) (hs : t.name = none) (n : Nat) (hn : 1 ≤ n) :
    (n < maxListSize → ∃ cs', cs.addNr t n = .ok cs' ∧ TInv cs' ∧ tmap cs' = (tmap cs).upd n (some t)) ∧
    (maxListSize ≤ n → cs.addNr t n = .ub) := by
  unfold Counters.addNr
  obtain ⟨g1, g2⟩ := grow_spec (Int.toNat (n : Int) + 2) hi.fit hi.del n (by omega)
  refine ⟨fun h => ?_, fun h => ?_⟩
  · obtain ⟨lim, k1, k2⟩ := g1 h
    rw [k1]
    simp only
    have hI := app_none_inv hi _ lim k2
    have hlt : n < (cs.items ++ List.replicate (n + 1 - cs.items.length) none).length := by simp; omega
    refine ⟨_, putAt_ok (cs := ⟨_, _, _⟩) hlt _, ?_, ?_⟩
    · apply set_inv hI hlt hn
      intro t0 s he hn'
      cases he; rw [hs] at hn'; cases hn'
    · have := set_map (cs := ⟨cs.items ++ List.replicate (n + 1 - cs.items.length) none, lim, cs.delta⟩) hlt (some t) lim cs.delta
      rw [app_none_map] at this
      exact this
  · rw [g2 h]

/-- One step: if it ends normally it is one of the specification. -/
theorem tstep_spec {cs cs' : Counters} (hi : TInv cs) (o : TOp) (hok : cs.step o = .ok cs') :
    TInv cs' ∧ (tmap cs).step (tmap cs') o := by
  cases o with
  | tick c isr st =>
    simp only [Counters.step] at hok
    cases hok
    exact tick_spec hi c isr st
  | start id =>
    obtain ⟨c1, h1, h2, h3⟩ := with_spec hi id (fun t => { t with run := true }) (fun _ => rfl)
    simp only [Counters.step] at hok
    rw [h1] at hok; cases hok; exact ⟨h2, h3⟩
  | stop id =>
    obtain ⟨c1, h1, h2, h3⟩ := with_spec hi id (fun t => { t with run := false }) (fun _ => rfl)
    simp only [Counters.step] at hok
    rw [h1] at hok; cases hok; exact ⟨h2, h3⟩
  | set id v =>
    obtain ⟨c1, h1, h2, h3⟩ := with_spec hi id (fun t => { t with ticks := BitVec.ofInt 64 v }) (fun _ => rfl)
    simp only [Counters.step] at hok
    rw [h1] at hok; cases hok; exact ⟨h2, h3⟩
  | del id =>
    obtain ⟨c1, h1, h2, h3⟩ := del_spec' hi id
    simp only [Counters.step] at hok
    rw [h1] at hok; cases hok; exact ⟨h2, h3⟩
  | add id dir ty =>
    simp only [Counters.step, Counters.addCmd] at hok
    rcases look_spec hi id with ⟨n, t, h1, h2, h3, h4, h5, h6⟩ | ⟨h1, h2 | h2⟩
    · rw [h5] at hok; cases hok
      exact ⟨hi, Or.inl ⟨⟨n, t, h1, h2⟩, rfl⟩⟩
    · rw [h2.1] at hok
      cases id with
      | nr k =>
        obtain ⟨hk1, hk2⟩ := h2.2
        obtain ⟨n, rfl⟩ : ∃ n : Nat, k = n := ⟨k.toNat, by omega⟩
        simp only at hok
        obtain ⟨g1, g2⟩ := addNr_spec hi ⟨none, dir, ty, true, true, 0#64⟩ rfl n (by omega)
        rcases Nat.lt_or_ge n maxListSize with h | h
        · obtain ⟨c1, k1, k2, k3⟩ := g1 h
          rw [k1] at hok; cases hok
          refine ⟨k2, Or.inr ⟨h1, ?_⟩⟩
          simp only
          rw [if_neg (by omega)]
          exact k3
        · rw [g2 h] at hok; cases hok
      | name s =>
        simp only at hok
        rcases addName_spec hi ⟨some s, dir, ty, true, true, 0#64⟩ (by
          intro s' hs' n u hn hu
          cases hs'
          exact h1 n u hn hu) with ⟨c1, k1, k2, k3⟩ | ⟨k1, _⟩
        · rw [k1] at hok; cases hok
          exact ⟨k2, Or.inr ⟨h1, k3⟩⟩
        · rw [k1] at hok; cases hok
    · rw [h2.1] at hok; cases hok
      refine ⟨hi, Or.inr ⟨h1, ?_⟩⟩
      cases id with
      | nr k => simp only at h2 ⊢; rw [if_pos h2.2]; trivial
      | name s => exact h2.2.elim

/-- When a step is sure to end normally: the number is below 8192, or there is
a free number below 8192. -/
def TRoom (m : TMap) : TOp → Prop
  | .add (.nr n) _ _ => n < 8192
  | .add (.name _) _ _ => ∃ n, 1 ≤ n ∧ n < 8192 ∧ m n = none
  | _ => True

theorem tstep_total {cs : Counters} (hi : TInv cs) (o : TOp) (hr : TRoom (tmap cs) o) : ∃ cs', cs.step o = .ok cs' := by
  cases o with
  | tick c isr st => exact ⟨_, rfl⟩
  | start id => obtain ⟨c1, h1, _⟩ := with_spec hi id (fun t => { t with run := true }) (fun _ => rfl); exact ⟨c1, h1⟩
  | stop id => obtain ⟨c1, h1, _⟩ := with_spec hi id (fun t => { t with run := false }) (fun _ => rfl); exact ⟨c1, h1⟩
  | set id v =>
    obtain ⟨c1, h1, _⟩ := with_spec hi id (fun t => { t with ticks := BitVec.ofInt 64 v }) (fun _ => rfl); exact ⟨c1, h1⟩
  | del id => obtain ⟨c1, h1, _⟩ := del_spec' hi id; exact ⟨c1, h1⟩
  | add id dir ty =>
    simp only [Counters.step, Counters.addCmd]
    rcases look_spec hi id with ⟨n, t, h1, h2, h3, h4, h5, h6⟩ | ⟨h1, h2 | h2⟩
    · rw [h5]; exact ⟨_, rfl⟩
    · rw [h2.1]
      cases id with
      | nr k =>
        obtain ⟨hk1, hk2⟩ := h2.2
        obtain ⟨n, rfl⟩ : ∃ n : Nat, k = n := ⟨k.toNat, by omega⟩
        simp only [TRoom] at hr
        obtain ⟨c1, k1, _⟩ := (addNr_spec hi ⟨none, dir, ty, true, true, 0#64⟩ rfl n (by omega)).1
          (by unfold maxListSize; omega)
        exact ⟨c1, k1⟩
      | name s =>
        simp only
        rcases addName_spec hi ⟨some s, dir, ty, true, true, 0#64⟩ (by
          intro s' hs' n u hn hu
          cases hs'
          exact h1 n u hn hu) with ⟨c1, k1, k2, k3⟩ | ⟨k1, k2, k3⟩
        · exact ⟨c1, k1⟩
        · obtain ⟨n, g1, g2, g3⟩ := hr
          exact absurd g3 (k3 n g1 g2)
    · rw [h2.1]; exact ⟨_, rfl⟩

theorem trun_spec (ops : List TOp) {cs cs' : Counters} (hi : TInv cs) (hok : cs.run ops = .ok cs') :
    TInv cs' ∧ TMap.steps (tmap cs) ops (tmap cs') := by
  induction ops generalizing cs with
  | nil => simp only [Counters.run] at hok; cases hok; exact ⟨hi, rfl⟩
  | cons o os ih =>
    unfold Counters.run at hok
    cases h : cs.step o with
    | ok c1 =>
      rw [h] at hok
      obtain ⟨g1, g2⟩ := tstep_spec hi o h
      obtain ⟨k1, k2⟩ := ih g1 hok
      exact ⟨k1, _, g2, k2⟩
    | exit => rw [h] at hok; cases hok
    | ub => rw [h] at hok; cases hok

end Ucsim
