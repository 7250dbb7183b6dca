import Verif.Proof.BrkStep

namespace Ucsim
open Spec Props

/-! ### every history keeps the invariant -/

/-- No peripheral or banker at the location; the dummy location has no
operators. -/
def Plain (w : World) (sp a : Nat) : Prop :=
  match (w.spaces sp).idx? a with
  | none => (w.spaces sp).dummy.ops = []
  | some i => ((w.spaces sp).cells i).ops.filter (fun o => !o.isBrk) = []

/-- What the theorems assume of a step: addresses are 32 bit numbers, event
breakpoints are not of fetch kind, accesses are to locations without
peripherals. -/
def OpOk (w : World) : BOp → Prop
  | .brk a _ _ _ => a < 2 ^ 32
  | .ev k _ a _ _ _ => k ≠ .fetch ∧ a < 2 ^ 32
  | .until_ a => a < 2 ^ 32
  | .clear a => a < 2 ^ 32
  | .delete _ => True
  | .deleteAll => True
  | .arrive a _ => a < 2 ^ 32
  | .acc x _ => x.loc.2 < 2 ^ 32 ∧ Plain w x.loc.1 x.loc.2

theorem Plain.same {w w' : World} (h : SameRest w w') {sp a : Nat} (hp : Plain w sp a) : Plain w' sp a := by
  unfold Plain at *
  rw [h.geo.idx]
  cases hi : (w.spaces sp).idx? a with
  | none => rw [hi] at hp; simp only at hp ⊢; rw [h.dops]; exact hp
  | some i => rw [hi] at hp; simp only at hp ⊢; rw [h.ops]; exact hp

theorem Plain.quiet {w : World} {sp a : Nat} (hp : Plain w sp a) : Quiet w sp a := by
  unfold Plain at hp; unfold Quiet
  cases hi : (w.spaces sp).idx? a with
  | none => rw [hi] at hp; simp only at hp ⊢; rw [hp]; intro o ho; cases ho
  | some i =>
    rw [hi] at hp; simp only at hp ⊢
    rw [List.filter_eq_nil_iff] at hp
    intro o ho
    have := hp o ho
    cases o with
    | wr b => exact Or.inl ⟨b, rfl⟩
    | rd b => exact Or.inr ⟨b, rfl⟩
    | hw h => simp [MOp.isBrk] at this
    | bank k => simp [MOp.isBrk] at this

theorem wiring_of_mem {w w' : World} (h : SameMem w w') : SameWiring w w' := SameWiring.of_spaces h.spaces

theorem BInv.of_brks {s : BSt} (h : BInv s) {w' : World} (hs : w'.spaces = s.w.spaces) : BInv { s with w := w' } :=
  h.of_wiring (SameWiring.of_spaces hs)

theorem quiet_ok {r : BRes BSt} {s : BSt} {x : Bool} (h : r.quiet = .ok (s, x)) : r = .ok s ∧ x = false := by
  cases r with
  | ok s' => simp only [BRes.quiet, BRes.ok.injEq, Prod.mk.injEq] at h; exact ⟨by rw [h.1], h.2.symm⟩
  | bad => simp [BRes.quiet] at h
  | hang => simp [BRes.quiet] at h

/-- One step keeps the invariant. -/
theorem step_inv {env : Env} {w0 : World} {s s' : BSt} {x : Bool} (h : BInv s) (hr : SameRest w0 s.w) (o : BOp)
    (ho : OpOk w0 o) (hok : s.step env o = .ok (s', x)) : BInv s' ∧ SameRest w0 s'.w ∧ s'.rom = s.rom := by
  cases o with
  | brk a hit cond dyn =>
    obtain ⟨hok, _⟩ := quiet_ok hok
    unfold BSt.doFetch at hok
    split at hok
    · cases hok; exact ⟨h, hr, rfl⟩
    · split at hok
      · cases hok; exact ⟨h, hr, rfl⟩
      · rename_i hb
        have hsame := addBp_same hok
        obtain ⟨h1, _, _, _, _, h6, _⟩ := addF_inv h a ho dyn hit cond (by
          intro b hb1 hba
          cases hi : (s.w.spaces s.rom).idx? a with
          | none => rfl
          | some i => exact absurd ((h.bpAt ho).2 ⟨⟨i, hi⟩, b, hb1, hba⟩) hb) hok
        exact ⟨h1, hr.trans hsame, h6⟩
  | ev k mem a hit cond dyn =>
    obtain ⟨hok, _⟩ := quiet_ok hok
    unfold BSt.doEvent at hok
    have hsame := addBp_same hok
    obtain ⟨h1, _, _, _, _, h6, _⟩ := addE_inv h k ho.1 mem a dyn hit cond hok
    exact ⟨h1, hr.trans hsame, h6⟩
  | until_ a =>
    obtain ⟨hok, _⟩ := quiet_ok hok
    unfold BSt.until_ at hok
    split at hok
    · cases hok; exact ⟨h, hr, rfl⟩
    · rename_i hb
      have hsame := addBp_same hok
      obtain ⟨h1, _, _, _, _, h6, _⟩ := addF_inv h a ho true 1 false (h.getBp_none ho hb) hok
      exact ⟨h1, hr.trans hsame, h6⟩
  | clear a =>
    obtain ⟨hok, _⟩ := quiet_ok hok
    unfold BSt.clear at hok
    split at hok
    · obtain ⟨s1, h1, h2, h3, h4, h5, h6, h7, _⟩ := delAddr_spec h (a := a) ho
      rw [hok] at h1; cases h1
      exact ⟨h2, hr.trans h3, h7⟩
    · cases hok; exact ⟨h, hr, rfl⟩
  | delete nr =>
    obtain ⟨hok, _⟩ := quiet_ok hok
    obtain ⟨s1, h1, h2, h3, h4, h5, h6, _⟩ := rmBrk_spec h nr
    rw [hok] at h1; cases h1
    exact ⟨h2, hr.trans h3, h6⟩
  | deleteAll =>
    obtain ⟨hok, _⟩ := quiet_ok hok
    unfold BSt.removeAll at hok
    split at hok
    · rename_i s1 hs1
      obtain ⟨g1, g2, g3⟩ := removeF_inv _ h hs1
      obtain ⟨s2, k1, k2, k3, _, _, _, k7, _⟩ := removeE_spec s1.ebrk.count g1 (Nat.le_refl _)
      rw [hok] at k1; cases k1
      exact ⟨k2, (hr.trans g2).trans k3, k7.trans g3⟩
    · cases hok
    · cases hok
  | arrive a c =>
    simp only [BSt.step] at hok
    unfold BSt.doBrk at hok
    split at hok
    · split at hok
      · cases hok; exact ⟨h, hr, rfl⟩
      · rename_i i b hg
        have hm := doHit_same { env with cond := fun i _ => c i } s.w b.id
        split at hok
        · rename_i w1 hh
          rw [hh] at hm
          have hI := h.of_brks (w' := w1) hm.spaces
          have hrr : SameRest w0 w1 := hr.trans (SameRest.of_spaces hm.spaces)
          split at hok
          · obtain ⟨s2, k1, k2, k3, _, _, _, k7, _⟩ := delAddr_spec hI (a := a) ho
            rw [k1] at hok
            cases hok
            exact ⟨k2, hrr.trans k3, k7⟩
          · cases hok; exact ⟨hI, hrr, rfl⟩
        · rename_i w1 hh
          rw [hh] at hm
          cases hok
          exact ⟨h.of_brks hm.spaces, hr.trans (SameRest.of_spaces hm.spaces), rfl⟩
    · cases hok; exact ⟨h, hr, rfl⟩
  | acc x c =>
    simp only [BSt.step, BSt.acc] at hok
    cases hok
    have hw := act_wiring (env := { env with cond := fun i _ => c i }) (w := s.w) x (ho.2.same hr).quiet
    exact ⟨h.of_wiring hw, hr.trans (SameRest.of_wiring hw), rfl⟩

theorem run_inv {env : Env} {w0 : World} (ops : List BOp) {s s' : BSt} {xs : List Bool} (h : BInv s) (hr : SameRest w0 s.w)
    (ho : ∀ o ∈ ops, OpOk w0 o) (hok : s.run env ops = .ok (s', xs)) : BInv s' ∧ SameRest w0 s'.w ∧ s'.rom = s.rom := by
  induction ops generalizing s xs with
  | nil => simp only [BSt.run] at hok; cases hok; exact ⟨h, hr, rfl⟩
  | cons o os ih =>
    unfold BSt.run at hok
    cases h1 : s.step env o with
    | ok sx =>
      obtain ⟨s1, x⟩ := sx
      rw [h1] at hok
      obtain ⟨g1, g2, g3⟩ := step_inv h hr o (ho o List.mem_cons_self) h1
      simp only at hok
      cases h2 : BSt.run env s1 os with
      | ok sy =>
        obtain ⟨s2, ys⟩ := sy
        rw [h2] at hok; simp only at hok; cases hok
        obtain ⟨k1, k2, k3⟩ := ih g1 g2 (fun o' ho' => ho o' (List.mem_cons_of_mem _ ho')) h2
        exact ⟨k1, k2, k3.trans g3⟩
      | bad => rw [h2] at hok; cases hok
      | hang => rw [h2] at hok; cases hok
    | bad => rw [h1] at hok; cases hok
    | hang => rw [h1] at hok; cases hok

/-- A memory system before any breakpoint is set. -/
structure NoBrk (w : World) : Prop where
  geo : ∀ sp, (w.spaces sp).start + (w.spaces sp).size < 2 ^ 32
  flag : ∀ sp i, ((w.spaces sp).cells i).fetchBrk = false
  ops : ∀ sp i, ((w.spaces sp).cells i).ops.filter MOp.isBrk = []
  events : w.events = []

theorem new_inv {w : World} (h : NoBrk w) (rom : Nat) : BInv (BSt.new w rom) := by
  constructor <;> simp only [BSt.new, List.Pairwise.nil, List.not_mem_nil, false_imp_iff, implies_true]
  · exact h.geo
  · exact ⟨by simp, by simp [maxListSize]⟩
  · exact ⟨by simp, by simp [maxListSize]⟩
  · omega
  · omega
  · intro i _; rw [h.flag]; simp
  · intro sp i _; rw [h.ops]; rfl

/-! ### hit counting -/

/-- The countdown after `k` hits of a breakpoint with hit count `n`. -/
def left (n : Int) (k : Nat) : Int := if n ≤ 1 then n else n - ((k % n.toNat : Nat) : Int)

theorem doHit_spec {env : Env} {w : World} {u : Nat} {c : Nat → Bool} {n : Int} {k : Nat} {cond : Bool}
    (h : w.brks u = ⟨n, left n k, cond⟩) :
    w.doHit { env with cond := fun i _ => c i } u =
      ({ w with brks := upd w.brks u ⟨n, left n (k + 1), cond⟩ }, due n (k + 1) && (!cond || c u)) := by
  unfold World.doHit
  simp only [h]
  by_cases h1 : n ≤ 1
  · have e1 : left n k = n := by unfold left; rw [if_pos h1]
    have e2 : left n (k + 1) = n := by unfold left; rw [if_pos h1]
    have e3 : due n (k + 1) = true := by unfold due; simp [h1]
    rw [if_pos (by rw [e1]; omega), e2, e3]
    cases cond <;> simp
  · have hn : 2 ≤ n.toNat := by omega
    have hmod := Nat.mod_lt k (show 0 < n.toNat by omega)
    have e1 : left n k = n - ((k % n.toNat : Nat) : Int) := by unfold left; rw [if_neg h1]
    by_cases h2 : left n k - 1 ≤ 0
    · rw [if_pos h2]
      have h3 : k % n.toNat = n.toNat - 1 := by rw [e1] at h2; omega
      have h4 : (k + 1) % n.toNat = 0 := by
        rw [Nat.add_mod, h3, Nat.mod_eq_of_lt (show 1 < n.toNat by omega), Nat.sub_add_cancel (by omega), Nat.mod_self]
      have e2 : left n (k + 1) = n := by unfold left; rw [if_neg h1, h4]; simp
      have e3 : due n (k + 1) = true := by unfold due; simp [h4]
      rw [e2, e3]
      cases cond <;> simp
    · rw [if_neg h2]
      have h3 : k % n.toNat + 1 < n.toNat := by rw [e1] at h2; omega
      have h4 : (k + 1) % n.toNat = k % n.toNat + 1 := by
        rw [Nat.add_mod, Nat.mod_eq_of_lt (show 1 < n.toNat by omega), Nat.mod_eq_of_lt h3]
      have e2 : left n (k + 1) = left n k - 1 := by rw [e1]; unfold left; rw [if_neg h1, h4]; omega
      have e3 : due n (k + 1) = false := by unfold due; simp [h4, h1]
      rw [e2, e3]
      simp

/-! ### simulation of the specification -/

/-- The program's object for a breakpoint. -/
def toBrk (b : Bp) : Brk := ⟨b.uid, b.nr, b.kind, b.mem, b.addr, b.temp⟩

/-- The state of the program corresponds to the state of the specification. -/
structure BRel (s : BSt) (t : BpSt) : Prop where
  fi : s.fbrk.items = t.fetch.map toBrk
  ei : s.ebrk.items = t.event.map toBrk
  last : t.last = s.counter
  made : t.made = s.fresh
  fhit : ∀ b ∈ t.fetch, s.w.brks b.uid = ⟨b.hit, left b.hit b.seen, b.cond⟩
  ehit : ∀ b ∈ t.event, s.w.brks b.uid = ⟨b.hit, left b.hit b.seen, b.cond⟩
  log : s.w.events = t.log
  inr : ∀ b ∈ t.fetch, ∃ i, (s.w.spaces s.rom).idx? b.addr = some i
  ead : ∀ b ∈ t.event, b.addr < 2 ^ 32

/-- The fetch breakpoints of the step are inside of the code memory. -/
def InRom (w : World) (rom : Nat) : BOp → Prop
  | .brk a _ _ _ => ∃ i, (w.spaces rom).idx? a = some i
  | .until_ a => ∃ i, (w.spaces rom).idx? a = some i
  | _ => True

/-- `inside` of the specification. -/
def insideOf (w : World) (sp a : Nat) : Bool := ((w.spaces sp).idx? a).isSome

theorem BRel.newNr {s : BSt} {t : BpSt} (h : BInv s) (hR : BRel s t) : t.nextNr = s.newNr := by
  unfold BpSt.nextNr BSt.newNr CList.count
  rw [hR.fi, hR.ei, List.length_map, List.length_map, hR.last]
  by_cases hz : s.counter = 0
  · have e1 : t.fetch = [] := by
      rcases hf : t.fetch with _ | ⟨b, l⟩
      · rfl
      · have := h.fnr (toBrk b) (by rw [hR.fi, hf]; exact List.mem_cons_self); omega
    have e2 : t.event = [] := by
      rcases hf : t.event with _ | ⟨b, l⟩
      · rfl
      · have := h.enr (toBrk b) (by rw [hR.ei, hf]; exact List.mem_cons_self); omega
    rw [if_pos ⟨e1, e2⟩, if_pos hz]
  · rw [if_neg hz]
    simp only [List.length_eq_zero_iff]

theorem uid_inj {l : List Bp} (h : (l.map toBrk).Pairwise (fun a b => a.id ≠ b.id)) {a b : Bp} (ha : a ∈ l) (hb : b ∈ l)
    (he : a.uid = b.uid) : a = b := by
  rw [List.pairwise_map] at h
  obtain ⟨i, hi, rfl⟩ := List.mem_iff_getElem.1 ha
  obtain ⟨j, hj, rfl⟩ := List.mem_iff_getElem.1 hb
  have hpw := List.pairwise_iff_getElem.1 h
  rcases Nat.lt_trichotomy i j with hij | rfl | hij
  · exact absurd he (hpw i j hi hj hij)
  · rfl
  · exact absurd he.symm (hpw j i hj hi hij)

theorem any_addr {s : BSt} {t : BpSt} (hR : BRel s t) (a : Nat) :
    (∃ b ∈ t.fetch, b.addr = a) ↔ ∃ b ∈ s.fbrk.items, b.addr = a := by
  rw [hR.fi]
  constructor
  · rintro ⟨b, hb, rfl⟩; exact ⟨toBrk b, List.mem_map_of_mem hb, rfl⟩
  · rintro ⟨x, hx, rfl⟩; obtain ⟨b, hb, rfl⟩ := List.mem_map.1 hx; exact ⟨b, hb, rfl⟩

theorem filter_toBrk (l : List Bp) (p : Brk → Bool) : (l.map toBrk).filter p = (l.filter (fun b => p (toBrk b))).map toBrk := by
  rw [List.filter_map]; rfl

/-- Deleting breakpoints keeps the correspondence. -/
theorem BRel.del {s s' : BSt} {t : BpSt} (hR : BRel s t) (p q : Bp → Bool)
    (hf : s'.fbrk.items = (t.fetch.filter p).map toBrk) (he : s'.ebrk.items = (t.event.filter q).map toBrk)
    (hc : s'.counter = s.counter) (hfr : s'.fresh = s.fresh) (hb : s'.w.brks = s.w.brks) (hev : s'.w.events = s.w.events)
    (hg : SameGeo s.w s'.w) (hrom : s'.rom = s.rom) :
    BRel s' { t with fetch := t.fetch.filter p, event := t.event.filter q } := by
  refine ⟨hf, he, by rw [hc]; exact hR.last, by rw [hfr]; exact hR.made, ?_, ?_, by rw [hev]; exact hR.log, ?_, ?_⟩
  · intro b h; rw [hb]; exact hR.fhit b (List.mem_filter.1 h).1
  · intro b h; rw [hb]; exact hR.ehit b (List.mem_filter.1 h).1
  · intro b h; rw [hrom, hg.idx]; exact hR.inr b (List.mem_filter.1 h).1
  · intro b h; exact hR.ead b (List.mem_filter.1 h).1

/-- A new fetch breakpoint keeps the correspondence. -/
theorem BRel.addF {s s' : BSt} {t : BpSt} (h : BInv s) (hR : BRel s t) (a : Nat) (ha : a < 2 ^ 32) (dyn : Bool) (hit : Int) (cond : Bool)
    (hnew : ∀ b ∈ s.fbrk.items, b.addr = a → (s.w.spaces s.rom).idx? a = none)
    (hin : ∃ i, (s.w.spaces s.rom).idx? a = some i)
    (hok : s.addBp ⟨s.fresh, s.newNr, .fetch, s.rom, a, dyn⟩ hit cond = .ok s') :
    BRel s' (t.addFetch s.rom a hit cond dyn) := by
  obtain ⟨_, h2, h3, h4, h5, h6, h7, h8, h9⟩ := addF_inv h a ha dyn hit cond hnew hok
  have hn := hR.newNr h
  unfold BpSt.addFetch
  refine ⟨?_, ?_, ?_, ?_, ?_, ?_, ?_, ?_, ?_⟩ <;> simp only
  · rw [h2, hR.fi, List.map_append, hn, hR.made]; rfl
  · rw [h3]; exact hR.ei
  · rw [hn, h4]
  · rw [hR.made, h5]
  · intro b hb
    rw [h7]
    rcases List.mem_append.1 hb with hb | hb
    · have hid := h.ffr (toBrk b) (by rw [hR.fi]; exact List.mem_map_of_mem hb)
      have hid : b.uid < s.fresh := hid
      rw [upd_other _ _ _ _ (by omega)]; exact hR.fhit b hb
    · rw [List.mem_singleton] at hb; subst hb
      simp only
      rw [hR.made, upd_same]
      unfold left; simp
  · intro b hb
    rw [h7]
    have hid : b.uid < s.fresh := h.efr (toBrk b) (by rw [hR.ei]; exact List.mem_map_of_mem hb)
    rw [upd_other _ _ _ _ (by omega)]; exact hR.ehit b hb
  · rw [h8]; exact hR.log
  · intro b hb
    rw [h6, h9.idx]
    rcases List.mem_append.1 hb with hb | hb
    · exact hR.inr b hb
    · rw [List.mem_singleton] at hb; subst hb; exact hin
  · exact hR.ead

/-- A new event breakpoint keeps the correspondence. -/
theorem BRel.addE {s s' : BSt} {t : BpSt} (h : BInv s) (hR : BRel s t) (k : BKind) (hk : k ≠ .fetch) (mem a : Nat) (ha : a < 2 ^ 32)
    (dyn : Bool) (hit : Int) (cond : Bool)
    (hok : s.addBp ⟨s.fresh, s.newNr, k, mem, a, dyn⟩ hit cond = .ok s') :
    BRel s' { t with
      event := t.event ++ [⟨t.made, t.nextNr, k, mem, a, dyn, hit, cond, 0⟩]
      last := t.nextNr
      made := t.made + 1 } := by
  obtain ⟨_, h2, h3, h4, h5, h6, h7, h8, h9⟩ := addE_inv h k hk mem a dyn hit cond hok
  have hn := hR.newNr h
  refine ⟨?_, ?_, ?_, ?_, ?_, ?_, ?_, ?_, ?_⟩ <;> simp only
  · rw [h3]; exact hR.fi
  · rw [h2, hR.ei, List.map_append, hn, hR.made]; rfl
  · rw [hn, h4]
  · rw [hR.made, h5]
  · intro b hb
    rw [h7]
    have hid : b.uid < s.fresh := h.ffr (toBrk b) (by rw [hR.fi]; exact List.mem_map_of_mem hb)
    rw [upd_other _ _ _ _ (by omega)]; exact hR.fhit b hb
  · intro b hb
    rw [h7]
    rcases List.mem_append.1 hb with hb | hb
    · have hid : b.uid < s.fresh := h.efr (toBrk b) (by rw [hR.ei]; exact List.mem_map_of_mem hb)
      rw [upd_other _ _ _ _ (by omega)]; exact hR.ehit b hb
    · rw [List.mem_singleton] at hb; subst hb
      simp only
      rw [hR.made, upd_same]
      unfold left; simp
  · rw [h8]; exact hR.log
  · intro b hb; rw [h6, h9.idx]; exact hR.inr b hb
  · intro b hb
    rcases List.mem_append.1 hb with hb | hb
    · exact hR.ead b hb
    · rw [List.mem_singleton] at hb; subst hb; exact ha

end Ucsim
