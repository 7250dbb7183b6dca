import Verif.Proof.BrkAcc

namespace Ucsim
open Spec Props

/-- A new fetch breakpoint can be made while the list is not full. -/
theorem addF_total {s : BSt} (h : BInv s) (a : Nat) (dyn : Bool) (hit : Int) (cond : Bool)
    (hl : s.fbrk.items.length < maxListSize) :
    ∃ s', s.addBp ⟨s.fresh, s.newNr, .fetch, s.rom, a, dyn⟩ hit cond = .ok s' := by
  obtain ⟨_, hnf, _⟩ := h.newNr
  obtain ⟨l', hl'⟩ := (slAdd_append s.fbrk h.ffit h.fdel h.fsort ⟨s.fresh, s.newNr, .fetch, s.rom, a, dyn⟩ hnf).1 hl
  unfold BSt.addBp
  simp only [hl']
  exact ⟨_, rfl⟩

theorem addE_total {s : BSt} (h : BInv s) (k : BKind) (hk : k ≠ .fetch) (mem a : Nat) (dyn : Bool) (hit : Int) (cond : Bool)
    (hl : s.ebrk.items.length < maxListSize) :
    ∃ s', s.addBp ⟨s.fresh, s.newNr, k, mem, a, dyn⟩ hit cond = .ok s' := by
  obtain ⟨_, _, hne⟩ := h.newNr
  obtain ⟨l', hl'⟩ := (slAdd_append s.ebrk h.efit h.edel h.esort ⟨s.fresh, s.newNr, k, mem, a, dyn⟩ hne).1 hl
  unfold BSt.addBp
  cases k with
  | fetch => exact absurd rfl hk
  | rd => simp only [hl']; exact ⟨_, rfl⟩
  | wr => simp only [hl']; exact ⟨_, rfl⟩
  | other => simp only [hl']; exact ⟨_, rfl⟩

theorem insideOf_same {w w' : World} (h : SameRest w w') : insideOf w' = insideOf w := by
  funext sp a; unfold insideOf; rw [h.geo.idx]

theorem InRom.same {w w' : World} (h : SameRest w w') {rom : Nat} {o : BOp} (hi : InRom w rom o) : InRom w' rom o := by
  cases o <;> simp only [InRom] at * <;> first | trivial | (rw [h.geo.idx]; exact hi)

/-- The breakpoint a command is about to make fits into its list. -/
def Room (t : BpSt) : BOp → Prop
  | .brk _ _ _ _ => t.fetch.length < 8192
  | .until_ _ => t.fetch.length < 8192
  | .ev _ _ _ _ _ _ => t.event.length < 8192
  | _ => True

/-- Each step of the program does what the specification says. -/
theorem step_sim {env : Env} {w0 : World} {s : BSt} {t : BpSt} (h : BInv s) (hR : BRel s t) (hr : SameRest w0 s.w) (o : BOp)
    (ho : OpOk w0 o) (hi : InRom w0 s.rom o) (hm : Room t o) :
    ∃ s' x, s.step env o = .ok (s', x) ∧ BRel s' (bpStep s.rom (insideOf w0) t o).1 ∧
      x = (bpStep s.rom (insideOf w0) t o).2 := by
  have hbp : ∀ a, a < 2 ^ 32 → (∃ i, (w0.spaces s.rom).idx? a = some i) → (s.bpAt a = true ↔ ∃ b ∈ t.fetch, b.addr = a) := by
    intro a ha hia
    rw [h.bpAt ha, any_addr hR, ← hr.geo.idx] at *
    exact ⟨fun ⟨_, b⟩ => b, fun b => ⟨hia, b⟩⟩
  cases o with
  | brk a hit cond dyn =>
    simp only [BSt.step, BSt.doFetch, bpStep]
    by_cases h1 : hit > 99999
    · rw [if_pos h1, if_pos (Or.inl h1)]; exact ⟨s, false, rfl, hR, rfl⟩
    · rw [if_neg h1]
      by_cases h2 : s.bpAt a = true
      · rw [if_pos h2, if_pos (Or.inr ((hbp a ho hi).1 h2))]; exact ⟨s, false, rfl, hR, rfl⟩
      · have h3 : ¬ ∃ b ∈ t.fetch, b.addr = a := fun h4 => h2 ((hbp a ho hi).2 h4)
        rw [if_neg h2, if_neg (by rintro (h4 | h4); exact h1 h4; exact h3 h4)]
        have hlen : s.fbrk.items.length < maxListSize := by rw [hR.fi, List.length_map]; exact hm
        obtain ⟨s', hs'⟩ := addF_total h a dyn hit cond hlen
        refine ⟨s', false, by rw [hs']; rfl, ?_, rfl⟩
        refine hR.addF h a ho dyn hit cond ?_ ?_ hs'
        · intro b hb he; exact absurd ((any_addr hR a).2 ⟨b, hb, he⟩) h3
        · rw [hr.geo.idx]; exact hi
  | until_ a =>
    simp only [BSt.step, BSt.until_, bpStep]
    cases hg : s.getBp a with
    | some kx =>
      obtain ⟨k, y⟩ := kx
      obtain ⟨g1, g2, _⟩ := h.getBp_some ho hg
      rw [if_pos ((any_addr hR a).2 ⟨y, List.mem_of_getElem? g1, g2⟩)]
      exact ⟨s, false, rfl, hR, rfl⟩
    | none =>
      have hnew := h.getBp_none ho hg
      have hi' : ∃ i, (s.w.spaces s.rom).idx? a = some i := by rw [hr.geo.idx]; exact hi
      have h3 : ¬ ∃ b ∈ t.fetch, b.addr = a := by
        intro h4
        obtain ⟨b, hb, he⟩ := (any_addr hR a).1 h4
        obtain ⟨i, hi'⟩ := hi'
        rw [hnew b hb he] at hi'; cases hi'
      rw [if_neg h3]
      have hlen : s.fbrk.items.length < maxListSize := by rw [hR.fi, List.length_map]; exact hm
      obtain ⟨s', hs'⟩ := addF_total h a true 1 false hlen
      refine ⟨s', false, by simp only [hs']; rfl, ?_, rfl⟩
      exact hR.addF h a ho true 1 false hnew hi' hs'
  | ev k mem a hit cond dyn =>
    simp only [BSt.step, BSt.doEvent, bpStep]
    have hlen : s.ebrk.items.length < maxListSize := by rw [hR.ei, List.length_map]; exact hm
    obtain ⟨s', hs'⟩ := addE_total h k ho.1 mem a dyn hit cond hlen
    refine ⟨s', false, by rw [hs']; rfl, ?_, rfl⟩
    exact hR.addE h k ho.1 mem a ho.2 dyn hit cond hs'
  | clear a =>
    simp only [BSt.step, BSt.clear, bpStep]
    obtain ⟨s1, k1, k2, k3, k4, k5, k6, k7, k8, k9, k10, k11⟩ := delAddr_spec h (a := a) ho
    by_cases h2 : s.bpAt a = true
    · rw [if_pos h2, k1]
      refine ⟨s1, false, rfl, ?_, rfl⟩
      have hi' := ((h.bpAt ho).1 h2).1
      have := hR.del (fun b => b.addr ≠ a) (fun _ => true) (s' := s1)
        (by rw [k11 hi', hR.fi, filter_toBrk]; rfl) (by rw [k4, hR.ei, filter_ne_self (by simp)]) k5 k6 k8 k9 k3.geo k7
      rw [filter_ne_self (l := t.event) (p := fun _ => true) (by simp)] at this
      exact this
    · rw [if_neg h2]
      refine ⟨s, false, rfl, ?_, rfl⟩
      have hno : ∀ b ∈ t.fetch, b.addr ≠ a := by
        intro b hb he
        have hi' := hR.inr b hb
        rw [he] at hi'
        exact h2 ((h.bpAt ho).2 ⟨hi', (any_addr hR a).1 ⟨b, hb, he⟩⟩)
      rw [filter_ne_self (by intro b hb; simp [hno b hb])]
      exact hR
  | delete nr =>
    simp only [BSt.step, bpStep]
    obtain ⟨s1, k1, k2, k3, k5, k6, k7, k8, k9, k10, k11⟩ := rmBrk_spec h nr
    rw [k1]
    refine ⟨s1, false, rfl, ?_, rfl⟩
    refine hR.del (fun b => b.nr ≠ nr) (fun b => b.nr ≠ nr) ?_ ?_ k5 k6 k8 k9 k3.geo k7
    · rw [k11, hR.fi, filter_toBrk]
      congr 1
      apply List.filter_congr
      intro b hb
      obtain ⟨i, hi'⟩ := hR.inr b hb
      simp [toBrk, hi']
    · rw [k10, hR.ei, filter_toBrk]; rfl
  | deleteAll =>
    simp only [BSt.step, bpStep, BSt.removeAll]
    have hin : ∀ b ∈ s.fbrk.items, ∃ i, (s.w.spaces s.rom).idx? b.addr = some i := by
      intro b hb
      rw [hR.fi] at hb
      obtain ⟨b', hb', rfl⟩ := List.mem_map.1 hb
      exact hR.inr b' hb'
    obtain ⟨s1, k1, k2, k3, k4, k5, k6, k7, k8, k9, k10⟩ := removeF_spec s.fbrk.count h (Nat.le_refl _) hin
    obtain ⟨s2, j1, j2, j3, j4, j5, j6, j7, j8, j9, j10⟩ := removeE_spec s1.ebrk.count k2 (Nat.le_refl _)
    rw [k1]
    simp only
    rw [j1]
    refine ⟨s2, false, rfl, ?_, rfl⟩
    refine ⟨?_, ?_, ?_, ?_, ?_, ?_, ?_, ?_, ?_⟩ <;> simp only [List.not_mem_nil, false_imp_iff, implies_true, List.map_nil]
    · rw [j4, k10]
    · rw [j10]
    · rw [j5, k5]; exact hR.last
    · rw [j6, k6]; exact hR.made
    · rw [j9, k9]; exact hR.log
  | arrive a c =>
    obtain ⟨⟨s', x⟩, hd⟩ := doBrk_total (env := env) h (pc := a) ho c
    obtain ⟨g1, g2⟩ := arrive_sim h hR ho c (insideOf w0) hd
    exact ⟨s', x, hd, g1, g2⟩
  | acc x c =>
    refine ⟨_, _, rfl, ?_, ?_⟩
    · rw [← insideOf_same hr]
      exact acc_sim h hR x ho.1 (ho.2.same hr) c
    · simp only [bpStep]; split <;> rfl

/-- How many breakpoints the commands of a history try to make. -/
def makes : List BOp → Nat
  | [] => 0
  | .brk _ _ _ _ :: os => makes os + 1
  | .ev _ _ _ _ _ _ :: os => makes os + 1
  | .until_ _ :: os => makes os + 1
  | _ :: os => makes os

theorem step_len (rom : Nat) (inside : Nat → Nat → Bool) (t : BpSt) (o : BOp) (os : List BOp) :
    (bpStep rom inside t o).1.fetch.length + makes os ≤ t.fetch.length + makes (o :: os) ∧
    (bpStep rom inside t o).1.event.length + makes os ≤ t.event.length + makes (o :: os) := by
  have hf : ∀ p : Bp → Bool, (t.fetch.filter p).length ≤ t.fetch.length := fun p => List.length_filter_le _ _
  have he : ∀ p : Bp → Bool, (t.event.filter p).length ≤ t.event.length := fun p => List.length_filter_le _ _
  cases o <;> simp only [bpStep, makes] <;> (try split) <;>
    (try simp only [BpSt.addFetch, List.length_append, List.length_map, List.length_cons, List.length_nil]) <;>
    (refine ⟨?_, ?_⟩ <;> first | omega | (exact Nat.add_le_add_right (hf _) _) | (exact Nat.add_le_add_right (he _) _))

/-- The program refines the specification: any history within the limits of the lists. -/
theorem run_sim {env : Env} {w0 : World} (ops : List BOp) {s : BSt} {t : BpSt} (h : BInv s) (hR : BRel s t) (hr : SameRest w0 s.w)
    (ho : ∀ o ∈ ops, OpOk w0 o) (hi : ∀ o ∈ ops, InRom w0 s.rom o)
    (hl : t.fetch.length + makes ops ≤ 8192 ∧ t.event.length + makes ops ≤ 8192) :
    ∃ s' xs, s.run env ops = .ok (s', xs) ∧ BRel s' (bpRun s.rom (insideOf w0) t ops).1 ∧
      xs = (bpRun s.rom (insideOf w0) t ops).2 := by
  induction ops generalizing s t with
  | nil => exact ⟨s, [], rfl, hR, rfl⟩
  | cons o os ih =>
    have hm : Room t o := by cases o <;> simp only [Room, makes] at hl ⊢ <;> omega
    obtain ⟨s1, x, h1, h2, h3⟩ := step_sim (env := env) h hR hr o (ho o List.mem_cons_self) (hi o List.mem_cons_self) hm
    obtain ⟨g1, g2, g3⟩ := step_inv h hr o (ho o List.mem_cons_self) h1
    obtain ⟨l1, l2⟩ := step_len s.rom (insideOf w0) t o os
    obtain ⟨s2, xs, k1, k2, k3⟩ := ih g1 h2 g2 (fun o' ho' => ho o' (List.mem_cons_of_mem _ ho'))
      (fun o' ho' => by rw [g3]; exact hi o' (List.mem_cons_of_mem _ ho')) (by omega)
    rw [g3] at k2 k3
    refine ⟨s2, x :: xs, ?_, ?_, ?_⟩
    · unfold BSt.run; rw [h1]; simp only; rw [k1]
    · simp only [bpRun]; exact k2
    · simp only [bpRun]; rw [h3, k3]

theorem new_rel {w : World} (h : NoBrk w) (rom : Nat) : BRel (BSt.new w rom) BpSt.init := by
  constructor <;> simp [BSt.new, BpSt.init, h.events]

end Ucsim
