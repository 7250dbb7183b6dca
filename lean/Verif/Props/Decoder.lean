import Verif.Proof.DecoderLoop
import Verif.Props.Mem

/-! # C06, C07: address decoders -/
namespace Ucsim.Props
open Ucsim

/-- Address `a` of the space leads to element `k` of chip `m`. -/
def DecodedTo (chips : Nat → Chip) (s : Space) (a m k : Nat) : Prop :=
  ∃ i, s.idx? a = some i ∧ (s.cells i).nonDec = false ∧ (s.cells i).ptr = ⟨some m, k * (chips m).bwidth⟩ ∧
    k < (chips m).size

/-- Arguments of the command `memory create addressdecoder`. -/
structure CreateArgs where
  b : Nat
  e : Nat
  chip : Nat
  cb : Nat

/-- A history of commands. -/
def runCreates (chips : Nat → Chip) (F : Nat) : List CreateArgs → Space → Option Space
  | [], s => some s
  | c :: cs, s => match cmdCreateDecoder chips F s c.b c.e c.chip c.cb with
    | none => none
    | some (s', _) => runCreates chips F cs s'

theorem decodedTo_iff {chips : Nat → Chip} {s : Space} {a i m k : Nat}
    (hi : s.idx? a = some i) {m' k' : Nat} (hc : CellIs (s.cells i) (getSlot chips m' k')) :
    DecodedTo chips s a m k ↔ m = m' ∧ k = k' ∧ k < (chips m).size := by
  unfold DecodedTo
  unfold getSlot at hc
  constructor
  · rintro ⟨j, hj, h1, h2, h3⟩
    rw [hi] at hj; cases hj
    split at hc
    · rw [hc.2] at h1; simp at h1
    · rename_i hlt
      have := hc.1
      rw [h2] at this
      simp only [Option.getD_some, Ptr.mk.injEq, Option.some.injEq] at this
      obtain ⟨rfl, h5⟩ := this
      exact ⟨rfl, Nat.eq_of_mul_eq_mul_right (bwidth_pos _) h5, h3⟩
  · rintro ⟨rfl, rfl, h3⟩
    rw [if_neg (by omega)] at hc
    exact ⟨i, hi, hc.2, hc.1, h3⟩

theorem decodedTo_none {chips : Nat → Chip} {s : Space} {a i m k : Nat}
    (hi : s.idx? a = some i) (hc : CellIs (s.cells i) none) : ¬ DecodedTo chips s a m k := by
  rintro ⟨j, hj, h1, _⟩
  rw [hi] at hj; cases hj
  rw [hc.2] at h1; simp at h1

theorem good_idx {chips : Nat → Chip} {s : Space} (hg : Good chips s) (a : Nat) (ha : a < 2 ^ 32) (i : Nat) :
    s.idx? a = some i ↔ i < s.size ∧ a = s.start + i := by
  rw [idx?_eq s a (by have := hg.bound; omega) ha]
  split <;> simp <;> omega

/-- The truth of the decoder list, in terms of get_decoder_of. -/
theorem good_truth {chips : Nat → Chip} {s : Space} (hg : Good chips s) (a m k : Nat) (ha : a < 2 ^ 32) :
    DecodedTo chips s a m k ↔
      ∃ d, s.decoderOf a = some d ∧ d.chip = some m ∧ k = d.cb + (a - d.asb) ∧ k < (chips m).size := by
  have hb := hg.bound
  cases hd : s.decoderOf a with
  | none =>
    simp only [reduceCtorEq, false_and, exists_false, iff_false]
    intro hdec
    obtain ⟨i, hi, _⟩ := id hdec
    obtain ⟨hi1, rfl⟩ := (good_idx hg a ha i).1 hi
    refine decodedTo_none hi (hg.unmapped i hi1 ?_) hdec
    intro d hdm hr
    have := List.find?_eq_none.1 hd d hdm
    simp only [Dec.covers, Bool.and_eq_true, decide_eq_true_eq, ge_iff_le] at this
    exact this hr
  | some d =>
    have hdm := List.mem_of_find?_eq_some hd
    have hr := List.find?_some hd
    simp only [Dec.covers, Bool.and_eq_true, decide_eq_true_eq, ge_iff_le] at hr
    obtain ⟨v1, v2, v3, m', v4, v5⟩ := hg.valid d hdm
    have hi : s.idx? a = some (a - s.start) := (good_idx hg a ha _).2 ⟨by omega, by omega⟩
    have hc := hg.mapped (a - s.start) (by omega) d hdm (by omega) (by omega) m' v4
    have e : s.start + (a - s.start) = a := by omega
    rw [e] at hc
    rw [decodedTo_iff hi hc]
    constructor
    · rintro ⟨rfl, rfl, h⟩
      exact ⟨d, rfl, v4, rfl, h⟩
    · rintro ⟨d', hd', h1, h2, h3⟩
      cases hd'
      rw [v4] at h1; cases h1
      exact ⟨rfl, h2, h3⟩

/-- One command keeps the list truthful; it ends. -/
theorem create_good {chips : Nat → Chip} (hch : ∀ m, (chips m).size < 2 ^ 31) {s : Space}
    (hg : Good chips s) (hpos : 0 < s.size) (c : CreateArgs) (hb : c.b < 2 ^ 32) (he : c.e < 2 ^ 32) (hcb : c.cb < 2 ^ 32)
    (F : Nat) (hF : 2 * s.decs.length + 6 ≤ F) :
    ∃ s' r, cmdCreateDecoder chips F s c.b c.e c.chip c.cb = some (s', r) ∧ Good chips s' ∧ Frame s s' ∧
      s'.decs.length ≤ 2 * s.decs.length + 1 := by
  unfold cmdCreateDecoder
  have hbd := hg.bound
  have hm := hch c.chip
  by_cases h1 : c.b > c.e
  · rw [if_pos h1]; exact ⟨s, false, rfl, hg, Frame.refl s, by omega⟩
  rw [if_neg h1]
  by_cases h2 : c.cb ≥ (chips c.chip).size
  · rw [if_pos h2]; exact ⟨s, false, rfl, hg, Frame.refl s, by omega⟩
  rw [if_neg h2]
  by_cases h3 : c.b < s.start ∨ c.e > subU (u32 (s.start + s.size)) 1
  · rw [if_pos h3]; exact ⟨s, false, rfl, hg, Frame.refl s, by omega⟩
  rw [if_neg h3]
  by_cases h4 : subU c.e c.b > subU (chips c.chip).size c.cb
  · rw [if_pos h4]; exact ⟨s, false, rfl, hg, Frame.refl s, by omega⟩
  rw [if_neg h4]
  unfold subU at h4
  unfold subU u32 at h3
  obtain ⟨s', r1, r2, r3, _, _, _, r4⟩ := addActivate_ok hch hg c.b c.e c.chip c.cb (by omega) (by omega)
    (by omega) (by omega) (by omega) F hF
  exact ⟨s', true, r1, r2, r3, r4⟩

/-- Histories keep the list truthful. -/
theorem creates_good {chips : Nat → Chip} (hch : ∀ m, (chips m).size < 2 ^ 31) (cs : List CreateArgs)
    (hcs : ∀ c ∈ cs, c.b < 2 ^ 32 ∧ c.e < 2 ^ 32 ∧ c.cb < 2 ^ 32) :
    ∀ n, ∃ F0, ∀ F, F0 ≤ F → ∀ s, Good chips s → 0 < s.size → s.decs.length ≤ n →
      ∃ s', runCreates chips F cs s = some s' ∧ Good chips s' ∧ Frame s s' := by
  induction cs with
  | nil => intro n; exact ⟨0, fun F _ s hg _ _ => ⟨s, rfl, hg, Frame.refl s⟩⟩
  | cons c cs ih =>
    intro n
    obtain ⟨F0, hF0⟩ := ih (fun c hc => hcs c (List.mem_cons_of_mem _ hc)) (2 * n + 1)
    refine ⟨max F0 (2 * n + 6), ?_⟩
    intro F hF s hg hpos hl
    obtain ⟨h1, h2, h3⟩ := hcs c List.mem_cons_self
    obtain ⟨s1, r, r1, r2, r3, r4⟩ := create_good hch hg hpos c h1 h2 h3 F (by omega)
    obtain ⟨s2, q1, q2, q3⟩ := hF0 F (by omega) s1 r2 (by rw [r3.size]; exact hpos) (by omega)
    exact ⟨s2, by simp only [runCreates, r1, q1], q2, r3.trans q3⟩

/-- C07.  A new (non-empty, ending below 2^32) address space and any history of
decoder creations: the commands end, the decoders in the list are pairwise
disjoint, and an address leads to element k of chip m exactly if the decoder
reported for the address says so (and the chip has that element). -/
theorem c07_truthful (chips : Nat → Chip) (hch : ∀ m, (chips m).size < 2 ^ 31) (start size width : Nat)
    (u : Bool) (hpos : 0 < size) (hb : start + size < 2 ^ 32) (cs : List CreateArgs)
    (hcs : ∀ c ∈ cs, c.b < 2 ^ 32 ∧ c.e < 2 ^ 32 ∧ c.cb < 2 ^ 32) :
    ∃ F0, ∀ F, F0 ≤ F → ∃ s, runCreates chips F cs (newSpace start size width u) = some s ∧
      s.decs.Pairwise (fun d d' => d.ase < d'.asb ∨ d'.ase < d.asb) ∧
      ∀ a, a < 2 ^ 32 → ∀ m k, DecodedTo chips s a m k ↔
        ∃ d, s.decoderOf a = some d ∧ d.chip = some m ∧ k = d.cb + (a - d.asb) ∧ k < (chips m).size := by
  obtain ⟨F0, hF0⟩ := creates_good hch cs hcs 0
  refine ⟨F0, fun F hF => ?_⟩
  obtain ⟨s, r1, r2, r3⟩ := hF0 F hF _ (newSpace_good chips start size width u hb) hpos (by simp [newSpace])
  refine ⟨s, r1, ?_, fun a ha m k => good_truth r2 a m k ha⟩
  have hnd := r2.nodup
  have hdj := r2.disj
  rw [List.Nodup, List.pairwise_map] at hnd
  refine List.Pairwise.imp_of_mem ?_ hnd
  intro x y hx hy hne
  exact hdj x hx y hy hne

/-- C06.  After any history of decoder creations, when adding and activating a
decoder reports success: addresses of [b,e] whose element exists lead to it,
those whose element does not exist lead nowhere, and all others lead where they
did.  (u32 arguments; the decoder need not be tested by the command before.) -/
theorem c06_activate (chips : Nat → Chip) (hch : ∀ m, (chips m).size < 2 ^ 31) (start size width : Nat)
    (u : Bool) (hpos : 0 < size) (hb : start + size < 2 ^ 32) (cs : List CreateArgs)
    (hcs : ∀ c ∈ cs, c.b < 2 ^ 32 ∧ c.e < 2 ^ 32 ∧ c.cb < 2 ^ 32)
    (b e m cb : Nat) (hb32 : b < 2 ^ 32) (he : e < 2 ^ 32) :
    ∃ F0, ∀ F, F0 ≤ F → ∃ s s' r, runCreates chips F cs (newSpace start size width u) = some s ∧
      addActivate chips F s b e m cb = some (s', r) ∧
      (r = true →
        (∀ a, b ≤ a → a ≤ e → ∀ m' k', DecodedTo chips s' a m' k' ↔
          m' = m ∧ k' = cb + (a - b) ∧ k' < (chips m).size) ∧
        (∀ a, a < 2 ^ 32 → ¬(b ≤ a ∧ a ≤ e) → ∀ m' k', DecodedTo chips s' a m' k' ↔ DecodedTo chips s a m' k')) ∧
      (r = true ↔ b ≤ e ∧ start ≤ b ∧ e < start + size ∧ cb < (chips m).size ∧
        e - b ≤ (chips m).size - cb) := by
  have hgrow : ∀ cs : List CreateArgs, (∀ c ∈ cs, c.b < 2 ^ 32 ∧ c.e < 2 ^ 32 ∧ c.cb < 2 ^ 32) →
      ∀ n, ∃ F0 N, ∀ F, F0 ≤ F → ∀ s, Good chips s → 0 < s.size → s.decs.length ≤ n →
      ∃ s', runCreates chips F cs s = some s' ∧ Good chips s' ∧ Frame s s' ∧ s'.decs.length ≤ N := by
    intro cs
    induction cs with
    | nil => intro _ n; exact ⟨0, n, fun F _ s hg _ hl => ⟨s, rfl, hg, Frame.refl s, hl⟩⟩
    | cons c cs ih =>
      intro hcs n
      obtain ⟨F0, N, hF0⟩ := ih (fun c hc => hcs c (List.mem_cons_of_mem _ hc)) (2 * n + 1)
      refine ⟨max F0 (2 * n + 6), N, ?_⟩
      intro F hF s hg hpos hl
      obtain ⟨h1, h2, h3⟩ := hcs c List.mem_cons_self
      obtain ⟨s1, r, r1, r2, r3, r4⟩ := create_good hch hg hpos c h1 h2 h3 F (by omega)
      obtain ⟨s2, q1, q2, q3, q4⟩ := hF0 F (by omega) s1 r2 (by rw [r3.size]; exact hpos) (by omega)
      exact ⟨s2, by simp only [runCreates, r1, q1], q2, r3.trans q3, q4⟩
  obtain ⟨F0, N, hF0⟩ := hgrow cs hcs 0
  refine ⟨max F0 (2 * N + 6), fun F hF => ?_⟩
  obtain ⟨s, r1, hg, r3, r4⟩ := hF0 F (by omega) _ (newSpace_good chips start size width u hb) hpos
    (by simp [newSpace])
  have hs1 : s.start = start := r3.start
  have hs2 : s.size = size := r3.size
  have hm := hch m
  by_cases hok : b ≤ e ∧ start ≤ b ∧ e < start + size ∧ cb < (chips m).size ∧ e - b ≤ (chips m).size - cb
  · obtain ⟨h1, h2, h3, h4, h5⟩ := hok
    obtain ⟨s', q1, q2, q3, q4, q5, _, _⟩ := addActivate_ok hch hg b e m cb h1 (by omega) (by omega) h4 h5 F (by omega)
    refine ⟨s, s', true, r1, q1, fun _ => ⟨?_, ?_⟩, by simp [h1, h2, h3, h4, h5]⟩
    · intro a ha1 ha2 m' k'
      have hi : s'.idx? a = some (a - s.start) :=
        (good_idx q2 a (by omega) _).2 ⟨by rw [q3.size]; omega, by rw [q3.start]; omega⟩
      have hc := q4 (a - s.start) (by omega) (by omega) (by omega)
      have ea : s.start + (a - s.start) = a := by omega
      rw [ea] at hc
      rw [decodedTo_iff hi hc]
      constructor
      · rintro ⟨rfl, rfl, h⟩; exact ⟨rfl, rfl, h⟩
      · rintro ⟨rfl, rfl, h⟩; exact ⟨rfl, rfl, h⟩
    · intro a ha hn m' k'
      have hidx : s'.idx? a = s.idx? a := by
        rw [idx?_eq _ _ (by have := q2.bound; omega) ha, idx?_eq _ _ (by have := hg.bound; omega) ha,
          q3.start, q3.size]
      have hcell : ∀ i, s.idx? a = some i → s'.cells i = s.cells i := by
        intro i hi
        obtain ⟨i1, i2⟩ := (good_idx hg a ha i).1 hi
        exact q5 i i1 (by rw [← i2]; exact hn)
      unfold DecodedTo
      constructor
      · rintro ⟨i, hi, hh⟩
        rw [hidx] at hi; rw [hcell i hi] at hh; exact ⟨i, hi, hh⟩
      · rintro ⟨i, hi, hh⟩
        rw [← hcell i hi] at hh; exact ⟨i, by rw [hidx]; exact hi, hh⟩
  · have hno : ∃ s', addActivate chips F s b e m cb = some (s', false) := by
      obtain ⟨F, rfl⟩ : ∃ g, F = g + 1 := ⟨F - 1, by omega⟩
      unfold addActivate activateF
      simp only
      rw [if_neg]
      · exact ⟨_, rfl⟩
      · intro hact
        apply hok
        obtain ⟨j, hj, hadd⟩ := addDec_eq s
          { id := s.freshId, chip := some m, asb := b, ase := e, cb := cb, act := false }
        rw [hadd] at hact
        unfold actOk at hact
        simp only [Bool.and_eq_true, Bool.not_eq_true', decide_eq_true_eq,
          Bool.or_eq_false_iff, decide_eq_false_iff_not, subU, u32] at hact
        obtain ⟨⟨⟨⟨_, g1⟩, g2⟩, g3, g4⟩, g5⟩ := hact
        have g4 := of_decide_eq_false g4
        have g5 := of_decide_eq_false g5
        omega
    obtain ⟨s', h⟩ := hno
    exact ⟨s, s', false, r1, h, by simp, ⟨fun h => by simp at h, fun h => absurd h hok⟩⟩

/-- What C06 says in terms of accesses: the wiring of C01-C05. -/
theorem c06_wire (env : Env) (w : World) (sp a m k : Nat) (h : DecodedTo env.chips (w.spaces sp) a m k) :
    ∃ t, wire env w sp a = some t ∧ t.chip = m ∧ t.elem = k := by
  obtain ⟨i, h1, h2, h3, h4⟩ := h
  unfold wire
  rw [h1]
  simp only [h2, h3]
  exact ⟨_, rfl, rfl, Nat.mul_div_cancel _ (bwidth_pos _)⟩

/-- `c06_activate`/`c07_truthful` on a concrete history: a 256 byte chip over all
the space, a second chip over the middle (splits the first decoder), and then
an area that removes and shrinks decoders. -/
example : (runCreates (fun k => if k = 0 then ⟨256, 8⟩ else ⟨64, 8⟩) 20
      [⟨0, 255, 0, 0⟩, ⟨100, 149, 1, 3⟩, ⟨140, 300, 1, 0⟩, ⟨140, 160, 1, 5⟩] (newSpace 0 256 8 true)).map
      (fun s => s.decs.map (fun d => (d.asb, d.ase, d.chip, d.cb, d.act))) =
    some [(0, 99, some 0, 0, true), (100, 139, some 1, 3, true), (140, 160, some 1, 5, true),
      (161, 255, some 0, 161, true)] := by decide +kernel

/-- A chip and a byte offset in it. -/
structure Place where
  chip : Option Nat
  off : Nat
deriving DecidableEq

/-- Where an address leads (8-bit chips below, so the offset is the element
number). -/
def leads (s : Space) (a : Nat) : Option Place :=
  (s.idx? a).bind (fun i => if (s.cells i).nonDec then none else some ⟨(s.cells i).ptr.blk, (s.cells i).ptr.off⟩)

/-- The size test of activation is off by one: an area one longer than the rest
of the chip is accepted, and its last address leads nowhere. -/
theorem c06_last_address_undecoded :
    (addActivate (fun _ => ⟨4, 8⟩) 10 (newSpace 0 16 8 true) 0 4 0 0).map
      (fun r => (r.2, r.1.decs.map (fun d => (d.asb, d.ase)), leads r.1 3, leads r.1 4)) =
    some (true, [(0, 4)], some ⟨some 0, 3⟩, none) := by decide +kernel

/-- Outside of the histories of C06/C07: a decoder that was added without the
tests of the command and could not be activated (it begins below the space)
stays in the list; when a later decoder splits it, the upper part is activated
and takes addresses (here 22) outside of the later decoder's area away from
their decoder. -/
theorem c06_false_after_failed_activation :
    ((addActivate (fun _ => ⟨16, 8⟩) 20 (newSpace 16 16 8 true) 16 31 0 0).bind fun r1 =>
     (addActivate (fun _ => ⟨16, 8⟩) 20 r1.1 10 25 1 0).bind fun r2 =>
     (addActivate (fun _ => ⟨16, 8⟩) 20 r2.1 20 20 2 0).map fun r3 =>
       (r1.2, r2.2, r3.2, leads r2.1 22, leads r3.1 22)) =
    some (true, false, true, some ⟨some 0, 6⟩, some ⟨some 1, 12⟩) := by decide +kernel

end Ucsim.Props
