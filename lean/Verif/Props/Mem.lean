import Verif.Proof.MemExtra

/-!
# C01 - C05, C42: reading and writing memory through address spaces

`wire env w sp a = some t` : address `a` of space `sp` is decoded, to `t`.
`Quiet w sp a`             : no peripheral / bank switcher sits on the location
                             (breakpoints may).
`Wf env w`                 : spaces are as built by the program, decoded cells
                             lie on existing elements of chips whose element
                             size is that of the space (1-bit spaces: any chip).
-/
namespace Ucsim.Props
open Ucsim
open Ucsim.Spec (Target Act)

/-- What the user expects to read after writing `v` in a location of a `width`
bit memory. -/
def truncated (width : Nat) (v : W) : Nat :=
  if width = 1 then (if v = 0#32 then 0 else 1) else v.toNat % 2 ^ width

/-- Refinement: after any history of accesses, every decoded location reads
what the specification (chips as maps of elements) says. -/
theorem mem_history (env : Env) (w : World) (hw : Wf env w) (l : List Act)
    (hl : ∀ x ∈ l, x.loc.2 < 2 ^ 32 ∧ Quiet w x.loc.1 x.loc.2)
    (sp a : Nat) (t : Target) (ht : wire env w sp a = some t) :
    ((w.acts env l).get sp a).2 =
      Spec.readT (Spec.run (wire env w) (specOf env w) l).mem t := by
  obtain ⟨h1, h2⟩ := acts_rel l hw (specOf_rel env w) (fun x hx => ⟨(hl x hx).1, (hl x hx).2⟩)
  rw [h2.mem]
  exact (get_wired (h1.wf hw) (by rw [h1.wire]; exact ht)).1

/-- C01.  Any cell made by the program for a space of `width` bits (its mask is
the full mask of the width, or for 1-bit spaces a mask inside the low byte), in
any state, wherever its data is: the write returns, and a read afterwards
returns, the truncated value. -/
theorem c01_write_read (env : Env) (w : World) (sp a i : Nat) (v : W)
    (hi : (w.spaces sp).idx? a = some i)
    (hk : ((w.spaces sp).cells i).kind = kindOf ((w.spaces sp).cells i).width)
    (h1 : 1 ≤ ((w.spaces sp).cells i).width) (h2 : ((w.spaces sp).cells i).width ≤ 32)
    (hm : if ((w.spaces sp).cells i).width = 1 then ((w.spaces sp).cells i).mask.setWidth 8 ≠ 0#8
          else ((w.spaces sp).cells i).mask = maskOf ((w.spaces sp).cells i).width)
    (hro : w.isRo sp a = false) (hq : Quiet w sp a) :
    (w.write env sp a v).2.toNat = truncated ((w.spaces sp).cells i).width v ∧
    ((w.write env sp a v).1.read env sp a).2.toNat = truncated ((w.spaces sp).cells i).width v ∧
    ((w.write env sp a v).1.get sp a).2.toNat = truncated ((w.spaces sp).cells i).width v := by
  have hwr := write_world (env := env) hq v
  have hq' : Quiet (w.write env sp a v).1 sp a := (SameWiring.of_spaces hwr.1).quiet hq
  have hrd := (read_quiet (env := env) hq').2
  have hro' : ((w.spaces sp).cells i).ro = false := by unfold World.isRo at hro; rw [hi] at hro; exact hro
  have hget : ((w.write env sp a v).1.get sp a).2.toNat = truncated ((w.spaces sp).cells i).width v := by
    have e : ((w.write env sp a v).1.get sp a).2 =
        ((w.spaces sp).cells i).d (((w.spaces sp).cells i).put w.bytes v) := by
      unfold World.get
      rw [hwr.1, hi]
      simp only [World.cget, World.cell, hwr.1, hwr.2.1]
      unfold World.set
      rw [hi]
      simp only [World.cset, Cell.set, hro']
      rfl
    rw [e]
    have hp := put_d w.bytes ((w.spaces sp).cells i) v hk h1 h2
    unfold truncated
    by_cases hw1 : ((w.spaces sp).cells i).width = 1
    · rw [if_pos hw1] at hm; rw [hp.2 hw1 hm, if_pos hw1]
    · rw [if_neg hw1] at hm; rw [hp.1 hw1 hm, if_neg hw1]
  exact ⟨by rw [hwr.2.2.2]; exact hget, by rw [hrd]; exact hget, hget⟩

/-- C01 over histories: the last write to an element is what is read, however
many other accesses (to other elements) happen before or after it. -/
theorem c01_last_write (env : Env) (w : World) (hw : Wf env w) (l₁ l₂ : List Act)
    (sp a : Nat) (v : W) (t : Target) (ht : wire env w sp a = some t)
    (hb : t.bits ≠ some 0#32) (ha : a < 2 ^ 32) (hq : Quiet w sp a)
    (h₁ : ∀ x ∈ l₁, x.loc.2 < 2 ^ 32 ∧ Quiet w x.loc.1 x.loc.2)
    (h₂ : ∀ x ∈ l₂, x.loc.2 < 2 ^ 32 ∧ Quiet w x.loc.1 x.loc.2)
    (hro : (w.acts env l₁).isRo sp a = false)
    (hother : ∀ x ∈ l₂, ∀ t', wire env w x.loc.1 x.loc.2 = some t' →
      ¬(t'.chip = t.chip ∧ t'.elem = t.elem)) :
    ((w.acts env (l₁ ++ Act.write sp a v :: l₂)).get sp a).2.toNat = truncated t.width v := by
  have hl : ∀ x ∈ l₁ ++ Act.write sp a v :: l₂, x.loc.2 < 2 ^ 32 ∧ Quiet w x.loc.1 x.loc.2 := by
    intro x hx
    simp only [List.mem_append, List.mem_cons] at hx
    rcases hx with hx | rfl | hx
    · exact h₁ x hx
    · exact ⟨ha, hq⟩
    · exact h₂ x hx
  rw [mem_history env w hw _ hl sp a t ht]
  have hr1 := (acts_rel l₁ hw (specOf_rel env w) h₁)
  have hi : ∃ i, (w.spaces sp).idx? a = some i := by
    unfold wire at ht
    cases h : (w.spaces sp).idx? a with
    | none => rw [h] at ht; cases ht
    | some i => exact ⟨i, rfl⟩
  obtain ⟨i, hi⟩ := hi
  obtain ⟨k, e, hn, hp, he, hd, rfl⟩ := wire_some hw hi ht
  have hcw := (hw sp).cells i (idx?_lt hi)
  generalize hcc : (w.spaces sp).cells i = c at *
  have hrun : Spec.run (wire env w) (specOf env w) (l₁ ++ Act.write sp a v :: l₂) =
      Spec.run (wire env w) (Spec.step (wire env w) (Spec.run (wire env w) (specOf env w) l₁)
        (.write sp a v)) l₂ := by
    unfold Spec.run; rw [List.foldl_append]; rfl
  rw [hrun]
  generalize hs1 : Spec.run (wire env w) (specOf env w) l₁ = s1 at *
  have hro1 : s1.ro sp a = false := by
    rw [hr1.2.ro sp a _ ha (by rw [hr1.1.wire]; exact ht)]; exact hro
  have hstep : Spec.step (wire env w) s1 (.write sp a v) =
      { s1 with mem := Spec.writeT s1.mem (targetOf k e c) v } := by
    simp only [Spec.step, ht, hro1, Bool.false_eq_true, if_false]
  have hfr := spec_run_frame (wire env w) l₂ (Spec.step (wire env w) s1 (.write sp a v)) k e
    (fun x hx t' h' => hother x hx t' h')
  rw [hstep] at hfr ⊢
  rw [readT_congr _ _ _ hfr]
  unfold truncated Spec.readT targetOf at *
  by_cases hbk : c.kind = .bit8
  · have hw1 : c.width = 1 := (kindOf_bit8 _).1 (hcw.kind ▸ hbk)
    have hmask : (c.mask.setWidth 8).setWidth 32 ≠ 0#32 := by
      intro h; apply hb; simp only [hbk, if_true]; rw [h]
    simp only [hbk, if_true, hw1, Spec.writeT, true_and, Spec.newElem]
    by_cases hv : v = 0#32
    · simp only [hv, if_true]
      have : s1.mem k e &&& ~~~((c.mask.setWidth 8).setWidth 32) &&& (c.mask.setWidth 8).setWidth 32 = 0#32 := by
        apply BitVec.eq_of_getLsbD_eq; intro j hj
        simp only [BitVec.getLsbD_and, BitVec.getLsbD_not]; grind
      rw [if_pos this]; rfl
    · simp only [hv, if_false]
      have : (s1.mem k e ||| (c.mask.setWidth 8).setWidth 32) &&& (c.mask.setWidth 8).setWidth 32 =
          (c.mask.setWidth 8).setWidth 32 := by
        apply BitVec.eq_of_getLsbD_eq; intro j hj
        simp only [BitVec.getLsbD_and, BitVec.getLsbD_or]; grind
      rw [this, if_neg hmask]; rfl
  · have hw1 : c.width ≠ 1 := fun h => hbk (hcw.kind ▸ (kindOf_bit8 _).2 h)
    simp only [hbk, if_false, hw1, Spec.writeT, true_and, if_true, Spec.newElem]
    rw [BitVec.toNat_ofNat]
    apply Nat.mod_eq_of_lt
    have : v.toNat % 2 ^ c.width < 2 ^ c.width := Nat.mod_lt _ (Nat.two_pow_pos _)
    have : 2 ^ c.width ≤ 2 ^ 32 := Nat.pow_le_pow_right (by omega) hcw.w2
    omega

/-- C02 (for spaces and chips of equal element size, see
`c02_false_for_mixed_sizes`): a write at any address whatsoever changes no
location that is decoded to a different element, ... -/
theorem c02_frame_partial (env : Env) (w : World) (hw : Wf env w) (sp a : Nat) (v : W)
    (ha : a < 2 ^ 32) (hq : Quiet w sp a) (sp' a' : Nat) (t' : Target)
    (ht' : wire env w sp' a' = some t')
    (hne : ∀ t, wire env w sp a = some t → ¬(t.chip = t'.chip ∧ t.elem = t'.elem)) :
    ((w.write env sp a v).1.get sp' a').2 = (w.get sp' a').2 := by
  have h := mem_history env w hw [.write sp a v] (by simpa [Act.loc] using ⟨ha, hq⟩) sp' a' t' ht'
  have h0 := mem_history env w hw [] (by simp) sp' a' t' ht'
  show ((w.acts env [.write sp a v]).get sp' a').2 = ((w.acts env []).get sp' a').2
  rw [h, h0]
  apply readT_congr
  apply spec_run_frame
  intro x hx t ht
  simp only [List.mem_singleton] at hx; subst hx
  exact hne t ht

/-- ... and writing one bit through a 1-bit space leaves every other bit of the
element as it was. -/
theorem c02_frame_bits (env : Env) (w : World) (hw : Wf env w) (sp a : Nat) (v : W)
    (ha : a < 2 ^ 32) (hq : Quiet w sp a) (sp' a' : Nat) (t t' : Target) (b b' : W)
    (ht : wire env w sp a = some t) (ht' : wire env w sp' a' = some t')
    (hb : t.bits = some b) (hb' : t'.bits = some b') (hdis : b &&& b' = 0#32) :
    ((w.write env sp a v).1.get sp' a').2 = (w.get sp' a').2 := by
  by_cases hne : t.chip = t'.chip ∧ t.elem = t'.elem
  · have h := mem_history env w hw [.write sp a v] (by simpa [Act.loc] using ⟨ha, hq⟩) sp' a' t' ht'
    have h0 := mem_history env w hw [] (by simp) sp' a' t' ht'
    show ((w.acts env [.write sp a v]).get sp' a').2 = ((w.acts env []).get sp' a').2
    rw [h, h0]
    simp only [Spec.run, List.foldl, Spec.step, ht, Spec.readT, hb']
    split
    · rfl
    · simp only [Spec.writeT, hne.1, hne.2, and_self, if_true, Spec.newElem, hb]
      have e1 : (specOf env w).mem t'.chip t'.elem &&& ~~~b &&& b' =
          (specOf env w).mem t'.chip t'.elem &&& b' := by
        apply BitVec.eq_of_getLsbD_eq; intro j hj
        have := congrArg (fun x => BitVec.getLsbD x j) hdis
        simp only [BitVec.getLsbD_and, BitVec.getLsbD_not] at this ⊢
        simp at this
        grind
      have e2 : ((specOf env w).mem t'.chip t'.elem ||| b) &&& b' =
          (specOf env w).mem t'.chip t'.elem &&& b' := by
        apply BitVec.eq_of_getLsbD_eq; intro j hj
        have := congrArg (fun x => BitVec.getLsbD x j) hdis
        simp only [BitVec.getLsbD_and, BitVec.getLsbD_or] at this ⊢
        simp at this
        grind
      split
      · rw [e1]; rfl
      · rw [e2]; rfl
  · refine c02_frame_partial env w hw sp a v ha hq sp' a' t' ht' ?_
    intro t1 h1; rw [ht] at h1; cases h1; exact hne

/-- C03.  Two addresses decoded to the same element (same bits, same width)
read the same after every history, also when the cell does not have the size
of the chip's elements. -/
theorem c03_alias (env : Env) (w : World) (l : List Act)
    (hl : ∀ x ∈ l, Quiet w x.loc.1 x.loc.2) (sp a sp' a' i i' : Nat)
    (hi : (w.spaces sp).idx? a = some i) (hi' : (w.spaces sp').idx? a' = some i')
    (hptr : ((w.spaces sp).cells i).ptr = ((w.spaces sp').cells i').ptr)
    (hkind : ((w.spaces sp).cells i).kind = ((w.spaces sp').cells i').kind)
    (hmask : ((w.spaces sp).cells i).kind = .bit8 →
      ((w.spaces sp).cells i).mask = ((w.spaces sp').cells i').mask) :
    ((w.acts env l).get sp a).2 = ((w.acts env l).get sp' a').2 := by
  have h := acts_wiring (env := env) l hl
  unfold World.get
  rw [h.idx, h.idx, hi, hi']
  obtain ⟨r, hr⟩ := h.cells sp i
  obtain ⟨r', hr'⟩ := h.cells sp' i'
  simp only [World.cget, World.cell, hr, hr']
  unfold Cell.d
  simp only [← hkind, ← hptr]
  split
  · rename_i hb; rw [hmask hb]
  all_goals rfl

/-- C03 in terms of targets, for the worlds of C02. -/
theorem c03_alias_targets (env : Env) (w : World) (hw : Wf env w) (l : List Act)
    (hl : ∀ x ∈ l, x.loc.2 < 2 ^ 32 ∧ Quiet w x.loc.1 x.loc.2) (sp a sp' a' : Nat) (t : Target)
    (ht : wire env w sp a = some t) (ht' : wire env w sp' a' = some t) :
    ((w.acts env l).get sp a).2 = ((w.acts env l).get sp' a').2 := by
  rw [mem_history env w hw l hl sp a t ht, mem_history env w hw l hl sp' a' t ht']

/-- C04.  While the location is read only, writes and sets at it (any number,
any values), mixed with any accesses that lead to other elements or nowhere,
do not change what it reads. -/
theorem c04_read_only (env : Env) (w : World) (hw : Wf env w) (l : List Act)
    (hl : ∀ x ∈ l, x.loc.2 < 2 ^ 32 ∧ Quiet w x.loc.1 x.loc.2) (sp a : Nat) (t : Target)
    (ht : wire env w sp a = some t) (hro : w.isRo sp a = true)
    (hx : ∀ x ∈ l, (∃ v, x = .write sp a v) ∨ (∃ v, x = .set sp a v) ∨ x = .read sp a ∨ x = .get sp a ∨
      (x.loc ≠ (sp, a) ∧ ∀ t', wire env w x.loc.1 x.loc.2 = some t' →
        ¬(t'.chip = t.chip ∧ t'.elem = t.elem))) :
    ((w.acts env l).get sp a).2 = (w.get sp a).2 := by
  rw [mem_history env w hw l hl sp a t ht]
  have h0 := mem_history env w hw [] (by simp) sp a t ht
  show _ = ((w.acts env []).get sp a).2
  rw [h0]
  apply readT_congr
  have hs : (specOf env w).ro sp a = true := hro
  show _ = (specOf env w).mem t.chip t.elem
  generalize specOf env w = s at hs ⊢
  clear h0 hl
  induction l generalizing s with
  | nil => rfl
  | cons x xs ih =>
    have hxs : ∀ y ∈ xs, _ := fun y hy => hx y (List.mem_cons_of_mem _ hy)
    show (Spec.run (wire env w) (Spec.step (wire env w) s x) xs).mem t.chip t.elem = _
    have hone : (Spec.step (wire env w) s x).ro sp a = true ∧
        (Spec.step (wire env w) s x).mem t.chip t.elem = s.mem t.chip t.elem := by
      rcases hx x List.mem_cons_self with ⟨v, rfl⟩ | ⟨v, rfl⟩ | rfl | rfl | ⟨hne, hfr⟩
      · simp [Spec.step, ht, hs]
      · simp [Spec.step, ht, hs]
      · exact ⟨hs, rfl⟩
      · exact ⟨hs, rfl⟩
      · refine ⟨?_, spec_step_frame _ _ _ _ _ hfr⟩
        cases x with
        | write sp1 a1 v | set sp1 a1 v =>
          simp only [Spec.step]; split
          · exact hs
          · split <;> exact hs
        | download sp1 a1 v => simp only [Spec.step]; split <;> exact hs
        | read | get => exact hs
        | setRo sp1 a1 b =>
          simp only [Spec.step]
          rw [if_neg]; · exact hs
          rintro ⟨rfl, rfl⟩; exact hne rfl
    rw [ih hxs _ hone.1, hone.2]

/-- C04, second part: download stores the truncated value whatever the flag. -/
theorem c04_download (env : Env) (w : World) (hw : Wf env w) (sp a : Nat) (v : W) (t : Target)
    (ht : wire env w sp a = some t) (hb : t.bits ≠ some 0#32) :
    ((w.download sp a v).get sp a).2.toNat = truncated t.width v := by
  have hi : ∃ i, (w.spaces sp).idx? a = some i := by
    unfold wire at ht
    cases h : (w.spaces sp).idx? a with
    | none => rw [h] at ht; cases ht
    | some i => exact ⟨i, rfl⟩
  obtain ⟨i, hi⟩ := hi
  obtain ⟨k, e, hn, hp, he, hd, rfl⟩ := wire_some hw hi ht
  have hcw := (hw sp).cells i (idx?_lt hi)
  have hput := put_d w.bytes ((w.spaces sp).cells i) v hcw.kind hcw.w1 hcw.w2
  have e : ((w.download sp a v).get sp a).2 =
      ((w.spaces sp).cells i).d (((w.spaces sp).cells i).put w.bytes v) := by
    have hs : (w.download sp a v).spaces = w.spaces := by
      unfold World.download; rw [hi]; rfl
    unfold World.get; rw [hs, hi]
    simp only [World.cget, World.cell, hs]
    unfold World.download; rw [hi]; rfl
  rw [e]
  unfold truncated targetOf at *
  simp only at hb ⊢
  by_cases hw1 : ((w.spaces sp).cells i).width = 1
  · have hbk : ((w.spaces sp).cells i).kind = .bit8 := by rw [hcw.kind]; exact (kindOf_bit8 _).2 hw1
    rw [if_pos hw1]
    apply hput.2 hw1
    intro h; apply hb; rw [if_pos hbk, h]; rfl
  · rw [if_neg hw1]
    apply hput.1 hw1
    rcases hd with hd | hd
    · exact absurd ((kindOf_bit8 _).1 (hcw.kind ▸ hd)) hw1
    · exact hd.2

/-- C05.  An access at an address outside of `[start, start+size)`: one
invalid-address error more, and no decoded location of any space changes. -/
theorem c05_out_of_range (env : Env) (w : World) (hw : Wf env w) (sp a : Nat) (v : W)
    (ha : a < 2 ^ 32) (huc : (w.spaces sp).hasUc = true) (hq : Quiet w sp a)
    (hout : a < (w.spaces sp).start ∨ (w.spaces sp).start + (w.spaces sp).size ≤ a)
    (x : Act) (hx : x = .write sp a v ∨ x = .set sp a v ∨ x = .download sp a v ∨ x = .read sp a ∨
      x = .get sp a) :
    (w.act env x).errors = (sp, a) :: w.errors ∧
    ∀ sp' a' t, wire env w sp' a' = some t →
      ((w.act env x).get sp' a').2 = (w.get sp' a').2 := by
  have hi : (w.spaces sp).idx? a = none := by
    rw [idx?_eq _ _ (hw sp).bound ha]; rw [if_neg]; omega
  have hloc : x.loc = (sp, a) := by rcases hx with rfl | rfl | rfl | rfl | rfl <;> rfl
  have herr : (w.err sp a).errors = (sp, a) :: w.errors := by unfold World.err; rw [if_pos huc]
  refine ⟨?_, ?_⟩
  · rcases hx with rfl | rfl | rfl | rfl | rfl
    · simp only [World.act, World.write, hi, World.cwrite, World.dummyStore, herr]
    · simp only [World.act, World.set, hi, World.cset, World.dummyStore, herr]
    · simp only [World.act, World.download, hi, World.cdownload, herr]
    · have h := (read_quiet (env := env) hq).1.errors
      simp only [World.act, h, World.get, hi, herr]
    · simp only [World.act, World.get, hi, herr]
  · intro sp' a' t ht
    have hl : ∀ y ∈ [x], y.loc.2 < 2 ^ 32 ∧ Quiet w y.loc.1 y.loc.2 := by
      intro y hy; simp only [List.mem_singleton] at hy; subst hy; rw [hloc]; exact ⟨ha, hq⟩
    have h := mem_history env w hw [x] hl sp' a' t ht
    have h0 := mem_history env w hw [] (by simp) sp' a' t ht
    show ((w.acts env [x]).get sp' a').2 = ((w.acts env []).get sp' a').2
    rw [h, h0]
    apply readT_congr
    apply spec_run_frame
    intro y hy t' ht'
    simp only [List.mem_singleton] at hy; subst hy
    rw [hloc] at ht'
    unfold wire at ht'; simp only [hi] at ht'; cases ht'

/-- C05, second part: an access in range reports no error (whatever the
operators on the location are, as long as they are breakpoints). -/
theorem c05_in_range (env : Env) (w : World) (sp a : Nat) (v : W)
    (ha : a < 2 ^ 32) (hbound : (w.spaces sp).start + (w.spaces sp).size ≤ 2 ^ 32)
    (hq : Quiet w sp a)
    (hin : (w.spaces sp).start ≤ a ∧ a < (w.spaces sp).start + (w.spaces sp).size)
    (x : Act) (hx : x = .write sp a v ∨ x = .set sp a v ∨ x = .download sp a v ∨ x = .read sp a ∨
      x = .get sp a) :
    (w.act env x).errors = w.errors := by
  have hi : (w.spaces sp).idx? a = some (a - (w.spaces sp).start) := by
    rw [idx?_eq _ _ hbound ha, if_pos hin]
  rcases hx with rfl | rfl | rfl | rfl | rfl
  · have h := (write_world (env := env) hq v).2.2.1
    simp only [World.act, h, World.set, hi, World.cset]
  · simp only [World.act, World.set, hi, World.cset]
  · simp only [World.act, World.download, hi, World.cdownload]
  · have h := (read_quiet (env := env) hq).1.errors
    simp only [World.act, h, World.get, hi]
  · simp only [World.act, World.get, hi]

/-- C42.  A decoded cell of any kind, on any chip that owns its array, touches
only bytes inside of the allocated array (also when the cell is wider than the
chip's elements). -/
theorem c42_in_bounds (chips : Nat → Chip) (k e : Nat) (p : Ptr) (c : Cell)
    (hs : getSlot chips k e = some p) (hp : c.ptr = p) :
    p.blk = some k ∧ p.off + c.kind.bytes ≤ (chips k).allocSize ∧
    ∀ (m : Bytes) (v : W) (b : Option Nat) (o : Nat),
      (c.put m v) b o ≠ m b o → b = some k ∧ o < (chips k).allocSize := by
  unfold getSlot at hs
  split at hs
  · cases hs
  · rename_i hlt
    cases hs
    have hkb : c.kind.bytes ≤ 4 := by cases c.kind <;> simp [Kind.bytes]
    have hal : e * (chips k).bwidth + c.kind.bytes ≤ (chips k).allocSize := by
      have h1 : (e + 1) * (chips k).bwidth ≤ (chips k).size * (chips k).bwidth :=
        Nat.mul_le_mul_right _ (by omega)
      rw [Nat.add_mul] at h1
      unfold Chip.allocSize
      have hb : (chips k).bwidth = 1 ∨ (chips k).bwidth = 2 ∨ (chips k).bwidth = 4 := by
        unfold Chip.bwidth; split
        · simp
        · split <;> simp
      rcases hb with hb | hb | hb <;> rw [hb] at h1 ⊢ <;> omega
    refine ⟨rfl, hal, ?_⟩
    intro m v b o hne
    refine Classical.byContradiction fun hcon => hne (put_off' m c v b o ?_)
    rw [hp]
    by_cases hbk : b = some k
    · right; right
      have : ¬ o < (chips k).allocSize := fun h => hcon ⟨hbk, h⟩
      simp only; omega
    · left; exact hbk

/-! ### A concrete system: the hypotheses above are met -/

/-- Chip 0: 16 elements of 8 bits; chip 1: 4 elements of 12 bits. -/
def exChips : Nat → Chip := fun k => if k = 0 then ⟨16, 8⟩ else ⟨4, 12⟩

def exEnv : Env :=
  { chips := exChips, hwRead := fun _ _ w => (w, 0#32), hwWrite := fun _ _ w v => (w, v),
    cond := fun _ _ => true, rnd := fun n => BitVec.ofNat 32 (n * 77 + 5) }

/-- Space 0: 8 bit, 0x100-0x10f on chip 0.  Space 1: 1 bit, address n is bit
n%8 of element n/8 of chip 0.  Space 2: 12 bits on chip 1, address 3 undecoded.
Space 3: 8 bits, the elements of chip 0 in reverse order (aliases of space 0).
-/
def exSpaces : Nat → Space := fun sp =>
  match sp with
  | 0 => { newSpace 0x100 16 8 true with
      cells := fun i => { (newCell 8).decode (getSlot exChips 0 i) with ops := [.wr 1, .rd 2] } }
  | 1 => { newSpace 0 64 1 true with
      cells := fun i => (newCell 1).decodeMask (getSlot exChips 0 (i / 8)) (1#32 <<< (i % 8)) }
  | 2 => { newSpace 0 4 12 true with
      cells := fun i => if i < 3 then (newCell 12).decode (getSlot exChips 1 i) else newCell 12 }
  | 3 => { newSpace 0 16 8 true with
      cells := fun i => (newCell 8).decode (getSlot exChips 0 (15 - i)) }
  | _ => newSpace 0 0 8 true

def exWorld : World :=
  { bytes := fun _ _ => 0#8, spaces := exSpaces,
    bankers := fun _ => ⟨0, 0, 0#32, none, 0#32, 0, 0, 0, 0, 0, 0, 0, fun _ => none, none⟩,
    brks := fun _ => ⟨1, 1, false⟩, events := [], errors := [], nrnd := 0, ub := false }

theorem wfCell_new (chips : Nat → Chip) (n : Nat) (h1 : 1 ≤ n) (h2 : n ≤ 32) :
    WfCell chips (newCell n) := ⟨h1, h2, rfl, fun _ => rfl, fun h => by simp [newCell] at h⟩

/-- A fresh cell decoded to a slot is well formed (plain and masked decode). -/
theorem wfCell_slot (chips : Nat → Chip) (n k e : Nat) (ops : List MOp) (h1 : 1 ≤ n) (h2 : n ≤ 32)
    (he : e < (chips k).size) (hb : (kindOf n).bytes = (chips k).bwidth) :
    WfCell chips { (newCell n).decode (getSlot chips k e) with ops := ops } := by
  have hs : getSlot chips k e = some ⟨some k, e * (chips k).bwidth⟩ := by
    unfold getSlot; rw [if_neg (by omega)]
  rw [hs]
  exact ⟨h1, h2, rfl, fun h => by simp [Cell.decode] at h, fun _ => ⟨k, e, rfl, he, Or.inr ⟨hb, rfl⟩⟩⟩

theorem wfCell_bit (chips : Nat → Chip) (k e : Nat) (m : W) (he : e < (chips k).size) :
    WfCell chips ((newCell 1).decodeMask (getSlot chips k e) m) := by
  have hs : getSlot chips k e = some ⟨some k, e * (chips k).bwidth⟩ := by
    unfold getSlot; rw [if_neg (by omega)]
  rw [hs]
  exact ⟨Nat.le_refl _, by show 1 ≤ 32; omega, rfl, fun h => by simp [Cell.decodeMask, Cell.decode] at h,
    fun _ => ⟨k, e, rfl, he, Or.inl rfl⟩⟩

theorem exWorld_wf : Wf exEnv exWorld := by
  intro sp
  match sp with
  | 0 =>
    exact ⟨by decide, fun i hi => wfCell_slot exChips 8 0 i _ (by omega) (by omega) hi rfl, rfl, rfl⟩
  | 1 =>
    refine ⟨by decide, fun i hi => wfCell_bit exChips 0 (i / 8) _ ?_, rfl, rfl⟩
    have hi : i < 64 := hi
    show i / 8 < 16; omega
  | 2 =>
    refine ⟨by decide, fun i hi => ?_, rfl, rfl⟩
    show WfCell exChips (if i < 3 then (newCell 12).decode (getSlot exChips 1 i) else newCell 12)
    split
    · exact wfCell_slot exChips 12 1 i ((newCell 12).decode (getSlot exChips 1 i)).ops
        (by omega) (by omega) (by show i < 4; omega) rfl
    · exact wfCell_new _ 12 (by omega) (by omega)
  | 3 =>
    exact ⟨by decide, fun i hi => wfCell_slot exChips 8 0 (15 - i) ((newCell 8).decode _).ops
      (by omega) (by omega) (by show 15 - i < 16; omega) rfl, rfl, rfl⟩
  | n + 4 =>
    exact ⟨by show 0 + 0 ≤ 4294967296; omega, fun i hi => absurd hi (Nat.not_lt_zero i), rfl, rfl⟩

theorem quiet_nil : quietOps [] := fun o ho => by simp at ho

theorem decode_ops (c : Cell) (p : Option Ptr) : (c.decode p).ops = c.ops := by cases p <;> rfl

theorem exWorld_quiet (sp a : Nat) : Quiet exWorld sp a := by
  have hd : ∀ sp, quietOps (exWorld.spaces sp).dummy.ops := by
    intro sp
    match sp with
    | 0 | 1 | 2 | 3 | n + 4 => exact quiet_nil
  have hc : ∀ sp i, quietOps ((exWorld.spaces sp).cells i).ops := by
    intro sp i
    match sp with
    | 0 =>
      intro o ho
      have ho : o ∈ [MOp.wr 1, MOp.rd 2] := ho
      simp only [List.mem_cons, List.not_mem_nil, or_false] at ho
      rcases ho with rfl | rfl
      · exact Or.inl ⟨_, rfl⟩
      · exact Or.inr ⟨_, rfl⟩
    | 1 =>
      show quietOps ((newCell 1).decode (getSlot exChips 0 (i / 8))).ops
      rw [decode_ops]; exact quiet_nil
    | 2 =>
      show quietOps (if i < 3 then (newCell 12).decode (getSlot exChips 1 i) else newCell 12).ops
      split
      · rw [decode_ops]; exact quiet_nil
      · exact quiet_nil
    | 3 =>
      show quietOps ((newCell 8).decode (getSlot exChips 0 (15 - i))).ops
      rw [decode_ops]; exact quiet_nil
    | n + 4 => exact quiet_nil
  unfold Quiet
  split
  · exact hd sp
  · exact hc _ _

/-- Targets of the example: space 0 address 0x105 and space 3 address 10 are the
same element; space 1 address 41 is bit 1 of it; space 2 address 3 leads nowhere. -/
example : wire exEnv exWorld 0 0x105 = some ⟨0, 5, none, 8⟩ ∧
    wire exEnv exWorld 3 10 = some ⟨0, 5, none, 8⟩ ∧
    wire exEnv exWorld 1 41 = some ⟨0, 5, some 2#32, 1⟩ ∧
    wire exEnv exWorld 2 2 = some ⟨1, 2, none, 12⟩ ∧
    wire exEnv exWorld 2 3 = none := by decide

/-- `c01_last_write` is applicable with a read-only bit set and cleared before
and accesses of other elements, other spaces and non-existing addresses after. -/
example : ((exWorld.acts exEnv ([.setRo 0 0x105 true, .write 0 0x105 9#32, .setRo 0 0x105 false] ++
      .write 0 0x105 0xfff3#32 ::
      [.write 1 17 1#32, .download 2 2 7#32, .write 0 0x999 3#32, .write 2 3 5#32])).get 0 0x105).2.toNat
      = 0xf3 := by
  refine c01_last_write exEnv exWorld exWorld_wf _ _ 0 0x105 0xfff3#32 ⟨0, 5, none, 8⟩ (by decide)
    (by simp) (by decide) (exWorld_quiet _ _) ?_ ?_ (by decide) ?_
  · intro x hx; refine ⟨?_, exWorld_quiet _ _⟩
    simp only [List.mem_cons, List.not_mem_nil, or_false] at hx
    rcases hx with rfl | rfl | rfl <;> decide
  · intro x hx; refine ⟨?_, exWorld_quiet _ _⟩
    simp only [List.mem_cons, List.not_mem_nil, or_false] at hx
    rcases hx with rfl | rfl | rfl | rfl <;> decide
  · intro x hx t' ht'
    simp only [List.mem_cons, List.not_mem_nil, or_false] at hx
    rcases hx with rfl | rfl | rfl | rfl
    · rw [show wire exEnv exWorld _ _ = some ⟨0, 2, some 2#32, 1⟩ by decide] at ht'; cases ht'; decide
    · rw [show wire exEnv exWorld _ _ = some ⟨1, 2, none, 12⟩ by decide] at ht'; cases ht'; decide
    · rw [show wire exEnv exWorld _ _ = none by decide] at ht'; cases ht'
    · rw [show wire exEnv exWorld _ _ = none by decide] at ht'; cases ht'

/-- `c03_alias_targets`: 0x105 of space 0 and 10 of space 3 after a history. -/
example (v : W) : ((exWorld.acts exEnv [.write 0 0x105 v, .write 1 41 1#32]).get 0 0x105).2 =
    ((exWorld.acts exEnv [.write 0 0x105 v, .write 1 41 1#32]).get 3 10).2 := by
  refine c03_alias_targets exEnv exWorld exWorld_wf _ ?_ 0 0x105 3 10 ⟨0, 5, none, 8⟩ (by decide) (by decide)
  intro x hx; refine ⟨?_, exWorld_quiet _ _⟩
  simp only [List.mem_cons, List.not_mem_nil, or_false] at hx
  rcases hx with rfl | rfl <;> simp [Act.loc]

/-- `c04_read_only`: a read-only location of space 0. -/
example (v : W) : (((exWorld.setRo 0 0x105 true).acts exEnv [.write 0 0x105 v, .set 0 0x105 v]).get 0 0x105).2 =
    ((exWorld.setRo 0 0x105 true).get 0 0x105).2 := by
  have hsw := act_wiring (env := exEnv) (w := exWorld) (.setRo 0 0x105 true) (exWorld_quiet _ _)
  refine c04_read_only exEnv _ (hsw.wf exWorld_wf) _ ?_ 0 0x105 ⟨0, 5, none, 8⟩ ?_ (by decide) ?_
  · intro x hx; refine ⟨?_, hsw.quiet (exWorld_quiet _ _)⟩
    simp only [List.mem_cons, List.not_mem_nil, or_false] at hx
    rcases hx with rfl | rfl <;> simp [Act.loc]
  · rw [hsw.wire (env := exEnv)]; decide
  · intro x hx
    simp only [List.mem_cons, List.not_mem_nil, or_false] at hx
    rcases hx with rfl | rfl
    · exact Or.inl ⟨_, rfl⟩
    · exact Or.inr (Or.inl ⟨_, rfl⟩)

/-- `c05_out_of_range`: the first address after space 0. -/
example (v : W) : (exWorld.act exEnv (.write 0 0x110 v)).errors = [(0, 0x110)] :=
  (c05_out_of_range exEnv exWorld exWorld_wf 0 0x110 v (by decide) rfl (exWorld_quiet _ _)
    (Or.inr (by decide)) _ (Or.inl rfl)).1

/-- C02 is false without the condition on element sizes: nothing in the program
prevents decoding a 16 bit space to an 8 bit chip (cl_address_decoder::activate,
mem.cc 2328-2394, and the command that creates decoders do not compare widths);
there, writing address 0 (element 0) changes what address 1 (element 1) reads. -/
def mixWorld : World :=
  { exWorld with spaces := fun _ => { newSpace 0 16 16 true with
      cells := fun i => (newCell 16).decode (getSlot exChips 0 i) } }

theorem c02_false_for_mixed_sizes :
    wire exEnv mixWorld 0 0 = some ⟨0, 0, none, 16⟩ ∧ wire exEnv mixWorld 0 1 = some ⟨0, 1, none, 16⟩ ∧
    ((mixWorld.write exEnv 0 0 0x1234#32).1.get 0 1).2 ≠ (mixWorld.get 0 1).2 := by
  decide

end Ucsim.Props
