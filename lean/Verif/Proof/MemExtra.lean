import Verif.Proof.MemWorld

/-! Lemmas used by the memory properties. -/
namespace Ucsim
open Spec (Target Act)

/-- A cell reads back what was put in it. -/
theorem put_d (m : Bytes) (c : Cell) (v : W) (hk : c.kind = kindOf c.width)
    (h1 : 1 ≤ c.width) (h2 : c.width ≤ 32) :
    (c.width ≠ 1 → c.mask = maskOf c.width → (c.d (c.put m v)).toNat = v.toNat % 2 ^ c.width) ∧
    (c.width = 1 → c.mask.setWidth 8 ≠ 0#8 →
      (c.d (c.put m v)).toNat = if v = 0#32 then 0 else 1) := by
  constructor
  · intro hne hm
    have hand := and_maskOf_toNat v c.width h1 h2
    have hlt : v.toNat % 2 ^ c.width < 2 ^ c.width := Nat.mod_lt _ (Nat.two_pow_pos _)
    unfold Cell.put
    rw [if_neg hne, hm]
    unfold kindOf at hk
    rw [if_neg hne] at hk
    unfold Cell.d Cell.dSet
    by_cases h8 : c.width ≤ 8
    · rw [if_pos h8] at hk
      have : 2 ^ c.width ≤ 2 ^ 8 := Nat.pow_le_pow_right (by omega) h8
      simp only [hk]
      rw [load8_store8, BitVec.toNat_setWidth, BitVec.toNat_setWidth, hand,
        Nat.mod_eq_of_lt (a := v.toNat % 2 ^ c.width) (by omega), Nat.mod_eq_of_lt (by omega)]
    · rw [if_neg h8] at hk
      by_cases h16 : c.width ≤ 16
      · rw [if_pos h16] at hk
        have : 2 ^ c.width ≤ 2 ^ 16 := Nat.pow_le_pow_right (by omega) h16
        simp only [hk]
        rw [load16_store16, BitVec.toNat_setWidth, BitVec.toNat_setWidth, hand,
          Nat.mod_eq_of_lt (a := v.toNat % 2 ^ c.width) (by omega), Nat.mod_eq_of_lt (by omega)]
      · rw [if_neg h16] at hk
        simp only [hk]
        rw [load32_store32, hand]
  · intro hw hm
    have hb : c.kind = .bit8 := by rw [hk, kindOf, if_pos hw]
    unfold Cell.put
    rw [if_pos hw]
    unfold Cell.d Cell.dSet
    simp only [hb]
    by_cases hv : v = 0#32
    · simp only [hv, ne_eq, not_true_eq_false, if_false, if_true]
      rw [load8_store8]
      have : (m.load8 c.ptr &&& ~~~(c.mask.setWidth 8)) &&& c.mask.setWidth 8 = 0#8 := by
        apply BitVec.eq_of_getLsbD_eq; intro i hi; simp [BitVec.getLsbD_and, BitVec.getLsbD_not]; grind
      simp [this]
    · simp only [ne_eq, hv, not_false_eq_true, if_true, if_false]
      rw [load8_store8]
      have : (m.load8 c.ptr ||| c.mask.setWidth 8) &&& c.mask.setWidth 8 = c.mask.setWidth 8 := by
        apply BitVec.eq_of_getLsbD_eq; intro i hi; simp [BitVec.getLsbD_and, BitVec.getLsbD_or]; grind
      simp [this, hm]

theorem act_wiring {env : Env} {w : World} (x : Act) (hq : Quiet w x.loc.1 x.loc.2) :
    SameWiring w (w.act env x) := by
  cases x with
  | write sp a v => exact SameWiring.of_spaces (write_world (env := env) (sp := sp) (a := a) hq v).1
  | set sp a v => exact SameWiring.of_spaces (set_spaces sp a v)
  | download sp a v =>
    apply SameWiring.of_spaces
    simp only [World.act, World.download]; split
    · exact err_spaces _ _ _
    · rfl
  | read sp a =>
    have h := (read_quiet (env := env) (sp := sp) (a := a) hq).1
    refine SameWiring.of_spaces (h.spaces.trans ?_)
    unfold World.get; split
    · exact err_spaces _ _ _
    · rfl
  | get sp a =>
    apply SameWiring.of_spaces
    simp only [World.act, World.get]; split
    · exact err_spaces _ _ _
    · rfl
  | setRo sp a b =>
    refine ⟨?_, ?_, ?_, ?_, ?_, ?_⟩ <;> intro sp'
    · obtain ⟨r, h⟩ := setRo_cells w sp a b sp' 0; exact h.2.1
    · obtain ⟨r, h⟩ := setRo_cells w sp a b sp' 0; exact h.2.2.1
    · obtain ⟨r, h⟩ := setRo_cells w sp a b sp' 0; exact h.2.2.2.1
    · obtain ⟨r, h⟩ := setRo_cells w sp a b sp' 0; exact h.2.2.2.2.1
    · obtain ⟨r, h⟩ := setRo_cells w sp a b sp' 0; exact h.2.2.2.2.2.1
    · intro i; obtain ⟨r, h⟩ := setRo_cells w sp a b sp' i; exact ⟨r, h.1⟩

theorem acts_wiring {env : Env} (l : List Act) {w : World}
    (hl : ∀ x ∈ l, Quiet w x.loc.1 x.loc.2) : SameWiring w (w.acts env l) := by
  induction l generalizing w with
  | nil => exact SameWiring.of_spaces rfl
  | cons x xs ih =>
    have h1 := act_wiring (env := env) x (hl x List.mem_cons_self)
    have h2 := ih (w := w.act env x) (fun y hy => h1.quiet (hl y (List.mem_cons_of_mem _ hy)))
    exact h1.trans h2

/-- Specification: an action at locations that lead elsewhere keeps an element. -/
theorem spec_step_frame (wire : Nat → Nat → Option Target) (s : Spec.St) (x : Act) (k e : Nat)
    (hx : ∀ t, wire x.loc.1 x.loc.2 = some t → ¬(t.chip = k ∧ t.elem = e)) :
    (Spec.step wire s x).mem k e = s.mem k e := by
  cases x with
  | write sp a v | set sp a v =>
    simp only [Spec.step]
    cases h : wire sp a with
    | none => rfl
    | some t =>
      simp only; split
      · rfl
      · simp only [Spec.writeT]; rw [if_neg]
        rintro ⟨rfl, rfl⟩; exact hx t h ⟨rfl, rfl⟩
  | download sp a v =>
    simp only [Spec.step]
    cases h : wire sp a with
    | none => rfl
    | some t =>
      simp only [Spec.writeT]; rw [if_neg]
      rintro ⟨rfl, rfl⟩; exact hx t h ⟨rfl, rfl⟩
  | read | get | setRo => rfl

theorem spec_run_frame (wire : Nat → Nat → Option Target) (l : List Act) (s : Spec.St) (k e : Nat)
    (hx : ∀ x ∈ l, ∀ t, wire x.loc.1 x.loc.2 = some t → ¬(t.chip = k ∧ t.elem = e)) :
    (Spec.run wire s l).mem k e = s.mem k e := by
  induction l generalizing s with
  | nil => rfl
  | cons x xs ih =>
    show (Spec.run wire (Spec.step wire s x) xs).mem k e = _
    rw [ih _ (fun y hy => hx y (List.mem_cons_of_mem _ hy)),
      spec_step_frame wire s x k e (hx x List.mem_cons_self)]

theorem readT_congr (m m' : Spec.ChipMem) (t : Target) (h : m' t.chip t.elem = m t.chip t.elem) :
    Spec.readT m' t = Spec.readT m t := by unfold Spec.readT; rw [h]

/-- Canonical specification state of a world. -/
def specOf (env : Env) (w : World) : Spec.St := ⟨elemOf env.chips w.bytes, w.isRo⟩

theorem specOf_rel (env : Env) (w : World) : Rel env w (specOf env w) := ⟨rfl, fun _ _ _ _ _ => rfl⟩

end Ucsim
