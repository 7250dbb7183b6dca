import Verif.Core.SetRom
import Verif.Proof.MemExtra
/-!
What the calls of `set_rom` do to a chip and to the address space of the
program memory.
-/
namespace Ucsim
open Spec (Target Act)

/-- The value stored last at address `a` by a list of stores. -/
def lastStore : List (Nat × Nat) → Nat → Option Nat
  | [], _ => none
  | c :: cs, a => match lastStore cs a with
    | some v => some v
    | none => if c.1 = a then some c.2 else none

theorem lastStore_append (l : List (Nat × Nat)) (c : Nat × Nat) (a : Nat) :
    lastStore (l ++ [c]) a = if c.1 = a then some c.2 else lastStore l a := by
  induction l with
  | nil => simp [lastStore]
  | cons x xs ih =>
    rw [List.cons_append, lastStore, ih]
    by_cases h : c.1 = a
    · rw [if_pos h, if_pos h]
    · rw [if_neg h, if_neg h, lastStore]

theorem foldl_snoc {α β : Type} (P : List α → β → Prop) (f : β → α → β) (b : β) (h0 : P [] b)
    (hs : ∀ l x b, P l b → P (l ++ [x]) (f b x)) (l : List α) : P l (l.foldl f b) := by
  have : ∀ (l l' : List α) (b : β), P l' b → P (l' ++ l) (l.foldl f b) := by
    intro l
    induction l with
    | nil => intro l' b h; simpa using h
    | cons x xs ih =>
      intro l' b h
      have := ih (l' ++ [x]) (f b x) (hs _ _ _ h)
      simpa using this
  simpa using this l [] b h0

theorem chipSet_elem (chips : Nat → Chip) (m : Bytes) (k a : Nat) (v : W) (h1 : 1 ≤ (chips k).width) (h2 : (chips k).width ≤ 32)
    (k' a' : Nat) :
    elemOf chips (chipSet chips m k a v) k' a' =
      if k' = k ∧ a' = a ∧ a < (chips k).size then BitVec.ofNat 32 (v.toNat % 2 ^ (chips k).width)
      else elemOf chips m k' a' := by
  unfold chipSet
  by_cases hs : (chips k).size ≤ a
  · rw [if_pos hs, if_neg (by omega)]
  rw [if_neg hs]
  simp only
  have hv : (v &&& maskOf (chips k).width).toNat = v.toNat % 2 ^ (chips k).width := and_maskOf_toNat v _ h1 h2
  have hlt : v.toNat % 2 ^ (chips k).width < 2 ^ (chips k).width := Nat.mod_lt _ (Nat.two_pow_pos _)
  generalize hm : (v &&& maskOf (chips k).width) = u at hv ⊢
  by_cases he : k' = k ∧ a' = a
  · obtain ⟨rfl, rfl⟩ := he
    rw [if_pos (show k' = k' ∧ a' = a' ∧ a' < (chips k').size from ⟨rfl, rfl, by omega⟩)]
    unfold elemOf
    simp only
    by_cases h8 : (chips k').width ≤ 8
    · simp only [h8, if_true, load8_store8]
      apply BitVec.eq_of_toNat_eq
      have : 2 ^ (chips k').width ≤ 2 ^ 8 := Nat.pow_le_pow_right (by omega) h8
      simp only [BitVec.toNat_setWidth, BitVec.toNat_ofNat]
      omega
    · by_cases h16 : (chips k').width ≤ 16
      · simp only [h8, h16, if_true, if_false, load16_store16]
        apply BitVec.eq_of_toNat_eq
        have : 2 ^ (chips k').width ≤ 2 ^ 16 := Nat.pow_le_pow_right (by omega) h16
        simp only [BitVec.toNat_setWidth, BitVec.toNat_ofNat]
        omega
      · simp only [h8, h16, if_false, load32_store32]
        apply BitVec.eq_of_toNat_eq
        have : 2 ^ (chips k').width ≤ 2 ^ 32 := Nat.pow_le_pow_right (by omega) h2
        simp only [BitVec.toNat_ofNat]
        omega
  · rw [if_neg (show ¬ (k' = k ∧ a' = a ∧ a < (chips k).size) from fun x => he ⟨x.1, x.2.1⟩)]
    apply elemOf_congr
    intro o ho1 ho2
    have hsep : (some k' : Option Nat) ≠ some k ∨ o < a * (chips k).bwidth ∨ a * (chips k).bwidth + (chips k).bwidth ≤ o := by
      by_cases hk : k' = k
      · subst hk
        right
        have hne : a ≠ a' := fun h => he ⟨rfl, h.symm⟩
        have := mul_sep a a' (chips k').bwidth o hne ho1 ho2
        omega
      · left; simpa using hk
    by_cases h8 : (chips k).width ≤ 8
    · simp only [h8, if_true]
      apply store8_off
      have : (chips k).bwidth = 1 := by unfold Chip.bwidth; rw [if_pos h8]
      rw [this] at hsep ⊢; exact hsep
    · by_cases h16 : (chips k).width ≤ 16
      · simp only [h8, h16, if_true, if_false]
        apply store16_off
        have : (chips k).bwidth = 2 := by unfold Chip.bwidth; rw [if_neg h8, if_pos h16]
        rw [this] at hsep ⊢; exact hsep
      · simp only [h8, h16, if_false]
        apply store32_off
        have : (chips k).bwidth = 4 := by unfold Chip.bwidth; rw [if_neg h8, if_neg h16]
        rw [this] at hsep ⊢; exact hsep

/-- A plain input specification: whole range, no offset. -/
structure InSpec.Plain (is : InSpec) : Prop where
  min : is.min = 0
  max : 0xffffffff ≤ is.max
  offset : is.offset = 0

theorem setRom_chip {env : Env} {is : InSpec} {k : Nat} (ht : is.tgt = .chip k) (hp : is.Plain) (w : World) (a v : Nat)
    (ha : a < 4294967296) :
    w.setRom env is a v = { w with bytes := chipSet env.chips w.bytes k a (BitVec.ofNat 32 v) } := by
  unfold World.setRom
  rw [if_neg (by rw [hp.min]; omega), if_neg (by have := hp.max; omega), ht, hp.offset]
  simp only
  have : uint ((a : Int) + 0) = a := by unfold uint; omega
  rw [this]

/-- Loading into a chip: every element holds the value stored in it last, or its
old value; nothing but that chip changes. -/
theorem setRoms_chip {env : Env} {is : InSpec} {k : Nat} (ht : is.tgt = .chip k) (hp : is.Plain)
    (h1 : 1 ≤ (env.chips k).width) (h2 : (env.chips k).width ≤ 32) (w : World) (l : List (Nat × Nat))
    (hl : ∀ c ∈ l, c.1 < 4294967296 ∧ c.2 < 4294967296) :
    (∀ a, a < (env.chips k).size → elemOf env.chips (w.setRoms env is l).bytes k a =
      match lastStore l a with
      | some v => BitVec.ofNat 32 (v % 2 ^ (env.chips k).width)
      | none => elemOf env.chips w.bytes k a) ∧
    (∀ k' a, k' ≠ k ∨ (env.chips k).size ≤ a → elemOf env.chips (w.setRoms env is l).bytes k' a = elemOf env.chips w.bytes k' a) ∧
    (w.setRoms env is l) = { w with bytes := (w.setRoms env is l).bytes } := by
  refine foldl_snoc (fun (l : List (Nat × Nat)) (w' : World) =>
      (∀ c ∈ l, c.1 < 4294967296 ∧ c.2 < 4294967296) →
      (∀ a, a < (env.chips k).size → elemOf env.chips w'.bytes k a =
        match lastStore l a with
        | some v => BitVec.ofNat 32 (v % 2 ^ (env.chips k).width)
        | none => elemOf env.chips w.bytes k a) ∧
      (∀ k' a, k' ≠ k ∨ (env.chips k).size ≤ a → elemOf env.chips w'.bytes k' a = elemOf env.chips w.bytes k' a) ∧
      w' = { w with bytes := w'.bytes }) _ _ ?_ ?_ l hl
  · intro _; simp [lastStore]
  · intro l c w' ih hl
    have ih := ih (fun x hx => hl x (by simp [hx]))
    have hc := hl c (by simp)
    rw [setRom_chip ht hp _ _ _ hc.1]
    refine ⟨?_, ?_, ?_⟩
    · intro a ha
      simp only
      rw [chipSet_elem env.chips _ _ _ _ h1 h2, lastStore_append]
      by_cases hca : c.1 = a
      · rw [if_pos ⟨rfl, hca.symm, by omega⟩, if_pos hca]
        simp only [BitVec.toNat_ofNat]
        rw [Nat.mod_eq_of_lt hc.2]
      · rw [if_neg (fun x => hca x.2.1.symm), if_neg hca]
        exact ih.1 a ha
    · intro k' a hk
      simp only
      rw [chipSet_elem env.chips _ _ _ _ h1 h2, if_neg (by omega)]
      exact ih.2.1 k' a hk
    · have := ih.2.2
      rw [this]

/-! ### the program memory -/

theorem setRom_space {env : Env} {is : InSpec} {sp : Nat} (ht : is.tgt = .space sp) (hr : is.rom = sp) (hp : is.Plain)
    (hnb : ∀ d, is.bankerOf d = none) (w : World) (a v : Nat) (ha : a < 4294967296)
    (hb : (w.spaces sp).start + (w.spaces sp).size ≤ 4294967296) (hsz : 1 ≤ (w.spaces sp).size) :
    w.setRom env is a v =
      if (w.spaces sp).start ≤ a ∧ a < (w.spaces sp).start + (w.spaces sp).size
      then w.act env (.download sp a (BitVec.ofNat 32 v)) else w := by
  unfold World.setRom
  rw [if_neg (by rw [hp.min]; omega), if_neg (by have := hp.max; omega), ht, hp.offset]
  simp only
  have : uint ((a : Int) + 0) = a := by unfold uint; omega
  rw [this, hr]
  have hu : u32 ((w.spaces sp).start + (w.spaces sp).size - 1) = (w.spaces sp).start + (w.spaces sp).size - 1 := by
    unfold u32; omega
  rw [hu]
  by_cases h : (w.spaces sp).start ≤ a ∧ a < (w.spaces sp).start + (w.spaces sp).size
  · rw [if_pos h, if_pos (by omega)]; rfl
  · rw [if_neg h, if_neg (by omega)]
    split
    · rfl
    · rw [hnb]

/-- Stores as actions on the space. -/
def downloads (sp start size : Nat) (l : List (Nat × Nat)) : List Act :=
  (l.filter fun c => decide (start ≤ c.1 ∧ c.1 < start + size)).map fun c => .download sp c.1 (BitVec.ofNat 32 c.2)

theorem download_spaces (w : World) (sp a : Nat) (v : W) : (w.download sp a v).spaces = w.spaces := by
  unfold World.download
  split
  · simp only [World.cdownload, err_spaces]
  · rfl

theorem setRoms_space {env : Env} {is : InSpec} {sp : Nat} (ht : is.tgt = .space sp) (hr : is.rom = sp) (hp : is.Plain)
    (hnb : ∀ d, is.bankerOf d = none) (l : List (Nat × Nat)) : ∀ (w : World),
    (w.spaces sp).start + (w.spaces sp).size ≤ 4294967296 → 1 ≤ (w.spaces sp).size →
    (∀ c ∈ l, c.1 < 4294967296) →
    w.setRoms env is l = w.acts env (downloads sp (w.spaces sp).start (w.spaces sp).size l) := by
  induction l with
  | nil => intros; rfl
  | cons c cs ih =>
    intro w hb hsz hl
    have e : w.setRoms env is (c :: cs) = (w.setRom env is c.1 c.2).setRoms env is cs := rfl
    rw [e, setRom_space ht hr hp hnb w c.1 c.2 (hl c (by simp)) hb hsz]
    by_cases h : (w.spaces sp).start ≤ c.1 ∧ c.1 < (w.spaces sp).start + (w.spaces sp).size
    · rw [if_pos h]
      have hs : ((w.act env (.download sp c.1 (BitVec.ofNat 32 c.2))).spaces) = w.spaces := download_spaces _ _ _ _
      rw [ih _ (by rw [hs]; exact hb) (by rw [hs]; exact hsz) (fun x hx => hl x (by simp [hx])), hs]
      simp only [downloads, List.filter_cons, h, decide_true, and_self, ↓reduceIte, List.map_cons]
      rfl
    · rw [if_neg h, ih w hb hsz (fun x hx => hl x (by simp [hx]))]
      simp only [downloads, List.filter_cons, h, decide_false, Bool.false_eq_true, ↓reduceIte]

/-- The specification memory after downloads. -/
theorem spec_downloads (wr : Nat → Nat → Option Target) (sp start size : Nat) (a : Nat) (t : Target)
    (ht : wr sp a = some t) (hbits : t.bits = none)
    (hinj : ∀ a' t', wr sp a' = some t' → t'.chip = t.chip → t'.elem = t.elem → a' = a)
    (hin : start ≤ a ∧ a < start + size) (l : List (Nat × Nat)) (hl : ∀ c ∈ l, c.2 < 4294967296) (s : Spec.St) :
    (Spec.run wr s (downloads sp start size l)).mem t.chip t.elem =
      match lastStore l a with
      | some v => BitVec.ofNat 32 (v % 2 ^ t.width)
      | none => s.mem t.chip t.elem := by
  have key : (l.foldl (fun s c => if start ≤ c.1 ∧ c.1 < start + size then Spec.step wr s (.download sp c.1 (BitVec.ofNat 32 c.2)) else s) s).mem t.chip t.elem =
      match lastStore l a with
      | some v => BitVec.ofNat 32 (v % 2 ^ t.width)
      | none => s.mem t.chip t.elem := by
    refine foldl_snoc (fun (l : List (Nat × Nat)) (s' : Spec.St) => (∀ c ∈ l, c.2 < 4294967296) →
      s'.mem t.chip t.elem = match lastStore l a with
      | some v => BitVec.ofNat 32 (v % 2 ^ t.width)
      | none => s.mem t.chip t.elem) _ _ ?_ ?_ l hl
    · intro _; rfl
    · intro l c s' ih hl
      have ih := ih (fun x hx => hl x (by simp [hx]))
      have hc := hl c (by simp)
      rw [lastStore_append]
      by_cases hca : c.1 = a
      · rw [if_pos hca, if_pos (by omega), hca]
        simp only [Spec.step, ht, Spec.writeT, and_self, ↓reduceIte, Spec.newElem, hbits, BitVec.toNat_ofNat]
        rw [Nat.mod_eq_of_lt hc]
      · rw [if_neg hca, ← ih]
        split
        · simp only [Spec.step]
          cases hw : wr sp c.1 with
          | none => rfl
          | some t' =>
            simp only [Spec.writeT]
            rw [if_neg]
            rintro ⟨e1, e2⟩
            exact hca (hinj c.1 t' hw e1.symm e2.symm)
        · rfl
  rw [← key]
  clear key
  congr 1
  induction l generalizing s with
  | nil => rfl
  | cons c cs ih =>
    rw [List.foldl_cons]
    by_cases h : start ≤ c.1 ∧ c.1 < start + size
    · rw [if_pos h, ← ih (fun x hx => hl x (by simp [hx]))]
      simp only [downloads, List.filter_cons, h, decide_true, and_self, ↓reduceIte, List.map_cons]
      rfl
    · rw [if_neg h, ← ih (fun x hx => hl x (by simp [hx]))]
      simp only [downloads, List.filter_cons, h, decide_false, Bool.false_eq_true, ↓reduceIte]

end Ucsim
