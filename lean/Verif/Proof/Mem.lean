import Verif.Core.Mem
import Verif.Spec.Mem

/-! Lemmas about the byte level of the memory model. -/
namespace Ucsim

/-! ### masks -/

theorem maskLoop_toNat (n k : Nat) (h : 1 ≤ k) (hk : k + n ≤ 32) (m : W) (hm : m.toNat = 2 ^ k - 1) :
    (maskLoop n m).toNat = 2 ^ (k + n) - 1 := by
  induction n generalizing k m with
  | zero => simpa [maskLoop] using hm
  | succ n ih =>
    have e : ((m <<< 1) ||| 1#32).toNat = 2 ^ (k + 1) - 1 := by
      have hlt : 2 ^ (k + 1) ≤ 2 ^ 32 := Nat.pow_le_pow_right (by omega) (by omega)
      have hp : 2 ^ (k + 1) = 2 * 2 ^ k := by rw [Nat.pow_succ]; omega
      have hpos : 0 < 2 ^ k := Nat.two_pow_pos k
      rw [BitVec.toNat_or, BitVec.toNat_shiftLeft, hm, Nat.shiftLeft_eq, Nat.pow_one,
        Nat.mod_eq_of_lt (by omega)]
      have := Nat.two_pow_add_eq_or_of_lt (i := 1) (b := 1) (by omega) (2 ^ k - 1)
      simp only [BitVec.toNat_ofNat] at *
      rw [Nat.mul_comm (2 ^ k - 1) 2]
      simp only [Nat.pow_one] at this
      rw [show (1 : Nat) % 2 ^ 32 = 1 from rfl, ← this]; omega
    have := ih (k + 1) (by omega) (by omega) _ e
    simpa [maskLoop, Nat.add_assoc, Nat.add_comm 1 n] using this

theorem maskOf_toNat (w : Nat) (h1 : 1 ≤ w) (h2 : w ≤ 32) : (maskOf w).toNat = 2 ^ w - 1 := by
  have := maskLoop_toNat (w - 1) 1 (by omega) (by omega) 1#32 rfl
  unfold maskOf; rw [this]; congr 2; omega

theorem and_maskOf_toNat (v : W) (w : Nat) (h1 : 1 ≤ w) (h2 : w ≤ 32) :
    (v &&& maskOf w).toNat = v.toNat % 2 ^ w := by
  rw [BitVec.toNat_and, maskOf_toNat w h1 h2, Nat.and_two_pow_sub_one_eq_mod]

/-! ### loads after stores -/

theorem put_same (m : Bytes) (b o v) : (m.put b o v) b o = v := by simp [Bytes.put]
theorem put_off (m : Bytes) (b : Option Nat) (o : Nat) (v : BitVec 8) (b' : Option Nat) (o' : Nat)
    (h : b' ≠ b ∨ o' ≠ o) :
    (m.put b o v) b' o' = m b' o' := by
  unfold Bytes.put; rw [if_neg]; rintro ⟨rfl, rfl⟩; simp at h

theorem load8_store8 (m : Bytes) (p v) : (m.store8 p v).load8 p = v := by
  simp [Bytes.load8, Bytes.store8, put_same]

theorem load16_store16 (m : Bytes) (p v) : (m.store16 p v).load16 p = v := by
  simp only [Bytes.load16, Bytes.store16, put_same]
  rw [put_off _ _ _ _ _ _ (Or.inr (by omega)), put_same]
  ext i hi
  simp only [BitVec.getElem_append, BitVec.getElem_extractLsb']
  split <;> simp [BitVec.getElem_eq_testBit_toNat] <;> (try congr 1) <;> omega

theorem load32_store32 (m : Bytes) (p v) : (m.store32 p v).load32 p = v := by
  unfold Bytes.load32 Bytes.store32 Bytes.put
  have e1 : p.off ≠ p.off + 1 := by omega
  have e2 : p.off ≠ p.off + 2 := by omega
  have e3 : p.off ≠ p.off + 3 := by omega
  simp only [true_and, if_true, Nat.add_left_cancel_iff, Nat.reduceEqDiff, if_false, e1, e2, e3]
  apply BitVec.eq_of_getLsbD_eq
  intro i hi
  simp only [BitVec.getLsbD_append, BitVec.getLsbD_extractLsb']
  grind

/-- A store of `n` bytes (n = 1, 2, 4) changes only bytes of its range. -/
theorem store8_off (m : Bytes) (p : Ptr) (v) (b : Option Nat) (o : Nat)
    (h : b ≠ p.blk ∨ o < p.off ∨ p.off + 1 ≤ o) : (m.store8 p v) b o = m b o := by
  unfold Bytes.store8
  rw [put_off]; rcases h with h | h | h <;> first | exact Or.inl h | exact Or.inr (by omega)

theorem store16_off (m : Bytes) (p : Ptr) (v) (b : Option Nat) (o : Nat)
    (h : b ≠ p.blk ∨ o < p.off ∨ p.off + 2 ≤ o) : (m.store16 p v) b o = m b o := by
  unfold Bytes.store16
  rw [put_off, put_off]
  all_goals rcases h with h | h | h <;> first | exact Or.inl h | exact Or.inr (by omega)

theorem store32_off (m : Bytes) (p : Ptr) (v) (b : Option Nat) (o : Nat)
    (h : b ≠ p.blk ∨ o < p.off ∨ p.off + 4 ≤ o) : (m.store32 p v) b o = m b o := by
  unfold Bytes.store32
  rw [put_off, put_off, put_off, put_off]
  all_goals rcases h with h | h | h <;> first | exact Or.inl h | exact Or.inr (by omega)

/-! ### chip elements -/

/-- Contents of element `e` of chip `k`, read with the element size of the chip. -/
def elemOf (chips : Nat → Chip) (m : Bytes) (k e : Nat) : W :=
  let p : Ptr := ⟨some k, e * (chips k).bwidth⟩
  if (chips k).width ≤ 8 then (m.load8 p).setWidth 32
  else if (chips k).width ≤ 16 then (m.load16 p).setWidth 32
  else m.load32 p

/-- Bytes accessed by a cell kind. -/
def Kind.bytes : Kind → Nat
  | .bit8 | .c8 => 1
  | .c16 => 2
  | .c32 | .dummy => 4

theorem bwidth_pos (c : Chip) : 0 < c.bwidth := by
  unfold Chip.bwidth; split; · decide
  split <;> decide

/-- Bytes outside of an element do not matter for it. -/
theorem elemOf_congr (chips) (m m' : Bytes) (k e : Nat)
    (h : ∀ o, e * (chips k).bwidth ≤ o → o < e * (chips k).bwidth + (chips k).bwidth →
      m' (some k) o = m (some k) o) :
    elemOf chips m' k e = elemOf chips m k e := by
  unfold elemOf
  generalize hb : e * (chips k).bwidth = b at *
  unfold Chip.bwidth at h
  simp only [Bytes.load8, Bytes.load16, Bytes.load32]
  by_cases h8 : (chips k).width ≤ 8
  · simp only [h8, if_true] at h ⊢
    rw [h b (by omega) (by omega)]
  by_cases h16 : (chips k).width ≤ 16
  · simp only [h8, h16, if_true, if_false] at h ⊢
    rw [h b (by omega) (by omega), h (b + 1) (by omega) (by omega)]
  · simp only [h8, h16, if_false] at h ⊢
    rw [h b (by omega) (by omega), h (b + 1) (by omega) (by omega),
      h (b + 2) (by omega) (by omega), h (b + 3) (by omega) (by omega)]

/-- Bytes that a raw cell store leaves alone. -/
theorem dSet_off (m : Bytes) (c : Cell) (v : W) (b : Option Nat) (o : Nat)
    (h : b ≠ c.ptr.blk ∨ o < c.ptr.off ∨ c.ptr.off + c.kind.bytes ≤ o) :
    (c.dSet m v) b o = m b o := by
  unfold Cell.dSet
  cases hk : c.kind <;> rw [hk] at h <;> simp only [Kind.bytes] at h ⊢
  · split <;> exact store8_off _ _ _ _ _ h
  · exact store8_off _ _ _ _ _ h
  · exact store16_off _ _ _ _ _ h
  · exact store32_off _ _ _ _ _ h
  · exact store32_off _ _ _ _ _ h

theorem put_off' (m : Bytes) (c : Cell) (v : W) (b : Option Nat) (o : Nat)
    (h : b ≠ c.ptr.blk ∨ o < c.ptr.off ∨ c.ptr.off + c.kind.bytes ≤ o) :
    (c.put m v) b o = m b o := by
  unfold Cell.put; split <;> exact dSet_off _ _ _ _ _ h

theorem mul_sep (e e' b o : Nat) (hne : e ≠ e') (hl : e' * b ≤ o) (hu : o < e' * b + b) :
    o < e * b ∨ e * b + b ≤ o := by
  rcases Nat.lt_or_gt_of_ne hne with h | h
  · right
    have : (e + 1) * b ≤ e' * b := Nat.mul_le_mul_right b h
    rw [Nat.add_mul] at this; omega
  · left
    have : (e' + 1) * b ≤ e * b := Nat.mul_le_mul_right b h
    rw [Nat.add_mul] at this; omega

/-- A cell that lies on element `e` of chip `k` and is not wider than it. -/
structure OnElem (chips : Nat → Chip) (c : Cell) (k e : Nat) : Prop where
  ptr : c.ptr = ⟨some k, e * (chips k).bwidth⟩
  fits : c.kind.bytes ≤ (chips k).bwidth

theorem elemOf_put_other (chips) (m : Bytes) (c : Cell) (v : W) (k e k' e' : Nat)
    (hc : OnElem chips c k e) (hne : ¬(k' = k ∧ e' = e)) :
    elemOf chips (c.put m v) k' e' = elemOf chips m k' e' := by
  apply elemOf_congr
  intro o h1 h2
  apply put_off'
  rw [hc.ptr]
  by_cases hk : k' = k
  · subst hk
    right
    have hne' : e ≠ e' := fun h => hne ⟨rfl, h.symm⟩
    have := mul_sep e e' _ o hne' h1 h2
    have := hc.fits
    simp only; omega
  · left; simpa using hk

/-- The kinds of ordinary cells agree with the chip's element size. -/
theorem elemOf_put_plain (chips) (m : Bytes) (c : Cell) (v : W) (k e : Nat)
    (hp : c.ptr = ⟨some k, e * (chips k).bwidth⟩) (hk : c.kind ≠ .bit8) (hd : c.kind ≠ .dummy)
    (hb : c.kind.bytes = (chips k).bwidth)
    (hkind : c.kind = kindOf c.width) (hw : 1 ≤ c.width) (hw2 : c.width ≤ 32)
    (hm : c.mask = maskOf c.width) :
    elemOf chips (c.put m v) k e = BitVec.ofNat 32 (v.toNat % 2 ^ c.width) := by
  have hnat : (BitVec.ofNat 32 (v.toNat % 2 ^ c.width)).toNat = v.toNat % 2 ^ c.width := by
    rw [BitVec.toNat_ofNat]
    apply Nat.mod_eq_of_lt
    have : v.toNat % 2 ^ c.width < 2 ^ c.width := Nat.mod_lt _ (Nat.two_pow_pos _)
    have : 2 ^ c.width ≤ 2 ^ 32 := Nat.pow_le_pow_right (by omega) hw2
    omega
  have hne1 : c.width ≠ 1 := by
    intro h; rw [hkind, kindOf, if_pos h] at hk; exact hk rfl
  have hand := and_maskOf_toNat v c.width hw hw2
  apply BitVec.eq_of_toNat_eq
  rw [hnat]
  unfold Cell.put Cell.dSet elemOf
  rw [if_neg hne1, hm, ← hp]
  have hlt : v.toNat % 2 ^ c.width < 2 ^ c.width := Nat.mod_lt _ (Nat.two_pow_pos _)
  have hkw := hkind
  unfold kindOf at hkw
  rw [if_neg hne1] at hkw
  unfold Chip.bwidth at hb
  cases hc : c.kind with
  | bit8 => exact absurd hc hk
  | dummy => exact absurd hc hd
  | c8 =>
    rw [hc] at hb hkw
    have h8 : c.width ≤ 8 := by
      by_cases h : c.width ≤ 8
      · exact h
      · rw [if_neg h] at hkw; split at hkw <;> cases hkw
    have hw8 : (chips k).width ≤ 8 := by
      by_cases h : (chips k).width ≤ 8
      · exact h
      · rw [if_neg h] at hb; simp only [Kind.bytes] at hb; split at hb <;> cases hb
    simp only [hw8, if_true]
    rw [load8_store8, BitVec.toNat_setWidth, BitVec.toNat_setWidth, hand]
    have : 2 ^ c.width ≤ 2 ^ 8 := Nat.pow_le_pow_right (by omega) h8
    rw [Nat.mod_eq_of_lt (a := v.toNat % 2 ^ c.width) (by omega), Nat.mod_eq_of_lt (by omega)]
  | c16 =>
    rw [hc] at hb hkw
    have h16 : c.width ≤ 16 := by
      by_cases h8 : c.width ≤ 8
      · omega
      · rw [if_neg h8] at hkw
        by_cases h : c.width ≤ 16
        · exact h
        · rw [if_neg h] at hkw; cases hkw
    have hw8 : ¬ (chips k).width ≤ 8 := by
      intro h; rw [if_pos h] at hb; cases hb
    have hw16 : (chips k).width ≤ 16 := by
      rw [if_neg hw8] at hb
      by_cases h : (chips k).width ≤ 16
      · exact h
      · rw [if_neg h] at hb; cases hb
    simp only [hw8, hw16, if_true, if_false]
    rw [load16_store16, BitVec.toNat_setWidth, BitVec.toNat_setWidth, hand]
    have : 2 ^ c.width ≤ 2 ^ 16 := Nat.pow_le_pow_right (by omega) h16
    rw [Nat.mod_eq_of_lt (a := v.toNat % 2 ^ c.width) (by omega), Nat.mod_eq_of_lt (by omega)]
  | c32 =>
    rw [hc] at hb
    have hw8 : ¬ (chips k).width ≤ 8 := by
      intro h; rw [if_pos h] at hb; cases hb
    have hw16 : ¬ (chips k).width ≤ 16 := by
      intro h; rw [if_neg hw8, if_pos h] at hb; cases hb
    simp only [hw8, hw16, if_false]
    rw [load32_store32, hand]

theorem append_or_low {n : Nat} (hi : BitVec n) (lo b : BitVec 8) :
    (hi ++ (lo ||| b)) = (hi ++ lo) ||| b.setWidth (n + 8) := by
  ext i h
  simp only [BitVec.getElem_append, BitVec.getElem_or, BitVec.getElem_setWidth]
  split
  · simp [BitVec.getLsbD_eq_getElem, *]
  · simp; intro h'; exact absurd h' (by rw [BitVec.getLsbD_of_ge]; simp; omega)

theorem append_and_low {n : Nat} (hi : BitVec n) (lo b : BitVec 8) :
    (hi ++ (lo &&& ~~~b)) = (hi ++ lo) &&& ~~~(b.setWidth (n + 8)) := by
  ext i h
  simp only [BitVec.getElem_append, BitVec.getElem_and, BitVec.getElem_not, BitVec.getElem_setWidth]
  split
  · simp [BitVec.getLsbD_eq_getElem, *]
  · rw [BitVec.getLsbD_of_ge b i (by omega)]; simp

theorem append_and_low_eq {n : Nat} (hi : BitVec n) (lo b : BitVec 8) :
    (hi ++ lo) &&& b.setWidth (n + 8) = (lo &&& b).setWidth (n + 8) := by
  ext i h
  simp only [BitVec.getElem_append, BitVec.getElem_and, BitVec.getElem_setWidth]
  split
  · simp [BitVec.getLsbD_eq_getElem, *]
  · rw [BitVec.getLsbD_of_ge b i (by omega), BitVec.getLsbD_of_ge (lo &&& b) i (by omega)]; simp

/-- An element is some upper part over its first byte. -/
theorem elemOf_shape (chips) (k e : Nat) :
    ∃ (n : Nat) (_ : n + 8 ≤ 32) (hi : Bytes → BitVec n),
      (∀ m x, hi (m.store8 ⟨some k, e * (chips k).bwidth⟩ x) = hi m) ∧
      ∀ m, elemOf chips m k e =
        (hi m ++ m.load8 ⟨some k, e * (chips k).bwidth⟩).setWidth 32 := by
  unfold elemOf
  generalize e * (chips k).bwidth = o
  by_cases h8 : (chips k).width ≤ 8
  · refine ⟨0, by omega, fun _ => 0#0, fun _ _ => rfl, fun m => ?_⟩
    simp only [h8, if_true]
    congr 1
    exact (BitVec.eq_of_getLsbD_eq fun i hi => by erw [BitVec.getLsbD_append]; simp [hi])
  by_cases h16 : (chips k).width ≤ 16
  · refine ⟨8, by omega, fun m => m (some k) (o + 1), fun m x => ?_, fun m => ?_⟩
    · apply store8_off; right; right; exact Nat.le_refl _
    · simp only [h8, h16, if_true, if_false]; rfl
  · refine ⟨24, by omega, fun m => m (some k) (o + 3) ++ (m (some k) (o + 2) ++ m (some k) (o + 1) : BitVec 16),
      fun m x => ?_, fun m => ?_⟩
    · show (m.store8 _ x) (some k) (o + 3) ++ ((m.store8 _ x) (some k) (o + 2) ++ (m.store8 _ x) (some k) (o + 1) : BitVec 16) = _
      rw [store8_off, store8_off, store8_off] <;> (right; right; simp)
    · simp only [h8, h16, if_false]
      unfold Bytes.load32 Bytes.load8
      simp only
      apply BitVec.eq_of_getLsbD_eq
      intro i hi
      simp only [BitVec.getLsbD_append, BitVec.getLsbD_setWidth]
      grind

theorem setWidth_or' {n : Nat} (x y : BitVec n) : (x ||| y).setWidth 32 = x.setWidth 32 ||| y.setWidth 32 := by
  ext i h; simp

theorem setWidth_and' {n : Nat} (x y : BitVec n) : (x &&& y).setWidth 32 = x.setWidth 32 &&& y.setWidth 32 := by
  ext i h; simp

theorem setWidth_setWidth8 {n : Nat} (h : n + 8 ≤ 32) (b : BitVec 8) :
    (b.setWidth (n + 8)).setWidth 32 = b.setWidth 32 := by
  ext i hi
  simp only [BitVec.getElem_setWidth, BitVec.getLsbD_setWidth]
  by_cases hn : i < n + 8
  · simp [hn]
  · rw [BitVec.getLsbD_of_ge b i (by omega)]; simp

theorem setWidth_and_not' {n : Nat} (x : BitVec (n + 8)) (b : BitVec 8) :
    (x &&& ~~~(b.setWidth (n + 8))).setWidth 32 = x.setWidth 32 &&& ~~~(b.setWidth 32) := by
  ext i hi
  simp only [BitVec.getElem_setWidth, BitVec.getLsbD_and, BitVec.getLsbD_not, BitVec.getLsbD_setWidth,
    BitVec.getElem_and, BitVec.getElem_not]
  by_cases hn : i < n + 8
  · simp [hn]
  · rw [BitVec.getLsbD_of_ge x i (by omega)]; simp

/-- Setting or clearing bits through a bit cell, seen at the element. -/
theorem elemOf_put_bit (chips) (m : Bytes) (c : Cell) (v : W) (k e : Nat)
    (hp : c.ptr = ⟨some k, e * (chips k).bwidth⟩) (hk : c.kind = .bit8) (hw : c.width = 1) :
    elemOf chips (c.put m v) k e =
      if v = 0#32 then elemOf chips m k e &&& ~~~((c.mask.setWidth 8).setWidth 32)
      else elemOf chips m k e ||| (c.mask.setWidth 8).setWidth 32 := by
  obtain ⟨n, hn, hi, hst, hel⟩ := elemOf_shape chips k e
  unfold Cell.put Cell.dSet
  rw [if_pos hw, hk, hp]
  by_cases hv : v = 0#32
  · simp only [hv, ne_eq, not_true_eq_false, if_false, if_true]
    rw [hel, hel, hst, load8_store8, append_and_low, setWidth_and_not']
  · simp only [ne_eq, hv, not_false_eq_true, if_true, if_false]
    rw [hel, hel, hst, load8_store8, append_or_low, setWidth_or', setWidth_setWidth8 hn]

/-- Reading a bit cell, seen at the element. -/
theorem bit_read (chips) (m : Bytes) (c : Cell) (k e : Nat)
    (hp : c.ptr = ⟨some k, e * (chips k).bwidth⟩) (hk : c.kind = .bit8) :
    c.d m = if elemOf chips m k e &&& (c.mask.setWidth 8).setWidth 32 = 0#32 then 0#32 else 1#32 := by
  obtain ⟨n, hn, hi, hst, hel⟩ := elemOf_shape chips k e
  have key : (elemOf chips m k e &&& (c.mask.setWidth 8).setWidth 32 = 0#32) ↔
      (m.load8 c.ptr &&& c.mask.setWidth 8 = 0#8) := by
    rw [hel, ← setWidth_setWidth8 hn, ← setWidth_and', append_and_low_eq, setWidth_setWidth8 hn, hp]
    constructor
    · intro h
      apply BitVec.eq_of_toNat_eq
      have := congrArg BitVec.toNat h
      rw [BitVec.toNat_setWidth] at this
      have hlt := (m.load8 ⟨some k, e * (chips k).bwidth⟩ &&& c.mask.setWidth 8).isLt
      rw [Nat.mod_eq_of_lt (by omega)] at this
      simpa using this
    · intro h; rw [h]; rfl
  unfold Cell.d
  rw [hk]
  simp only [ne_eq]
  by_cases h : m.load8 c.ptr &&& c.mask.setWidth 8 = 0#8
  · rw [if_pos (key.2 h)]; simp [h]
  · rw [if_neg (fun x => h (key.1 x))]; simp [h]

/-- Reading an ordinary cell is reading the element. -/
theorem plain_read (chips) (m : Bytes) (c : Cell) (k e : Nat)
    (hp : c.ptr = ⟨some k, e * (chips k).bwidth⟩) (hk : c.kind ≠ .bit8) (hd : c.kind ≠ .dummy)
    (hb : c.kind.bytes = (chips k).bwidth) : c.d m = elemOf chips m k e := by
  unfold Cell.d elemOf
  rw [← hp]
  unfold Chip.bwidth at hb
  by_cases h8 : (chips k).width ≤ 8
  · rw [if_pos h8] at hb
    simp only [h8, if_true]
    cases h : c.kind <;> simp_all [Kind.bytes]
  by_cases h16 : (chips k).width ≤ 16
  · rw [if_neg h8, if_pos h16] at hb
    simp only [h8, h16, if_true, if_false]
    cases h : c.kind <;> simp_all [Kind.bytes]
  · rw [if_neg h8, if_neg h16] at hb
    simp only [h8, h16, if_false]
    cases h : c.kind <;> simp_all [Kind.bytes]

end Ucsim
