import Verif.Spec.H08Mmu

/-
Proofs about the model of the 9S08's memory management unit.
-/
namespace Ucsim.H08

/-- The chip of the manual in a state of the simulator. -/
def absM (m : Mmu) : Mm.Chip where
  ram a := if 0x78#16 ≤ a ∧ a ≤ 0x7f#16 then 0#8 else m.low a.toNat
  ext e := m.las e.toNat
  ppage := m.low 0x78
  lap := BitVec.ofNat 17 m.lin

/-- The bits of a number of two parts. -/
theorem toNat_two {j k : Nat} (x : BitVec j) (y : BitVec k) : (x ++ y).toNat = x.toNat * 2 ^ k + y.toNat := by
  rw [BitVec.toNat_append, ← Nat.shiftLeft_add_eq_or_of_lt y.isLt, Nat.shiftLeft_eq]

theorem and_or_low (n k j v : Nat) (hv : v < 2 ^ k) : (n / 2 ^ k % 2 ^ j * 2 ^ k) ||| v = n / 2 ^ k % 2 ^ j * 2 ^ k + v := by
  rw [← Nat.shiftLeft_eq, Nat.shiftLeft_add_eq_or_of_lt hv]

theorem and_high (n k j : Nat) : n &&& ((2 ^ j - 1) * 2 ^ k) = n / 2 ^ k % 2 ^ j * 2 ^ k := by
  apply Nat.eq_of_testBit_eq
  intro i
  rw [← Nat.shiftLeft_eq, ← Nat.shiftLeft_eq, ← Nat.shiftRight_eq_div_pow]
  simp only [Nat.testBit_and, Nat.testBit_shiftLeft, Nat.testBit_two_pow_sub_one, Nat.testBit_mod_two_pow, Nat.testBit_shiftRight]
  by_cases h : k ≤ i
  · simp [h, Bool.and_comm]
  · simp [h]

theorem lap0_wr (n : Nat) (v : Byte) : BitVec.ofNat 17 ((n &&& 0x1ff00) ||| v.toNat) =
    (BitVec.ofNat 17 n).extractLsb' 8 9 ++ v := by
  apply BitVec.eq_of_toNat_eq
  have h := and_high n 8 9
  have h2 := and_or_low n 8 9 v.toNat v.isLt
  have hv := v.isLt
  refine Eq.trans ?_ (toNat_two _ _).symm
  rw [show (0x1ff00 : Nat) = (2 ^ 9 - 1) * 2 ^ 8 by decide, h, h2]
  simp only [BitVec.toNat_ofNat, BitVec.extractLsb'_toNat, Nat.shiftRight_eq_div_pow]
  omega

theorem lap1_wr (n : Nat) (v : Byte) : BitVec.ofNat 17 ((n &&& 0x100ff) ||| (v.toNat <<< 8)) =
    (BitVec.ofNat 17 n).extractLsb' 16 1 ++ v ++ (BitVec.ofNat 17 n).extractLsb' 0 8 := by
  have hv := v.isLt
  have e : (n &&& 0x100ff) ||| (v.toNat <<< 8) = n / 65536 % 2 * 65536 + (v.toNat * 256 + n % 256) := by
    have h1 : n &&& 0x100ff = (n &&& 0x10000) ||| (n &&& 0xff) := by rw [← Nat.and_or_distrib_left]; rfl
    have h2 : n &&& 0x10000 = n / 65536 % 2 * 65536 := and_high n 16 1
    have h3 : n &&& 0xff = n % 256 := Nat.and_two_pow_sub_one_eq_mod n 8
    have h4 := and_or_low n 16 1 (v.toNat * 256 + n % 256) (by omega)
    have h5 : (v.toNat <<< 8) ||| n % 256 = v.toNat * 256 + n % 256 := by
      rw [← Nat.shiftLeft_add_eq_or_of_lt (Nat.mod_lt _ (by decide)), Nat.shiftLeft_eq]
    rw [h1, Nat.or_assoc, Nat.or_comm (n &&& 0xff), h3, h5, h2]
    exact h4
  apply BitVec.eq_of_toNat_eq
  refine Eq.trans ?_ (toNat_two _ _).symm
  rw [toNat_two, e]
  simp only [BitVec.toNat_ofNat, BitVec.extractLsb'_toNat, Nat.shiftRight_eq_div_pow]
  omega

theorem lap2_wr (n : Nat) (v : Byte) : BitVec.ofNat 17 ((n &&& 0xffff) ||| ((v.toNat &&& 1) <<< 16)) =
    v.extractLsb' 0 1 ++ (BitVec.ofNat 17 n).extractLsb' 0 16 := by
  have hv := v.isLt
  have e : (n &&& 0xffff) ||| ((v.toNat &&& 1) <<< 16) = v.toNat % 2 * 65536 + n % 65536 := by
    have h3 : n &&& 0xffff = n % 65536 := Nat.and_two_pow_sub_one_eq_mod n 16
    have h4 : v.toNat &&& 1 = v.toNat % 2 := Nat.and_two_pow_sub_one_eq_mod _ 1
    rw [h3, h4, Nat.or_comm, ← Nat.shiftLeft_add_eq_or_of_lt (Nat.mod_lt _ (by decide)), Nat.shiftLeft_eq]
  apply BitVec.eq_of_toNat_eq
  refine Eq.trans ?_ (toNat_two _ _).symm
  rw [e]
  simp only [BitVec.toNat_ofNat, BitVec.extractLsb'_toNat, Nat.shiftRight_eq_div_pow]
  omega

theorem lapab_wr (n : Nat) (v : Byte) : BitVec.ofNat 17 (((((n : Int) + v.toInt) % 0x100000000).toNat) &&& 0x1ffff) =
    BitVec.ofNat 17 n + v.signExtend 17 := by
  have h1 : (v.signExtend 17).toInt = v.toInt := BitVec.toInt_signExtend_of_le (by decide)
  have h2 : BitVec.ofNat 17 n + v.signExtend 17 = BitVec.ofInt 17 ((n : Int) + v.toInt) := by
    rw [← h1, BitVec.ofInt_add, BitVec.ofInt_toInt, BitVec.ofInt_natCast]
  rw [h2]
  have h3 := Nat.and_two_pow_sub_one_eq_mod ((((n : Int) + v.toInt) % 0x100000000).toNat) 17
  apply BitVec.eq_of_toNat_eq
  rw [BitVec.toNat_ofInt, BitVec.toNat_ofNat]
  generalize (n : Int) + v.toInt = z at h3 ⊢
  rw [show (0x1ffff : Nat) = 2 ^ 17 - 1 by decide, h3]
  omega

theorem lap2_rd (n : Nat) (h : n < 0x20000) : BitVec.ofNat 8 (n >>> 16) = ((BitVec.ofNat 17 n).extractLsb' 16 1).zeroExtend 8 := by
  apply BitVec.eq_of_toNat_eq
  simp only [BitVec.toNat_ofNat, BitVec.extractLsb'_toNat, Nat.shiftRight_eq_div_pow, BitVec.zeroExtend, BitVec.toNat_setWidth]
  omega

theorem lap1_rd (n : Nat) : BitVec.ofNat 8 (n >>> 8) = (BitVec.ofNat 17 n).extractLsb' 8 8 := by
  apply BitVec.eq_of_toNat_eq
  simp only [BitVec.toNat_ofNat, BitVec.extractLsb'_toNat, Nat.shiftRight_eq_div_pow]
  omega

theorem lap0_rd (n : Nat) : BitVec.ofNat 8 (n &&& 0xff) = (BitVec.ofNat 17 n).extractLsb' 0 8 := by
  have h3 : n &&& 0xff = n % 256 := Nat.and_two_pow_sub_one_eq_mod n 8
  apply BitVec.eq_of_toNat_eq
  simp only [BitVec.toNat_ofNat, BitVec.extractLsb'_toNat, Nat.shiftRight_eq_div_pow, h3]
  omega

theorem lin_wr (n : Nat) (v : Byte) : (n &&& 0xffff) ||| ((v.toNat &&& 1) <<< 16) < 0x20000 ∧ (n &&& 0x100ff) ||| (v.toNat <<< 8) < 0x20000 ∧
    (n &&& 0x1ff00) ||| v.toNat < 0x20000 ∧ n &&& 0x1ffff < 0x20000 := by
  have hv := v.isLt
  have ha : ∀ k, k < 2 ^ 17 → n &&& k < 2 ^ 17 := fun k hk => Nat.and_lt_two_pow _ hk
  refine ⟨Nat.or_lt_two_pow (n := 17) (ha _ (by decide)) ?_, Nat.or_lt_two_pow (n := 17) (ha _ (by decide)) ?_,
    Nat.or_lt_two_pow (n := 17) (ha _ (by decide)) (by omega), ha _ (by decide)⟩
  · have : v.toNat &&& 1 = v.toNat % 2 := Nat.and_two_pow_sub_one_eq_mod _ 1
    rw [this, Nat.shiftLeft_eq]; omega
  · rw [Nat.shiftLeft_eq]; omega

theorem extOf_eq (m : Mmu) (a : Word) : ((absM m).extOf a).toNat = slot m a.toNat := by
  unfold Mm.Chip.extOf slot
  have ha := a.isLt
  by_cases h : 0x8000#16 ≤ a ∧ a < 0xc000#16
  · have h' := h
    rw [BitVec.le_def, BitVec.lt_def] at h'
    simp at h'
    rw [if_pos h, if_pos (by omega)]
    refine (toNat_two _ _).trans ?_
    have h7 : m.low 0x78 &&& 7#8 = BitVec.ofNat 8 ((m.low 0x78).toNat % 8) := by
      apply BitVec.eq_of_toNat_eq
      have := Nat.and_two_pow_sub_one_eq_mod (m.low 0x78).toNat 3
      simp only [BitVec.toNat_and, BitVec.toNat_ofNat]
      refine this.trans ?_
      omega
    rw [h7]
    simp only [absM, BitVec.extractLsb'_toNat, BitVec.toNat_ofNat, Nat.shiftRight_zero]
    omega
  · have h' := h
    rw [BitVec.le_def, BitVec.lt_def] at h'
    simp at h'
    rw [if_neg h, if_neg (by omega)]
    simp [BitVec.zeroExtend]
    omega

theorem absM_ext (m n : Mmu) (h1 : ∀ a : Word, (a < 0x78#16 ∨ 0x7f#16 < a) → m.low a.toNat = n.low a.toNat) (h2 : m.las = n.las)
    (h3 : m.low 0x78 = n.low 0x78) (h4 : m.lin = n.lin) : absM m = absM n := by
  unfold absM
  congr 1
  · funext a
    by_cases h : 0x78#16 ≤ a ∧ a ≤ 0x7f#16
    · rw [if_pos h, if_pos h]
    · rw [if_neg h, if_neg h]
      apply h1
      rw [BitVec.le_def, BitVec.le_def] at h
      rw [BitVec.lt_def, BitVec.lt_def]
      omega
  · rw [h2]
  · rw [h4]

/-- The cells of the registers but PPAGE are not seen. -/
theorem absM_setLow (m : Mmu) (k : Nat) (v : Byte) (h1 : 0x79 ≤ k) (h2 : k ≤ 0x7f) : absM (setLow m k v) = absM m := by
  apply absM_ext
  · intro a ha
    unfold setLow poke
    rw [BitVec.lt_def, BitVec.lt_def] at ha
    simp at ha
    simp only
    rw [if_neg (by omega)]
  · rfl
  · unfold setLow poke; simp only; rw [if_neg (by omega)]
  · rfl

theorem absM_inc (m : Mmu) : absM (linInc m) = { absM m with lap := (absM m).lap + 1 } := by
  unfold absM linInc
  congr 1
  apply BitVec.eq_of_toNat_eq
  simp [BitVec.toNat_add]

theorem absM_lasRead (m : Mmu) (h : m.lin < 0x20000) : lasRead m = (absM m).ext (absM m).lap := by
  unfold lasRead absM
  simp only [BitVec.toNat_ofNat]
  rw [Nat.mod_eq_of_lt h]

theorem putExt_eq (m : Mmu) (e : BitVec 17) (v : Byte) : absM { m with las := poke m.las e.toNat v } = (absM m).putExt e v := by
  unfold absM Mm.Chip.putExt poke
  congr 1
  funext x
  simp only [BitVec.toNat_inj]

theorem absM_lasWrite (m : Mmu) (v : Byte) (h : m.lin < 0x20000) : absM (lasWrite m v) = (absM m).putExt (absM m).lap v := by
  rw [← putExt_eq]
  unfold lasWrite
  rw [show ((absM m).lap).toNat = m.lin from by simp only [absM, BitVec.toNat_ofNat]; exact Nat.mod_eq_of_lt h]

theorem eq_nat (a : Word) (k : Nat) (hk : k < 0x10000) : a = BitVec.ofNat 16 k ↔ a.toNat = k := by
  rw [BitVec.toNat_eq, BitVec.toNat_ofNat, Nat.mod_eq_of_lt hk]

theorem read_eq (m : Mmu) (a : Word) (h : m.lin < 0x20000) :
    (busRead m a.toNat).1 = ((absM m).read a).1 ∧ absM (busRead m a.toNat).2 = ((absM m).read a).2 ∧ (busRead m a.toNat).2.lin < 0x20000 := by
  have ha := a.isLt
  unfold Mm.Chip.read busRead
  simp only [eq_nat a _ (show 0x78 < 0x10000 by decide), eq_nat a _ (show 0x79 < 0x10000 by decide), eq_nat a _ (show 0x7a < 0x10000 by decide),
    eq_nat a _ (show 0x7b < 0x10000 by decide), eq_nat a _ (show 0x7c < 0x10000 by decide), eq_nat a _ (show 0x7d < 0x10000 by decide),
    eq_nat a _ (show 0x7e < 0x10000 by decide), eq_nat a _ (show 0x7f < 0x10000 by decide), BitVec.lt_def]
  rw [show (0x2080#16).toNat = 0x2080 from rfl]
  unfold mmuRead
  generalize hk : a.toNat = k at *
  have ps : ∀ v, (setLow m k v).low k = v := fun v => if_pos rfl
  have pi : ∀ v, (linInc (setLow m k v)).low k = v := fun v => if_pos rfl
  have sl : ∀ (m : Mmu) k v, (setLow m k v).lin = m.lin := fun _ _ _ => rfl
  have li : ∀ m : Mmu, (linInc m).lin < 0x20000 := fun m => Nat.mod_lt _ (by decide)
  by_cases c0 : k = 0x78
  · subst c0; exact ⟨rfl, rfl, h⟩
  by_cases c1 : k = 0x79
  · subst c1; simp only [if_true, if_false, Nat.reduceEqDiff, Nat.reduceLT, or_self, ps, sl, absM_setLow m 0x79 _ (by decide) (by decide)]; exact ⟨lap2_rd _ h, trivial, h⟩
  by_cases c2 : k = 0x7a
  · subst c2; simp only [if_true, if_false, Nat.reduceEqDiff, Nat.reduceLT, or_self, ps, sl, absM_setLow m 0x7a _ (by decide) (by decide)]; exact ⟨lap1_rd _, trivial, h⟩
  by_cases c3 : k = 0x7b
  · subst c3; simp only [if_true, if_false, Nat.reduceEqDiff, Nat.reduceLT, or_self, ps, sl, absM_setLow m 0x7b _ (by decide) (by decide)]; exact ⟨lap0_rd _, trivial, h⟩
  by_cases c4 : k = 0x7c
  · subst c4; simp [pi, absM_inc, absM_setLow m 0x7c _ (by decide) (by decide), h, absM_lasRead m h, li]
  by_cases c5 : k = 0x7d
  · subst c5; simp [pi, absM_inc, absM_setLow m 0x7d _ (by decide) (by decide), h, absM_lasRead m h, li]
  by_cases c6 : k = 0x7e
  · subst c6; simp [ps, sl, absM_setLow m 0x7e _ (by decide) (by decide), h, absM_lasRead m h]
  by_cases c7 : k = 0x7f
  · subst c7; simp [ps, sl, absM_setLow m 0x7f _ (by decide) (by decide), h]
  simp only [c0, c1, c2, c3, c4, c5, c6, c7, if_false, or_self]
  by_cases c8 : k < 0x2080
  · simp only [c8, if_true, absM]
    refine ⟨?_, trivial, h⟩
    rw [if_neg, hk]
    rw [BitVec.le_def, BitVec.le_def, hk]; simp; omega
  · simp only [c8, if_false, ha, if_true]
    refine ⟨?_, trivial, h⟩
    rw [← hk, ← extOf_eq]; rfl

theorem write_eq (m : Mmu) (a : Word) (v : Byte) (h : m.lin < 0x20000) :
    absM (busWrite m a.toNat v) = (absM m).write a v ∧ (busWrite m a.toNat v).lin < 0x20000 := by
  have ha := a.isLt
  unfold Mm.Chip.write busWrite
  simp only [eq_nat a _ (show 0x78 < 0x10000 by decide), eq_nat a _ (show 0x79 < 0x10000 by decide), eq_nat a _ (show 0x7a < 0x10000 by decide),
    eq_nat a _ (show 0x7b < 0x10000 by decide), eq_nat a _ (show 0x7c < 0x10000 by decide), eq_nat a _ (show 0x7d < 0x10000 by decide),
    eq_nat a _ (show 0x7e < 0x10000 by decide), eq_nat a _ (show 0x7f < 0x10000 by decide), BitVec.lt_def]
  rw [show (0x2080#16).toNat = 0x2080 from rfl]
  unfold mmuWrite
  generalize hk : a.toNat = k at *
  have lw := lin_wr m.lin v
  have li : ∀ m : Mmu, (linInc m).lin < 0x20000 := fun m => Nat.mod_lt _ (by decide)
  have sl : ∀ (m : Mmu) k v, (setLow m k v).lin = m.lin := fun _ _ _ => rfl
  have lap : ∀ n, absM { m with lin := n } = { absM m with lap := BitVec.ofNat 17 n } := fun _ => rfl
  by_cases c0 : k = 0x78
  · subst c0
    refine ⟨?_, h⟩
    simp
    unfold absM setLow poke
    simp only
    congr 1
    funext x
    by_cases hx : 0x78#16 ≤ x ∧ x ≤ 0x7f#16
    · rw [if_pos hx, if_pos hx]
    · rw [if_neg hx, if_neg hx, if_neg]
      intro e
      apply hx
      rw [BitVec.le_def, BitVec.le_def, e]; decide
  by_cases c1 : k = 0x79
  · subst c1; simp only [if_true, if_false, Nat.reduceEqDiff, Nat.reduceLT, or_self, sl, absM_setLow _ 0x79 _ (by decide) (by decide)]
    exact ⟨(lap _).trans (congrArg (fun l => ({ absM m with lap := l } : Mm.Chip)) (lap2_wr m.lin v)), lw.1⟩
  by_cases c2 : k = 0x7a
  · subst c2; simp only [if_true, if_false, Nat.reduceEqDiff, Nat.reduceLT, or_self, sl, absM_setLow _ 0x7a _ (by decide) (by decide)]
    exact ⟨(lap _).trans (congrArg (fun l => ({ absM m with lap := l } : Mm.Chip)) (lap1_wr m.lin v)), lw.2.1⟩
  by_cases c3 : k = 0x7b
  · subst c3; simp only [if_true, if_false, Nat.reduceEqDiff, Nat.reduceLT, or_self, sl, absM_setLow _ 0x7b _ (by decide) (by decide)]
    exact ⟨(lap _).trans (congrArg (fun l => ({ absM m with lap := l } : Mm.Chip)) (lap0_wr m.lin v)), lw.2.2.1⟩
  by_cases c4 : k = 0x7c
  · subst c4; simp [sl, absM_inc, absM_setLow _ 0x7c _ (by decide) (by decide), absM_lasWrite m v h, li]; rfl
  by_cases c5 : k = 0x7d
  · subst c5; simp [sl, absM_inc, absM_setLow _ 0x7d _ (by decide) (by decide), absM_lasWrite m v h, li]; rfl
  by_cases c6 : k = 0x7e
  · subst c6; simp [sl, absM_setLow _ 0x7e _ (by decide) (by decide), absM_lasWrite m v h]; exact h
  by_cases c7 : k = 0x7f
  · subst c7
    have e := lapab_wr m.lin v
    have l := (lin_wr ((((m.lin : Int) + v.toInt) % 0x100000000).toNat) v).2.2.2
    simp only [if_true, if_false, Nat.reduceEqDiff, Nat.reduceLT, or_self, sl, absM_setLow _ 0x7f _ (by decide) (by decide)]
    exact ⟨(lap _).trans (congrArg (fun l => ({ absM m with lap := l } : Mm.Chip)) e), l⟩
  simp only [c0, c1, c2, c3, c4, c5, c6, c7, if_false, or_self]
  by_cases c8 : k < 0x2080
  · simp only [c8, if_true]
    refine ⟨?_, h⟩
    unfold absM setLow poke
    simp only
    rw [if_neg (Ne.symm c0)]
    congr 1
    funext x
    simp only [BitVec.toNat_eq, hk]
    by_cases hx : x.toNat = k
    · rw [if_pos hx, if_pos hx, if_neg]
      rw [BitVec.le_def, BitVec.le_def, hx]; simp; omega
    · rw [if_neg hx, if_neg hx]
  · simp only [c8, if_false]
    refine ⟨?_, h⟩
    rw [← putExt_eq, extOf_eq, hk]

end Ucsim.H08
