import Verif.Spec.ExprTree
/- The arithmetic of the actions and of C agree. -/
namespace Ucsim.Expr
open C

theorem long_some {i r : Int} (h : long i = some r) : i = r ∧ -2 ^ 63 ≤ r ∧ r < 2 ^ 63 := by
  unfold long at h
  split at h
  · next h' => cases h; exact ⟨rfl, h'⟩
  · cases h

theorem long_range (v : Long) : -2 ^ 63 ≤ v.toInt ∧ v.toInt < 2 ^ 63 := ⟨by have := v.le_toInt; omega, by have := v.toInt_lt; omega⟩

theorem toInt_ofBool (b : Bool) : (Expr.ofBool b).toInt = truth b := by cases b <;> rfl

theorem eq_of_toInt {a b : Long} (h : a.toInt = b.toInt) : a = b := BitVec.eq_of_toInt_eq h
theorem toInt_zero_iff (a : Long) : a.toInt = 0 ↔ a = 0#64 := ⟨fun h => eq_of_toInt (by rw [h]; rfl), fun h => by rw [h]; rfl⟩
theorem ofInt_toInt64 (a : Long) : BitVec.ofInt 64 a.toInt = a := BitVec.ofInt_toInt

theorem decide_slt (a b : Long) : a.slt b = decide (a.toInt < b.toInt) := by rw [BitVec.slt]
theorem decide_sle (a b : Long) : a.sle b = decide (a.toInt ≤ b.toInt) := by rw [BitVec.sle]

theorem sdiv_undef (a b : Long) (hb : b.toInt ≠ 0) {r : Int} (h : long (a.toInt.tdiv b.toInt) = some r) :
    ¬ (b = 0#64 ∨ (a = BitVec.intMin 64 ∧ b = -1#64)) := by
  rintro (rfl | ⟨rfl, rfl⟩)
  · exact hb rfl
  · revert h
    have : long ((BitVec.intMin 64).toInt.tdiv (-1#64).toInt) = none := by decide
    rw [this]; simp

theorem bne_zero (a : Long) : (a != 0#64) = decide (a.toInt ≠ 0) := by
  by_cases h : a = 0#64
  · subst h; rfl
  · have : ¬ a.toInt = 0 := fun e => h ((toInt_zero_iff a).mp e)
    simp [bne, beq_false_of_ne h, this]

theorem bin_agree {k : Nat} {t : Tok} (ht : opTok k t = true) (a b : Long) {r : Int} (h : (bopOf t).apply a.toInt b.toInt = some r) :
    ∃ v, binAct t a b = some v ∧ v.toInt = r := by
  cases t with
  | asterix =>
    obtain ⟨h1, h2, h3⟩ := long_some h
    have : BitVec.smulOverflow a b = false := by
      rw [BitVec.smulOverflow]; simp only [Bool.or_eq_false_iff, decide_eq_false_iff_not]; omega
    refine ⟨a * b, by simp only [binAct, this]; rfl, ?_⟩
    rw [BitVec.toInt_mul_of_not_smulOverflow (by rw [this]; simp)]; exact h1
  | slash =>
    simp only [bopOf, BOp.apply] at h
    split at h
    · cases h
    · next hb =>
      have hu := sdiv_undef a b hb h
      refine ⟨a.sdiv b, by simp only [binAct, hu, if_false], ?_⟩
      rw [BitVec.toInt_sdiv_of_ne_or_ne]
      · exact (long_some h).1
      · by_cases h1 : a = BitVec.intMin 64
        · exact .inr fun h2 => hu (.inr ⟨h1, h2⟩)
        · exact .inl h1
  | percent =>
    simp only [bopOf, BOp.apply] at h
    split at h
    · cases h
    · next hb =>
      cases hl : long (a.toInt.tdiv b.toInt) with
      | none => rw [hl] at h; cases h
      | some q =>
        rw [hl] at h
        have hu := sdiv_undef a b hb hl
        refine ⟨a.srem b, by simp only [binAct, hu, if_false], ?_⟩
        rw [BitVec.toInt_srem]
        exact Option.some.inj h
  | plus =>
    obtain ⟨h1, h2, h3⟩ := long_some h
    have : BitVec.saddOverflow a b = false := by
      rw [BitVec.saddOverflow]; simp only [Bool.or_eq_false_iff, decide_eq_false_iff_not]; omega
    refine ⟨a + b, by simp only [binAct, this]; rfl, ?_⟩
    rw [BitVec.toInt_add_of_not_saddOverflow (by rw [this]; simp)]; exact h1
  | minus =>
    obtain ⟨h1, h2, h3⟩ := long_some h
    have : BitVec.ssubOverflow a b = false := by
      rw [BitVec.ssubOverflow]; simp only [Bool.or_eq_false_iff, decide_eq_false_iff_not]; omega
    refine ⟨a - b, by simp only [binAct, this]; rfl, ?_⟩
    rw [BitVec.toInt_sub_of_not_ssubOverflow (by rw [this]; simp)]; exact h1
  | leftOp =>
    simp only [bopOf, BOp.apply] at h
    split at h
    · next hb =>
      have e : b.toNat = b.toInt.toNat := by rw [BitVec.toInt_eq_toNat_cond] at hb ⊢; split <;> omega
      refine ⟨a <<< b.toNat, by simp only [binAct, show b.toNat < 64 by omega, if_true], ?_⟩
      cases h
      rw [BitVec.toInt_shiftLeft, e, Nat.shiftLeft_eq]
      rw [show a.toInt = (a.toNat : Int).bmod (2 ^ 64) from BitVec.toInt_eq_toNat_bmod a, Int.bmod_mul_bmod]
      push_cast
      rfl
    · cases h
  | rightOp =>
    simp only [bopOf, BOp.apply] at h
    split at h
    · next hb =>
      have e : b.toNat = b.toInt.toNat := by rw [BitVec.toInt_eq_toNat_cond] at hb ⊢; split <;> omega
      refine ⟨a.sshiftRight b.toNat, by simp only [binAct, show b.toNat < 64 by omega, if_true], ?_⟩
      cases h
      rw [BitVec.toInt_sshiftRight, e, Int.shiftRight_eq_div_pow]; norm_cast
    · cases h
  | less => cases h; exact ⟨_, rfl, by rw [toInt_ofBool, decide_slt]⟩
  | greater => cases h; exact ⟨_, rfl, by rw [toInt_ofBool, decide_slt]⟩
  | leOp => cases h; exact ⟨_, rfl, by rw [toInt_ofBool, decide_sle]⟩
  | geOp => cases h; exact ⟨_, rfl, by rw [toInt_ofBool, decide_sle]⟩
  | eqOp =>
    cases h; refine ⟨_, rfl, ?_⟩
    rw [toInt_ofBool]
    by_cases h : a = b
    · subst h; simp
    · have : ¬ a.toInt = b.toInt := fun e => h (eq_of_toInt e)
      simp [beq_false_of_ne h, this]
  | neOp =>
    cases h; refine ⟨_, rfl, ?_⟩
    rw [toInt_ofBool]
    by_cases h : a = b
    · subst h; simp
    · have : ¬ a.toInt = b.toInt := fun e => h (eq_of_toInt e)
      simp [bne, beq_false_of_ne h, this]
  | ampersand => cases h; exact ⟨_, rfl, by unfold C.bits; rw [ofInt_toInt64, ofInt_toInt64]⟩
  | circum => cases h; exact ⟨_, rfl, by unfold C.bits; rw [ofInt_toInt64, ofInt_toInt64]⟩
  | pipe => cases h; exact ⟨_, rfl, by unfold C.bits; rw [ofInt_toInt64, ofInt_toInt64]⟩
  | andOp =>
    cases h; refine ⟨_, rfl, ?_⟩
    rw [toInt_ofBool]
    rw [bne_zero a, bne_zero b]
    simp
  | orOp =>
    cases h; refine ⟨_, rfl, ?_⟩
    rw [toInt_ofBool]
    rw [bne_zero a, bne_zero b]
    simp
  | _ => simp [opTok] at ht

theorem un_agree {t : Tok} (ht : unTok t = true) (a : Long) {r : Int} (h : (uopOf t).apply a.toInt = some r) :
    ∃ v, unAct t a = some v ∧ v.toInt = r := by
  cases t with
  | minus =>
    obtain ⟨h1, h2, h3⟩ := long_some h
    have hm : a ≠ BitVec.intMin 64 := by
      rintro rfl
      have : (BitVec.intMin 64).toInt = -2 ^ 63 := by decide
      rw [this] at h1; omega
    refine ⟨-a, by simp only [unAct, hm, if_false], ?_⟩
    rw [BitVec.toInt_neg_of_ne_intMin hm]; exact h1
  | plus => cases h; exact ⟨a, rfl, rfl⟩
  | tilde =>
    cases h
    refine ⟨~~~a, rfl, ?_⟩
    rw [BitVec.toInt_not, BitVec.toInt_eq_toNat_cond]
    have := a.isLt
    split <;> (rw [Int.bmod_def]; split <;> omega)
  | exclamation =>
    cases h
    refine ⟨_, rfl, ?_⟩
    rw [bne_zero]
    by_cases h : a.toInt = 0 <;> simp [h, truth]
  | _ => simp [unTok] at ht

/-- Truncation to 32 bits. -/
theorem sw32 (v : Long) : v.setWidth 32 = BitVec.ofInt 32 v.toInt := by
  apply BitVec.eq_of_toNat_eq
  rw [BitVec.toNat_setWidth, BitVec.toNat_ofInt, BitVec.toInt_eq_toNat_cond]
  have := v.isLt
  split <;> omega
theorem toInt_sw64 (v : Word) : (v.setWidth 64).toInt = v.toNat := by
  have := v.isLt
  rw [BitVec.toInt_eq_toNat_cond, BitVec.toNat_setWidth, Nat.mod_eq_of_lt (by omega), if_pos (by omega)]

theorem asg_agree {t : Tok} (ht : asgTok t = true) (org : Word) (v : Long) {x : Int} (h : (aopOf t).apply org.toNat v.toInt = some x) :
    asgAct t org v = some (BitVec.ofInt 32 x) := by
  have ho := toInt_sw64 org
  cases t with
  | equal => cases h; simp only [asgAct]; rw [sw32]
  | mulAsg =>
    obtain ⟨h1, h2, h3⟩ := long_some h
    have : BitVec.smulOverflow (org.setWidth 64) v = false := by
      rw [BitVec.smulOverflow]; simp only [Bool.or_eq_false_iff, decide_eq_false_iff_not]; rw [ho]; omega
    simp only [asgAct, this]
    rw [sw32, BitVec.toInt_mul_of_not_smulOverflow (by rw [this]; simp), ho, h1]; rfl
  | divAsg =>
    simp only [aopOf, AOp.apply] at h
    split at h
    · cases h
    · next hv =>
      have hv' : v ≠ 0#64 := fun e => hv (by rw [e]; rfl)
      cases h
      simp only [asgAct, hv', if_false]
      rw [sw32, BitVec.toInt_sdiv_of_ne_or_ne, ho]
      left
      intro e
      have := congrArg BitVec.toInt e
      rw [ho] at this
      have h2 : (BitVec.intMin 64).toInt = -2 ^ 63 := by decide
      rw [h2] at this; omega
  | modAsg =>
    simp only [aopOf, AOp.apply] at h
    split at h
    · cases h
    · next hv =>
      have hv' : v ≠ 0#64 := fun e => hv (by rw [e]; rfl)
      cases h
      simp only [asgAct, hv', if_false]
      rw [sw32, BitVec.toInt_srem, ho]
  | addAsg =>
    obtain ⟨h1, h2, h3⟩ := long_some h
    have : BitVec.saddOverflow (org.setWidth 64) v = false := by
      rw [BitVec.saddOverflow]; simp only [Bool.or_eq_false_iff, decide_eq_false_iff_not]; rw [ho]; omega
    simp only [asgAct, this]
    rw [sw32, BitVec.toInt_add_of_not_saddOverflow (by rw [this]; simp), ho, h1]; rfl
  | subAsg =>
    obtain ⟨h1, h2, h3⟩ := long_some h
    have : BitVec.ssubOverflow (org.setWidth 64) v = false := by
      rw [BitVec.ssubOverflow]; simp only [Bool.or_eq_false_iff, decide_eq_false_iff_not]; rw [ho]; omega
    simp only [asgAct, this]
    rw [sw32, BitVec.toInt_sub_of_not_ssubOverflow (by rw [this]; simp), ho, h1]; rfl
  | leftAsg =>
    simp only [aopOf, AOp.apply] at h
    split at h
    · next hb =>
      have e : v.toNat = v.toInt.toNat := by rw [BitVec.toInt_eq_toNat_cond] at hb ⊢; split <;> omega
      cases h
      simp only [asgAct, show v.toNat < 32 by omega, if_true]
      congr 1
      apply BitVec.eq_of_toNat_eq
      rw [BitVec.toNat_shiftLeft, BitVec.toNat_ofInt, Nat.shiftLeft_eq, e]
      norm_cast
    · cases h
  | rightAsg =>
    simp only [aopOf, AOp.apply] at h
    split at h
    · next hb =>
      have e : v.toNat = v.toInt.toNat := by rw [BitVec.toInt_eq_toNat_cond] at hb ⊢; split <;> omega
      cases h
      simp only [asgAct, show v.toNat < 32 by omega, if_true]
      congr 1
      apply BitVec.eq_of_toNat_eq
      rw [BitVec.toNat_ushiftRight, BitVec.toNat_ofInt, Nat.shiftRight_eq_div_pow, e]
      have hl : org.toNat / 2 ^ v.toInt.toNat < 2 ^ 32 := Nat.lt_of_le_of_lt (Nat.div_le_self _ _) org.isLt
      have hc : ((org.toNat : Int) / 2 ^ v.toInt.toNat) = ((org.toNat / 2 ^ v.toInt.toNat : Nat) : Int) := by norm_cast
      rw [hc]
      generalize org.toNat / 2 ^ v.toInt.toNat = z at *
      omega
    · cases h
  | andAsg => cases h; simp only [asgAct]; rw [sw32]; unfold C.bits; rw [ofInt_toInt64, ← ho, ofInt_toInt64]
  | xorAsg => cases h; simp only [asgAct]; rw [sw32]; unfold C.bits; rw [ofInt_toInt64, ← ho, ofInt_toInt64]
  | orAsg => cases h; simp only [asgAct]; rw [sw32]; unfold C.bits; rw [ofInt_toInt64, ← ho, ofInt_toInt64]
  | _ => simp [asgTok] at ht

/-! ### Bit fields -/

theorem mask_fold (lo hi : Int) (n : Nat) (hn : n ≤ 32) (i : Nat) :
    ((List.range n).foldl (fun (m : Word) (i : Nat) => if lo ≤ (i : Int) ∧ (i : Int) ≤ hi then m ||| (1#32 <<< i) else m) 0#32).getLsbD i =
      decide (i < n ∧ lo ≤ (i : Int) ∧ (i : Int) ≤ hi) := by
  induction n with
  | zero => simp
  | succ n ih =>
    rw [List.range_succ, List.foldl_append]
    simp only [List.foldl_cons, List.foldl_nil]
    have hb : ∀ j : Nat, (1#32 <<< n).getLsbD j = decide (j = n) := by
      intro j
      rw [BitVec.getLsbD_shiftLeft]
      by_cases h1 : j = n
      · subst h1; simp; omega
      · simp [h1]; intros; omega
    split
    · rw [BitVec.getLsbD_or, ih (by omega), hb]
      by_cases h1 : i = n
      · subst h1; simp; omega
      · simp only [h1, decide_false, Bool.or_false]
        congr 1
        apply propext
        omega
    · rw [ih (by omega)]
      congr 1
      apply propext
      omega

theorem maskOf_get {lo hi : Nat} (h : lo ≤ hi) (h' : hi < 32) : ∃ m, maskOf lo hi = some m ∧ ∀ i, m.getLsbD i = decide (lo ≤ i ∧ i ≤ hi) := by
  refine ⟨_, by unfold maskOf; rw [if_neg (by omega), if_pos (by omega)], fun i => ?_⟩
  rw [mask_fold _ _ 32 (by omega)]
  congr 1
  apply propext
  omega

theorem field_read (v m : Word) {lo hi : Nat} (h : lo ≤ hi) (h' : hi < 32) (hm : ∀ i, m.getLsbD i = decide (lo ≤ i ∧ i ≤ hi)) :
    ((v &&& m) >>> lo).toNat = fieldOf v.toNat lo hi := by
  apply Nat.eq_of_testBit_eq
  intro i
  have e : (((v &&& m) >>> lo).toNat.testBit i) = ((v &&& m) >>> lo).getLsbD i := rfl
  rw [e, BitVec.getLsbD_ushiftRight, BitVec.getLsbD_and, hm]
  unfold fieldOf
  rw [Nat.testBit_mod_two_pow, Nat.testBit_div_two_pow, Nat.add_comm lo i]
  show (v.toNat.testBit (i + lo) && _) = _
  rw [Bool.and_comm]
  congr 1
  simp
  omega

theorem rangeRef_ok {p : Place} {x y : Long} {r : Place × Nat × Nat} (h : mkField p x.toInt y.toInt = some r) (q : Nat × Word) :
    ∃ lo hi : Nat, r = (p, lo, hi) ∧ lo ≤ hi ∧ hi < 32 ∧ bitRangeRef q x y = ⟨q, lo, hi⟩ := by
  unfold mkField at h
  split at h
  · next hr =>
    cases h
    refine ⟨_, _, rfl, by omega, by omega, ?_⟩
    have e : ∀ v : Long, 0 ≤ v.toInt → v.toInt < 32 → toInt32 v = v.toInt := by
      intro v h1 h2
      unfold toInt32
      rw [sw32, BitVec.toInt_ofInt]
      rw [Int.bmod_def]; split <;> omega
    unfold bitRangeRef
    rw [decide_slt]
    split
    · next hlt => simp only [decide_eq_true_eq] at hlt; rw [e x (by omega) (by omega), e y (by omega) (by omega)]; congr 1 <;> omega
    · next hlt => simp only [decide_eq_true_eq] at hlt; rw [e x (by omega) (by omega), e y (by omega) (by omega)]; congr 1 <;> omega
  · cases h

theorem dotRef_ok {p : Place} {x : Long} {r : Place × Nat × Nat} (h : mkField p x.toInt x.toInt = some r) (q : Nat × Word) :
    ∃ lo hi : Nat, r = (p, lo, hi) ∧ lo ≤ hi ∧ hi < 32 ∧ bitDotRef q x = ⟨q, lo, hi⟩ := by
  obtain ⟨lo, hi, h1, h2, h3, h4⟩ := rangeRef_ok h q
  refine ⟨lo, hi, h1, h2, h3, ?_⟩
  rw [← h4]
  unfold bitRangeRef bitDotRef
  split <;> rfl

/-! ### Sign extension -/

theorem ones_low : ∀ k : Fin 32, (1#64 <<< k.val) - 1#64 = BitVec.ofNat 64 (2 ^ k.val - 1) := by decide +kernel

theorem cast_agree (v : Word) (n : Nat) (h1 : 1 ≤ n) (h2 : n ≤ 32) (hv : v.toNat < 2 ^ n) :
    (if (v.setWidth 64 : Long) &&& (1#64 <<< (n - 1)) != 0#64 then (v.setWidth 64 : Long) ||| ~~~((1#64 <<< (n - 1)) - 1#64) else (v.setWidth 64 : Long)).toInt
      = signed n v.toNat := by
  obtain ⟨k, rfl⟩ : ∃ k, n = k + 1 := ⟨n - 1, by omega⟩
  have hb : ((v.setWidth 64 : Long) &&& (1#64 <<< (k + 1 - 1)) != 0#64) = v.toNat.testBit k := by
    rw [Nat.add_sub_cancel]
    have e : ∀ i, ((v.setWidth 64 : Long) &&& (1#64 <<< k)).getLsbD i = (decide (i = k) && v.toNat.testBit k) := by
      intro i
      rw [BitVec.getLsbD_and, BitVec.getLsbD_setWidth, BitVec.getLsbD_shiftLeft]
      by_cases hi : i = k
      · subst hi
        have : i < 64 := by omega
        simp [this]; rfl
      · simp [hi]
        intros
        omega
    cases hk : v.toNat.testBit k with
    | false =>
      have : (v.setWidth 64 : Long) &&& (1#64 <<< k) = 0#64 := by
        apply BitVec.eq_of_getLsbD_eq; intro i _; rw [e, hk]; simp
      rw [this]; rfl
    | true =>
      have : (v.setWidth 64 : Long) &&& (1#64 <<< k) ≠ 0#64 := by
        intro h; have := congrArg (·.getLsbD k) h; simp only [e, hk] at this; simp at this
      simp [bne, beq_false_of_ne this]
  rw [hb]
  unfold signed
  have hlt : v.toNat.testBit k = decide (2 ^ k ≤ v.toNat) := by
    rw [Nat.testBit_eq_decide_div_mod_eq]
    by_cases h : 2 ^ k ≤ v.toNat
    · have h3 : v.toNat / 2 ^ k = 1 := Nat.div_eq_of_lt_le (by omega) (by rw [Nat.pow_succ] at hv; omega)
      simp [h3, h]
    · rw [Nat.div_eq_of_lt (by omega)]; simp [h]
  rw [hlt, Nat.add_sub_cancel]
  by_cases h : 2 ^ k ≤ v.toNat
  · rw [if_pos (by simpa using h), if_neg (by omega)]
    have key : (v.setWidth 64 : Long) ||| ~~~((1#64 <<< k) - 1#64) = BitVec.ofNat 64 (2 ^ (k + 1) * (2 ^ (64 - (k + 1)) - 1) + v.toNat) := by
      rw [ones_low ⟨k, by omega⟩]
      apply BitVec.eq_of_getLsbD_eq
      intro i hi
      rw [BitVec.getLsbD_or, BitVec.getLsbD_setWidth, BitVec.getLsbD_not, BitVec.getLsbD_ofNat, BitVec.getLsbD_ofNat,
        Nat.testBit_two_pow_sub_one, Nat.testBit_two_pow_mul_add _ hv, Nat.testBit_two_pow_sub_one]
      show (_ && v.toNat.testBit i || _) = _
      by_cases h3 : i < k + 1
      · by_cases h4 : i = k
        · subst h4; simp [hi, hlt, h]
        · have : i < k := by omega
          simp [hi, this, h3]
      · have h4 : ¬ i < k := by omega
        simp [hi, h3, h4]; omega
    rw [key, BitVec.toInt_eq_toNat_cond, BitVec.toNat_ofNat]
    have h3 : 2 ^ (k + 1) * (2 ^ (64 - (k + 1)) - 1) = 2 ^ 64 - 2 ^ (k + 1) := by
      rw [Nat.mul_sub, ← Nat.pow_add, Nat.mul_one, show k + 1 + (64 - (k + 1)) = 64 by omega]
    have h4 : 2 ^ (k + 1) ≤ 2 ^ 32 := Nat.pow_le_pow_right (by omega) h2
    have h5 : 0 < 2 ^ (k + 1) := Nat.two_pow_pos _
    rw [h3]
    have h6 : ((2 : Int) ^ (k + 1)) = ((2 ^ (k + 1) : Nat) : Int) := by norm_cast
    rw [h6]
    have h7 : 2 * 2 ^ k = 2 ^ (k + 1) := by rw [Nat.pow_succ]; omega
    generalize 2 ^ (k + 1) = z at *
    generalize 2 ^ k = y at *
    rw [Nat.mod_eq_of_lt (by omega)]
    split <;> omega
  · rw [if_neg (by simpa using h), if_pos (by omega)]
    exact toInt_sw64 v

end Ucsim.Expr
