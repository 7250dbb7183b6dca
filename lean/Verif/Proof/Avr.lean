import Verif.Spec.AvrDiff
/- Arithmetic of the AVR: the flags of the simulator are those of the manual. -/
namespace Ucsim.Avr

open Isa (setBit)

/-! ### Bits -/

theorem mask_bit (i n : Nat) : (2 ^ i &&& n != 0) = n.testBit i := by
  have h : 2 ^ i &&& n = (n.testBit i).toNat * 2 ^ i := by
    apply Nat.eq_of_testBit_eq
    intro j
    rw [Nat.testBit_and, Nat.testBit_two_pow]
    by_cases e : i = j
    · subst e; cases n.testBit i <;> simp
    · cases n.testBit i <;> simp [e, Nat.testBit_two_pow]
  rw [h]
  cases n.testBit i <;> simp

theorem mask_bit' (i n : Nat) : (n &&& 2 ^ i != 0) = n.testBit i := by rw [Nat.and_comm, mask_bit]

theorem testBit_nat (n i : Nat) : n.testBit i = decide (n / 2 ^ i % 2 = 1) := Nat.testBit_eq_decide_div_mod_eq

theorem not32_bit (n i : Nat) (h : i < 32) : (not32 n).testBit i = !n.testBit i := by
  unfold not32
  rw [Nat.testBit_xor, show (0xffffffff : Nat) = 2 ^ 32 - 1 from rfl, Nat.testBit_two_pow_sub_one]
  simp [h]

theorem ext_bit (i : Nat) (h : i < 8) : (0xffffff00 : Nat).testBit i = false := by
  have : i = 0 ∨ i = 1 ∨ i = 2 ∨ i = 3 ∨ i = 4 ∨ i = 5 ∨ i = 6 ∨ i = 7 := by omega
  rcases this with h | h | h | h | h | h | h | h <;> subst h <;> decide

theorem sx_bit (n i : Nat) (h : i < 8) : (sx n).testBit i = n.testBit i := by
  unfold sx
  split
  · rw [Nat.testBit_or, ext_bit i h, Bool.or_false]
  · rfl

theorem toInt_cond (r : Byte) : r.toInt = if r.toNat < 128 then (r.toNat : Int) else r.toNat - 256 := by
  rw [BitVec.toInt_eq_toNat_cond]
  have := r.isLt
  split <;> split <;> omega

/-- The sign extension as a number modulo 2^32. -/
theorem sx_val : ∀ x : Byte, sx x.toNat = if x.toNat < 128 then x.toNat else 0xffffff00 + x.toNat := by decide +kernel

theorem borrow_bit (i D K r : Nat) (h : i < 8) :
    borrow (2 ^ i) (sx D) (sx K) r =
      ((!decide (D / 2 ^ i % 2 = 1) && decide (K / 2 ^ i % 2 = 1)) || (decide (K / 2 ^ i % 2 = 1) && decide (r / 2 ^ i % 2 = 1)) ||
        (decide (r / 2 ^ i % 2 = 1) && !decide (D / 2 ^ i % 2 = 1))) := by
  unfold borrow
  rw [mask_bit, Nat.testBit_or, Nat.testBit_or, Nat.testBit_and, Nat.testBit_and, Nat.testBit_and,
    not32_bit _ _ (by omega), sx_bit _ _ h, sx_bit _ _ h, testBit_nat, testBit_nat, testBit_nat]

theorem subV_bit (D K r : Nat) :
    subV (sx D) (sx K) r =
      ((decide (D / 128 % 2 = 1) && !decide (K / 128 % 2 = 1) && !decide (r / 128 % 2 = 1)) ||
        (!decide (D / 128 % 2 = 1) && decide (K / 128 % 2 = 1) && decide (r / 128 % 2 = 1))) := by
  unfold subV
  rw [show (0x80 : Nat) = 2 ^ 7 from rfl, mask_bit, Nat.testBit_or, Nat.testBit_and, Nat.testBit_and, Nat.testBit_and, Nat.testBit_and,
    not32_bit _ _ (by omega), not32_bit _ _ (by omega), not32_bit _ _ (by omega), sx_bit _ _ (by omega), sx_bit _ _ (by omega),
    testBit_nat, testBit_nat, testBit_nat]

/-- The borrow of bit 3. -/
theorem borrow_h (x y : Byte) (c r : Nat) (hc : c ≤ 1) (hr : (r + y.toNat + c) % 256 = x.toNat) :
    borrow 0x08 (sx x.toNat) (sx y.toNat) r = decide (x.toNat % 16 < y.toNat % 16 + c) := by
  have := x.isLt
  have := y.isLt
  have hb := borrow_bit 3 x.toNat y.toNat r (by omega)
  simp only [Nat.reducePow] at hb
  rw [hb]
  generalize x.toNat = a at *
  generalize y.toNat = b at *
  have e1 : a / 8 % 2 = 0 ∨ a / 8 % 2 = 1 := by omega
  have e2 : b / 8 % 2 = 0 ∨ b / 8 % 2 = 1 := by omega
  have e3 : r / 8 % 2 = 0 ∨ r / 8 % 2 = 1 := by omega
  rcases e1 with e1 | e1 <;> rcases e2 with e2 | e2 <;> rcases e3 with e3 | e3 <;> simp only [e1, e2, e3] <;>
    simp <;> omega

/-- The borrow of bit 7. -/
theorem borrow_c (x y : Byte) (c r : Nat) (hc : c ≤ 1) (hr : (r + y.toNat + c) % 256 = x.toNat) (h8 : r < 256) :
    borrow 0x80 (sx x.toNat) (sx y.toNat) r = decide (x.toNat < y.toNat + c) := by
  have := x.isLt
  have := y.isLt
  have hb := borrow_bit 7 x.toNat y.toNat r (by omega)
  simp only [Nat.reducePow] at hb
  rw [hb]
  generalize x.toNat = a at *
  generalize y.toNat = b at *
  have e1 : a / 128 % 2 = 0 ∨ a / 128 % 2 = 1 := by omega
  have e2 : b / 128 % 2 = 0 ∨ b / 128 % 2 = 1 := by omega
  have e3 : r / 128 % 2 = 0 ∨ r / 128 % 2 = 1 := by omega
  rcases e1 with e1 | e1 <;> rcases e2 with e2 | e2 <;> rcases e3 with e3 | e3 <;> simp only [e1, e2, e3] <;>
    simp <;> omega

theorem subV_eq (x y : Byte) (c r : Nat) (hc : c ≤ 1) (hr : (r + y.toNat + c) % 256 = x.toNat) (h8 : r < 256) :
    subV (sx x.toNat) (sx y.toNat) r = (decide (x.toInt - y.toInt - c < -128) || decide (128 ≤ x.toInt - y.toInt - c)) := by
  have := x.isLt
  have := y.isLt
  rw [subV_bit, toInt_cond, toInt_cond]
  generalize x.toNat = a at *
  generalize y.toNat = b at *
  have e1 : a / 128 % 2 = 0 ∨ a / 128 % 2 = 1 := by omega
  have e2 : b / 128 % 2 = 0 ∨ b / 128 % 2 = 1 := by omega
  have e3 : r / 128 % 2 = 0 ∨ r / 128 % 2 = 1 := by omega
  rcases e1 with e1 | e1 <;> rcases e2 with e2 | e2 <;> rcases e3 with e3 | e3 <;> simp only [e1, e2, e3] <;>
    (split <;> split <;> simp <;> omega)

/-- The sign of the exact difference. -/
theorem sub_s (x y : Byte) (c r : Nat) (hc : c ≤ 1) (hr : (r + y.toNat + c) % 256 = x.toNat) (h8 : r < 256) :
    xor (r &&& 0x80 != 0) (subV (sx x.toNat) (sx y.toNat) r) = decide (x.toInt - y.toInt - c < 0) := by
  have := x.isLt
  have := y.isLt
  have hm := mask_bit' 7 r
  rw [testBit_nat] at hm
  simp only [Nat.reducePow] at hm
  rw [subV_bit, toInt_cond, toInt_cond, hm]
  generalize x.toNat = a at *
  generalize y.toNat = b at *
  have e1 : a / 128 % 2 = 0 ∨ a / 128 % 2 = 1 := by omega
  have e2 : b / 128 % 2 = 0 ∨ b / 128 % 2 = 1 := by omega
  have e3 : r / 128 % 2 = 0 ∨ r / 128 % 2 = 1 := by omega
  rcases e1 with e1 | e1 <;> rcases e2 with e2 | e2 <;> rcases e3 with e3 | e3 <;> simp only [e1, e2, e3] <;>
    (split <;> split <;> simp <;> omega)

/-! ### SREG -/

/-- subF with the conditions as parameters -/
def subB (keep h v n z c : Bool) (p : Byte) : Byte :=
  let p := p &&& ~~~(bH ||| bS ||| bV ||| bN ||| bC)
  let p := if keep then p else p &&& ~~~bZ
  let p := if h then p ||| bH else p
  let p := if v then p ||| bV else p
  let p := if n then p ||| bN else p
  let p := if xor n v then p ||| bS else p
  let p := if keep then (if !z then p &&& ~~~bZ else p) else (if z then p ||| bZ else p)
  if c then p ||| bC else p

def bits (l : List (Nat × Bool)) (p : Byte) : Byte := l.foldl (fun p f => setBit f.1 f.2 p) p

theorem subB_eq : ∀ (keep h v n z c : Bool) (p : Byte),
    subB keep h v n z c p = bits [(5, h), (4, xor n v), (3, v), (2, n), (1, z && (!keep || p.getLsbD 1)), (0, c)] p := by
  decide +kernel

theorem and80 : ∀ v : Byte, (v.toNat &&& 0x80 != 0) = v.msb := by decide +kernel
theorem beq0 : ∀ v : Byte, (v.toNat == 0) = (v == 0#8) := by decide +kernel

/-- Subtraction with the borrow `c`: all flags. -/
theorem subF_eq (keep : Bool) (x y : Byte) (c : Nat) (hc : c ≤ 1) (p : Byte) :
    subF keep (sx x.toNat) (sx y.toNat) (x - y - BitVec.ofNat 8 c).toNat p =
      bits (Isa.subFlags (!keep || p.getLsbD 1) x y c) p := by
  have hx := x.isLt
  have hy := y.isLt
  generalize hv : x - y - BitVec.ofNat 8 c = v
  have h8 := v.isLt
  have hr : (v.toNat + y.toNat + c) % 256 = x.toNat := by
    rw [← hv, BitVec.toNat_sub, BitVec.toNat_sub, BitVec.toNat_ofNat]; omega
  have e : subF keep (sx x.toNat) (sx y.toNat) v.toNat p =
      subB keep (borrow 0x08 (sx x.toNat) (sx y.toNat) v.toNat) (subV (sx x.toNat) (sx y.toNat) v.toNat) (v.toNat &&& 0x80 != 0)
        (v.toNat == 0) (borrow 0x80 (sx x.toNat) (sx y.toNat) v.toNat) p := rfl
  rw [e, subB_eq, borrow_h x y c _ hc hr, sub_s x y c _ hc hr h8, borrow_c x y c _ hc hr h8, subV_eq x y c _ hc hr h8, and80, beq0]
  unfold Isa.subFlags
  rw [hv]

theorem subRes_eq (x y : Byte) : subRes (sx x.toNat) (sx y.toNat) = (x - y - BitVec.ofNat 8 0).toNat := by
  have hx := x.isLt
  have hy := y.isLt
  unfold subRes sub32
  rw [show (0xff : Nat) = 2 ^ 8 - 1 from rfl, Nat.and_two_pow_sub_one_eq_mod, sx_val, sx_val, BitVec.toNat_sub, BitVec.toNat_sub,
    BitVec.toNat_ofNat]
  split <;> split <;> omega

theorem carry_val : ∀ p : Byte, (p &&& bC).toNat = if p.getLsbD 0 then 1 else 0 := by decide +kernel
theorem carry_ne : ∀ p : Byte, (p &&& bC != 0#8) = p.getLsbD 0 := by decide +kernel

theorem sbcRes_eq (x y p : Byte) (h : SbcOk x y (if p.getLsbD 0 then 1 else 0)) :
    sbcRes (sx x.toNat) (sx y.toNat) p = (x - y - BitVec.ofNat 8 (if p.getLsbD 0 then 1 else 0)).toNat := by
  have hx := x.isLt
  have hy := y.isLt
  unfold sbcRes
  rw [carry_val]
  generalize hc : (if p.getLsbD 0 = true then 1 else 0) = c at *
  have hc1 : c ≤ 1 := by rw [← hc]; split <;> omega
  clear hc
  unfold SbcOk at h
  rw [toInt_cond, toInt_cond] at h
  have key : (sub32 (sub32 (sx x.toNat) (sx y.toNat)) c != 0) = decide ((if x.toNat < 128 then (x.toNat : Int) else x.toNat - 256) -
      (if y.toNat < 128 then (y.toNat : Int) else y.toNat - 256) - c ≠ 0) := by
    unfold sub32
    rw [sx_val, sx_val]
    have hb : ∀ a : Nat, (a != 0) = decide (a ≠ 0) := by intro a; cases a <;> rfl
    rw [hb, decide_eq_decide]
    split <;> split <;> omega
  rw [key]
  rcases h with h | h
  · rw [if_neg (by simpa using h)]
    rw [BitVec.toNat_sub, BitVec.toNat_sub, BitVec.toNat_ofNat]
    split at h <;> split at h <;> omega
  · have h1 : (x - y - BitVec.ofNat 8 c).toNat = 1 := by rw [h]; rfl
    rw [h1, if_pos]
    rw [BitVec.toNat_sub, BitVec.toNat_sub, BitVec.toNat_ofNat] at h1
    simp only [decide_eq_true_eq]
    split <;> split <;> omega

/-! ### Addition -/

def addB (z v n c h : Bool) (p : Byte) : Byte :=
  let p := put bZ z p
  let p := put (bV ||| bS) v p
  let p := if n then (p ||| bN) ^^^ bS else p &&& ~~~bN
  let p := put bC c p
  put bH h p

theorem addB_eq : ∀ (z v n c h : Bool) (p : Byte),
    addB z v n c h p = bits [(5, h), (4, xor n v), (3, v), (2, n), (1, z), (0, c)] p := by
  decide +kernel

theorem and_not_ff : ∀ n < 512, (n &&& not32 0xff != 0) = decide (256 ≤ n) := by decide +kernel

theorem addV_bit (D R r : Nat) :
    ((D &&& R &&& not32 r) &&& 0x80 != 0 || (not32 D &&& not32 R &&& r) &&& 0x80 != 0) =
      ((decide (D / 128 % 2 = 1) && decide (R / 128 % 2 = 1) && !decide (r / 128 % 2 = 1)) ||
        (!decide (D / 128 % 2 = 1) && !decide (R / 128 % 2 = 1) && decide (r / 128 % 2 = 1))) := by
  rw [show (0x80 : Nat) = 2 ^ 7 from rfl, mask_bit', mask_bit', Nat.testBit_and, Nat.testBit_and, Nat.testBit_and, Nat.testBit_and,
    not32_bit _ _ (by omega), not32_bit _ _ (by omega), not32_bit _ _ (by omega), testBit_nat, testBit_nat, testBit_nat]

theorem addV_eq (x y : Byte) (c r : Nat) (hc : c ≤ 1) (hr : (x.toNat + y.toNat + c) % 256 = r) :
    ((x.toNat &&& y.toNat &&& not32 r) &&& 0x80 != 0 || (not32 x.toNat &&& not32 y.toNat &&& r) &&& 0x80 != 0) =
      (decide (x.toInt + y.toInt + c < -128) || decide (128 ≤ x.toInt + y.toInt + c)) := by
  have := x.isLt
  have := y.isLt
  rw [addV_bit, toInt_cond, toInt_cond]
  generalize x.toNat = a at *
  generalize y.toNat = b at *
  have e1 : a / 128 % 2 = 0 ∨ a / 128 % 2 = 1 := by omega
  have e2 : b / 128 % 2 = 0 ∨ b / 128 % 2 = 1 := by omega
  have e3 : r / 128 % 2 = 0 ∨ r / 128 % 2 = 1 := by omega
  rcases e1 with e1 | e1 <;> rcases e2 with e2 | e2 <;> rcases e3 with e3 | e3 <;> simp only [e1, e2, e3] <;>
    (split <;> split <;> simp <;> omega)

theorem add_s (x y : Byte) (c r : Nat) (hc : c ≤ 1) (hr : (x.toNat + y.toNat + c) % 256 = r) :
    xor (r &&& 0x80 != 0) (decide (x.toInt + y.toInt + c < -128) || decide (128 ≤ x.toInt + y.toInt + c)) =
      decide (x.toInt + y.toInt + c < 0) := by
  have := x.isLt
  have := y.isLt
  have hm := mask_bit' 7 r
  rw [testBit_nat] at hm
  simp only [Nat.reducePow] at hm
  rw [← addV_eq x y c r hc hr, addV_bit, toInt_cond, toInt_cond, hm]
  generalize x.toNat = a at *
  generalize y.toNat = b at *
  have e1 : a / 128 % 2 = 0 ∨ a / 128 % 2 = 1 := by omega
  have e2 : b / 128 % 2 = 0 ∨ b / 128 % 2 = 1 := by omega
  have e3 : r / 128 % 2 = 0 ∨ r / 128 % 2 = 1 := by omega
  rcases e1 with e1 | e1 <;> rcases e2 with e2 | e2 <;> rcases e3 with e3 | e3 <;> simp only [e1, e2, e3] <;>
    (split <;> split <;> simp <;> omega)

/-- Addition with the carry `c`: all flags, unless the carry in makes the half carry. -/
theorem addF_eq (x y : Byte) (c : Nat) (hc : c ≤ 1) (hh : ¬ (c = 1 ∧ x.toNat % 16 + y.toNat % 16 = 15)) (p : Byte) :
    addF x.toNat y.toNat (x.toNat + y.toNat + c) p = bits (Isa.addFlags x y c) p := by
  have hx := x.isLt
  have hy := y.isLt
  have hv : (x.toNat + y.toNat + c) % 256 = (x + y + BitVec.ofNat 8 c).toNat := by
    rw [BitVec.toNat_add, BitVec.toNat_add, BitVec.toNat_ofNat]; omega
  have e : addF x.toNat y.toNat (x.toNat + y.toNat + c) p =
      addB ((x.toNat + y.toNat + c) &&& 0xff == 0)
        ((x.toNat &&& y.toNat &&& not32 ((x.toNat + y.toNat + c) &&& 0xff)) &&& 0x80 != 0 ||
          (not32 x.toNat &&& not32 y.toNat &&& ((x.toNat + y.toNat + c) &&& 0xff)) &&& 0x80 != 0)
        (((x.toNat + y.toNat + c) &&& 0xff) &&& 0x80 != 0) ((x.toNat + y.toNat + c) &&& not32 0xff != 0)
        (decide ((y.toNat &&& 0xf) + (x.toNat &&& 0xf) > 15)) p := rfl
  have hm : (x.toNat + y.toNat + c) &&& 0xff = (x + y + BitVec.ofNat 8 c).toNat := by
    rw [show (0xff : Nat) = 2 ^ 8 - 1 from rfl, Nat.and_two_pow_sub_one_eq_mod]; exact hv
  rw [e, addB_eq, hm, addV_eq x y c _ hc hv, add_s x y c _ hc hv, and_not_ff _ (by omega), beq0, and80]
  have hn : ∀ n : Nat, n &&& 0xf = n % 16 := by
    intro n; rw [show (0xf : Nat) = 2 ^ 4 - 1 from rfl, Nat.and_two_pow_sub_one_eq_mod]
  rw [hn, hn]
  have : decide (y.toNat % 16 + x.toNat % 16 > 15) = decide (16 ≤ x.toNat % 16 + y.toNat % 16 + c) := by
    rw [decide_eq_decide]; omega
  rw [this]
  unfold Isa.addFlags
  rfl

/-! ### One operand -/

theorem logF_eq (v p : Byte) : logF v p = bits (Isa.logFlags v) p := by
  have h : ∀ (z n : Bool) (p : Byte), put (bN ||| bS) n (put bZ z (p &&& ~~~bV)) = bits [(4, n), (3, false), (2, n), (1, z)] p := by
    decide +kernel
  have hn : ∀ v : Byte, (v &&& 0x80#8 != 0#8) = v.msb := by decide +kernel
  unfold logF Isa.logFlags
  rw [hn]
  exact h _ _ _

theorem com_val : ∀ x : Byte, not32 x.toNat &&& 0xff = (~~~x).toNat := by decide +kernel

theorem comF_eq (v p : Byte) : comF v.toNat p = bits (Isa.logFlags v ++ [(0, true)]) p := by
  have h : ∀ (z n : Bool) (p : Byte), (put (bN ||| bS) n ((put bZ z p) &&& ~~~bV)) ||| bC =
      bits [(4, n), (3, false), (2, n), (1, z), (0, true)] p := by
    decide +kernel
  unfold comF
  rw [and80, beq0]
  exact h _ _ _

theorem neg_val : ∀ x : Byte, (not32 x.toNat + 1) &&& 0xff = (-x).toNat := by decide +kernel

theorem neg_conds : ∀ x : Byte, decide ((-x).toNat > 0x80) = decide ((0#8).toInt - x.toInt - ((0 : Nat) : Int) < 0) ∧
    ((-x).toNat == 0) = (0#8 - x - BitVec.ofNat 8 0 == 0#8) ∧
    ((-x).toNat == 0x80) = (decide ((0#8).toInt - x.toInt - ((0 : Nat) : Int) < -128) || decide (128 ≤ (0#8).toInt - x.toInt - ((0 : Nat) : Int))) ∧
    ((-x).toNat &&& 0x80 != 0) = (0#8 - x - BitVec.ofNat 8 0).msb ∧
    (!((-x).toNat == 0)) = decide ((0#8).toNat < x.toNat + 0) ∧
    decide ((0#8).toNat % 16 < x.toNat % 16 + 0) = decide (x.toNat % 16 ≠ 0) := by
  decide +kernel

theorem neg_h (d : Nat) (v : Byte) : (v.toNat &&& not32 d &&& 0x08 != 0) = (v.getLsbD 3 && !d.testBit 3) := by
  refine Eq.trans (mask_bit' 3 (v.toNat &&& not32 d)) ?_
  rw [Nat.testBit_and, not32_bit _ _ (by omega)]
  rfl

theorem negF_eq (d : Nat) (x p : Byte) (h : ((-x).getLsbD 3 && !d.testBit 3) = decide (x.toNat % 16 ≠ 0)) :
    negF d (-x).toNat p = bits (Isa.subFlags true 0#8 x 0) p := by
  have key : ∀ (h s z v n : Bool) (p : Byte),
      put bN n (put bV v (if z then (put bS s (put bH h p) ||| bZ) &&& ~~~bC else (put bS s (put bH h p) &&& ~~~bZ) ||| bC)) =
      bits [(5, h), (4, s), (3, v), (2, n), (1, z && true), (0, !z)] p := by
    decide +kernel
  obtain ⟨h1, h2, h3, h4, h5, h6⟩ := neg_conds x
  unfold negF
  rw [neg_h, h]
  have := key (decide (x.toNat % 16 ≠ 0)) (decide ((-x).toNat > 0x80)) ((-x).toNat == 0) ((-x).toNat == 0x80) ((-x).toNat &&& 0x80 != 0) p
  rw [h5] at this
  refine Eq.trans this ?_
  unfold Isa.subFlags
  rw [h1, h2, h3, h4, h6]

theorem inc_val : ∀ x : Byte, BitVec.ofNat 8 (x.toNat + 1) = x + 1#8 ∧ (x.toNat + 1) &&& 0xff = (x + 1#8).toNat := by decide +kernel

theorem incF_eq (x p : Byte) : incF (x + 1#8).toNat p =
    bits [(4, decide (x.toInt + 1 < 0)), (3, x == 0x7f#8), (2, (x + 1#8).msb), (1, x + 1#8 == 0#8)] p := by
  have key : ∀ (n e z : Bool) (p : Byte), (e = true → n = true) → (z = true → n = false) →
      (if n then (if e then ((p ||| bN) ||| bV) &&& ~~~bS else ((p ||| bN) &&& ~~~bV) ||| bS) &&& ~~~bZ
        else put bZ z (p &&& ~~~(bN ||| bV ||| bS))) =
      bits [(4, n && !e), (3, e), (2, n), (1, z)] p := by
    decide +kernel
  have hc : ∀ x : Byte, ((x + 1#8).toNat &&& 0x80 != 0) = (x + 1#8).msb ∧ ((x + 1#8).toNat == 0x80) = (x == 0x7f#8) ∧
      ((x + 1#8).toNat == 0) = (x + 1#8 == 0#8) ∧ ((x + 1#8).msb && !(x == 0x7f#8)) = decide (x.toInt + 1 < 0) ∧
      ((x == 0x7f#8) = true → (x + 1#8).msb = true) ∧ ((x + 1#8 == 0#8) = true → (x + 1#8).msb = false) := by
    decide +kernel
  obtain ⟨h1, h2, h3, h4, h5, h6⟩ := hc x
  unfold incF
  rw [h1, h2, h3]
  refine Eq.trans (key _ _ _ p h5 h6) ?_
  rw [h4]

theorem dec_val : ∀ x : Byte, sub32 x.toNat 1 &&& 0xff = (x - 1#8).toNat := by decide +kernel

theorem decF_eq (x p : Byte) : decF x.toNat (x - 1#8).toNat p =
    bits [(4, decide (x.toInt - 1 < 0)), (3, x == 0x80#8), (2, (x - 1#8).msb), (1, x - 1#8 == 0#8)] p := by
  have key : ∀ (n v z : Bool) (p : Byte),
      put bS (xor n v) (put bV v (put bN n (put bZ z p))) = bits [(4, xor n v), (3, v), (2, n), (1, z)] p := by
    decide +kernel
  have hc : ∀ x : Byte, ((x - 1#8).toNat &&& 0x80 != 0) = (x - 1#8).msb ∧ (x.toNat == 0x80) = (x == 0x80#8) ∧
      ((x - 1#8).toNat == 0) = (x - 1#8 == 0#8) ∧ xor (x - 1#8).msb (x == 0x80#8) = decide (x.toInt - 1 < 0) := by
    decide +kernel
  obtain ⟨h1, h2, h3, h4⟩ := hc x
  unfold decF
  rw [h1, h2, h3]
  refine Eq.trans (key _ _ _ p) ?_
  rw [h4]

theorem shF_eq (c : Bool) (v p : Byte) : shF c v.toNat p = bits (Isa.shFlags v c) p := by
  have key : ∀ (c n z : Bool) (p : Byte),
      (let p := p &&& ~~~(bS ||| bV ||| bN ||| bZ ||| bC)
       let p := if c then p ||| bC else p
       let p := if n then p ||| bN else p
       let v := xor n c
       let p := if v then p ||| bV else p
       let p := if xor n v then p ||| bS else p
       if z then p ||| bZ else p) = bits [(4, xor n (xor n c)), (3, xor n c), (2, n), (1, z), (0, c)] p := by
    decide +kernel
  unfold shF
  rw [and80, beq0]
  exact key c v.msb (v == 0#8) p

theorem lsrF_eq (c : Bool) (v p : Byte) (hv : v.msb = false) : lsrF c v.toNat p = bits (Isa.shFlags v c) p := by
  have key : ∀ (c z : Bool) (p : Byte),
      (let p := p &&& ~~~(bS ||| bV ||| bN ||| bZ ||| bC)
       let p := if c then p ||| (bC ||| bV ||| bS) else p
       if z then p ||| bZ else p) = bits [(4, xor false (xor false c)), (3, xor false c), (2, false), (1, z), (0, c)] p := by
    decide +kernel
  unfold lsrF Isa.shFlags
  rw [beq0, hv]
  exact key c (v == 0#8) p

theorem asr_val : ∀ x : Byte, (if x.toNat >>> 1 &&& 0x40 != 0 then x.toNat >>> 1 ||| 0x80 else x.toNat >>> 1) = (x.sshiftRight 1).toNat ∧
    (x.toNat &&& 1 != 0) = x.getLsbD 0 := by decide +kernel

theorem lsr_val : ∀ x : Byte, x.toNat >>> 1 = (x >>> 1).toNat ∧ (x >>> 1).msb = false := by decide +kernel

theorem ror_val (x p : Byte) (h : ¬ 2 ≤ x.toNat) : (if x.toNat >>> 1 ||| (p &&& bC).toNat != 0 then 0x80 else 0) =
    (BitVec.ofBool (p.getLsbD 0) ++ x.extractLsb' 1 7 : Byte).toNat := by
  have e : x = 0#8 ∨ x = 1#8 := by
    have : x.toNat = 0 ∨ x.toNat = 1 := by omega
    rcases this with h | h
    · left; exact BitVec.eq_of_toNat_eq h
    · right; exact BitVec.eq_of_toNat_eq h
  rw [carry_val]
  rcases e with e | e <;> subst e <;> cases p.getLsbD 0 <;> decide

theorem swap_val : ∀ x : Byte, BitVec.ofNat 8 ((x.toNat <<< 4) ||| ((x.toNat >>> 4) &&& 0xf)) = (x.extractLsb' 0 4 ++ x.extractLsb' 4 4 : Byte) := by
  decide +kernel

/-! ### Words -/

theorem toInt_cond16 (r : Word) : r.toInt = if r.toNat < 32768 then (r.toNat : Int) else r.toNat - 65536 := by
  rw [BitVec.toInt_eq_toNat_cond]
  have := r.isLt
  split <;> split <;> omega

theorem msb16 (v : Word) : v.msb = decide (32768 ≤ v.toNat) := by
  rw [BitVec.msb_eq_decide]

theorem beq16 (v : Word) : (v.toNat == 0) = (v == 0#16) := by
  rw [Bool.eq_iff_iff, beq_iff_eq, beq_iff_eq]
  exact ⟨fun h => BitVec.eq_of_toNat_eq h, fun h => by rw [h]; rfl⟩

theorem and8000 (n : Nat) : (n &&& 0x8000 != 0) = decide (n / 32768 % 2 = 1) := by
  have := mask_bit' 15 n
  rw [testBit_nat] at this
  exact this

theorem and_ffff (n : Nat) : n &&& 0xffff = n % 65536 := by
  rw [show (0xffff : Nat) = 2 ^ 16 - 1 from rfl, Nat.and_two_pow_sub_one_eq_mod]

theorem adiwF_eq (w : Word) (K : Nat) (hK : K < 64) (h : (w + BitVec.ofNat 16 K).msb = false) (p : Byte) :
    adiwF w.toNat (w + BitVec.ofNat 16 K).toNat p =
      bits [(4, decide (w.toInt + K < 0)), (3, decide (32768 ≤ w.toInt + K)), (2, (w + BitVec.ofNat 16 K).msb),
        (1, w + BitVec.ofNat 16 K == 0#16), (0, decide (65536 ≤ w.toNat + K))] p := by
  have key : ∀ (z v n c : Bool) (p : Byte), put bC c (if n then (put (bV ||| bS) v (put bZ z p) ||| bN) ^^^ bS else
      put (bV ||| bS) v (put bZ z p) &&& ~~~bN) = bits [(4, xor n v), (3, v), (2, n), (1, z), (0, c)] p := by
    decide +kernel
  have hw := w.isLt
  have hv : (w + BitVec.ofNat 16 K).toNat = (w.toNat + K) % 65536 := by
    rw [BitVec.toNat_add, BitVec.toNat_ofNat]; omega
  have hm : ¬ 32768 ≤ (w.toNat + K) % 65536 := by
    rw [msb16, hv] at h; simpa using h
  unfold adiwF
  rw [h, beq16]
  have h1 : (w.toNat &&& (w + BitVec.ofNat 16 K).toNat &&& 0x8000 != 0) = false := by
    have := mask_bit' 15 (w.toNat &&& (w + BitVec.ofNat 16 K).toNat)
    rw [Nat.testBit_and, testBit_nat, testBit_nat, hv] at this
    rw [hv]
    refine Eq.trans this ?_
    simp only [Nat.reducePow, Bool.and_eq_false_imp, decide_eq_true_eq, decide_eq_false_iff_not]
    omega
  have h2 : ((w + BitVec.ofNat 16 K).toNat &&& 0x8000 != 0) = false := by
    rw [and8000, hv]; simp only [decide_eq_false_iff_not]; omega
  have h3 : (not32 (w + BitVec.ofNat 16 K).toNat &&& w.toNat &&& 0x8000 != 0) = decide (65536 ≤ w.toNat + K) := by
    have := mask_bit' 15 (not32 (w + BitVec.ofNat 16 K).toNat &&& w.toNat)
    rw [Nat.testBit_and, not32_bit _ _ (by omega), testBit_nat, testBit_nat, hv] at this
    rw [hv]
    refine Eq.trans this ?_
    rw [Bool.eq_iff_iff]
    simp only [Nat.reducePow, Bool.and_eq_true, Bool.not_eq_true', decide_eq_false_iff_not, decide_eq_true_eq]
    omega
  rw [h1, h2, h3]
  refine Eq.trans (key _ _ _ _ p) ?_
  rw [toInt_cond16]
  have h4 : decide ((if w.toNat < 32768 then (w.toNat : Int) else w.toNat - 65536) + K < 0) = false := by
    simp only [decide_eq_false_iff_not]; split <;> omega
  have h5 : decide (32768 ≤ (if w.toNat < 32768 then (w.toNat : Int) else w.toNat - 65536) + K) = false := by
    simp only [decide_eq_false_iff_not]; split <;> omega
  rw [h4, h5]
  rfl

/-- The sign extension of SBIW. -/
def sx16 (n : Nat) : Nat := if n &&& 0x8000 != 0 then n ||| 0xffff0000 else n

theorem sx16_val (w : Word) : sx16 w.toNat = if w.toNat < 32768 then w.toNat else 0xffff0000 + w.toNat := by
  have hw := w.isLt
  unfold sx16
  rw [and8000]
  by_cases h : w.toNat < 32768
  · rw [if_neg, if_pos h]; simp only [decide_eq_true_eq]; omega
  · rw [if_pos, if_neg h]
    · rw [Nat.or_comm, show (0xffff0000 : Nat) = 0xffff <<< 16 from rfl, ← Nat.shiftLeft_add_eq_or_of_lt (i := 16) (by omega)]
    · simp only [decide_eq_true_eq]; omega

theorem sbiw_val (w : Word) (K : Nat) (hK : K < 32) : sub32 (sx16 w.toNat) K &&& 0xffff = (w - BitVec.ofNat 16 K).toNat := by
  have hw := w.isLt
  rw [and_ffff, sx16_val, BitVec.toNat_sub, BitVec.toNat_ofNat]
  unfold sub32
  split <;> omega

theorem sx16_bit (w : Word) : (sx16 w.toNat).testBit 15 = decide (w.toNat / 32768 % 2 = 1) := by
  have hw := w.isLt
  rw [testBit_nat, sx16_val]
  simp only [Nat.reducePow]
  rw [decide_eq_decide]
  split <;> omega

theorem sbiwF_eq (w : Word) (K : Nat) (hK : K < 32) (p : Byte) :
    sbiwF (sx16 w.toNat) (w - BitVec.ofNat 16 K).toNat p =
      bits [(4, decide (w.toInt - K < 0)), (3, decide (w.toInt - K < -32768)), (2, (w - BitVec.ofNat 16 K).msb),
        (1, w - BitVec.ofNat 16 K == 0#16), (0, decide (w.toNat < K))] p := by
  have key : ∀ (z v n c : Bool) (p : Byte),
      (let p := p &&& ~~~(bS ||| bV ||| bN ||| bZ ||| bC)
       let p := if v then p ||| bV else p
       let p := if n then p ||| bN else p
       let p := if xor n v then p ||| bS else p
       let p := if z then p ||| bZ else p
       if c then p ||| bC else p) = bits [(4, xor n v), (3, v), (2, n), (1, z), (0, c)] p := by
    decide +kernel
  have hw := w.isLt
  have hv : (w - BitVec.ofNat 16 K).toNat = (w.toNat + 65536 - K) % 65536 := by
    rw [BitVec.toNat_sub, BitVec.toNat_ofNat]; omega
  have h1 : (0x8000 &&& sx16 w.toNat &&& not32 (w - BitVec.ofNat 16 K).toNat != 0) = decide (w.toInt - K < -32768) := by
    have := mask_bit 15 (sx16 w.toNat &&& not32 (w - BitVec.ofNat 16 K).toNat)
    rw [Nat.testBit_and, sx16_bit, not32_bit _ _ (by omega), testBit_nat, hv, ← Nat.and_assoc] at this
    refine Eq.trans ?_ (Eq.trans this ?_)
    · rw [hv]
    · rw [toInt_cond16, Bool.eq_iff_iff]
      simp only [Nat.reducePow, Bool.and_eq_true, Bool.not_eq_true', decide_eq_false_iff_not, decide_eq_true_eq]
      split <;> omega
  have h2 : ((w - BitVec.ofNat 16 K).toNat &&& 0x8000 != 0) = (w - BitVec.ofNat 16 K).msb := by
    rw [and8000, msb16, decide_eq_decide, hv]; omega
  have h3 : (0x8000 &&& (w - BitVec.ofNat 16 K).toNat &&& not32 (sx16 w.toNat) != 0) = decide (w.toNat < K) := by
    have := mask_bit 15 ((w - BitVec.ofNat 16 K).toNat &&& not32 (sx16 w.toNat))
    rw [Nat.testBit_and, not32_bit _ _ (by omega), sx16_bit, testBit_nat, hv, ← Nat.and_assoc] at this
    refine Eq.trans ?_ (Eq.trans this ?_)
    · rw [hv]
    · rw [Bool.eq_iff_iff]
      simp only [Nat.reducePow, Bool.and_eq_true, Bool.not_eq_true', decide_eq_false_iff_not, decide_eq_true_eq]
      omega
  unfold sbiwF
  rw [h1, h2, h3, beq16]
  refine Eq.trans (key _ _ _ _ p) ?_
  have h4 : xor (w - BitVec.ofNat 16 K).msb (decide (w.toInt - K < -32768)) = decide (w.toInt - K < 0) := by
    rw [msb16, hv, toInt_cond16]
    by_cases e : w.toNat < 32768
    · rw [if_pos e]
      have : decide ((w.toNat : Int) - K < -32768) = false := by simp only [decide_eq_false_iff_not]; omega
      rw [this, Bool.xor_false, decide_eq_decide]; omega
    · rw [if_neg e]
      have e2 : decide ((w.toNat : Int) - 65536 - K < 0) = true := by simp only [decide_eq_true_eq]; omega
      rw [e2]
      by_cases e3 : 32768 ≤ (w.toNat + 65536 - K) % 65536
      · have : decide ((w.toNat : Int) - 65536 - K < -32768) = false := by simp only [decide_eq_false_iff_not]; omega
        rw [this]; simp only [e3]; rfl
      · have : decide ((w.toNat : Int) - 65536 - K < -32768) = true := by simp only [decide_eq_true_eq]; omega
        rw [this]; simp only [e3]; rfl
  rw [h4]

end Ucsim.Avr
