import Verif.Proof.S51Pc
import Verif.Spec.S51

namespace Ucsim.S51
open Spec

variable {H : Type} (P : Hw H)

theorem bitsNe (p m : Byte) : ((p &&& m) != 0#8) = decide (p &&& m ≠ 0#8) := by
  by_cases h : p &&& m = 0#8 <;> simp [h]

theorem parity_ok : ∀ v : Byte, parityMask v = if oddOnes v then 1#8 else 0#8 := by decide +kernel

theorem mask80 : ∀ p : Byte, ((p &&& 0x80#8) != 0#8) = p.getLsbD 7 := by decide +kernel
theorem mask40 : ∀ p : Byte, ((p &&& 0x40#8) != 0#8) = p.getLsbD 6 := by decide +kernel

/-- The flag byte after an addition. -/
def addPsw (p r : Byte) (cy ov ac : Bool) : Byte :=
  putBits (putBits (putBits ((p &&& ~~~(1#8)) ||| parityMask r) 0x80#8 cy) 0x04#8 ov) 0x40#8 ac

theorem addPsw_bits (p r : Byte) (cy ov ac : Bool) :
    (addPsw p r cy ov ac).getLsbD 7 = cy ∧ (addPsw p r cy ov ac).getLsbD 6 = ac ∧
    (addPsw p r cy ov ac).getLsbD 5 = p.getLsbD 5 ∧ (addPsw p r cy ov ac).getLsbD 4 = p.getLsbD 4 ∧
    (addPsw p r cy ov ac).getLsbD 3 = p.getLsbD 3 ∧ (addPsw p r cy ov ac).getLsbD 2 = ov ∧
    (addPsw p r cy ov ac).getLsbD 1 = p.getLsbD 1 ∧ (addPsw p r cy ov ac).getLsbD 0 = oddOnes r := by
  unfold addPsw; rw [parity_ok]
  generalize oddOnes r = o
  revert p cy ov ac o
  decide +kernel

theorem and80 : ∀ t < 256, t &&& 0x80 = if 128 ≤ t then 0x80 else 0 := by decide +kernel
theorem andf0 : ∀ t < 32, ((t &&& 0xf0) != 0) = decide (16 ≤ t) := by decide +kernel

theorem bitMaskCY : bitMask CYbit = 0x80#8 := by decide
theorem maskCY : (CYbit &&& 0xf8#8).toNat = PSW := by decide
theorem CYge : ¬ (CYbit.toNat < 0x80) := by decide

/-- What the addition part of ADD and ADDC does. -/
theorem addBody_eq (a d : Byte) (c : Nat) (hc : c ≤ 1) (s : St H) :
    (addBody P a d c s).2 = { s with
      sfr := fun x => if x = ACC then byte (a.toNat + d.toNat + c)
        else if x = PSW then
          addPsw (s.sfr PSW) (byte (a.toNat + d.toNat + c)) (decide (256 ≤ a.toNat + d.toNat + c))
            (overflow (a.toInt + d.toInt + c)) (decide (16 ≤ a.toNat % 16 + d.toNat % 16 + c))
        else s.sfr x } := by
  have ha := a.isLt
  have hd := d.isLt
  have e1 : a.toNat &&& 15 = a.toNat % 16 := Nat.and_two_pow_sub_one_eq_mod _ 4
  have e2 : d.toNat &&& 15 = d.toNat % 16 := Nat.and_two_pow_sub_one_eq_mod _ 4
  have e3 : a.toNat &&& 127 = a.toNat % 128 := Nat.and_two_pow_sub_one_eq_mod _ 7
  have e4 : d.toNat &&& 127 = d.toNat % 128 := Nat.and_two_pow_sub_one_eq_mod _ 7
  have hA : ((((a.toNat &&& 15) + (d.toNat &&& 15) + c) &&& 240) != 0)
      = decide (16 ≤ a.toNat % 16 + d.toNat % 16 + c) := by
    rw [e1, e2]; exact andf0 _ (by omega)
  have hO : (((if a.toNat + d.toNat + c > 255 then 128 else 0) ^^^
      (((a.toNat &&& 127) + (d.toNat &&& 127) + c) &&& 128)) != 0) = overflow (a.toInt + d.toInt + c) := by
    rw [e3, e4, and80 _ (by omega)]
    simp only [overflow, BitVec.toInt_eq_toNat_cond]
    by_cases h1 : a.toNat + d.toNat + c > 255 <;> by_cases h2 : 128 ≤ a.toNat % 128 + d.toNat % 128 + c <;>
      by_cases h3 : 2 * a.toNat < 2 ^ 8 <;> by_cases h4 : 2 * d.toNat < 2 ^ 8 <;>
      simp only [h1, h2, h3, h4, if_true, if_false] <;> simp <;> omega
  have hC : ((if a.toNat + d.toNat + c > 255 then 128 else 0) != 0) = decide (256 ≤ a.toNat + d.toNat + c) := by
    by_cases h1 : a.toNat + d.toNat + c > 255
    · rw [if_pos h1]; simp; omega
    · rw [if_neg h1]; simp; omega
  simp only [addBody, bind_def, bitSet, CYge, if_false, maskCY, bitMaskCY, sfrSetBit, sfrGet, sfrSet, sfrWrite,
    accWrite, if_true, hA, hO, hC]
  congr 1
  funext x
  by_cases hx : x = ACC
  · subst hx; simp [upd, ACC, PSW]
  · by_cases hy : x = PSW
    · subst hy; simp [upd, ACC, PSW, addPsw]
    · simp [upd, hx, hy]

end Ucsim.S51
