import Verif.Proof.S51Br

/- Stack operations. -/
namespace Ucsim.S51
open Spec

variable {H : Type} (P : Hw H)

theorem byte_toNat (n : Nat) : (byte n).toNat = n % 256 := by simp [byte]

theorem sfrRead_SP (s : St H) : sfrRead P SP false s = (s.sfr SP, s) := by
  simp [sfrRead, SP, isCore]

theorem sfrWrite_SP (v : Byte) (s : St H) : sfrWrite P SP v s = (v, { s with sfr := upd s.sfr SP v }) := by
  simp [sfrWrite, SP, ACC, PSW, isCore]

theorem pushByte_eq (v : Byte) (s : St H) (h : (sp s + 1) % 256 < P.iramSize) :
    (pushByte P v s).2 = { s with sfr := upd s.sfr SP (s.sfr SP + 1#8), iram := upd s.iram ((sp s + 1) % 256) v } := by
  have e : (s.sfr SP + 1#8).toNat = (sp s + 1) % 256 := by simp [sp, SP]
  simp only [pushByte, bind_def, sfrRead_SP, sfrWrite_SP, iramWrite, e, if_pos h]

theorem popByte_eq (s : St H) (h : sp s < P.iramSize) :
    popByte P s = (s.iram (sp s), { s with sfr := upd s.sfr SP (s.sfr SP - 1#8) }) := by
  have e : (s.sfr SP).toNat = sp s := rfl
  simp only [popByte, bind_def, sfrRead_SP, sfrWrite_SP, iramRead, e, if_pos h, pure_def]

theorem addr11_eq (pc : Nat) (hp : pc < 0x10000) (c l : Byte) :
    addr11 pc c l = pc / 2048 * 2048 + c.toNat / 32 * 256 + l.toNat := by
  have hc := c.isLt
  have hl := l.isLt
  have e1 : pc &&& 0xf800 = pc / 2048 * 2048 := by
    rw [show (0xf800 : Nat) = (2 ^ 5 - 1) * 2 ^ 11 by decide]
    have h2 : pc / 2 ^ 11 &&& (2 ^ 5 - 1) = pc / 2 ^ 11 % 2 ^ 5 := Nat.and_two_pow_sub_one_eq_mod _ 5
    apply Nat.eq_of_testBit_eq
    intro i
    rw [Nat.testBit_and]
    by_cases hi : i < 11
    · rw [show (2048 : Nat) = 2 ^ 11 by decide, Nat.testBit_mul_two_pow, Nat.testBit_mul_two_pow]
      simp [Nat.not_le.mpr hi]
    · rw [show (2048 : Nat) = 2 ^ 11 by decide, Nat.testBit_mul_two_pow, Nat.testBit_mul_two_pow]
      have hi' : 11 ≤ i := by omega
      simp only [hi', decide_true, Bool.true_and]
      rw [Nat.testBit_div_two_pow, Nat.testBit_two_pow_sub_one]
      by_cases h16 : i < 16
      · have : i - 11 < 5 := by omega
        simp [this, show i - 11 + 11 = i by omega]
      · have : pc.testBit i = false := Nat.testBit_lt_two_pow (Nat.lt_of_lt_of_le hp (by
          rw [show (0x10000 : Nat) = 2 ^ 16 by decide]; exact Nat.pow_le_pow_right (by decide) (by omega)))
        simp [this, show i - 11 + 11 = i by omega]
  have e2 : (c.toNat >>> 5) &&& 7 = c.toNat / 32 := by
    rw [Nat.shiftRight_eq_div_pow]
    have := Nat.and_two_pow_sub_one_eq_mod (c.toNat / 2 ^ 5) 3
    rw [show (7 : Nat) = 2 ^ 3 - 1 by decide, this]; omega
  unfold addr11
  rw [e1, e2]
  have h := Nat.two_pow_add_eq_or_of_lt (i := 11) (b := c.toNat / 32 * 256 + l.toNat) (by omega) (pc / 2048)
  rw [show pc / 2048 * 2048 = 2 ^ 11 * (pc / 2048) by omega, ← h]; omega

end Ucsim.S51
