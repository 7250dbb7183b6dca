import Verif.Proof.S51Br
import Verif.S51.Demo

/- 8051 register banks and bit space: C39. -/
namespace Ucsim.S51
open Spec

variable {H : Type} (P : Hw H)

theorem act_bk (a : Act) (s : St H) (h : BankOk s) : BankOk (act P s a) := by
  cases a
  · exact doInst_bk P s h
  · exact sfrWrite_bk P _ _ s h
  · exact bitWrite_bk P _ _ s h
  · exact iramWrite_bk P _ _ s h

theorem play_bk (l : List Act) (s : St H) (h : BankOk s) : BankOk (play P s l) := by
  unfold play
  induction l generalizing s with
  | nil => exact h
  | cons a r ih => exact ih _ (act_bk P a s h)

theorem sfrWrite_ACC_A (v : Byte) (s : St H) : A (sfrWrite P ACC v s).2 = v := by
  simp [sfrWrite, accWrite, A, upd, ACC]

/-- C39: after any history from a state in which the banks agree (as after reset: PSW
and bank are 0), reading Rn gives the byte of internal memory that RS1 and RS0 of the
PSW select now. -/
theorem c39_reg_read (s0 : St H) (h0 : s0.bank = rs s0) (l : List Act) (n : Nat) (hn : n < 8)
    (hp : (play P s0 l).pc < 0x10000) (hop : code (play P s0 l) 0 = BitVec.ofNat 8 (0xe8 + n)) :
    A (execInst P (play P s0 l)).2 = (play P s0 l).iram (8 * rs (play P s0 l) + n) := by
  have hb := play_bk P l s0 h0
  generalize play P s0 l = s at *
  have hd : ∀ n : Fin 8, decode (BitVec.ofNat 8 (0xe8 + n.val)) = .movARn ∧ rn (BitVec.ofNat 8 (0xe8 + n.val)) = n.val := by
    decide +kernel
  have := hd ⟨n, hn⟩
  rw [execInst_after P s hp, hop, this.1]
  simp only [exec, bind_def, regRead_pc, this.2, pure_def]
  rw [sfrWrite_ACC_A]
  exact regRead_eq _ hb n

/-- C39: ... and writing Rn changes exactly that byte. -/
theorem c39_reg_write (s0 : St H) (h0 : s0.bank = rs s0) (l : List Act) (n : Nat) (hn : n < 8)
    (hp : (play P s0 l).pc < 0x10000) (hop : code (play P s0 l) 0 = BitVec.ofNat 8 (0xf8 + n)) (a : Nat) :
    (execInst P (play P s0 l)).2.iram a =
      if a = 8 * rs (play P s0 l) + n then A (play P s0 l) else (play P s0 l).iram a := by
  have hb := play_bk P l s0 h0
  generalize play P s0 l = s at *
  have hd : ∀ n : Fin 8, decode (BitVec.ofNat 8 (0xf8 + n.val)) = .movRnA ∧ rn (BitVec.ofNat 8 (0xf8 + n.val)) = n.val := by
    decide +kernel
  have := hd ⟨n, hn⟩
  rw [execInst_after P s hp, hop, this.1]
  simp only [exec, bind_def, accRead_pc, this.2, regWrite]
  show (if a = 8 * s.bank + n then _ else _) = _
  rw [show s.bank = rs s from hb]; rfl

/-- RS1, RS0 set by an instruction, R3 read in bank 3. -/
example : let s := Demo.st [0x75#8, 0xd0#8, 0x18#8, 0xeb#8] 0#8 0#8 0#8 7#8
    s.bank = rs s ∧ (play Demo.hw s [.step]).pc < 0x10000 ∧ code (play Demo.hw s [.step]) 0 = BitVec.ofNat 8 (0xe8 + 3) ∧
    rs (play Demo.hw s [.step]) = 3 := by decide

/-! ### The bit space -/

theorem putBits_bit : ∀ (x : Byte) (v : Bool) (i j : Fin 8),
    (putBits x (1#8 <<< i.val) v).getLsbD j.val = if i = j then v else x.getLsbD j.val := by decide +kernel

theorem putBits_get (x b : Byte) (v : Bool) (j : Nat) (hj : j < 8) :
    (putBits x (bitMask b) v).getLsbD j = if b.toNat % 8 = j then v else x.getLsbD j := by
  have := putBits_bit x v ⟨b.toNat % 8, Nat.mod_lt _ (by decide)⟩ ⟨j, hj⟩
  simp only [Fin.mk.injEq] at this
  exact this

/-- C39: MOV C,bit copies the addressed bit to CY. -/
theorem c39_bit_read (s : St H) (h : Ok P s) (hop : code s 0 = 0xa2#8) :
    CY (execInst P s).2 = bitPin P s (code s 1) := by
  rw [execInst_after P s h.pc, hop, show decode 0xa2#8 = .movCBit by decide]
  simp only [exec, bind_def, fetch_after, bitRead_val, bitPin_after, bitSet, if_neg CYge, maskCY, bitMaskCY]
  have e : ∀ (x : Byte) (v : Bool), (putBits x 0x80#8 v).getLsbD 7 = v := by decide +kernel
  generalize (bitRead P (code s 1) (after s (1 + 1) 1)).2 = u
  show (upd u.sfr PSW (putBits (u.sfr PSW) 0x80#8 _) PSW).getLsbD 7 = _
  simp only [upd, if_true]; exact e _ _

/-- What writing a bit of internal memory does. -/
theorem bitWrite_low (b : Byte) (v : Bool) (s : St H) (hb : b.toNat < 0x80) :
    (bitWrite P b v s).2 = { s with iram := (upd s.iram (0x20 + b.toNat / 8)
        (putBits (s.iram (0x20 + b.toNat / 8)) (bitMask b) v)) } := by
  simp only [bitWrite, if_pos hb, bitSet]

/-- Bits of a stored SFR after a bit write. -/
theorem bitWrite_high (b : Byte) (v : Bool) (s : St H) (hb : ¬ b.toNat < 0x80) :
    ∃ u : St H, (bitWrite P b v s).2 = { u with sfr := (upd u.sfr (b.toNat / 8 * 8)
          (putBits (u.sfr (b.toNat / 8 * 8)) (bitMask b) v)) } ∧ u.iram = s.iram ∧ u.xram = s.xram ∧ u.rom = s.rom ∧
      (isCore (b.toNat / 8 * 8) = true → u.sfr (b.toNat / 8 * 8) = putBits (s.sfr (b.toNat / 8 * 8)) (bitMask b) v) := by
  refine ⟨(bitHook P b v (sfrWrite P (b.toNat / 8 * 8) (putBits (s.sfr (b.toNat / 8 * 8)) (bitMask b) v) s).2).2,
    ?_, ?_, ?_, ?_, ?_⟩
  · simp only [bitWrite, if_neg hb, bind_def, sfrGet, bitSet, bitBase]
  · show (sfrWrite P _ _ s).2.iram = _
    unfold sfrWrite
    repeat (first | rfl | split)
  · show (sfrWrite P _ _ s).2.xram = _
    unfold sfrWrite
    repeat (first | rfl | split)
  · show (sfrWrite P _ _ s).2.rom = _
    unfold sfrWrite
    repeat (first | rfl | split)
  · intro hc
    rw [bitHook_core P b v _ _ hc]
    unfold sfrWrite
    split
    · rename_i h1; rw [h1]; simp [accWrite, upd]
    · split
      · rename_i h1; rw [h1]; simp [pswWrite, upd]
      · simp [upd, hc]

/-- C39: CLR, SETB and CPL of a bit below 0x80 change exactly bit `b mod 8` of byte
`0x20 + b/8` of internal memory. -/
theorem c39_bit_write_iram (s : St H) (h : Ok P s)
    (hop : code s 0 = 0xc2#8 ∨ code s 0 = 0xd2#8 ∨ code s 0 = 0xb2#8) (hb : (code s 1).toNat < 0x80) :
    let v := if code s 0 = 0xc2#8 then false else if code s 0 = 0xd2#8 then true else !bitStored s (code s 1)
    (∀ a, ∀ j, j < 8 → ((execInst P s).2.iram a).getLsbD j =
      if a = 0x20 + (code s 1).toNat / 8 ∧ j = (code s 1).toNat % 8 then v else (s.iram a).getLsbD j) ∧
    (execInst P s).2.sfr = s.sfr ∧ (execInst P s).2.xram = s.xram ∧ (execInst P s).2.pc = (s.pc + 2) % 0x10000 := by
  intro v
  have e : (execInst P s).2 = (bitWrite P (code s 1) v (after s 2 1)).2 := by
    rw [execInst_after P s h.pc]
    rcases hop with hc | hc | hc
    · rw [hc, show decode 0xc2#8 = .clrBit by decide]
      simp only [exec, bind_def, fetch_after, v, hc, if_true]
    · rw [hc, show decode 0xd2#8 = .setbBit by decide]
      simp only [exec, bind_def, fetch_after, v, hc, if_true]; rfl
    · rw [hc, show decode 0xb2#8 = .cplBit by decide]
      simp only [exec, bind_def, fetch_after, bitGet_val, bitGet_pc, bitStored_after, v, hc]; rfl
  rw [e, bitWrite_low P _ _ _ hb]
  refine ⟨?_, rfl, rfl, rfl⟩
  intro a j hj
  show (if a = _ then putBits (s.iram _) _ _ else s.iram a).getLsbD j = _
  by_cases ha : a = 0x20 + (code s 1).toNat / 8
  · rw [if_pos ha, putBits_get _ _ _ _ hj, ← ha]
    by_cases hi : (code s 1).toNat % 8 = j
    · simp [hi, ha]
    · simp [hi, Ne.symm hi]
  · rw [if_neg ha]; simp [ha]

/-- C39: for a bit above, the SFR at `b` rounded down to 8 gets the bit in position
`b mod 8`; memory stays, and the other bits of a CPU register stay. -/
theorem c39_bit_write_sfr (s : St H) (h : Ok P s)
    (hop : code s 0 = 0xc2#8 ∨ code s 0 = 0xd2#8 ∨ code s 0 = 0xb2#8) (hb : ¬ (code s 1).toNat < 0x80) :
    let v := if code s 0 = 0xc2#8 then false else if code s 0 = 0xd2#8 then true else !bitStored s (code s 1)
    let a := (code s 1).toNat / 8 * 8
    ((execInst P s).2.sfr a).getLsbD ((code s 1).toNat % 8) = v ∧
    (isCore a = true → ∀ j, j < 8 → j ≠ (code s 1).toNat % 8 →
      ((execInst P s).2.sfr a).getLsbD j = (s.sfr a).getLsbD j) ∧
    (execInst P s).2.iram = s.iram ∧ (execInst P s).2.xram = s.xram ∧ (execInst P s).2.pc = (s.pc + 2) % 0x10000 := by
  intro v a
  have e : (execInst P s).2 = (bitWrite P (code s 1) v (after s 2 1)).2 := by
    rw [execInst_after P s h.pc]
    rcases hop with hc | hc | hc
    · rw [hc, show decode 0xc2#8 = .clrBit by decide]
      simp only [exec, bind_def, fetch_after, v, hc, if_true]
    · rw [hc, show decode 0xd2#8 = .setbBit by decide]
      simp only [exec, bind_def, fetch_after, v, hc, if_true]; rfl
    · rw [hc, show decode 0xb2#8 = .cplBit by decide]
      simp only [exec, bind_def, fetch_after, bitGet_val, bitGet_pc, bitStored_after, v, hc]; rfl
  have epc : (execInst P s).2.pc = (s.pc + 2) % 0x10000 := by rw [e, bitWrite_pc]; rfl
  obtain ⟨u, e2, i1, i2, i3, i4⟩ := bitWrite_high P (code s 1) v (after s 2 1) hb
  refine ⟨?_, ?_, ?_, ?_, epc⟩
  · rw [e, e2]
    show (upd u.sfr a _ a).getLsbD _ = _
    simp only [upd, if_true]
    rw [putBits_get _ _ _ _ (Nat.mod_lt _ (by decide)), if_pos rfl]
  · intro hc j hj hne
    rw [e, e2]
    show (upd u.sfr a _ a).getLsbD j = _
    simp only [upd, if_true]
    rw [putBits_get _ _ _ _ hj, if_neg (Ne.symm hne), i4 hc, putBits_get _ _ _ _ hj, if_neg (Ne.symm hne)]
    rfl
  · rw [e, e2]; exact i1
  · rw [e, e2]; exact i2

/-- SETB 0x2a: bit 2 of byte 0x25; CPL 0xd3: RS0. -/
example : let s := Demo.st [0xd2#8, 0x2a#8] 0#8 0#8 0#8 7#8
    Ok Demo.hw s ∧ code s 0 = 0xd2#8 ∧ (code s 1).toNat < 0x80 := ⟨Demo.ok _ _ _ _ _, by decide, by decide⟩
example : let s := Demo.st [0xb2#8, 0xd3#8] 0#8 0#8 0#8 7#8
    Ok Demo.hw s ∧ code s 0 = 0xb2#8 ∧ ¬ (code s 1).toNat < 0x80 ∧ isCore ((code s 1).toNat / 8 * 8) = true ∧
    rs (execInst Demo.hw s).2 = 1 := ⟨Demo.ok _ _ _ _ _, by decide, by decide, by decide, by decide⟩

end Ucsim.S51
