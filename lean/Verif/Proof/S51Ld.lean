import Verif.Proof.S51Alu

/- Loading of the operand of the accumulator instructions. -/
namespace Ucsim.S51
open Spec

variable {H : Type} (P : Hw H)

/-- State of the machine when the operand has been read: nothing but the PC, the clock
and the devices have changed. -/
structure Loaded (s s2 : St H) (n : Nat) : Prop where
  eq : ∃ k h, s2 = { s with pc := (s.pc + n) % 0x10000, cyc := s.cyc + k, total := s.total + k, hw := h }

/-- The state after the opcode has been fetched. -/
def fetched (s : St H) : St H :=
  { s with pc := (s.pc + 1) % 0x10000, cyc := s.cyc + 1, total := s.total + 1 }

theorem code_eq (s : St H) (hp : s.pc < 0x10000) : code s 0 = s.rom s.pc := by
  simp [code, Nat.mod_eq_of_lt hp]

theorem execInst_eq (s : St H) (hp : s.pc < 0x10000) :
    execInst P s = exec P (decode (code s 0)) (code s 0) (fetched s) := by
  rw [code_eq s hp]
  simp only [execInst, bind_def, fetch, getPC, romRead, setPC, tick, pure_def, if_pos hp]
  rfl

theorem fetch_eq (s : St H) (hp : s.pc < 0x10000) :
    fetch P s = (s.rom s.pc, { s with pc := (s.pc + 1) % 0x10000 }) := by
  simp only [fetch, bind_def, getPC, romRead, setPC, pure_def, if_pos hp]

theorem fetched_fetch (s : St H) :
    fetch P (fetched s) = (code s 1, { fetched s with pc := (s.pc + 2) % 0x10000 }) := by
  rw [fetch_eq P _ (Nat.mod_lt _ (by decide))]
  simp [fetched, code]

theorem dirRead_eq (s : St H) (hs : 0x80 ≤ P.iramSize) (a : Byte) :
    (dirRead P a false s).1 = direct P s a ∧ ∃ h, (dirRead P a false s).2 = { s with hw := h } := by
  unfold dirRead direct
  by_cases h : a.toNat < 0x80
  · simp only [if_pos h, iramRead, if_pos (Nat.lt_of_lt_of_le h hs), true_and]
    exact ⟨_, rfl⟩
  · simp only [if_neg h, sfrRead]
    by_cases hc : isCore a.toNat = true
    · simp only [if_pos hc, true_and]; exact ⟨_, rfl⟩
    · simp only [if_neg hc, true_and]; exact ⟨_, rfl⟩

theorem regRead_eq (s : St H) (hb : s.bank = rs s) (n : Nat) : (regRead n s).1 = R s n := by
  simp [regRead, R, regAddr, hb]

/-- The four ways of getting the operand. -/
def ld (c : Byte) : M H Byte :=
  if c.toNat % 16 = 4 then fetch P
  else if c.toNat % 16 = 5 then (do let ad ← fetch P; dirRead P ad)
  else if c.toNat % 16 < 8 then (do let x ← riAddr c; iramRead P x)
  else regRead (rn c)

theorem ld_ok (s : St H) (h : Ok P s) (hn : 4 ≤ (code s 0).toNat % 16) :
    (ld P (code s 0) (fetched s)).1 = operand P s ∧
    Loaded s (ld P (code s 0) (fetched s)).2 (operandLen s) := by
  have hb : (fetched s).bank = rs (fetched s) := h.bank
  unfold ld operand operandLen
  by_cases h4 : (code s 0).toNat % 16 = 4
  · simp only [h4, if_true, fetched_fetch]
    exact ⟨trivial, ⟨1, _, rfl⟩⟩
  · by_cases h5 : (code s 0).toNat % 16 = 5
    · rw [if_neg h4, if_pos h5]
      simp only [if_neg h4, if_pos h5, bind_def, fetched_fetch, if_pos (show (code s 0).toNat % 16 < 6 by omega)]
      obtain ⟨e1, hw, e2⟩ := dirRead_eq P { fetched s with pc := (s.pc + 2) % 0x10000 } h.size (code s 1)
      rw [e1, e2]
      exact ⟨rfl, ⟨1, hw, rfl⟩⟩
    · by_cases h8 : (code s 0).toNat % 16 < 8
      · have hi : ri (code s 0) = (code s 0).toNat % 16 - 6 := by unfold ri; omega
        simp only [if_neg h4, if_neg h5, if_pos h8, if_neg (show ¬ (code s 0).toNat % 16 < 6 by omega), bind_def,
          riAddr, regRead, pure_def, iramRead, hi]
        exact ⟨by simp [indirect, R, regAddr, fetched, h.bank]; rfl, ⟨1, _, rfl⟩⟩
      · have hr : rn (code s 0) = (code s 0).toNat % 16 - 8 := by unfold rn; omega
        simp only [if_neg h4, if_neg h5, if_neg h8, if_neg (show ¬ (code s 0).toNat % 16 < 6 by omega),
          regRead, hr]
        exact ⟨by simp [R, regAddr, fetched, h.bank], ⟨1, _, rfl⟩⟩

theorem ld_sfr (c : Byte) (t : St H) : (ld P c t).2.sfr = t.sfr := by
  unfold ld
  split
  · rfl
  · split
    · simp only [bind_def]
      unfold dirRead
      split
      · rfl
      · unfold sfrRead; split <;> rfl
    · split <;> rfl

/-- The four addressing modes of an instruction family. -/
def four (c : Byte) (imm dir ri rn : Op) : Op :=
  if c.toNat % 16 = 4 then imm else if c.toNat % 16 = 5 then dir else if c.toNat % 16 < 8 then ri else rn

theorem dec2 : ∀ c : Byte, c.toNat / 16 = 2 → 4 ≤ c.toNat % 16 →
    decode c = four c .addImm .addDir .addRi .addRn := by decide +kernel
theorem dec3 : ∀ c : Byte, c.toNat / 16 = 3 → 4 ≤ c.toNat % 16 →
    decode c = four c .addcImm .addcDir .addcRi .addcRn := by decide +kernel
theorem dec9 : ∀ c : Byte, c.toNat / 16 = 9 → 4 ≤ c.toNat % 16 →
    decode c = four c .subbImm .subbDir .subbRi .subbRn := by decide +kernel

theorem exec_add (c : Byte) (hn : 4 ≤ c.toNat % 16) (ho : c.toNat / 16 = 2) (t : St H) :
    exec P (decode c) c t = addBody P (A t) (ld P c t).1 0 (ld P c t).2 := by
  rw [dec2 c ho hn]
  have e : A t = (ld P c t).2.sfr ACC := by rw [ld_sfr]; rfl
  rw [e]
  unfold ld four
  by_cases h4 : c.toNat % 16 = 4
  · simp only [if_pos h4]; rfl
  · by_cases h5 : c.toNat % 16 = 5
    · simp only [if_neg h4, if_pos h5]; rfl
    · by_cases h8 : c.toNat % 16 < 8
      · simp only [if_neg h4, if_neg h5, if_pos h8]; rfl
      · simp only [if_neg h4, if_neg h5, if_neg h8]; rfl

theorem ifNat (b : Bool) : (if b = true then 1 else 0) = b.toNat := by cases b <;> rfl

theorem orgC_val (t : St H) : (orgC t).1 = (CY t).toNat := by
  simp only [orgC, bind_def, pure_def, bitGet, if_neg CYge, maskCY, bitMaskCY]
  rw [mask80]
  exact ifNat _

theorem exec_addc (c : Byte) (hn : 4 ≤ c.toNat % 16) (ho : c.toNat / 16 = 3) (t : St H) :
    exec P (decode c) c t = addBody P (A t) (ld P c t).1 (CY t).toNat (ld P c t).2 := by
  rw [dec3 c ho hn]
  have e : A t = (ld P c t).2.sfr ACC := by rw [ld_sfr]; rfl
  have e2 : (CY t).toNat = (orgC (ld P c t).2).1 := by rw [orgC_val]; simp only [CY, psw, ld_sfr]
  have e3 : ∀ u : St H, (orgC u).2 = u := orgC_pc
  rw [e, e2]
  unfold ld four
  by_cases h4 : c.toNat % 16 = 4
  · simp only [if_pos h4, exec, bind_def, e3]; rfl
  · by_cases h5 : c.toNat % 16 = 5
    · simp only [if_neg h4, if_pos h5, exec, bind_def, e3]; rfl
    · by_cases h8 : c.toNat % 16 < 8
      · simp only [if_neg h4, if_neg h5, if_pos h8, exec, bind_def, e3]; rfl
      · simp only [if_neg h4, if_neg h5, if_neg h8, exec, bind_def, e3]; rfl

theorem exec_subb (c : Byte) (hn : 4 ≤ c.toNat % 16) (ho : c.toNat / 16 = 9) (t : St H) :
    ∃ v, exec P (decode c) c t = subbBody P v (ld P c t).1 (ld P c t).2 := by
  rw [dec9 c ho hn]
  unfold ld four
  by_cases h4 : c.toNat % 16 = 4
  · simp only [if_pos h4]; exact ⟨false, rfl⟩
  · by_cases h5 : c.toNat % 16 = 5
    · simp only [if_neg h4, if_pos h5]; exact ⟨false, rfl⟩
    · by_cases h8 : c.toNat % 16 < 8
      · simp only [if_neg h4, if_neg h5, if_pos h8]; exact ⟨true, rfl⟩
      · simp only [if_neg h4, if_neg h5, if_neg h8]; exact ⟨true, rfl⟩

theorem rsBits : ∀ p : Byte, ((p &&& 0x18#8) >>> 3).toNat = 2 * (p.getLsbD 4).toNat + (p.getLsbD 3).toNat := by
  decide +kernel

/-- Flag byte after a subtraction (the parity is that of the new accumulator). -/
theorem subbPsw_bits (pw ac d r : Byte) (c : Nat) (hc : c ≤ 1)
    (hr : r = byte (ac.toNat + 512 - d.toNat - c)) :
    subbPsw pw ac d r c = putBits (putBits (putBits pw 0x80#8 (decide (ac.toNat < d.toNat + c))) 0x04#8
      (overflow (ac.toInt - d.toInt - c))) 0x40#8 (decide (ac.toNat % 16 < d.toNat % 16 + c)) := by
  have ha := ac.isLt
  have hd := d.isLt
  have e1 : ac.toNat &&& 15 = ac.toNat % 16 := Nat.and_two_pow_sub_one_eq_mod _ 4
  have e2 : d.toNat &&& 15 = d.toNat % 16 := Nat.and_two_pow_sub_one_eq_mod _ 4
  have e3 : (d.toNat + c) &&& 15 = (d.toNat + c) % 16 := Nat.and_two_pow_sub_one_eq_mod _ 4
  have er : r.toNat = (ac.toNat + 512 - d.toNat - c) % 256 := by rw [hr]; simp [byte]
  have hA : ((ac.toNat &&& 0x0f) < ((d.toNat + c) &&& 0x0f) ∨ (c ≠ 0 ∧ (d.toNat &&& 0x0f) = 0x0f)) ↔
      ac.toNat % 16 < d.toNat % 16 + c := by rw [e1, e2, e3]; omega
  have hO : ((ac.toNat < 0x80 ∧ d.toNat > 0x7f ∧ r.toNat > 0x7f) ∨
      (ac.toNat > 0x7f ∧ d.toNat < 0x80 ∧ r.toNat < 0x80)) ↔ overflow (ac.toInt - d.toInt - c) = true := by
    rw [er]
    simp only [overflow, BitVec.toInt_eq_toNat_cond, Bool.or_eq_true, decide_eq_true_eq]
    by_cases h3 : 2 * ac.toNat < 2 ^ 8 <;> by_cases h4 : 2 * d.toNat < 2 ^ 8 <;>
      simp only [h3, h4, if_true, if_false] <;> omega
  unfold subbPsw
  simp only [hA, hO]
  generalize overflow _ = o
  by_cases h1 : ac.toNat < d.toNat + c <;> by_cases h2 : ac.toNat % 16 < d.toNat % 16 + c <;>
    cases o <;> simp only [h1, h2, if_true, if_false, decide_true, decide_false, Bool.false_eq_true] <;>
    revert pw <;> decide +kernel

/-- What SUBB does once its operand is read. -/
theorem subbBody_eq (v : Bool) (d : Byte) (s : St H) :
    (subbBody P v d s).2 = { s with
      bank := if v then rs s else s.bank,
      sfr := fun x => if x = ACC then byte ((A s).toNat + 512 - d.toNat - (CY s).toNat)
        else if x = PSW then
          addPsw (psw s) (byte ((A s).toNat + 512 - d.toNat - (CY s).toNat))
            (decide ((A s).toNat < d.toNat + (CY s).toNat))
            (overflow ((A s).toInt - d.toInt - (CY s).toNat))
            (decide ((A s).toNat % 16 < d.toNat % 16 + (CY s).toNat))
        else s.sfr x } := by
  have ec : cyOf (s.sfr PSW) = (CY s).toNat := by
    unfold cyOf; rw [mask80]; exact ifNat _
  have hc1 : (CY s).toNat ≤ 1 := by cases CY s <;> decide
  have e1 : ∀ (p : Byte) (m : Byte) (a b c : Bool),
      (putBits (putBits (putBits p 0x80#8 a) 0x04#8 b) 0x40#8 c &&& ~~~(1#8)) ||| parityMask m = addPsw p m a b c := by
    intro p m a b c; unfold addPsw; rw [parity_ok]; generalize oddOnes m = o
    revert p a b c o; decide +kernel
  have e2 : ∀ (p : Byte) (a b c : Bool),
      ((putBits (putBits (putBits p 0x80#8 a) 0x04#8 b) 0x40#8 c &&& 0x18#8) >>> 3).toNat =
        2 * (p.getLsbD 4).toNat + (p.getLsbD 3).toNat := by decide +kernel
  have key := subbPsw_bits (s.sfr PSW) (s.sfr ACC) d _ (CY s).toNat hc1 rfl
  cases v
  · simp only [subbBody, bind_def, accRead, sfrGet, ec, Bool.false_eq_true, if_false, sfrSet, sfrWrite, accWrite, if_true, key, pure_def]
    congr 1
    funext x
    by_cases hx : x = ACC
    · subst hx; simp [upd, ACC, PSW, A]
    · by_cases hy : x = PSW
      · subst hy; simp only [upd, show PSW ≠ ACC by decide, ↓reduceIte]; exact e1 _ _ _ _ _
      · simp [upd, hx, hy]
  · simp only [subbBody, bind_def, accRead, sfrGet, ec, if_true, pure_def, sfrWrite, accWrite, pswWrite, key,
      show PSW ≠ ACC by decide, if_false]
    congr 1
    · funext x
      by_cases hx : x = ACC
      · subst hx; simp [upd, ACC, PSW, A]
      · by_cases hy : x = PSW
        · subst hy; simp only [upd, show PSW ≠ ACC by decide, ↓reduceIte]; exact e1 _ _ _ _ _
        · simp [upd, hx, hy]
    · rw [e2]; rfl

end Ucsim.S51
