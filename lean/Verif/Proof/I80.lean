import Verif.I80.Step
import Verif.Spec.I80

namespace Ucsim.I80

/-- What the manual's machine sees of the simulated one. -/
def abs (s : St) : Isa.Mach where
  a := s.a
  b := s.b
  c := s.c
  d := s.d
  e := s.e
  h := s.h
  l := s.l
  cy := s.f.getLsbD 0
  ac := s.f.getLsbD 4
  z := s.f.getLsbD 6
  s := s.f.getLsbD 7
  p := s.f.getLsbD 2
  sp := s.sp
  pc := s.pc
  mem := s.mem

/-! ### Words and bytes -/

theorem pair_eq (h l : Byte) : pair h l = h ++ l := by
  apply BitVec.eq_of_toNat_eq
  have := h.isLt
  have := l.isLt
  rw [BitVec.toNat_append, ← Nat.shiftLeft_add_eq_or_of_lt l.isLt, Nat.shiftLeft_eq]
  unfold pair
  rw [BitVec.toNat_ofNat, Nat.mod_eq_of_lt (by omega)]

theorem of_eq (h l : Byte) : BitVec.ofNat 16 (h.toNat * 256 + l.toNat) = h ++ l := pair_eq h l

theorem of_eq' (h l : Byte) : BitVec.ofNat 16 (l.toNat + 256 * h.toNat) = h ++ l := by
  rw [← pair_eq]; unfold pair; congr 1; omega

theorem hi_eq (w : Word) : hi w = w.extractLsb' 8 8 := by
  apply BitVec.eq_of_toNat_eq
  have := w.isLt
  simp only [hi, BitVec.extractLsb'_toNat, BitVec.toNat_ofNat, Nat.shiftRight_eq_div_pow]

theorem lo_eq (w : Word) : lo w = w.extractLsb' 0 8 := by
  apply BitVec.eq_of_toNat_eq
  simp [lo, BitVec.extractLsb'_toNat, BitVec.toNat_ofNat]

theorem hi_pair (h l : Byte) : (h ++ l : Word).extractLsb' 8 8 = h := by
  rw [← hi_eq, ← pair_eq]
  apply BitVec.eq_of_toNat_eq
  have := h.isLt
  have := l.isLt
  simp only [hi, pair, BitVec.toNat_ofNat]; omega

theorem lo_pair (h l : Byte) : (h ++ l : Word).extractLsb' 0 8 = l := by
  rw [← lo_eq, ← pair_eq]
  apply BitVec.eq_of_toNat_eq
  have := h.isLt
  have := l.isLt
  simp only [lo, pair, BitVec.toNat_ofNat]; omega

@[simp] theorem ofNat_toNat16 (w : Word) : BitVec.ofNat 16 w.toNat = w := by simp

theorem rd_word (s : St) (w : Word) : rd s w.toNat = s.mem w := by
  unfold rd; rw [if_pos w.isLt, ofNat_toNat16]

theorem wr_word (s : St) (w : Word) (v : Byte) :
    wr s w.toNat v = { s with mem := fun x => if x = w then v else s.mem x } := by
  unfold wr; rw [if_pos w.isLt, ofNat_toNat16]

theorem succ_word (w : Word) (h : w ≠ 0xffff#16) : w.toNat + 1 = (w + 1).toNat := by
  have := w.isLt
  have : w.toNat ≠ 0xffff := fun e => h (BitVec.eq_of_toNat_eq (by simpa using e))
  rw [BitVec.toNat_add]; simp; omega

theorem rd_succ (s : St) (w : Word) (h : w ≠ 0xffff#16) : rd s (w.toNat + 1) = s.mem (w + 1) := by
  rw [succ_word w h, rd_word]

theorem wr_succ (s : St) (w : Word) (v : Byte) (h : w ≠ 0xffff#16) :
    wr s (w.toNat + 1) v = { s with mem := fun x => if x = w + 1 then v else s.mem x } := by
  rw [succ_word w h, wr_word]

theorem fetch_eq (s : St) : fetch s = (s.mem s.pc, { s with pc := s.pc + 1 }) := by
  unfold fetch; rw [rd_word]

theorem add11 (w : Word) : w + 1 + 1 = w + 2 := by rw [BitVec.add_assoc]; rfl
theorem add21 (w : Word) : w + 2 + 1 = w + 3 := by rw [BitVec.add_assoc]; rfl
theorem add12 (w : Word) : w + 1 + 2 = w + 3 := by rw [BitVec.add_assoc]; rfl
theorem sub11 (w : Word) : w - 1 - 1 = w - 2 := by
  apply BitVec.eq_of_toNat_eq; have := w.isLt; simp only [BitVec.toNat_sub]; simp; omega

theorem fetch16_eq (s : St) : fetch16 s = (s.mem (s.pc + 1) ++ s.mem s.pc, { s with pc := s.pc + 2 }) := by
  unfold fetch16
  simp only [fetch_eq, of_eq, add11]

/-! ### Flags -/

theorem orIf_bit (c : Bool) (m f : Byte) (i : Nat) : (orIf c m f).getLsbD i = (f.getLsbD i || (c && m.getLsbD i)) := by
  unfold orIf; cases c <;> simp

theorem flag_ne (v : Byte) : ((v &&& flagC) != 0#8) = v.getLsbD 0 ∧ ((v &&& flagP) != 0#8) = v.getLsbD 2 ∧
    ((v &&& flagA) != 0#8) = v.getLsbD 4 ∧ ((v &&& flagZ) != 0#8) = v.getLsbD 6 ∧ ((v &&& flagS) != 0#8) = v.getLsbD 7 := by
  revert v; decide +kernel

theorem flagOp_bit (cpu : Cpu) (v : Byte) : (flagOp cpu v).getLsbD 0 = v.getLsbD 0 ∧ (flagOp cpu v).getLsbD 2 = v.getLsbD 2 ∧
    (flagOp cpu v).getLsbD 4 = v.getLsbD 4 ∧ (flagOp cpu v).getLsbD 6 = v.getLsbD 6 ∧ (flagOp cpu v).getLsbD 7 = v.getLsbD 7 := by
  revert v; cases cpu <;> decide +kernel

theorem abs_setF (cpu : Cpu) (v : Byte) (s : St) : abs (setF cpu v s) =
    { abs s with cy := v.getLsbD 0, ac := v.getLsbD 4, z := v.getLsbD 6, s := v.getLsbD 7, p := v.getLsbD 2 } := by
  obtain ⟨h0, h2, h4, h6, h7⟩ := flagOp_bit cpu v
  unfold setF abs
  simp only [h0, h2, h4, h6, h7]

theorem parity_ok : ∀ r : Byte, parity r = Isa.evenOnes r := by decide +kernel
theorem bit7_ok : ∀ r : Byte, bit7 r = decide (128 ≤ r.toNat) := by decide +kernel
theorem bit7_lsb : ∀ r : Byte, bit7 r = r.getLsbD 7 := by decide +kernel
theorem zero_ok (r : Byte) : (r == 0#8) = (r.toNat == 0) := by
  by_cases h : r = 0#8
  · subst h; rfl
  · have : r.toNat ≠ 0 := fun e => h (BitVec.eq_of_toNat_eq (by simpa using e))
    rw [beq_eq_false_iff_ne.mpr h, beq_eq_false_iff_ne.mpr this]

theorem res80 : ∀ n, n < 512 → ((n &&& 0x80) != 0) = decide (128 ≤ (BitVec.ofNat 8 n).toNat) := by decide +kernel

/-- The bits of the flag constants. -/
theorem fbits : flagC.getLsbD 0 = true ∧ flagC.getLsbD 2 = false ∧ flagC.getLsbD 4 = false ∧ flagC.getLsbD 6 = false ∧ flagC.getLsbD 7 = false ∧
    flagP.getLsbD 0 = false ∧ flagP.getLsbD 2 = true ∧ flagP.getLsbD 4 = false ∧ flagP.getLsbD 6 = false ∧ flagP.getLsbD 7 = false ∧
    flagA.getLsbD 0 = false ∧ flagA.getLsbD 2 = false ∧ flagA.getLsbD 4 = true ∧ flagA.getLsbD 6 = false ∧ flagA.getLsbD 7 = false ∧
    flagZ.getLsbD 0 = false ∧ flagZ.getLsbD 2 = false ∧ flagZ.getLsbD 4 = false ∧ flagZ.getLsbD 6 = true ∧ flagZ.getLsbD 7 = false ∧
    flagS.getLsbD 0 = false ∧ flagS.getLsbD 2 = false ∧ flagS.getLsbD 4 = false ∧ flagS.getLsbD 6 = false ∧ flagS.getLsbD 7 = true ∧
    flagK.getLsbD 0 = false ∧ flagK.getLsbD 2 = false ∧ flagK.getLsbD 4 = false ∧ flagK.getLsbD 6 = false ∧ flagK.getLsbD 7 = false ∧
    flagV.getLsbD 0 = false ∧ flagV.getLsbD 2 = false ∧ flagV.getLsbD 4 = false ∧ flagV.getLsbD 6 = false ∧ flagV.getLsbD 7 = false := by
  decide

theorem maskAll : ∀ f : Byte, (f &&& ~~~fAll).getLsbD 0 = false ∧ (f &&& ~~~fAll).getLsbD 2 = false ∧ (f &&& ~~~fAll).getLsbD 4 = false ∧
    (f &&& ~~~fAll).getLsbD 6 = false ∧ (f &&& ~~~fAll).getLsbD 7 = false := by decide +kernel
theorem maskAllA : ∀ f : Byte, (f &&& ~~~fAll_A).getLsbD 0 = false ∧ (f &&& ~~~fAll_A).getLsbD 2 = false ∧ (f &&& ~~~fAll_A).getLsbD 4 = f.getLsbD 4 ∧
    (f &&& ~~~fAll_A).getLsbD 6 = false ∧ (f &&& ~~~fAll_A).getLsbD 7 = false := by decide +kernel
theorem maskAllAA : ∀ f : Byte, (f &&& ~~~fAll_A &&& ~~~flagA).getLsbD 0 = false ∧ (f &&& ~~~fAll_A &&& ~~~flagA).getLsbD 2 = false ∧
    (f &&& ~~~fAll_A &&& ~~~flagA).getLsbD 4 = false ∧ (f &&& ~~~fAll_A &&& ~~~flagA).getLsbD 6 = false ∧
    (f &&& ~~~fAll_A &&& ~~~flagA).getLsbD 7 = false := by decide +kernel
theorem maskAllC : ∀ f : Byte, (f &&& ~~~fAll_C).getLsbD 0 = f.getLsbD 0 ∧ (f &&& ~~~fAll_C).getLsbD 2 = false ∧ (f &&& ~~~fAll_C).getLsbD 4 = false ∧
    (f &&& ~~~fAll_C).getLsbD 6 = false ∧ (f &&& ~~~fAll_C).getLsbD 7 = false := by decide +kernel
theorem maskC : ∀ f : Byte, (f &&& ~~~flagC).getLsbD 0 = false ∧ (f &&& ~~~flagC).getLsbD 2 = f.getLsbD 2 ∧ (f &&& ~~~flagC).getLsbD 4 = f.getLsbD 4 ∧
    (f &&& ~~~flagC).getLsbD 6 = f.getLsbD 6 ∧ (f &&& ~~~flagC).getLsbD 7 = f.getLsbD 7 := by decide +kernel
theorem maskCV : ∀ f : Byte, (f &&& ~~~(flagC ||| flagV)).getLsbD 0 = false ∧ (f &&& ~~~(flagC ||| flagV)).getLsbD 2 = f.getLsbD 2 ∧
    (f &&& ~~~(flagC ||| flagV)).getLsbD 4 = f.getLsbD 4 ∧ (f &&& ~~~(flagC ||| flagV)).getLsbD 6 = f.getLsbD 6 ∧
    (f &&& ~~~(flagC ||| flagV)).getLsbD 7 = f.getLsbD 7 := by decide +kernel
theorem maskK : ∀ f : Byte, (f &&& ~~~flagK).getLsbD 0 = f.getLsbD 0 ∧ (f &&& ~~~flagK).getLsbD 2 = f.getLsbD 2 ∧ (f &&& ~~~flagK).getLsbD 4 = f.getLsbD 4 ∧
    (f &&& ~~~flagK).getLsbD 6 = f.getLsbD 6 ∧ (f &&& ~~~flagK).getLsbD 7 = f.getLsbD 7 := by decide +kernel

theorem and15 (n : Nat) : n &&& 15 = n % 16 := Nat.and_two_pow_sub_one_eq_mod n 4

/-! ### Arithmetic -/

/-- The addition: what it does for any operand. -/
theorem abs_add8 (cpu : Cpu) (op : Byte) (s : St) :
    abs (add8 cpu op false false s) = (abs s).add op false := by
  have hlt : s.a.toNat + op.toNat < 512 := by have := s.a.isLt; have := op.isLt; omega
  unfold add8
  simp only [Bool.false_and, Bool.false_eq_true, if_false, abs_setF, orIf_bit, fbits, maskAllAA, res80 _ hlt, parity_ok, zero_ok, and15]
  simp [Isa.Mach.add, Isa.Mach.zsp, abs]
  exact ⟨by omega, by omega⟩

theorem abs_zsp_eq (m : Isa.Mach) (r : Byte) : m.zsp r = { m with z := r.toNat == 0, s := decide (128 ≤ r.toNat), p := Isa.evenOnes r } := rfl

/-- Addition with carry, where the carry does not overflow the low four bits of the operand. -/
theorem abs_adc8 (cpu : Cpu) (op : Byte) (s : St) (h : s.f.getLsbD 0 = true → op.toNat % 16 ≠ 15) :
    abs (add8 cpu op true false s) = (abs s).add op (abs s).cy := by
  by_cases hc : s.f.getLsbD 0 = true
  · have h := h hc
    have e : (op + 1).toNat = op.toNat + 1 := by
      have := op.isLt; rw [BitVec.toNat_add]; simp; omega
    have k : abs (add8 cpu op true false s) = abs (add8 cpu (op + 1) false false s) := by
      unfold add8; simp only [(flag_ne s.f).1, hc, Bool.true_and, Bool.false_and, if_true, Bool.false_eq_true, if_false]
    rw [k, abs_add8]
    have hcy : (abs s).cy = true := hc
    have e2 : (op.toNat + 1) % 16 = op.toNat % 16 + 1 := by omega
    simp only [Isa.Mach.add, e, e2, hcy, Bool.toNat_true, Bool.toNat_false, Nat.add_zero, ← Nat.add_assoc]
  · have hc : s.f.getLsbD 0 = false := by simpa using hc
    have k : abs (add8 cpu op true false s) = abs (add8 cpu op false false s) := by
      unfold add8; simp only [(flag_ne s.f).1, hc, Bool.true_and, Bool.false_and, Bool.false_eq_true, if_false]
    rw [k, abs_add8]
    have hcy : (abs s).cy = false := hc
    rw [hcy]

theorem neg_toNat (v : Byte) : (~~~v + 1).toNat = (256 - v.toNat) % 256 := by
  have := v.isLt
  rw [BitVec.toNat_add, BitVec.toNat_not]; simp; omega

theorem diff_eq (a v : Byte) (c : Nat) (hc : c ≤ 1) :
    (BitVec.ofNat 8 (a.toNat + (256 - (v.toNat + c) % 256) % 256) : Byte) = BitVec.ofInt 8 ((a.toNat : Int) - v.toNat - c) := by
  apply BitVec.eq_of_toNat_eq
  have := a.isLt
  have := v.isLt
  rw [BitVec.toNat_ofNat, BitVec.toNat_ofInt]
  omega

/-- Subtraction without borrow. -/
theorem abs_sub8 (cpu : Cpu) (op : Byte) (s : St) (h : op.toNat % 16 ≠ 0) :
    abs (sub8 cpu op false false s) = (abs s).sub op false := by
  have hop := op.isLt
  have ha := s.a.isLt
  have hlt : s.a.toNat + (256 - op.toNat) % 256 < 512 := by omega
  have hd := diff_eq s.a op 0 (by omega)
  rw [Nat.add_zero, Nat.mod_eq_of_lt hop] at hd
  unfold sub8
  simp only [Bool.false_and, Bool.false_eq_true, if_false, abs_setF, orIf_bit, fbits, maskAll, neg_toNat, res80 _ hlt, parity_ok, zero_ok, and15, hd]
  simp [Isa.Mach.sub, Isa.Mach.zsp, abs]
  omega

theorem abs_sbb8 (cpu : Cpu) (op : Byte) (s : St) (h : if s.f.getLsbD 0 then s.a ≠ op else op.toNat % 16 ≠ 0) :
    abs (sub8 cpu op true false s) = (abs s).sub op (abs s).cy := by
  by_cases hc : s.f.getLsbD 0 = true
  · rw [if_pos hc] at h
    have hcy : (abs s).cy = true := hc
    have hop := op.isLt
    have ha := s.a.isLt
    have hne : s.a.toNat ≠ op.toNat := fun e => h (BitVec.eq_of_toNat_eq e)
    have e1 : (op + 1).toNat = (op.toNat + 1) % 256 := by rw [BitVec.toNat_add]; rfl
    have hlt : s.a.toNat + (256 - (op.toNat + 1) % 256) % 256 < 512 := by omega
    have hd := diff_eq s.a op 1 (by omega)
    unfold sub8
    simp only [Bool.true_and, (flag_ne s.f).1, hc, if_true, Bool.false_eq_true, if_false, abs_setF, orIf_bit, fbits, maskAll, neg_toNat, e1,
      res80 _ hlt, parity_ok, zero_ok, and15, hd]
    rw [hcy]
    simp [Isa.Mach.sub, Isa.Mach.zsp, abs]
    omega
  · rw [if_neg hc] at h
    have hc : s.f.getLsbD 0 = false := by simpa using hc
    have hcy : (abs s).cy = false := hc
    have k : abs (sub8 cpu op true false s) = abs (sub8 cpu op false false s) := by
      unfold sub8; simp only [(flag_ne s.f).1, hc, Bool.true_and, Bool.false_and, Bool.false_eq_true, if_false]
    rw [k, abs_sub8 cpu op s h, hcy]

theorem abs_cmp8 (cpu : Cpu) (op : Byte) (s : St) (h : op.toNat % 16 ≠ 0) :
    abs (sub8 cpu op false true s) = (abs s).cmp op := by
  have k : abs (sub8 cpu op false true s) = { abs (sub8 cpu op false false s) with a := s.a } := by
    unfold sub8
    simp only [Bool.false_and, Bool.false_eq_true, if_false, abs_setF, if_true]
    rfl
  rw [k, abs_sub8 cpu op s h]; rfl

/-- The end of the logical instructions. -/
theorem abs_logic (cpu : Cpu) (f res : Byte) (s : St) (h : f.getLsbD 0 = false ∧ f.getLsbD 2 = false ∧ f.getLsbD 6 = false ∧ f.getLsbD 7 = false) :
    abs (logic cpu f res s) = { (abs s).zsp res with a := res, cy := false, ac := f.getLsbD 4 } := by
  obtain ⟨h0, h2, h6, h7⟩ := h
  unfold logic
  simp only [abs_setF, orIf_bit, fbits, parity_ok, zero_ok, bit7_ok, h0, h2, h6, h7]
  simp [Isa.Mach.zsp, abs]

theorem orA : ∀ f : Byte, ((f &&& ~~~fAll) ||| flagA).getLsbD 0 = false ∧ ((f &&& ~~~fAll) ||| flagA).getLsbD 2 = false ∧
    ((f &&& ~~~fAll) ||| flagA).getLsbD 6 = false ∧ ((f &&& ~~~fAll) ||| flagA).getLsbD 7 = false ∧ ((f &&& ~~~fAll) ||| flagA).getLsbD 4 = true := by
  decide +kernel

theorem abs_ana (cpu : Cpu) (op : Byte) (s : St) (h : cpu = .i8080 → s.a.getLsbD 3 = true ∨ op.getLsbD 3 = true) :
    abs (ana cpu op s) = (abs s).ana (cpu == .i8085) op := by
  have k := orA s.f
  unfold ana
  rw [abs_logic _ _ _ _ ⟨k.1, k.2.1, k.2.2.1, k.2.2.2.1⟩, k.2.2.2.2]
  have : ((cpu == Cpu.i8085) || s.a.getLsbD 3 || op.getLsbD 3) = true := by
    cases cpu
    · rcases h rfl with h | h <;> simp [h]
    · rfl
  unfold Isa.Mach.ana
  show _ = { (abs s).zsp (s.a &&& op) with a := s.a &&& op, cy := false, ac := (cpu == Cpu.i8085) || s.a.getLsbD 3 || op.getLsbD 3 }
  rw [this]

theorem abs_ora (cpu : Cpu) (op : Byte) (s : St) : abs (ora cpu op s) = (abs s).ora op := by
  have k := maskAll s.f
  unfold ora
  rw [abs_logic _ _ _ _ ⟨k.1, k.2.1, k.2.2.2.1, k.2.2.2.2⟩, k.2.2.1]; rfl

theorem abs_xra (cpu : Cpu) (op : Byte) (s : St) : abs (xra cpu op s) = (abs s).xra op := by
  have k := maskAll s.f
  unfold xra
  rw [abs_logic _ _ _ _ ⟨k.1, k.2.1, k.2.2.2.1, k.2.2.2.2⟩, k.2.2.1]; rfl

/-! ### Registers -/

def num : R8 → BitVec 3
  | .b => 0 | .c => 1 | .d => 2 | .e => 3 | .h => 4 | .l => 5 | .m => 6 | .a => 7
def numP : RP → BitVec 2
  | .bc => 0 | .de => 1 | .hl => 2 | .sp => 3

theorem get8_eq (s : St) (r : R8) : get8 s r = (abs s).reg (num r) := by
  cases r <;> simp [get8, Isa.Mach.reg, num, abs, hl, pair_eq, rd_word, Isa.Mach.HL, Isa.word]

theorem abs_set8 (s : St) (r : R8) (v : Byte) : abs (set8 s r v) = (abs s).setReg (num r) v := by
  cases r <;> simp [set8, Isa.Mach.setReg, num, abs, hl, pair_eq, wr_word, Isa.Mach.store, Isa.Mach.HL, Isa.word]

theorem get16_eq (s : St) (p : RP) : get16 s p = (abs s).rp (numP p) := by
  cases p <;> simp [get16, Isa.Mach.rp, numP, abs, pair_eq, Isa.Mach.HL, Isa.word]

theorem abs_set16 (s : St) (p : RP) (v : Word) : abs (set16 s p v) = (abs s).setRp (numP p) v := by
  cases p <;> simp [set16, Isa.Mach.setRp, numP, abs, hi_eq, lo_eq, Isa.hiByte, Isa.loByte]

theorem hl_eq (s : St) : hl s = (abs s).HL := pair_eq _ _

theorem abs_inr (cpu : Cpu) (r : R8) (s : St) : abs (inr cpu r s) = (abs s).inr (num r) := by
  have k := maskAllC s.f
  have e : ∀ v : Byte, ((v &&& 0xf#8) == 0xf#8) = decide (v.toNat % 16 = 15) := by decide +kernel
  unfold inr
  simp only [abs_setF, orIf_bit, fbits, parity_ok, zero_ok, bit7_ok, k, abs_set8, e, get8_eq]
  have : ((abs s).setReg (num r) ((abs s).reg (num r) + 1)).cy = s.f.getLsbD 0 := by
    cases r <;> rfl
  simp [Isa.Mach.inr, Isa.Mach.zsp]
  exact this.symm

theorem abs_dcr (cpu : Cpu) (r : R8) (s : St) : abs (dcr cpu r s) = (abs s).dcr (num r) := by
  have k := maskAllC s.f
  have e : ∀ v : Byte, decide (v.toNat % 16 + ((~~~1 + 1 : Byte).toNat % 16) > 0xf) = decide (v.toNat % 16 ≠ 0) := by decide +kernel
  have e1 : ∀ v : Byte, v + (~~~1 + 1) = v - 1 := by decide +kernel
  unfold dcr
  simp only [abs_setF, orIf_bit, fbits, parity_ok, zero_ok, bit7_ok, k, abs_set8, and15, e, e1, get8_eq]
  have : ((abs s).setReg (num r) ((abs s).reg (num r) - 1)).cy = s.f.getLsbD 0 := by
    cases r <;> rfl
  simp [Isa.Mach.dcr, Isa.Mach.zsp]
  exact this.symm

theorem setRp_flags (m : Isa.Mach) (p : BitVec 2) (v : Word) : (m.setRp p v).cy = m.cy ∧ (m.setRp p v).ac = m.ac ∧ (m.setRp p v).z = m.z ∧
    (m.setRp p v).s = m.s ∧ (m.setRp p v).p = m.p := by
  unfold Isa.Mach.setRp; split <;> exact ⟨rfl, rfl, rfl, rfl, rfl⟩

theorem abs_dad (cpu : Cpu) (v : Word) (s : St) : abs (dad cpu v s) = (abs s).dad v := by
  have k := maskCV s.f
  have e : BitVec.ofNat 16 ((abs s).HL.toNat + v.toNat) = (abs s).HL + v := BitVec.eq_of_toNat_eq (by simp [BitVec.toNat_add])
  unfold dad
  simp only [abs_setF, orIf_bit, fbits, k, abs_set16, hl_eq, e]
  obtain ⟨_, f1, f2, f3, f4⟩ := setRp_flags (abs s) 2 ((abs s).HL + v)
  simp only [Isa.Mach.dad, numP, Bool.false_or, Bool.and_true, Bool.and_false, Bool.or_false]
  ext1 <;> first | rfl | (symm; assumption) | skip

theorem abs_inx (cpu : Cpu) (p : RP) (s : St) : abs (inx cpu p s) = (abs s).setRp (numP p) ((abs s).rp (numP p) + 1) := by
  have k := maskK s.f
  unfold inx
  cases cpu
  · simp only [abs_set16, get16_eq]
  · simp only [abs_setF, orIf_bit, fbits, k, abs_set16, get16_eq]
    obtain ⟨f0, f1, f2, f3, f4⟩ := setRp_flags (abs s) (numP p) ((abs s).rp (numP p) + 1)
    simp
    ext1 <;> first | rfl | (symm; assumption)

theorem abs_dcx (cpu : Cpu) (p : RP) (s : St) : abs (dcx cpu p s) = (abs s).setRp (numP p) ((abs s).rp (numP p) - 1) := by
  have k := maskK s.f
  unfold dcx
  cases cpu
  · simp only [abs_set16, get16_eq]
  · simp only [abs_setF, orIf_bit, fbits, k, abs_set16, get16_eq]
    obtain ⟨f0, f1, f2, f3, f4⟩ := setRp_flags (abs s) (numP p) ((abs s).rp (numP p) - 1)
    simp
    ext1 <;> first | rfl | (symm; assumption)

theorem abs_rlc (cpu : Cpu) (s : St) : abs (rlc cpu s) = (abs s).rlc := by
  have k := maskC s.f
  have e : ∀ v : Byte, orIf (v.getLsbD 7) 1#8 (v <<< 1) = v.rotateLeft 1 := by decide +kernel
  unfold rlc
  simp only [abs_setF, orIf_bit, fbits, k, bit7_lsb, e]
  simp [Isa.Mach.rlc, abs]

theorem abs_rrc (cpu : Cpu) (s : St) : abs (rrc cpu s) = (abs s).rrc := by
  have k := maskC s.f
  have e : ∀ v : Byte, orIf (v.getLsbD 0) 0x80#8 (v >>> 1) = v.rotateRight 1 := by decide +kernel
  have e0 : ∀ v : Byte, (v &&& 1#8 != 0#8) = v.getLsbD 0 := by decide +kernel
  unfold rrc
  simp only [abs_setF, orIf_bit, fbits, k, e0, e]
  simp [Isa.Mach.rrc, abs]

theorem abs_ral (cpu : Cpu) (s : St) : abs (ral cpu s) = (abs s).ral := by
  have k := maskC s.f
  have e : ∀ (v : Byte) (c : Bool), orIf c 1#8 (v <<< 1) = BitVec.ofNat 8 (2 * v.toNat + c.toNat) := by decide +kernel
  unfold ral
  simp only [abs_setF, orIf_bit, fbits, k, bit7_lsb, e, (flag_ne s.f).1]
  simp [Isa.Mach.ral, abs]

theorem abs_rar (cpu : Cpu) (s : St) : abs (rar cpu s) = (abs s).rar := by
  have k := maskC s.f
  have e : ∀ (v : Byte) (c : Bool), orIf c 0x80#8 (v >>> 1) = BitVec.ofNat 8 ((v.toNat + 256 * c.toNat) / 2) := by decide +kernel
  have e0 : ∀ v : Byte, (v &&& 1#8 != 0#8) = v.getLsbD 0 := by decide +kernel
  unfold rar
  simp only [abs_setF, orIf_bit, fbits, k, e, e0, (flag_ne s.f).1]
  simp [Isa.Mach.rar, abs]

/-! ### Stack -/

theorem push2_eq (v : Word) (s : St) : push2 v s =
    { s with sp := s.sp - 2, mem := fun x => if x = s.sp - 2 then lo v else if x = s.sp - 1 then hi v else s.mem x } := by
  unfold push2
  simp only [wr_word, sub11]

theorem abs_push2 (v : Word) (s : St) : abs (push2 v s) = (abs s).push v := by
  rw [push2_eq, hi_eq, lo_eq]; rfl

theorem pop2_eq (s : St) : pop2 s = ((abs s).top, { s with sp := s.sp + 2 }) := by
  unfold pop2
  simp only [rd_word, of_eq, add11]; rfl

theorem readAddr_eq (s : St) (w : Word) (h : w ≠ 0xffff#16) : BitVec.ofNat 16 (readAddr s w.toNat) = (abs s).load16 w := by
  unfold readAddr
  rw [rd_word, rd_succ s w h, of_eq']; rfl

end Ucsim.I80
