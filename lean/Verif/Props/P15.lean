import Verif.Proof.P22Dis
/-
C127: the ALU of the P1516.
C128: the ALU of the P2223.
C129: comparing and branching on the P2223.
C130: an instruction whose condition is false.
C131: calls and returns.
C132: loads, stores, constants, push and pop.
C133: bytes of words.
C134: the disassembler says what is executed.
C135: arithmetic of several words.
C136: PC and R15, invalid instructions, breakpoints.
C137: rotations.
-/
set_option linter.constructorNameAsVariable false
namespace Ucsim.P15
open Spec

/-- A machine at address `pc` that has the program `prog` from there on, and the registers `rs`. -/
def machine (pc : Nat) (prog : List Wd) (rs : List (Rn × Wd)) (F : Wd) : St :=
  { PC := BitVec.ofNat 32 pc, instPC := 0, F := F, R := fun r => if r = 15 then BitVec.ofNat 32 pc else (rs.lookup r).getD 0,
    mem := fun a => if pc ≤ a.toNat then (prog[a.toNat - pc]?).getD 0 else 0, dummy := 0, rnd := 0x1234, ticks := 0 }

instance (s : St) (code : Wd) : Decidable (at15 s code) := inferInstanceAs (Decidable (_ = _))

/-! ### C127 -/

/-- Every ALU instruction but DIV, with its condition met, gives the destination the value its name
says, sets the flags the same way, changes nothing else, goes to the next instruction and takes one clock. -/
theorem c127_alu_partial (s : St) (code : Wd) (o : Op) (d a b : Rn) (h : Alu15 code o d a b) (hat : at15 s code)
    (hc : holds15 (flags s.F) code) (hdiv : o ≠ .div) :
    Next 1 s (exec15 false s).1 (res d (o.value (src s a) (src s b) (flags s.F).c)) ∧
    flags (exec15 false s).1.F = o.flags (src s a) (src s b) (flags s.F) ∧ rest (exec15 false s).1.F = rest s.F :=
  exec15_alu s code o d a b h hat hc hdiv

/-- sbb r1:=r2-r3 -/
example : let s := machine 0x10 [0x07123180] [(2, 5), (3, 7)] 0
    Alu15 0x07123180 .sbb 1 2 3 ∧ at15 s 0x07123180 ∧ holds15 (flags s.F) 0x07123180 ∧ Op.sbb ≠ .div ∧
    (exec15 false s).1.R 1 = 0xfffffffd#32 ∧ (flags (exec15 false s).1.F).c = false := by
  refine ⟨⟨⟨by decide, by decide, by decide⟩, by decide, by decide⟩, by decide, fun h => absurd h (by decide), by decide, by decide, by decide⟩

/-- DIV is an instruction of the ALU, the disassembler shows it as d:=a/b, and it does nothing. -/
theorem c127_false_div : ∃ (s : St) (code : Wd), Alu15 code .div 1 2 3 ∧ at15 s code ∧ holds15 (flags s.F) code ∧
    (lookup table15 code).map (·.text) = some "div   %d:=%a/%b" ∧ s.R 2 = 6 ∧ s.R 3 = 3 ∧ s.R 1 = 9 ∧ (exec15 false s).1.R 1 = 9 :=
  ⟨machine 0 [0x07123700] [(1, 9), (2, 6), (3, 3)] 0, 0x07123700, ⟨⟨by decide, by decide, by decide⟩, by decide, by decide⟩, by decide,
    fun h => absurd h (by decide), by decide, by decide, by decide, by decide, by decide⟩

/-! ### C128 -/

theorem c128_reg_partial (ver : Wd) (s : St) (code : Wd) (o : Op2) (cc : Cc) (d b : Rn) (h : Enc22 code cc.num 0 d o.num)
    (hb : code.toNat / 2 ^ 8 % 16 = b.toNat) (hbt : o ≠ .btst) (hat : at15 s code) (hc : cc.holds (flags s.F)) :
    (exec22 ver false s).2 = .go ∧ Next 4 s (exec22 ver false s).1 (res d (o.value (src s d) (src s b) (flags s.F).c)) ∧
      flags (exec22 ver false s).1.F = o.flags (src s d) (src s b) (flags s.F) ∧ rest (exec22 ver false s).1.F = rest s.F :=
  exec22_reg ver s code o cc d b h hb hbt hat hc

theorem c128_imm_partial (ver : Wd) (s : St) (code : Wd) (o : Op2) (cc : Cc) (d : Rn) (i : BitVec 16) (h : Enc22 code cc.num 1 d o.num)
    (hi : code.toNat % 2 ^ 16 = i.toNat) (hbt : o ≠ .btst) (hat : at15 s code) (hc : cc.holds (flags s.F)) :
    (exec22 ver false s).2 = .go ∧ Next 4 s (exec22 ver false s).1 (res d (o.value (src s d) (o.imm i) (flags s.F).c)) ∧
      flags (exec22 ver false s).1.F = o.flags (src s d) (o.imm i) (flags s.F) ∧ rest (exec22 ver false s).1.F = rest s.F :=
  exec22_imm ver s code o cc d i h hi hbt hat hc

theorem c128_one (ver : Wd) (s : St) (code : Wd) (o : Op1) (cc : Cc) (d : Rn) (g : Nat) (h : Enc22 code cc.num g d o.num) (hg : g / 2 = 1)
    (hat : at15 s code) (hc : cc.holds (flags s.F)) :
    (exec22 ver false s).2 = .go ∧ Next 4 s (exec22 ver false s).1 (res d (o.value (src s d) (flags s.F).c)) ∧
      flags (exec22 ver false s).1.F = o.flags (src s d) (flags s.F) ∧ rest (exec22 ver false s).1.F = rest s.F :=
  exec22_op1 ver s code o cc d g h hg hat hc

/-- NE adc r1,r3 with carry; sub r2,-1; sew r4 -/
example : let s := machine 0x10 [0x20150300, 0x0126ffff, 0x02430000] [(1, 0xffffffff), (3, 7), (4, 0x18000)] 2
    Enc22 0x20150300 Cc.ne.num 0 1 Op2.adc.num ∧ at15 s 0x20150300 ∧ Cc.ne.holds (flags s.F) ∧
    Enc22 0x0126ffff Cc.al.num 1 2 Op2.sub.num ∧ Enc22 0x02430000 Cc.al.num 2 4 Op1.sew.num ∧
    (exec22 0 false s).1.R 1 = 7 ∧ (flags (exec22 0 false s).1.F).c = true ∧
    (exec22 0 false (exec22 0 false (exec22 0 false s).1).1).1.R 4 = 0xffff8000#32 := by
  refine ⟨⟨by decide, by decide, by decide, by decide⟩, by decide, rfl, ⟨by decide, by decide, by decide, by decide⟩,
    ⟨by decide, by decide, by decide, by decide⟩, by decide, by decide, by decide⟩

/-- BTST only sets flags, as the disassembler shows (F:=d&b), but the register is overwritten. -/
theorem c128_false_btst : ∃ (s : St) (code : Wd), Enc22 code Cc.al.num 1 1 Op2.btst.num ∧ at15 s code ∧
    (lookup table22 code).map (·.text) = some "btst F:=%d&#'u16'" ∧ s.R 1 = 0xff ∧ (exec22 0 false s).1.R 1 = 4 :=
  ⟨machine 0 [0x011b0004] [(1, 0xff)] 0, 0x011b0004, ⟨by decide, by decide, by decide, by decide⟩, by decide, by decide, by decide, by decide⟩

/-! ### C129 -/

/-- A jump to `i` on a condition, after the flags were set by a comparison of `x` and `y`. -/
theorem c129_after (ver : Wd) (s : St) (code : Wd) (cc : Cc) (p : Prop) (x y : Wd) (i : BitVec 16) (hat : at15 s code)
    (hcc : code.toNat / 2 ^ 28 = cc.num) (hj : code.toNat / 2 ^ 16 % 2 ^ 12 = 0x1f2) (hi : code.toNat % 2 ^ 16 = i.toNat)
    (hf : flags s.F = subFlags x y true) (hp : cc.compares x y = some p) :
    (p → (exec22 ver false s).1.PC = i.zeroExtend 32) ∧ (¬p → (exec22 ver false s).1.PC = s.R 15 + 1) := by
  have hq : cc.holds (flags s.F) ↔ p := by rw [hf]; exact compares_iff x y cc p hp
  refine ⟨fun h => ?_, fun h => ?_⟩
  · have := (exec22_mvi ver s code cc 15 i 2 ⟨hcc, by omega, by show _ = 15; omega, by omega⟩ hi (by decide) hat (hq.2 h)).1
    rw [this.pc, this.regs]; rfl
  · have := (exec22_skip ver s code cc hcc hat (fun q => h (hq.1 q))).1
    rw [this.pc, this.regs]; rfl

/-- CMP Rd,Rb, and a conditional jump: it is taken exactly when the numbers compare as the
condition says, for every pair of numbers, unsigned or signed. -/
theorem c129_branch_reg (ver : Wd) (s : St) (code1 code2 : Wd) (c1 cc : Cc) (d b : Rn) (p : Prop) (i : BitVec 16)
    (h1 : Enc22 code1 c1.num 0 d Op2.cmp.num) (hb : code1.toNat / 2 ^ 8 % 16 = b.toNat) (hat : at15 s code1) (hc1 : c1.holds (flags s.F))
    (hat2 : at15 (exec22 ver false s).1 code2) (hcc : code2.toNat / 2 ^ 28 = cc.num) (hj : code2.toNat / 2 ^ 16 % 2 ^ 12 = 0x1f2)
    (hi : code2.toNat % 2 ^ 16 = i.toNat) (hp : cc.compares (src s d) (src s b) = some p) :
    (p → (exec22 ver false (exec22 ver false s).1).1.PC = i.zeroExtend 32) ∧
    (¬p → (exec22 ver false (exec22 ver false s).1).1.PC = s.R 15 + 2) := by
  have h := exec22_reg ver s code1 .cmp c1 d b h1 hb (by decide) hat hc1
  have := c129_after ver _ code2 cc p _ _ i hat2 hcc hj hi h.2.2.1 hp
  refine ⟨this.1, fun q => ?_⟩
  rw [this.2 q, h.2.1.regs]
  show s.R 15 + 1 + 1 = _
  rw [BitVec.add_assoc]; rfl

/-- CMP Rd,#imm: the immediate is a signed number. -/
theorem c129_branch_imm (ver : Wd) (s : St) (code1 code2 : Wd) (c1 cc : Cc) (d : Rn) (k : BitVec 16) (p : Prop) (i : BitVec 16)
    (h1 : Enc22 code1 c1.num 1 d Op2.cmp.num) (hk : code1.toNat % 2 ^ 16 = k.toNat) (hat : at15 s code1) (hc1 : c1.holds (flags s.F))
    (hat2 : at15 (exec22 ver false s).1 code2) (hcc : code2.toNat / 2 ^ 28 = cc.num) (hj : code2.toNat / 2 ^ 16 % 2 ^ 12 = 0x1f2)
    (hi : code2.toNat % 2 ^ 16 = i.toNat) (hp : cc.compares (src s d) (k.signExtend 32) = some p) :
    (p → (exec22 ver false (exec22 ver false s).1).1.PC = i.zeroExtend 32) ∧
    (¬p → (exec22 ver false (exec22 ver false s).1).1.PC = s.R 15 + 2) := by
  have h := exec22_imm ver s code1 .cmp c1 d k h1 hk (by decide) hat hc1
  have := c129_after ver _ code2 cc p _ _ i hat2 hcc hj hi h.2.2.1 hp
  refine ⟨this.1, fun q => ?_⟩
  rw [this.2 q, h.2.1.regs]
  show s.R 15 + 1 + 1 = _
  rw [BitVec.add_assoc]; rfl

/-- cmp r1,r2; LT jmp 0x100, with -1 and 1; and HI -/
example : let s := machine 0x10 [0x00180200, 0xc1f20100] [(1, 0xffffffff), (2, 1)] 0
    Enc22 0x00180200 Cc.al.num 0 1 Op2.cmp.num ∧ at15 s 0x00180200 ∧ at15 (exec22 0 false s).1 0xc1f20100 ∧
    (0xc1f20100#32).toNat / 2 ^ 28 = Cc.lt.num ∧ (0xc1f20100#32).toNat / 2 ^ 16 % 2 ^ 12 = 0x1f2 ∧
    Cc.lt.compares (src s 1) (src s 2) = some ((src s 1).toInt < (src s 2).toInt) ∧ (src s 1).toInt < (src s 2).toInt ∧
    (exec22 0 false (exec22 0 false s).1).1.PC = 0x100 := by
  refine ⟨⟨by decide, by decide, by decide, by decide⟩, by decide, by decide, by decide, by decide, rfl, by decide, by decide⟩

/-! ### C130 -/

theorem c130_skip_p1516 (s : St) (code : Wd) (hat : at15 s code) (hc : ¬holds15 (flags s.F) code) :
    Next 1 s (exec15 false s).1 keep ∧ (exec15 false s).1.F = s.F ∧ (exec15 false s).2 = .go :=
  exec15_skip s code hat hc

theorem c130_skip_p2223 (ver : Wd) (s : St) (code : Wd) (cc : Cc) (hcc : code.toNat / 2 ^ 28 = cc.num) (hat : at15 s code)
    (hc : ¬cc.holds (flags s.F)) :
    Next 4 s (exec22 ver false s).1 keep ∧ (exec22 ver false s).1.F = s.F ∧ (exec22 ver false s).2 = .go :=
  exec22_skip ver s code cc hcc hat hc

/-- A call on Z1 with Z clear; CS mov r1,r2 with C clear. -/
example : let s := machine 5 [0xb8000100] [] 0
    at15 s 0xb8000100 ∧ ¬holds15 (flags s.F) 0xb8000100 ∧ (exec15 false s).1.PC = 6 := by
  refine ⟨by decide, fun h => absurd (h (by decide)) (by decide), by decide⟩
example : let s := machine 5 [0x30100200] [(2, 7)] 0
    at15 s 0x30100200 ∧ (0x30100200#32).toNat / 2 ^ 28 = Cc.cs.num ∧ ¬Cc.cs.holds (flags s.F) ∧ (exec22 0 false s).1.R 1 = 0 := by
  refine ⟨by decide, by decide, fun h => absurd (show false = true from h) (by decide), by decide⟩

/-! ### C131 -/

theorem c131_call_p1516 (s : St) (code : Wd) (h27 : code.toNat / 2 ^ 27 % 2 = 1) (hat : at15 s code) (hc : holds15 (flags s.F) code) :
    Next 1 s (exec15 false s).1 (calls s (BitVec.ofNat 32 (code.toNat % 2 ^ 27))) ∧ (exec15 false s).1.F = s.F :=
  exec15_call s code h27 hat hc

theorem c131_call_p2223 (ver : Wd) (s : St) (code : Wd) (hat : at15 s code) (hg : code.toNat / 2 ^ 25 % 8 = 2)
    (hcc : code.toNat / 2 ^ 28 = 15 ∨ ∃ cc : Cc, code.toNat / 2 ^ 28 = cc.num ∧ cc.holds (flags s.F)) :
    (exec22 ver false s).2 = .go ∧ (exec22 ver false s).1.F = s.F ∧
    Next 4 s (exec22 ver false s).1 (calls s (if code.toNat / 2 ^ 24 % 2 = 0 then BitVec.ofNat 32 (code.toNat % 2 ^ 24)
      else src s (reg code 20) + (code.setWidth 20).signExtend 32)) :=
  exec22_call ver s code hat hg hcc

/-- Whatever the subroutine did, if it has R14 as it got it, RET goes to the instruction after the call. -/
theorem c131_return_p1516 (s t : St) (code ret : Wd) (h27 : code.toNat / 2 ^ 27 % 2 = 1) (hat : at15 s code) (hc : holds15 (flags s.F) code)
    (h14 : t.R 14 = (exec15 false s).1.R 14) (hr : at15 t ret) (hre : ret.toNat / 2 ^ 16 % 2 ^ 12 = 0x3fe) (hrc : holds15 (flags t.F) ret) :
    (exec15 false t).1.PC = s.R 15 + 1 := by
  have h := (exec15_mov t ret 15 14 ⟨by omega, by show _ = 15; omega, by show _ = 14; omega⟩ hr hrc).1
  rw [h.pc, h.regs]
  show t.R 14 = _
  rw [h14, (exec15_call s code h27 hat hc).1.regs]
  rfl

theorem c131_return_p2223 (ver : Wd) (s t : St) (code ret : Wd) (hat : at15 s code) (hg : code.toNat / 2 ^ 25 % 8 = 2)
    (hcc : code.toNat / 2 ^ 28 = 15 ∨ ∃ cc : Cc, code.toNat / 2 ^ 28 = cc.num ∧ cc.holds (flags s.F))
    (h14 : t.R 14 = (exec22 ver false s).1.R 14) (hr : at15 t ret) (hre : ret.toNat / 2 ^ 16 % 2 ^ 12 = 0x0f0) (hr8 : ret.toNat / 2 ^ 8 % 16 = 14)
    (cc : Cc) (hrc : ret.toNat / 2 ^ 28 = cc.num) (hh : cc.holds (flags t.F)) :
    (exec22 ver false t).1.PC = s.R 15 + 1 := by
  have h := (exec22_mov ver t ret cc 15 ⟨hrc, by omega, by show _ = 15; omega, by omega⟩ hr hh).1
  rw [h.pc, h.regs]
  have e8 : reg ret 8 = 14 := BitVec.eq_of_toNat_eq ((reg_nat ret 8).symm.trans hr8)
  rw [e8]
  show t.R 14 = _
  rw [h14, (exec22_call ver s code hat hg hcc).2.2.regs]
  rfl

/-- call 0x12; nop; and there: ret; on both. -/
example : let s := machine 0x10 [0x08000012, 0, 0x03fe0000] [] 0
    at15 s 0x08000012 ∧ at15 (exec15 false s).1 0x03fe0000 ∧ (exec15 false (exec15 false s).1).1.PC = 0x11 := by
  refine ⟨by decide, by decide, by decide⟩
example : let s := machine 0x10 [0xf4000012, 0, 0x00f00e00] [] 0
    at15 s 0xf4000012 ∧ at15 (exec22 0 false s).1 0x00f00e00 ∧ (exec22 0 false (exec22 0 false s).1).1.PC = 0x11 := by
  refine ⟨by decide, by decide, by decide⟩
/-- call r1,-2 -/
example : let s := machine 0x10 [0x051ffffe] [(1, 0x50)] 0
    at15 s 0x051ffffe ∧ (exec22 0 false s).1.PC = 0x4e := by
  refine ⟨by decide, by decide⟩

/-! ### C132 -/

theorem c132_ld_p1516 (s : St) (code : Wd) (d a : Rn) (v : Wd) (h : Enc15 code 1 d a) (hat : at15 s code) (hc : holds15 (flags s.F) code)
    (hv : word s (src s a) = some v) : Next 1 s (exec15 false s).1 (to d v) ∧ (exec15 false s).1.F = s.F :=
  exec15_ld s code d a v h hat hc hv

theorem c132_st_p1516 (s : St) (code : Wd) (d a : Rn) (h : Enc15 code 2 d a) (hat : at15 s code) (hc : holds15 (flags s.F) code)
    (hv : (src s a).toNat < 0x20000) : Store 1 s (exec15 false s).1 keep (src s a) (src s d) :=
  exec15_st s code d a h hat hc hv

/-- LDL0 and LDH of the two halves of a constant give the register the constant (a register other than R15). -/
theorem c132_const_p1516 (s : St) (code1 code2 : Wd) (d a1 a2 : Rn) (v : Wd) (hd : d ≠ 15)
    (h1 : Enc15 code1 4 d a1) (i1 : code1.toNat % 2 ^ 16 = v.toNat % 2 ^ 16) (hat1 : at15 s code1) (hc1 : holds15 (flags s.F) code1)
    (h2 : Enc15 code2 6 d a2) (i2 : code2.toNat % 2 ^ 16 = v.toNat / 2 ^ 16) (hat2 : at15 (exec15 false s).1 code2)
    (hc2 : holds15 (flags s.F) code2) : (exec15 false (exec15 false s).1).1.R d = v := by
  have hl := lt_wd v
  have e1 := exec15_imm s code1 d a1 4 (v.setWidth 16) h1 ⟨by decide, by decide⟩ (by rw [i1, BitVec.toNat_setWidth]) hat1 hc1
  have e2 := exec15_imm (exec15 false s).1 code2 d a2 6 (v.extractLsb' 16 16) h2 ⟨by decide, by decide⟩
    (by rw [i2, BitVec.extractLsb'_toNat, Nat.shiftRight_eq_div_pow]; omega) hat2 (by rw [e1.2]; exact hc2)
  rw [if_neg (by decide), if_neg (by decide)] at e2
  rw [if_pos rfl] at e1
  have r1 : (exec15 false s).1.R d = (v.setWidth 16).zeroExtend 32 := by
    rw [e1.1.regs, to, if_pos rfl]; rfl
  rw [e2.1.regs, to, if_pos rfl]
  show (v.extractLsb' 16 16 ++ (src (exec15 false s).1 d).setWidth 16 : BitVec 32) = v
  rw [src, if_neg hd, r1]
  apply BitVec.eq_of_getLsbD_eq
  intro j hj
  rw [BitVec.getLsbD_append]
  by_cases hjj : j < 16
  · simp [hjj]
  · simp [hjj, show j - 16 < 16 by omega, show 16 + (j - 16) = j by omega]

/-- A load of the P2223 (`g` from 8 on, bit 25): the loaded register has the word at the address that the
index mode gives; the index register, if it is another one, is changed as the mode says. -/
theorem c132_load_p2223 (ver : Wd) (s : St) (code : Wd) (cc : Cc) (g : Nat) (d a : Rn) (v : Wd) (h : Enc22 code cc.num g d a.toNat) (hg : 8 ≤ g)
    (hld : code.getLsbD 25 = true) (hat : at15 s code) (hc : cc.holds (flags s.F)) (hda : (modeOf code s.F).change = true → d ≠ a)
    (hv : word s ((modeOf code s.F).addr (src s a) (offOf s code)) = some v) :
    (exec22 ver false s).2 = .go ∧ (exec22 ver false s).1.F = s.F ∧
    Next 4 s (exec22 ver false s).1 (fun r => if r = d then some v else
      if (modeOf code s.F).change = true ∧ r = a then some ((modeOf code s.F).moved (src s a)) else none) := by
  have h1 := exec22_load ver s code cc g d a v h hg hld hat hc hv
  refine ⟨h1.1, h1.2.1, ?_⟩
  have hh := h1.2.2
  refine ⟨fun r => ?_, hh.pc, hh.mem, hh.dummy, hh.ticks⟩
  rw [hh.regs r]
  cases hb : (modeOf code s.F).change
  · simp
  · have := hda hb
    by_cases hr : r = a
    · subst hr
      simp [Ne.symm this]
    · simp [hr]

theorem c132_store_p2223 (ver : Wd) (s : St) (code : Wd) (cc : Cc) (g : Nat) (d a : Rn) (h : Enc22 code cc.num g d a.toNat) (hg : 8 ≤ g)
    (hld : code.getLsbD 25 = false) (hat : at15 s code) (hc : cc.holds (flags s.F))
    (hv : ((modeOf code s.F).addr (src s a) (offOf s code)).toNat < 0x20000) :
    (exec22 ver false s).2 = .go ∧
    Store 4 s (exec22 ver false s).1 (res a (if (modeOf code s.F).change then some ((modeOf code s.F).moved (src s a)) else none))
      ((modeOf code s.F).addr (src s a) (offOf s code)) (src s d) :=
  exec22_store ver s code cc g d a h hg hld hat hc hv

theorem c132_direct_p2223 (ver : Wd) (s : St) (code : Wd) (cc : Cc) (d : Rn) (i : BitVec 16) (hi : code.toNat % 2 ^ 16 = i.toNat)
    (hat : at15 s code) (hc : cc.holds (flags s.F)) :
    (Enc22 code cc.num 7 d 0 → Next 4 s (exec22 ver false s).1 (to d (s.mem (i.zeroExtend 32))) ∧ (exec22 ver false s).1.F = s.F) ∧
    (Enc22 code cc.num 6 d 0 → Store 4 s (exec22 ver false s).1 keep (i.zeroExtend 32) (src s d)) :=
  ⟨fun h => ⟨(exec22_ldd ver s code cc d i h hi hat hc).1, (exec22_ldd ver s code cc d i h hi hat hc).2.1⟩,
   fun h => (exec22_std ver s code cc d i h hi hat hc).1⟩

/-- PUSH Rd (st with the index register `a` changed) and later POP Re: whatever the flags U and P are, if
the index register, the flags and the pushed word are as the push left them, Re gets what Rd was and the index register is
what it was before the push. -/
theorem c132_push_pop (ver : Wd) (s t : St) (push pop : Wd) (d e a : Rn) (c1 c2 : Cc)
    (h1 : Enc22 push c1.num 0xd d a.toNat) (i1 : push.toNat % 2 ^ 16 = 0) (hat1 : at15 s push) (hc1 : c1.holds (flags s.F))
    (h2 : Enc22 pop c2.num 0xf e a.toNat) (i2 : pop.toNat % 2 ^ 16 = 0) (hat2 : at15 t pop) (hc2 : c2.holds (flags t.F))
    (hea : e ≠ a) (ha : a ≠ 15) (hx : ∀ x, (x = s.R a ∨ x = s.R a + 1 ∨ x = s.R a - 1) → x.toNat < 0x20000)
    (hta : t.R a = (exec22 ver false s).1.R a) (htf : t.F = (exec22 ver false s).1.F)
    (htm : ∀ x, (x = s.R a ∨ x = s.R a + 1 ∨ x = s.R a - 1) → t.mem x = (exec22 ver false s).1.mem x) :
    (exec22 ver false t).1.R e = src s d ∧ (exec22 ver false t).1.R a = s.R a := by
  have sa : src s a = s.R a := if_neg ha
  have ta : src t a = t.R a := if_neg ha
  have b1 : ∀ k, k < 4 → push.getLsbD (24 + k) = decide (13 / 2 ^ k % 2 = 1) := by
    intro k hk
    rw [bit_of]
    have hg := h1.grp
    have : k = 0 ∨ k = 1 ∨ k = 2 ∨ k = 3 := by omega
    rcases this with rfl | rfl | rfl | rfl <;> congr 1 <;> apply propext <;> omega
  have b2 : ∀ k, k < 4 → pop.getLsbD (24 + k) = true := by
    intro k hk
    rw [bit_of, decide_eq_true_eq]
    have hg := h2.grp
    have : k = 0 ∨ k = 1 ∨ k = 2 ∨ k = 3 := by omega
    rcases this with rfl | rfl | rfl | rfl <;> omega
  have o1 : offOf s push = 0 := by
    unfold offOf
    rw [if_pos (show push.getLsbD 26 = true from b1 2 (by decide)), show push.setWidth 16 = 0#16 from BitVec.eq_of_toNat_eq (by rw [BitVec.toNat_setWidth]; exact i1)]
    rfl
  have o2 : offOf t pop = 0 := by
    unfold offOf
    rw [if_pos (show pop.getLsbD 26 = true from b2 2 (by decide)), show pop.setWidth 16 = 0#16 from BitVec.eq_of_toNat_eq (by rw [BitVec.toNat_setWidth]; exact i2)]
    rfl
  have m1 : modeOf push s.F = { change := true, up := up s.F, pre := pre s.F } := by
    unfold modeOf
    simp only [show push.getLsbD 26 = true from b1 2 (by decide), show push.getLsbD 25 = false from b1 1 (by decide),
      show push.getLsbD 24 = true from b1 0 (by decide), if_true, Bool.xor_false]
  have m2 : modeOf pop t.F = { change := true, up := !up t.F, pre := !pre t.F } := by
    unfold modeOf
    simp only [show pop.getLsbD 26 = true from b2 2 (by decide), show pop.getLsbD 25 = true from b2 1 (by decide),
      show pop.getLsbD 24 = true from b2 0 (by decide), if_true, Bool.xor_true]
  have q1 := fun hv => exec22_store ver s push c1 _ d a h1 (by decide) (b1 1 (by decide)) hat1 hc1 hv
  have q2 := fun v hv => exec22_load ver t pop c2 _ e a v h2 (by decide) (b2 1 (by decide)) hat2 hc2 hv
  rw [m1, o1, sa] at q1
  rw [m2, o2, ta] at q2
  simp only [Mode.addr, Mode.moved, Bool.true_and, add_zero', if_true] at q1 q2
  have pm : ∀ x : Wd, x - 1 + 1 = x := fun x => BitVec.sub_add_cancel x 1
  have mp : ∀ x : Wd, x + 1 - 1 = x := fun x => BitVec.add_sub_cancel x 1
  have key : ∀ x y : Wd, (x = s.R a ∨ x = s.R a + 1 ∨ x = s.R a - 1) →
      Store 4 s (exec22 ver false s).1 (res a (some y)) x (src s d) → word t x = some (src s d) := by
    intro x y hxx hst
    unfold word
    rw [if_pos (hx x hxx), htm x hxx, hst.there]
  have reg1 : ∀ x y : Wd, Store 4 s (exec22 ver false s).1 (res a (some y)) x (src s d) → (exec22 ver false s).1.R a = y ∧ up t.F = up s.F ∧ pre t.F = pre s.F := by
    intro x y hst
    refine ⟨?_, by rw [htf, hst.flags], by rw [htf, hst.flags]⟩
    rw [hst.regs, res, to, if_pos rfl]; rfl
  cases hu : up s.F <;> cases hp : pre s.F <;> simp only [hu, hp, if_true, if_false, Bool.false_eq_true] at q1
  all_goals
    have hst := (q1 (hx _ (by simp))).2
    obtain ⟨r1, r2, r3⟩ := reg1 _ _ hst
    have hw := key _ _ (by simp) hst
    rw [hu] at r2
    rw [hp] at r3
    simp only [hta, r1, r2, r3, Bool.not_false, Bool.not_true, if_true, if_false, Bool.false_eq_true, pm, mp] at q2
    have hn := (q2 _ hw).2.2
    constructor
    · rw [hn.regs]; simp [hea]
    · rw [hn.regs]; simp

/-- push r1, pop r2 with U = 0 and P = 1, stack from 0x100 down -/
example : let s := machine 0x10 [0x0d1d0000, 0x0f2d0000] [(1, 0xabcd), (13, 0x100)] 0x10
    let t := (exec22 0 false s).1
    Enc22 0x0d1d0000 Cc.al.num 0xd 1 (13 : Rn).toNat ∧ at15 s 0x0d1d0000 ∧ Enc22 0x0f2d0000 Cc.al.num 0xf 2 (13 : Rn).toNat ∧ at15 t 0x0f2d0000 ∧
    (∀ x, (x = s.R 13 ∨ x = s.R 13 + 1 ∨ x = s.R 13 - 1) → x.toNat < 0x20000) ∧
    t.R 13 = 0xff ∧ (exec22 0 false t).1.R 2 = 0xabcd ∧ (exec22 0 false t).1.R 13 = 0x100 := by
  refine ⟨⟨by decide, by decide, by decide, by decide⟩, by decide, ⟨by decide, by decide, by decide, by decide⟩, by decide, ?_, by decide, by decide, by decide⟩
  intro x hx
  rcases hx with rfl | rfl | rfl <;> decide

/-- ld and st of the P1516, and a constant -/
example : let s := machine 0x10 [0x04105678, 0x06101234, 0x02120000, 0x01320000] [(2, 0x300)] 0
    Enc15 0x04105678 4 1 0 ∧ at15 s 0x04105678 ∧ Enc15 0x06101234 6 1 0 ∧ Enc15 0x02120000 2 1 2 ∧ Enc15 0x01320000 1 3 2 ∧
    (exec15 false (exec15 false (exec15 false (exec15 false s).1).1).1).1.R 3 = 0x12345678 := by
  refine ⟨⟨by decide, by decide, by decide⟩, by decide, ⟨by decide, by decide, by decide⟩, ⟨by decide, by decide, by decide⟩,
    ⟨by decide, by decide, by decide⟩, by decide⟩

/-! ### C133 -/

theorem c133_putb (ver : Wd) (s : St) (code : Wd) (cc : Cc) (d b : Rn) (h : Enc22 code cc.num 7 d 1) (hb : reg code 8 = b)
    (hat : at15 s code) (hc : cc.holds (flags s.F)) :
    ∃ v : Wd, Next 4 s (exec22 ver false s).1 (to d v) ∧ (exec22 ver false s).1.F = s.F ∧ (exec22 ver false s).2 = .go ∧
      ∀ k, k < 4 → byte v k = if k = byteNo s code then byte (src s b) 0 else byte (src s d) k :=
  exec22_putb ver s code cc d b h hb hat hc

theorem c133_getb (ver : Wd) (s : St) (code : Wd) (cc : Cc) (d b : Rn) (h : Enc22 code cc.num 6 d 1) (hb : reg code 8 = b)
    (hat : at15 s code) (hc : cc.holds (flags s.F)) :
    Next 4 s (exec22 ver false s).1 (to d (if code.getLsbD 14 then
      (if code.getLsbD 13 then (byte (src s b) (byteNo s code)).signExtend 32 else (byte (src s b) (byteNo s code)).zeroExtend 32)
      else (src s d).extractLsb' 8 24 ++ byte (src s b) (byteNo s code))) ∧ (exec22 ver false s).1.F = s.F ∧ (exec22 ver false s).2 = .go :=
  exec22_getb ver s code cc d b h hb hat hc

/-- putb r1,r2,2; getbs r3,r1,2 -/
example : let s := machine 0x10 [0x07118202, 0x0631e102] [(1, 0x11223344), (2, 0x99)] 0
    Enc22 0x07118202 Cc.al.num 7 1 1 ∧ reg 0x07118202 8 = 2 ∧ at15 s 0x07118202 ∧ (exec22 0 false s).1.R 1 = 0x11993344 ∧
    Enc22 0x0631e102 Cc.al.num 6 3 1 ∧ at15 (exec22 0 false s).1 0x0631e102 ∧ (exec22 0 false (exec22 0 false s).1).1.R 3 = 0xffffff99#32 := by
  refine ⟨⟨by decide, by decide, by decide, by decide⟩, by decide, by decide, by decide, ⟨by decide, by decide, by decide, by decide⟩, by decide, by decide⟩

/-! ### C134 -/

/-- P1516: for every word for which the disassembler finds a text that names an instruction `i`, DIV excepted: when the
condition that is shown holds, the instruction `i` with the registers and numbers that are shown is executed, and
otherwise nothing. -/
theorem c134_p1516_partial (s : St) (code : Wd) (e : Entry) (i : Ins) (hat : at15 s code) (he : lookup table15 code = some e)
    (hi : means e.text = some i) (hdiv : i ≠ .alu .div) :
    (shown (flags s.F) (prefix15 e code) → i.cond (flags s.F) → i.does (args15 code) s (exec15 false s).1) ∧
    (¬(shown (flags s.F) (prefix15 e code) ∧ i.cond (flags s.F)) → skips 1 s (exec15 false s).1) :=
  right15 s code e i hat he hi hdiv

/-- P2223: the same, of the words that are shown as what they are. -/
theorem c134_p2223_partial (ver : Wd) (s : St) (code : Wd) (e : Entry) (i : Ins22) (hat : at15 s code) (he : lookup table22 code = some e)
    (hi : means22 e.text = some i) (hx : Shown22 code i) :
    (shown22 (flags s.F) (prefix22 e code) → i.does (args22 s code) s (exec22 ver false s).1) ∧
    (¬shown22 (flags s.F) (prefix22 e code) → skips 4 s (exec22 ver false s).1) :=
  right22 ver s code e i hat he hi hx

/-- O1 ror r5:=(r6,C)>>1 -/
example : let s := machine 0x10 [0xf7560600] [] 8
    at15 s 0xf7560600 ∧ (lookup table15 0xf7560600).map (fun e => (prefix15 e 0xf7560600, e.text)) = some ("O1 ", "ror   %d:=(%a,C)>>1") ∧
    means "ror   %d:=(%a,C)>>1" = some (.alu .ror) ∧ shown (flags s.F) "O1 " := by
  refine ⟨by decide, by decide, rfl, rfl⟩
/-- GT ld r5:=mem[r6-,r7] -/
example : let s := machine 0x10 [0xdb560700] [] 0
    at15 s 0xdb560700 ∧ (lookup table22 0xdb560700).map (fun e => (prefix22 e 0xdb560700, e.text)) = some ("GT ", "ld %d:=mem[%a-,%b]") ∧
    means22 "ld %d:=mem[%a-,%b]" = some (.mem true false (.by false false)) ∧ Shown22 0xdb560700 (.mem true false (.by false false)) := by
  refine ⟨by decide, by decide, rfl, ⟨fun h => (nomatch h), fun h => h.elim (fun h => nomatch h) (fun h => nomatch h), fun b h => (nomatch h), fun h => absurd h (by decide)⟩⟩

/-- P1516: MUH is executed, and shown as unknown. -/
theorem c134_false_muh : Alu15 0x07123980 .muh 1 2 3 ∧ (lookup table15 0x07123980).isNone := by
  refine ⟨⟨⟨by decide, by decide, by decide⟩, by decide, by decide⟩, by decide⟩

/-- P2223: add r15,r14 and call 0xf00e00 are shown as ret. -/
theorem c134_false_ret : (lookup table22 0x00f40e00).map (·.text) = some "ret" ∧ (lookup table22 0x04f00e00).map (·.text) = some "ret" ∧
    (exec22 0 false (machine 0x10 [0x00f40e00] [(14, 0x50)] 0)).1.PC = 0x61 ∧
    (exec22 0 false (machine 0x10 [0x04f00e00] [(14, 0x50)] 0)).1.PC = 0xf00e00 := by
  refine ⟨by decide, by decide, by decide, by decide⟩

/-- P2223: the condition 15 is shown as none, but the instruction is not executed. -/
theorem c134_false_cond : (lookup table22 0xf0100200).map (fun e => (prefix22 e 0xf0100200, e.text)) = some ("   ", "mov %d:=%b") ∧
    (exec22 0 false (machine 0x10 [0xf0100200] [(1, 1), (2, 2)] 0)).1.R 1 = 1 := by
  refine ⟨by decide, by decide⟩

/-- P2223: OR is shown with the sign of AND. -/
theorem c134_false_or : (lookup table22 0x001d0200).map (·.text) = some "or %d:=%d&%b" ∧
    (exec22 0 false (machine 0x10 [0x001d0200] [(1, 1), (2, 2)] 0)).1.R 1 = 3 := by
  refine ⟨by decide, by decide⟩

/-- P2223: a store five words from the stack is shown as push. -/
theorem c134_false_push : (lookup table22 0x0d1d0005).map (·.text) = some "push %d" ∧
    (exec22 0 false (machine 0x10 [0x0d1d0005] [(1, 7), (13, 0x100)] 0)).1.mem 0x105 = 7 := by
  refine ⟨by decide, by decide⟩

/-- P2223: st mem[r2,r3]:=r1 with bit 15 set is executed, and shown as unknown. -/
theorem c134_false_st : (lookup table22 0x08128300).isNone ∧
    (exec22 0 false (machine 0x10 [0x08128300] [(1, 7), (2, 0x100), (3, 1)] 0)).1.mem 0x101 = 7 := by
  refine ⟨by decide, by decide⟩

/-! ### C135 -/

/-- `Runs15 o l s s'`: from `s`, the instructions `o` d:=a,b for the (d, a, b) of `l` are executed one after the other. -/
inductive Runs15 (o : Op) : List (Rn × Rn × Rn) → St → St → Prop
  | nil (s : St) : Runs15 o [] s s
  | cons {s s' : St} {d a b : Rn} {l : List (Rn × Rn × Rn)} (code : Wd) : at15 s code → Alu15 code o d a b → holds15 (flags s.F) code →
      Runs15 o l (exec15 false s).1 s' → Runs15 o ((d, a, b) :: l) s s'

/-- The same of the P2223: the destination is the first operand. -/
inductive Runs22 (ver : Wd) (o : Op2) : List (Rn × Rn) → St → St → Prop
  | nil (s : St) : Runs22 ver o [] s s
  | cons {s s' : St} {d b : Rn} {l : List (Rn × Rn)} (code : Wd) (cc : Cc) : at15 s code → Enc22 code cc.num 0 d o.num → code.toNat / 2 ^ 8 % 16 = b.toNat →
      cc.holds (flags s.F) → Runs22 ver o l (exec22 ver false s).1 s' → Runs22 ver o ((d, b) :: l) s s'

theorem others_of {k : Nat} {s s' : St} {d : Rn} {v : Wd} (h : Next k s s' (to d v)) : s'.R d = v ∧ ∀ r, r ≠ d → r ≠ 15 → s'.R r = s.R r := by
  refine ⟨by rw [h.regs, to, if_pos rfl]; rfl, fun r h1 h2 => ?_⟩
  rw [h.regs, to, if_neg h1]
  exact if_neg h2

theorem runs15_add {l : List (Rn × Rn × Rn)} {s s' : St} (h : Runs15 .addc l s s') (hcl : Clean l) : Chain AddStep l s s' := by
  induction h with
  | nil s => exact .nil s
  | cons code hat he hc _ ih =>
    have h1 := exec15_alu _ code _ _ _ _ he hat hc (by decide)
    obtain ⟨_, h15a, h15b, _, hcl'⟩ := hcl
    have h2 := others_of h1.1
    rw [src, if_neg h15a, src, if_neg h15b] at h1
    refine .cons ⟨?_, h2.2, ?_⟩ (ih hcl')
    · rw [(others_of h1.1).1]
    · rw [h1.2.1]; rfl

theorem runs15_sub {l : List (Rn × Rn × Rn)} {s s' : St} (h : Runs15 .sbb l s s') (hcl : Clean l) : Chain SubStep l s s' := by
  induction h with
  | nil s => exact .nil s
  | cons code hat he hc _ ih =>
    have h1 := exec15_alu _ code _ _ _ _ he hat hc (by decide)
    obtain ⟨_, h15a, h15b, _, hcl'⟩ := hcl
    have h2 := others_of h1.1
    rw [src, if_neg h15a, src, if_neg h15b] at h1
    refine .cons ⟨?_, h2.2, ?_⟩ (ih hcl')
    · rw [(others_of h1.1).1]
    · rw [h1.2.1]; rfl

theorem runs22_add {ver : Wd} {l : List (Rn × Rn)} {s s' : St} (h : Runs22 ver .adc l s s') (hcl : Clean (l.map fun p => (p.1, p.1, p.2))) :
    Chain AddStep (l.map fun p => (p.1, p.1, p.2)) s s' := by
  induction h with
  | nil s => exact .nil s
  | cons code cc hat he hb hc _ ih =>
    have h1 := (exec22_reg ver _ code _ cc _ _ he hb (by decide) hat hc).2
    obtain ⟨_, h15a, h15b, _, hcl'⟩ := hcl
    have h2 := others_of h1.1
    rw [src, if_neg h15a, src, if_neg h15b] at h1
    refine .cons ⟨?_, h2.2, ?_⟩ (ih hcl')
    · rw [(others_of h1.1).1]
    · rw [h1.2.1]; rfl

theorem runs22_sub {ver : Wd} {l : List (Rn × Rn)} {s s' : St} (h : Runs22 ver .sbb l s s') (hcl : Clean (l.map fun p => (p.1, p.1, p.2))) :
    Chain SubStep (l.map fun p => (p.1, p.1, p.2)) s s' := by
  induction h with
  | nil s => exact .nil s
  | cons code cc hat he hb hc _ ih =>
    have h1 := (exec22_reg ver _ code _ cc _ _ he hb (by decide) hat hc).2
    obtain ⟨_, h15a, h15b, _, hcl'⟩ := hcl
    have h2 := others_of h1.1
    rw [src, if_neg h15a, src, if_neg h15b] at h1
    refine .cons ⟨?_, h2.2, ?_⟩ (ih hcl')
    · rw [(others_of h1.1).1]
    · rw [h1.2.1]; rfl

/-- Numbers of any number of words are added word by word: the sum, with C as its highest digit. -/
theorem c135_add_p1516 {l : List (Rn × Rn × Rn)} {s s' : St} (h : Runs15 .addc l s s') (hcl : Clean l) :
    number s'.R (l.map (·.1)) + 2 ^ (32 * l.length) * (flags s'.F).c.toNat =
      number s.R (l.map (·.2.1)) + number s.R (l.map (·.2.2)) + (flags s.F).c.toNat :=
  chain_add (runs15_add h hcl) hcl

/-- Subtraction: C clear is a borrow. -/
theorem c135_sub_p1516 {l : List (Rn × Rn × Rn)} {s s' : St} (h : Runs15 .sbb l s s') (hcl : Clean l) :
    number s'.R (l.map (·.1)) + number s.R (l.map (·.2.2)) + (!(flags s.F).c).toNat =
      number s.R (l.map (·.2.1)) + 2 ^ (32 * l.length) * (!(flags s'.F).c).toNat :=
  chain_sub (runs15_sub h hcl) hcl

theorem c135_add_p2223 {ver : Wd} {l : List (Rn × Rn)} {s s' : St} (h : Runs22 ver .adc l s s') (hcl : Clean (l.map fun p => (p.1, p.1, p.2))) :
    number s'.R (l.map (·.1)) + 2 ^ (32 * l.length) * (flags s'.F).c.toNat =
      number s.R (l.map (·.1)) + number s.R (l.map (·.2)) + (flags s.F).c.toNat := by
  have := chain_add (runs22_add h hcl) hcl
  simpa only [List.map_map, List.length_map, Function.comp_def] using this

theorem c135_sub_p2223 {ver : Wd} {l : List (Rn × Rn)} {s s' : St} (h : Runs22 ver .sbb l s s') (hcl : Clean (l.map fun p => (p.1, p.1, p.2))) :
    number s'.R (l.map (·.1)) + number s.R (l.map (·.2)) + (!(flags s.F).c).toNat =
      number s.R (l.map (·.1)) + 2 ^ (32 * l.length) * (!(flags s'.F).c).toNat := by
  have := chain_sub (runs22_sub h hcl) hcl
  simpa only [List.map_map, List.length_map, Function.comp_def] using this

/-- 64 bits: (r5,r6) := (r1,r2) + (r3,r4); and (r1,r2) -= (r3,r4) on the P2223 -/
example : let s := machine 0x10 [0x07513080, 0x07624080] [(1, 0xffffffff), (2, 1), (3, 1), (4, 2)] 0
    let s' := (exec15 false (exec15 false s).1).1
    Runs15 .addc [(5, 1, 3), (6, 2, 4)] s s' ∧ Clean [(5, 1, 3), (6, 2, 4)] ∧ number s'.R [5, 6] = 4 * 2 ^ 32 := by
  refine ⟨.cons 0x07513080 (by decide) ⟨⟨by decide, by decide, by decide⟩, by decide, by decide⟩ (fun h => absurd h (by decide))
    (.cons 0x07624080 (by decide) ⟨⟨by decide, by decide, by decide⟩, by decide, by decide⟩ (fun h => absurd h (by decide)) (.nil _)), ?_, by decide⟩
  simp only [Clean, List.mem_cons, List.not_mem_nil, or_false, forall_eq, false_imp_iff, implies_true, and_true]
  decide
example : let s := machine 0x10 [0x00170300, 0x00270400] [(1, 0), (2, 1), (3, 1), (4, 2)] 2
    let s' := (exec22 0 false (exec22 0 false s).1).1
    Runs22 0 .sbb [(1, 3), (2, 4)] s s' ∧ Clean [(1, 1, 3), (2, 2, 4)] ∧ (flags s'.F).c = false ∧ s'.R 2 = 0xfffffffe#32 := by
  refine ⟨.cons 0x00170300 .al (by decide) ⟨by decide, by decide, by decide, by decide⟩ (by decide) trivial
    (.cons 0x00270400 .al (by decide) ⟨by decide, by decide, by decide, by decide⟩ (by decide) trivial (.nil _)), ?_, by decide, by decide⟩
  simp only [Clean, List.mem_cons, List.not_mem_nil, or_false, forall_eq, false_imp_iff, implies_true, and_true]
  decide

/-! ### C136 -/

/-- After a reset, after PC is set, and after every instruction that is not invalid, PC is R15; so that execution goes on where PC shows. -/
theorem c136_pc_partial (ver : Wd) (hit : Bool) (s : St) (a : Wd) :
    (reset s).PC = (reset s).R 15 ∧ (setPC s a).PC = a ∧ (setPC s a).R 15 = a ∧
    (doInst exec15 hit s).1.PC = (doInst exec15 hit s).1.R 15 ∧
    ((doInst (exec22 ver) hit s).2 ≠ .inv → (doInst (exec22 ver) hit s).1.PC = (doInst (exec22 ver) hit s).1.R 15) := by
  refine ⟨rfl, rfl, rfl, ?_, ?_⟩
  · have h1 : ∀ t : St, (exec15 hit t).2 ≠ .inv ∧ (exec15 hit t).1.PC = (exec15 hit t).1.R 15 := by
      intro t
      unfold exec15
      cases hit
      · simp only [Bool.false_eq_true, if_false]
        split
        · exact ⟨fun h => (nomatch (show Res.go = Res.inv from h)), rfl⟩
        · refine ⟨fun h => (nomatch (show Res.go = Res.inv from h)), ?_⟩
          unfold body15
          split <;> rfl
      · exact ⟨fun h => (nomatch (show Res.brk = Res.inv from h)), rfl⟩
    have := h1 { s with instPC := s.PC }
    unfold doInst
    simp only
    split
    · rename_i h; exact absurd h this.1
    · exact this.2
  · have h1 : ∀ t : St, (exec22 ver hit t).1.PC = (exec22 ver hit t).1.R 15 := by
      intro t
      unfold exec22
      cases hit
      · simp only [Bool.false_eq_true, if_false]
        split
        · rfl
        · rfl
      · rfl
    unfold doInst
    simp only
    intro hne
    split
    · rename_i h
      rw [h] at hne
      exact absurd rfl hne
    · exact h1 _

/-- At a breakpoint that stops it the machine executes nothing: registers, flags and memory are as before. -/
theorem c136_break_partial (ver : Wd) (s : St) :
    (exec15 true s).2 = .brk ∧ (exec15 true s).1.R = s.R ∧ (exec15 true s).1.F = s.F ∧ (exec15 true s).1.mem = s.mem ∧
    (exec22 ver true s).2 = .brk ∧ (exec22 ver true s).1.R = s.R ∧ (exec22 ver true s).1.F = s.F ∧ (exec22 ver true s).1.mem = s.mem := by
  have h : ∀ t : St, t.R = s.R → (setR t 15 (s.R 15)).R = s.R := by
    intro t ht
    funext r
    unfold setR
    simp only
    by_cases hr : r = 15
    · rw [if_pos hr, hr]
    · rw [if_neg hr, ht]
  exact ⟨rfl, h _ rfl, rfl, rfl, rfl, h _ rfl, rfl, rfl⟩

/-- The clocks of the instruction that was not executed are counted, and again when it is executed. -/
theorem c136_false_break : (exec15 true (machine 0 [0] [] 0)).1.ticks = 1 ∧ (exec22 0 true (machine 0 [0] [] 0)).1.ticks = 4 := by
  decide

/-- After an invalid instruction of the P2223 PC is set back to it, but R15 is not: the next step does not execute
what PC shows but the instruction after it. -/
theorem c136_false_invalid : let s := machine 0x10 [0x00010000, 0x01120007] [] 0
    let t := (doInst (exec22 0) false s).1
    (doInst (exec22 0) false s).2 = .inv ∧ t.PC = 0x10 ∧ t.R 15 = 0x11 ∧ (doInst (exec22 0) false t).2 = .go ∧ (doInst (exec22 0) false t).1.R 1 = 7 := by
  decide

/-! ### C137 -/

theorem rol_ror_val (x : Wd) (c : Bool) :
    BitVec.ofNat 32 (((BitVec.ofNat 32 (2 * x.toNat + c.toNat)).toNat + (decide (2 ^ 31 ≤ x.toNat)).toNat * 2 ^ 32) / 2) = x ∧
    decide ((BitVec.ofNat 32 (2 * x.toNat + c.toNat)).toNat % 2 = 1) = c := by
  have hl := lt_wd x
  have hc : c.toNat ≤ 1 := by cases c <;> decide
  rw [BitVec.toNat_ofNat]
  by_cases h : 2 ^ 31 ≤ x.toNat
  · rw [decide_eq_true h]
    refine ⟨?_, ?_⟩
    · apply BitVec.eq_of_toNat_eq
      rw [BitVec.toNat_ofNat]
      show ((2 * x.toNat + c.toNat) % 2 ^ 32 + 1 * 2 ^ 32) / 2 % 2 ^ 32 = _
      omega
    · cases c
      · rw [decide_eq_false_iff_not]; simp only [Bool.toNat_false]; omega
      · rw [decide_eq_true_eq]; simp only [Bool.toNat_true]; omega
  · rw [decide_eq_false h]
    refine ⟨?_, ?_⟩
    · apply BitVec.eq_of_toNat_eq
      rw [BitVec.toNat_ofNat]
      show ((2 * x.toNat + c.toNat) % 2 ^ 32 + 0 * 2 ^ 32) / 2 % 2 ^ 32 = _
      omega
    · cases c
      · rw [decide_eq_false_iff_not]; simp only [Bool.toNat_false]; omega
      · rw [decide_eq_true_eq]; simp only [Bool.toNat_true]; omega

theorem ror_rol_val (x : Wd) (c : Bool) :
    BitVec.ofNat 32 (2 * (BitVec.ofNat 32 ((x.toNat + c.toNat * 2 ^ 32) / 2)).toNat + (decide (x.toNat % 2 = 1)).toNat) = x ∧
    decide (2 ^ 31 ≤ (BitVec.ofNat 32 ((x.toNat + c.toNat * 2 ^ 32) / 2)).toNat) = c := by
  have hl := lt_wd x
  have hc : c.toNat ≤ 1 := by cases c <;> decide
  rw [BitVec.toNat_ofNat]
  have e : (x.toNat + c.toNat * 2 ^ 32) / 2 % 2 ^ 32 = x.toNat / 2 + c.toNat * 2 ^ 31 := by omega
  rw [e]
  refine ⟨?_, ?_⟩
  · apply BitVec.eq_of_toNat_eq
    rw [BitVec.toNat_ofNat]
    by_cases h : x.toNat % 2 = 1
    · rw [decide_eq_true h]
      show (2 * (x.toNat / 2 + c.toNat * 2 ^ 31) + 1) % 2 ^ 32 = _
      omega
    · rw [decide_eq_false h]
      show (2 * (x.toNat / 2 + c.toNat * 2 ^ 31) + 0) % 2 ^ 32 = _
      omega
  · cases c
    · rw [decide_eq_false_iff_not]; simp only [Bool.toNat_false]; omega
    · rw [decide_eq_true_eq]; simp only [Bool.toNat_true]; omega

/-- P1516: ROL and then ROR, or ROR and then ROL, of a register other than R15: the register and C are as before. -/
theorem c137_rotate_p1516 (s : St) (code1 code2 : Wd) (o1 o2 : Op) (d b1 b2 : Rn) (ho : (o1 = .rol ∧ o2 = .ror) ∨ (o1 = .ror ∧ o2 = .rol)) (hd : d ≠ 15)
    (h1 : Alu15 code1 o1 d d b1) (hat1 : at15 s code1) (hc1 : holds15 (flags s.F) code1)
    (h2 : Alu15 code2 o2 d d b2) (hat2 : at15 (exec15 false s).1 code2) (hc2 : holds15 (flags (exec15 false s).1.F) code2) :
    (exec15 false (exec15 false s).1).1.R d = s.R d ∧ (flags (exec15 false (exec15 false s).1).1.F).c = (flags s.F).c := by
  have e1 := exec15_alu s code1 o1 d d b1 h1 hat1 hc1 (by rcases ho with h | h <;> rw [h.1] <;> decide)
  have e2 := exec15_alu _ code2 o2 d d b2 h2 hat2 hc2 (by rcases ho with h | h <;> rw [h.2] <;> decide)
  have s1 : src s d = s.R d := if_neg hd
  have s2 : src (exec15 false s).1 d = (exec15 false s).1.R d := if_neg hd
  rcases ho with ⟨rfl, rfl⟩ | ⟨rfl, rfl⟩
  · have r1 := (others_of e1.1).1
    have r2 := (others_of e2.1).1
    rw [r2, e2.2.1, s2, r1, e1.2.1, s1]
    exact rol_ror_val (s.R d) (flags s.F).c
  · have r1 := (others_of e1.1).1
    have r2 := (others_of e2.1).1
    rw [r2, e2.2.1, s2, r1, e1.2.1, s1]
    exact ror_rol_val (s.R d) (flags s.F).c

theorem c137_rotate_p2223 (ver : Wd) (s : St) (code1 code2 : Wd) (o1 o2 : Op1) (d : Rn) (c1 c2 : Cc) (g1 g2 : Nat) (ho : (o1 = .rol ∧ o2 = .ror) ∨ (o1 = .ror ∧ o2 = .rol)) (hd : d ≠ 15)
    (h1 : Enc22 code1 c1.num g1 d o1.num) (hg1 : g1 / 2 = 1) (hat1 : at15 s code1) (hc1 : c1.holds (flags s.F))
    (h2 : Enc22 code2 c2.num g2 d o2.num) (hg2 : g2 / 2 = 1) (hat2 : at15 (exec22 ver false s).1 code2) (hc2 : c2.holds (flags (exec22 ver false s).1.F)) :
    (exec22 ver false (exec22 ver false s).1).1.R d = s.R d ∧ (flags (exec22 ver false (exec22 ver false s).1).1.F).c = (flags s.F).c := by
  have e1 := (exec22_op1 ver s code1 o1 c1 d g1 h1 hg1 hat1 hc1).2
  have e2 := (exec22_op1 ver _ code2 o2 c2 d g2 h2 hg2 hat2 hc2).2
  have s1 : src s d = s.R d := if_neg hd
  have s2 : src (exec22 ver false s).1 d = (exec22 ver false s).1.R d := if_neg hd
  rcases ho with ⟨rfl, rfl⟩ | ⟨rfl, rfl⟩
  · have r1 := (others_of e1.1).1
    have r2 := (others_of e2.1).1
    rw [r2, e2.2.1, s2, r1, e1.2.1, s1]
    exact rol_ror_val (s.R d) (flags s.F).c
  · have r1 := (others_of e1.1).1
    have r2 := (others_of e2.1).1
    rw [r2, e2.2.1, s2, r1, e1.2.1, s1]
    exact ror_rol_val (s.R d) (flags s.F).c

example : let s := machine 0x10 [0x07110580, 0x07110600] [(1, 0x80000001)] 2
    Alu15 0x07110580 .rol 1 1 0 ∧ at15 s 0x07110580 ∧ Alu15 0x07110600 .ror 1 1 0 ∧ at15 (exec15 false s).1 0x07110600 ∧ (exec15 false s).1.R 1 = 3 := by
  refine ⟨⟨⟨by decide, by decide, by decide⟩, by decide, by decide⟩, by decide, ⟨⟨by decide, by decide, by decide⟩, by decide, by decide⟩, by decide, by decide⟩
example : let s := machine 0x10 [0x02170000, 0x02160000] [(1, 0x80000001)] 2
    Enc22 0x02170000 Cc.al.num 2 1 Op1.rol.num ∧ at15 s 0x02170000 ∧ Enc22 0x02160000 Cc.al.num 2 1 Op1.ror.num ∧
    at15 (exec22 0 false s).1 0x02160000 ∧ (exec22 0 false s).1.R 1 = 3 := by
  refine ⟨⟨by decide, by decide, by decide, by decide⟩, by decide, ⟨by decide, by decide, by decide, by decide⟩, by decide, by decide⟩

end Ucsim.P15
