import Verif.Proof.Avr
import Verif.Proof.AvrSel2
/- The member functions execute the instructions of the manual. -/
namespace Ucsim.Avr

open Isa (Ins Mach reg pair flag carry setReg setMem setPair setFlags)

/-! ### The machine of a state -/

theorem mach_ext {a b : Mach} (h1 : a.prog = b.prog) (h2 : ∀ x, a.mem x = b.mem x) (h3 : a.pc = b.pc) (h4 : a.asleep = b.asleep) : a = b := by
  cases a; cases b
  simp only at h1 h3 h4
  have h2 : _ = _ := funext h2
  simp only at h2
  rw [h1, h2, h3, h4]

theorem abs_tick (n : Nat) (s : St) : abs (tick n s) = abs s := rfl

theorem reg_abs (s : St) (d : Nat) (h : d < 0x10000) : reg (abs s) d = rd s d := by
  unfold Isa.reg abs
  simp only [BitVec.toNat_ofNat]
  rw [Nat.mod_eq_of_lt (by omega)]

theorem rd_wr (a b : Nat) (v : Byte) (s : St) (h : a < 0x80) : rd (wr a v s) b = if b = a then v else rd s b := by
  unfold rd wr
  simp only [h, if_true]
  by_cases hb : b = a
  · subst hb
    simp [h]
  · simp [hb]

theorem wr_pc (a : Nat) (v : Byte) (s : St) : (wr a v s).pc = s.pc := by
  unfold wr
  split
  · rfl
  · split <;> rfl
theorem wr_rom (a : Nat) (v : Byte) (s : St) : (wr a v s).rom = s.rom := by
  unfold wr
  split
  · rfl
  · split <;> rfl
theorem wr_sleep (a : Nat) (v : Byte) (s : St) : (wr a v s).sleep = s.sleep := by
  unfold wr
  split
  · rfl
  · split <;> rfl
theorem wr_ticks (a : Nat) (v : Byte) (s : St) : (wr a v s).ticks = s.ticks := by
  unfold wr
  split
  · rfl
  · split <;> rfl

theorem abs_wrm (w : Word) (a : Nat) (v : Byte) (s : St) (hw : w.toNat = a) (h : a < 0x80) : abs (wr a v s) = setMem w v (abs s) := by
  apply mach_ext
  · exact wr_rom _ _ _
  · intro x
    change rd (wr a v s) x.toNat = if x = w then v else rd s x.toNat
    rw [rd_wr _ _ _ _ h, ← hw]
    by_cases hx : x = w
    · subst hx; simp
    · rw [if_neg (fun e => hx (BitVec.eq_of_toNat_eq e)), if_neg hx]
  · change BitVec.ofNat 16 (wr a v s).pc = BitVec.ofNat 16 s.pc
    rw [wr_pc]
  · exact wr_sleep _ _ _

theorem abs_wr (a : Nat) (v : Byte) (s : St) (h : a < 0x80) : abs (wr a v s) = setReg a v (abs s) :=
  abs_wrm (BitVec.ofNat 16 a) a v s (by rw [BitVec.toNat_ofNat]; omega) h

theorem sreg_wr (d : Nat) (v : Byte) (s : St) (h : d < 0x5f) : sreg (wr d v s) = sreg s := by
  unfold sreg SREG
  rw [rd_wr _ _ _ _ (by omega), if_neg (by omega)]

theorem append_toNat (h l : Byte) : (h ++ l : Word).toNat = h.toNat * 256 + l.toNat := by
  rw [BitVec.toNat_append, Nat.shiftLeft_eq, Nat.mul_comm]
  rw [← Nat.two_pow_add_eq_or_of_lt l.isLt]

theorem ptr_lt (p : Nat) (s : St) : ptr p s < 0x10000 := by
  unfold ptr
  have := (rd s (p + 1)).isLt
  have := (rd s p).isLt
  omega

theorem pair_toNat (s : St) (p : Nat) (h : p < 0xffff) : (pair (abs s) p).toNat = ptr p s := by
  unfold Isa.pair
  rw [append_toNat, reg_abs _ _ (by omega), reg_abs _ _ (by omega)]
  rfl

theorem pair_abs (s : St) (p : Nat) (h : p < 0xffff) : pair (abs s) p = BitVec.ofNat 16 (ptr p s) := by
  apply BitVec.eq_of_toNat_eq
  rw [pair_toNat s p h, BitVec.toNat_ofNat, Nat.mod_eq_of_lt (ptr_lt p s)]

theorem mem_abs (s : St) (w : Word) : (abs s).mem w = rd s w.toNat := rfl

theorem ofNat_validate (a : Nat) : BitVec.ofNat 16 (validate a) = BitVec.ofNat 16 a := by
  apply BitVec.eq_of_toNat_eq
  rw [BitVec.toNat_ofNat, BitVec.toNat_ofNat]
  unfold validate
  split <;> omega

theorem abs_jump (a : Nat) (s : St) : abs (jump a s) = { abs s with pc := BitVec.ofNat 16 a } := by
  unfold jump abs
  rw [ofNat_validate]
  rfl

theorem validate_lt (a : Nat) (h : a ≠ 0x10000) : validate a < 0x10000 := by
  unfold validate
  split <;> omega

theorem flag_abs (s : St) (i : Nat) : flag (abs s) i = (sreg s).getLsbD i := by
  unfold Isa.flag
  rw [reg_abs _ _ (by decide)]
  rfl

theorem reg_setReg (m : Mach) (a b : Nat) (v : Byte) (ha : a < 0x10000) (hb : b < 0x10000) :
    reg (setReg a v m) b = if b = a then v else reg m b := by
  unfold Isa.reg Isa.setReg
  by_cases h : b = a
  · subst h; simp
  · have : BitVec.ofNat 16 b ≠ BitVec.ofNat 16 a := by
      intro e
      have := congrArg BitVec.toNat e
      simp only [BitVec.toNat_ofNat] at this
      omega
    simp only [this, h, if_false]

theorem setReg_setReg (m : Mach) (a : Nat) (v w : Byte) : setReg a w (setReg a v m) = setReg a w m := by
  apply mach_ext <;> try rfl
  intro x
  unfold Isa.setReg
  simp only
  split <;> rfl

theorem setFlags_eq (l : List (Nat × Bool)) (m : Mach) : setFlags l m = setReg Isa.SREG (bits l (reg m Isa.SREG)) m := by
  unfold Isa.setFlags
  induction l generalizing m with
  | nil =>
    apply mach_ext <;> try rfl
    intro x
    change m.mem x = if x = BitVec.ofNat 16 Isa.SREG then m.mem (BitVec.ofNat 16 Isa.SREG) else m.mem x
    split
    · subst x; rfl
    · rfl
  | cons f l ih =>
    rw [List.foldl_cons, ih]
    unfold Isa.setFlag
    rw [setReg_setReg, reg_setReg _ _ _ _ (by decide) (by decide), if_pos rfl]
    rfl

/-- What is to be shown of an instruction. -/
def Ok (r : Option St) (m : Mach) : Prop := ∃ s', r = some s' ∧ abs s' = m ∧ s'.pc < 0x10000

theorem fin_flags (l : List (Nat × Bool)) (p : Byte) (s : St) (hp : p = bits l (sreg s)) :
    abs (setSreg p s) = setFlags l (abs s) := by
  unfold setSreg
  rw [abs_wr _ _ _ (by decide), setFlags_eq, reg_abs _ _ (by decide), hp]
  rfl

theorem fin_alu (d : Nat) (v v' : Byte) (l : List (Nat × Bool)) (p : Byte) (s : St) (hd : d < 0x5f) (hv : v = v')
    (hp : p = bits l (sreg s)) : abs (setSreg p (wr d v s)) = setFlags l (setReg d v' (abs s)) := by
  rw [fin_flags l p _ (by rw [sreg_wr _ _ _ hd]; exact hp), abs_wr _ _ _ (by omega), hv]

theorem setSreg_pc (p : Byte) (s : St) : (setSreg p s).pc = s.pc := wr_pc _ _ _

/-! ### Operands -/

theorem cd_lt (c : Nat) : cd c < 32 := by
  unfold cd
  have : c &&& 0x1f0 ≤ 0x1f0 := Nat.and_le_right
  rw [Nat.shiftRight_eq_div_pow]
  omega

theorem or_lt {a b n : Nat} (k : Nat) (h : n = 2 ^ k) (ha : a < n) (hb : b < n) : a ||| b < n := by
  subst h
  exact Nat.or_lt_two_pow ha hb

theorem cr_lt (c : Nat) : cr c < 32 := by
  unfold cr
  have h1 : c &&& 0x200 ≤ 0x200 := Nat.and_le_right
  have h2 : c &&& 0xf ≤ 0xf := Nat.and_le_right
  rw [Nat.shiftRight_eq_div_pow]
  exact or_lt 5 rfl (by omega) (by omega)

theorem cd4_lt (c : Nat) : cd4 c < 16 := by
  unfold cd4
  have : c &&& 0xf0 ≤ 0xf0 := Nat.and_le_right
  rw [Nat.shiftRight_eq_div_pow]
  omega

theorem cK_lt (c : Nat) : cK c < 256 := by
  unfold cK
  have h1 : c &&& 0xf00 ≤ 0xf00 := Nat.and_le_right
  have h2 : c &&& 0xf ≤ 0xf := Nat.and_le_right
  rw [Nat.shiftRight_eq_div_pow]
  exact or_lt 8 rfl (by omega) (by omega)

theorem cK6_lt (c : Nat) : cK6 c < 64 := by
  unfold cK6
  have h1 : c &&& 0xc0 ≤ 0xc0 := Nat.and_le_right
  have h2 : c &&& 0xf ≤ 0xf := Nat.and_le_right
  rw [Nat.shiftRight_eq_div_pow]
  exact or_lt 6 rfl (by omega) (by omega)

theorem cdl_lt (c : Nat) : 24 ≤ cdl c ∧ cdl c < 31 := by
  unfold cdl
  have h1 : c &&& 0x30 ≤ 0x30 := Nat.and_le_right
  rw [Nat.shiftRight_eq_div_pow]
  omega

theorem cP_lt (c : Nat) : cP c < 64 := by
  unfold cP
  have h1 : c &&& 0x600 ≤ 0x600 := Nat.and_le_right
  have h2 : c &&& 0xf ≤ 0xf := Nat.and_le_right
  rw [Nat.shiftRight_eq_div_pow]
  exact or_lt 6 rfl (by omega) (by omega)

theorem cP5_lt (c : Nat) : cP5 c < 32 := by
  unfold cP5
  have h1 : c &&& 0xf8 ≤ 0xf8 := Nat.and_le_right
  rw [Nat.shiftRight_eq_div_pow]
  omega

theorem cb_lt (c : Nat) : cb c < 8 := by
  unfold cb
  have h1 : c &&& 7 ≤ 7 := Nat.and_le_right
  omega

theorem cq_lt (c : Nat) : cq c < 64 := by
  unfold cq
  have h1 : c &&& 0x2000 ≤ 0x2000 := Nat.and_le_right
  have h2 : c &&& 0xc00 ≤ 0xc00 := Nat.and_le_right
  have h3 : c &&& 7 ≤ 7 := Nat.and_le_right
  rw [Nat.shiftRight_eq_div_pow, Nat.shiftRight_eq_div_pow]
  exact or_lt 6 rfl (or_lt 6 rfl (by omega) (by omega)) (by omega)

/-- The constant is right when its upper half is 0. -/
theorem cKa_eq (c : Nat) (h : cK c < 16) : cKa c = cK c := by
  unfold cK at h
  have h0 : ((c &&& 0xf00) >>> 4) = 0 := by
    have hle : (c &&& 0xf00) >>> 4 ≤ (c &&& 0xf00) >>> 4 ||| (c &&& 0xf) := Nat.left_le_or
    have : (c &&& 0xf00) >>> 4 < 16 := by omega
    have e : c &&& 0xf00 = (c >>> 8 &&& 0xf) <<< 8 := by
      apply Nat.eq_of_testBit_eq
      intro i
      have hf : (0xf00 : Nat).testBit i = (decide (i ≥ 8) && (0xf : Nat).testBit (i - 8)) := Nat.testBit_shiftLeft (x := 0xf) (i := 8) (j := i)
      simp only [Nat.testBit_and, Nat.testBit_shiftLeft, Nat.testBit_shiftRight]
      by_cases hi : 8 ≤ i
      · rw [hf]
        simp [hi, show 8 + (i - 8) = i by omega]
      · have : (0xf00 : Nat).testBit i = false := by
          have : i = 0 ∨ i = 1 ∨ i = 2 ∨ i = 3 ∨ i = 4 ∨ i = 5 ∨ i = 6 ∨ i = 7 := by omega
          rcases this with h | h | h | h | h | h | h | h <;> subst h <;> decide
        simp [this, hi]
    rw [e, Nat.shiftLeft_eq, Nat.shiftRight_eq_div_pow] at this ⊢
    omega
  unfold cKa cK
  have h1 : (c &&& 0xf00) >>> 8 = 0 := by
    rw [Nat.shiftRight_eq_div_pow] at h0 ⊢
    omega
  rw [h0, h1, Nat.or_zero, Nat.zero_or]

theorem sx_K (c : Nat) (h : cK c < 16) : sx (cKa c) = sx (BitVec.ofNat 8 (cK c)).toNat := by
  rw [cKa_eq c h, BitVec.toNat_ofNat, Nat.mod_eq_of_lt (by omega)]

theorem carry_abs (s : St) : carry (abs s) = if (sreg s).getLsbD 0 then 1 else 0 := by
  unfold Isa.carry
  rw [flag_abs]

theorem carry_le (s : St) : (if (sreg s).getLsbD 0 then 1 else 0) ≤ 1 := by split <;> omega

theorem sub0 (x y : Byte) : x - y - BitVec.ofNat 8 0 = x - y := by
  rw [show BitVec.ofNat 8 0 = 0#8 from rfl, BitVec.sub_zero]

theorem ofNat_toNat8 (v : Byte) : BitVec.ofNat 8 v.toNat = v := by
  rw [BitVec.ofNat_toNat, BitVec.setWidth_eq]

theorem add_val (x y : Byte) (k : Nat) : BitVec.ofNat 8 (x.toNat + y.toNat + k) = x + y + BitVec.ofNat 8 k := by
  apply BitVec.eq_of_toNat_eq
  simp only [BitVec.toNat_add, BitVec.toNat_ofNat]
  omega

/-! ### Arithmetic -/

section
variable (c : Nat) (s : St) (hp : s.pc < 0x10000)
include hp

theorem ok_cpi (hd : ¬ Differs ⟨.cpi, 16 + cd4 c, cK c⟩ (abs s)) :
    Ok (exec .cpi c s) (Isa.exec ⟨.cpi, 16 + cd4 c, cK c⟩ (abs s)) := by
  have hk : cK c < 16 := by have : ¬ 16 ≤ cK c := hd; omega
  have h4 := cd4_lt c
  refine ⟨_, rfl, ?_, by rw [setSreg_pc]; exact hp⟩
  dsimp only [Isa.exec]
  refine fin_flags _ _ _ ?_
  rw [sx_K c hk, subRes_eq, subF_eq _ _ _ _ (by omega), reg_abs _ _ (by omega)]
  rfl

theorem ok_subi (hd : ¬ Differs ⟨.subi, 16 + cd4 c, cK c⟩ (abs s)) :
    Ok (exec .subi c s) (Isa.exec ⟨.subi, 16 + cd4 c, cK c⟩ (abs s)) := by
  have hk : cK c < 16 := by have : ¬ 16 ≤ cK c := hd; omega
  have h4 := cd4_lt c
  refine ⟨_, rfl, ?_, by rw [setSreg_pc, wr_pc]; exact hp⟩
  dsimp only [Isa.exec]
  refine fin_alu _ _ _ _ _ _ (by omega) ?_ ?_
  · rw [sx_K c hk, subRes_eq, ofNat_toNat8, sub0, reg_abs _ _ (by omega)]
  · rw [sreg_wr _ _ _ (by omega), sx_K c hk, subRes_eq, subF_eq _ _ _ _ (by omega), reg_abs _ _ (by omega)]
    rfl

theorem ok_sbci (hd : ¬ Differs ⟨.sbci, 16 + cd4 c, cK c⟩ (abs s)) :
    Ok (exec .sbci c s) (Isa.exec ⟨.sbci, 16 + cd4 c, cK c⟩ (abs s)) := by
  have hd : ¬ (16 ≤ cK c ∨ ¬ SbcOk (reg (abs s) (16 + cd4 c)) (BitVec.ofNat 8 (cK c)) (carry (abs s))) := hd
  have hk : cK c < 16 := by omega
  have h4 := cd4_lt c
  have hs : SbcOk (reg (abs s) (16 + cd4 c)) (BitVec.ofNat 8 (cK c)) (carry (abs s)) := by
    apply Classical.byContradiction
    intro h
    exact hd (Or.inr h)
  rw [reg_abs _ _ (by omega), carry_abs] at hs
  refine ⟨_, rfl, ?_, by rw [setSreg_pc, wr_pc]; exact hp⟩
  dsimp only [Isa.exec]
  refine fin_alu _ _ _ _ _ _ (by omega) ?_ ?_
  · rw [sx_K c hk, sbcRes_eq _ _ _ hs, ofNat_toNat8, carry_abs, reg_abs _ _ (by omega)]
  · rw [sx_K c hk, sbcRes_eq _ _ _ hs, subF_eq _ _ _ _ (carry_le s), reg_abs _ _ (by omega), carry_abs, flag_abs]
    rfl

theorem ok_cpc (hd : ¬ Differs ⟨.cpc, cd c, cr c⟩ (abs s)) : Ok (exec .cpc c s) (Isa.exec ⟨.cpc, cd c, cr c⟩ (abs s)) := by
  have h1 := cd_lt c
  have h2 := cr_lt c
  have hs : SbcOk (reg (abs s) (cd c)) (reg (abs s) (cr c)) (carry (abs s)) := Classical.byContradiction hd
  rw [reg_abs _ _ (by omega), reg_abs _ _ (by omega), carry_abs] at hs
  refine ⟨_, rfl, ?_, by rw [setSreg_pc]; exact hp⟩
  dsimp only [Isa.exec]
  refine fin_flags _ _ _ ?_
  rw [sbcRes_eq _ _ _ hs, subF_eq _ _ _ _ (carry_le s), reg_abs _ _ (by omega), reg_abs _ _ (by omega), carry_abs, flag_abs]
  rfl

theorem ok_sbc (hd : ¬ Differs ⟨.sbc, cd c, cr c⟩ (abs s)) : Ok (exec .sbc c s) (Isa.exec ⟨.sbc, cd c, cr c⟩ (abs s)) := by
  have h1 := cd_lt c
  have h2 := cr_lt c
  have hs : SbcOk (reg (abs s) (cd c)) (reg (abs s) (cr c)) (carry (abs s)) := Classical.byContradiction hd
  rw [reg_abs _ _ (by omega), reg_abs _ _ (by omega), carry_abs] at hs
  refine ⟨_, rfl, ?_, by rw [setSreg_pc, wr_pc]; exact hp⟩
  dsimp only [Isa.exec]
  refine fin_alu _ _ _ _ _ _ (by omega) ?_ ?_
  · rw [sbcRes_eq _ _ _ hs, ofNat_toNat8, carry_abs, reg_abs _ _ (by omega), reg_abs _ _ (by omega)]
  · rw [sbcRes_eq _ _ _ hs, subF_eq _ _ _ _ (carry_le s), reg_abs _ _ (by omega), reg_abs _ _ (by omega), carry_abs, flag_abs]
    rfl

theorem ok_cp : Ok (exec .cp c s) (Isa.exec ⟨.cp, cd c, cr c⟩ (abs s)) := by
  have h1 := cd_lt c
  have h2 := cr_lt c
  refine ⟨_, rfl, ?_, by rw [setSreg_pc]; exact hp⟩
  dsimp only [Isa.exec]
  refine fin_flags _ _ _ ?_
  rw [subRes_eq, subF_eq _ _ _ _ (by omega), reg_abs _ _ (by omega), reg_abs _ _ (by omega)]
  rfl

theorem ok_sub : Ok (exec .sub c s) (Isa.exec ⟨.sub, cd c, cr c⟩ (abs s)) := by
  have h1 := cd_lt c
  have h2 := cr_lt c
  refine ⟨_, rfl, ?_, by rw [setSreg_pc, wr_pc]; exact hp⟩
  dsimp only [Isa.exec]
  refine fin_alu _ _ _ _ _ _ (by omega) ?_ ?_
  · rw [subRes_eq, ofNat_toNat8, sub0, reg_abs _ _ (by omega), reg_abs _ _ (by omega)]
  · rw [sreg_wr _ _ _ (by omega), subRes_eq, subF_eq _ _ _ _ (by omega), reg_abs _ _ (by omega), reg_abs _ _ (by omega)]
    rfl

theorem ok_add : Ok (exec .add c s) (Isa.exec ⟨.add, cd c, cr c⟩ (abs s)) := by
  have h1 := cd_lt c
  have h2 := cr_lt c
  refine ⟨_, rfl, ?_, by rw [setSreg_pc, wr_pc]; exact hp⟩
  dsimp only [Isa.exec]
  refine fin_alu _ _ _ _ _ _ (by omega) ?_ ?_
  · rw [reg_abs _ _ (by omega), reg_abs _ _ (by omega)]
    have := add_val (rd s (cd c)) (rd s (cr c)) 0
    rw [Nat.add_zero] at this
    rw [this, show BitVec.ofNat 8 0 = 0#8 from rfl, BitVec.add_zero]
  · rw [sreg_wr _ _ _ (by omega), reg_abs _ _ (by omega), reg_abs _ _ (by omega)]
    exact addF_eq (rd s (cd c)) (rd s (cr c)) 0 (by omega) (by omega) _

theorem ok_adc (hd : ¬ Differs ⟨.adc, cd c, cr c⟩ (abs s)) : Ok (exec .adc c s) (Isa.exec ⟨.adc, cd c, cr c⟩ (abs s)) := by
  have h1 := cd_lt c
  have h2 := cr_lt c
  have hd : ¬ (flag (abs s) 0 = true ∧ (reg (abs s) (cd c)).toNat % 16 + (reg (abs s) (cr c)).toNat % 16 = 15) := hd
  rw [reg_abs _ _ (by omega), reg_abs _ _ (by omega), flag_abs] at hd
  refine ⟨_, rfl, ?_, by rw [setSreg_pc, wr_pc]; exact hp⟩
  dsimp only [Isa.exec]
  rw [carry_ne]
  refine fin_alu _ _ _ _ _ _ (by omega) ?_ ?_
  · rw [reg_abs _ _ (by omega), reg_abs _ _ (by omega), carry_abs]
    exact add_val _ _ _
  · rw [reg_abs _ _ (by omega), reg_abs _ _ (by omega), carry_abs]
    refine addF_eq (rd s (cd c)) (rd s (cr c)) _ (carry_le s) (fun h => hd ⟨?_, h.2⟩) _
    by_cases hc : (sreg s).getLsbD 0 = true
    · exact hc
    · rw [if_neg hc] at h
      omega

theorem ok_com : Ok (exec .com c s) (Isa.exec ⟨.com, cd c, 0⟩ (abs s)) := by
  have h1 := cd_lt c
  refine ⟨_, rfl, ?_, by rw [setSreg_pc, wr_pc]; exact hp⟩
  dsimp only [Isa.exec]
  refine fin_alu _ _ _ _ _ _ (by omega) ?_ ?_
  · rw [reg_abs _ _ (by omega), com_val, ofNat_toNat8]
  · rw [sreg_wr _ _ _ (by omega), reg_abs _ _ (by omega), com_val, comF_eq]

theorem ok_neg (hd : ¬ Differs ⟨.neg, cd c, 0⟩ (abs s)) : Ok (exec .neg c s) (Isa.exec ⟨.neg, cd c, 0⟩ (abs s)) := by
  have h1 := cd_lt c
  have hd : ((-(reg (abs s) (cd c))).getLsbD 3 && !(cd c).testBit 3) = decide ((reg (abs s) (cd c)).toNat % 16 ≠ 0) :=
    Classical.byContradiction hd
  rw [reg_abs _ _ (by omega)] at hd
  refine ⟨_, rfl, ?_, by rw [setSreg_pc, wr_pc]; exact hp⟩
  dsimp only [Isa.exec]
  refine fin_alu _ _ _ _ _ _ (by omega) ?_ ?_
  · rw [reg_abs _ _ (by omega), neg_val, ofNat_toNat8]
  · rw [sreg_wr _ _ _ (by omega), reg_abs _ _ (by omega), neg_val, negF_eq _ _ _ hd]

theorem ok_inc : Ok (exec .inc c s) (Isa.exec ⟨.inc, cd c, 0⟩ (abs s)) := by
  have h1 := cd_lt c
  refine ⟨_, rfl, ?_, by rw [setSreg_pc, wr_pc]; exact hp⟩
  dsimp only [Isa.exec]
  refine fin_alu _ _ _ _ _ _ (by omega) ?_ ?_
  · rw [reg_abs _ _ (by omega), (inc_val _).1]
  · rw [sreg_wr _ _ _ (by omega), reg_abs _ _ (by omega), (inc_val _).2, incF_eq]

theorem ok_dec : Ok (exec .dec c s) (Isa.exec ⟨.dec, cd c, 0⟩ (abs s)) := by
  have h1 := cd_lt c
  refine ⟨_, rfl, ?_, by rw [setSreg_pc, wr_pc]; exact hp⟩
  dsimp only [Isa.exec]
  refine fin_alu _ _ _ _ _ _ (by omega) ?_ ?_
  · rw [reg_abs _ _ (by omega), dec_val, ofNat_toNat8]
  · rw [sreg_wr _ _ _ (by omega), reg_abs _ _ (by omega), dec_val, decF_eq]

theorem ok_asr : Ok (exec .asr c s) (Isa.exec ⟨.asr, cd c, 0⟩ (abs s)) := by
  have h1 := cd_lt c
  refine ⟨_, rfl, ?_, by rw [setSreg_pc, wr_pc]; exact hp⟩
  dsimp only [Isa.exec]
  refine fin_alu _ _ _ _ _ _ (by omega) ?_ ?_
  · rw [reg_abs _ _ (by omega), (asr_val _).1, ofNat_toNat8]
  · rw [reg_abs _ _ (by omega), (asr_val _).1, (asr_val _).2, shF_eq]

theorem ok_lsr : Ok (exec .lsr c s) (Isa.exec ⟨.lsr, cd c, 0⟩ (abs s)) := by
  have h1 := cd_lt c
  refine ⟨_, rfl, ?_, by rw [setSreg_pc, wr_pc]; exact hp⟩
  dsimp only [Isa.exec]
  refine fin_alu _ _ _ _ _ _ (by omega) ?_ ?_
  · rw [reg_abs _ _ (by omega), (lsr_val _).1, ofNat_toNat8]
  · rw [reg_abs _ _ (by omega), (lsr_val _).1, (asr_val _).2, lsrF_eq _ _ _ (lsr_val _).2]

theorem ok_ror (hd : ¬ Differs ⟨.ror, cd c, 0⟩ (abs s)) : Ok (exec .ror c s) (Isa.exec ⟨.ror, cd c, 0⟩ (abs s)) := by
  have h1 := cd_lt c
  have hd : ¬ 2 ≤ (reg (abs s) (cd c)).toNat := hd
  rw [reg_abs _ _ (by omega)] at hd
  refine ⟨_, rfl, ?_, by rw [setSreg_pc, wr_pc]; exact hp⟩
  dsimp only [Isa.exec]
  refine fin_alu _ _ _ _ _ _ (by omega) ?_ ?_
  · rw [reg_abs _ _ (by omega), ror_val _ _ hd, ofNat_toNat8, flag_abs]
  · rw [reg_abs _ _ (by omega), ror_val _ _ hd, (asr_val _).2, shF_eq, flag_abs]

theorem ok_and : Ok (exec .and c s) (Isa.exec ⟨.and, cd c, cr c⟩ (abs s)) := by
  have h1 := cd_lt c
  have h2 := cr_lt c
  refine ⟨_, rfl, ?_, by rw [setSreg_pc, wr_pc]; exact hp⟩
  dsimp only [Isa.exec]
  rw [reg_abs _ _ (by omega), reg_abs _ _ (by omega)]
  exact fin_alu _ _ _ _ _ _ (by omega) rfl (by rw [sreg_wr _ _ _ (by omega), logF_eq])

theorem ok_or : Ok (exec .or c s) (Isa.exec ⟨.or, cd c, cr c⟩ (abs s)) := by
  have h1 := cd_lt c
  have h2 := cr_lt c
  refine ⟨_, rfl, ?_, by rw [setSreg_pc, wr_pc]; exact hp⟩
  dsimp only [Isa.exec]
  rw [reg_abs _ _ (by omega), reg_abs _ _ (by omega)]
  exact fin_alu _ _ _ _ _ _ (by omega) rfl (by rw [sreg_wr _ _ _ (by omega), logF_eq])

theorem ok_eor : Ok (exec .eor c s) (Isa.exec ⟨.eor, cd c, cr c⟩ (abs s)) := by
  have h1 := cd_lt c
  have h2 := cr_lt c
  refine ⟨_, rfl, ?_, by rw [setSreg_pc, wr_pc]; exact hp⟩
  dsimp only [Isa.exec]
  rw [reg_abs _ _ (by omega), reg_abs _ _ (by omega)]
  exact fin_alu _ _ _ _ _ _ (by omega) rfl (by rw [sreg_wr _ _ _ (by omega), logF_eq])

theorem ok_ori (hd : ¬ Differs ⟨.ori, 16 + cd4 c, cK c⟩ (abs s)) :
    Ok (exec .ori c s) (Isa.exec ⟨.ori, 16 + cd4 c, cK c⟩ (abs s)) := by
  have h4 := cd4_lt c
  have hd : reg (abs s) (16 + cd4 c - 16) ||| BitVec.ofNat 8 (cK c) = reg (abs s) (16 + cd4 c) ||| BitVec.ofNat 8 (cK c) :=
    Classical.byContradiction hd
  rw [show 16 + cd4 c - 16 = cd4 c by omega, reg_abs _ (cd4 c) (by omega)] at hd
  refine ⟨_, rfl, ?_, by rw [setSreg_pc, wr_pc]; exact hp⟩
  dsimp only [Isa.exec]
  rw [← hd, show 16 + cd4 c = cd4 c + 16 by omega, BitVec.or_comm (BitVec.ofNat 8 (cK c))]
  exact fin_alu _ _ _ _ _ _ (by omega) rfl (by rw [sreg_wr _ _ _ (by omega), logF_eq])

theorem ok_andi (hd : ¬ Differs ⟨.andi, 16 + cd4 c, cK c⟩ (abs s)) :
    Ok (exec .andi c s) (Isa.exec ⟨.andi, 16 + cd4 c, cK c⟩ (abs s)) := by
  have h4 := cd4_lt c
  have hd : reg (abs s) (16 + cd4 c - 16) &&& BitVec.ofNat 8 (cK c) = reg (abs s) (16 + cd4 c) &&& BitVec.ofNat 8 (cK c) :=
    Classical.byContradiction hd
  rw [show 16 + cd4 c - 16 = cd4 c by omega, reg_abs _ (cd4 c) (by omega)] at hd
  refine ⟨_, rfl, ?_, by rw [setSreg_pc, wr_pc]; exact hp⟩
  dsimp only [Isa.exec]
  rw [← hd, show 16 + cd4 c = cd4 c + 16 by omega, BitVec.and_comm (BitVec.ofNat 8 (cK c))]
  exact fin_alu _ _ _ _ _ _ (by omega) rfl (by rw [sreg_wr _ _ _ (by omega), logF_eq])

theorem ok_ldi : Ok (exec .ldi c s) (Isa.exec ⟨.ldi, 16 + cd4 c, cK c⟩ (abs s)) := by
  have h4 := cd4_lt c
  refine ⟨_, rfl, ?_, by rw [wr_pc]; exact hp⟩
  dsimp only [Isa.exec]
  rw [abs_wr _ _ _ (by omega), Nat.add_comm]

theorem ok_mov : Ok (exec .mov c s) (Isa.exec ⟨.mov, cd c, cr c⟩ (abs s)) := by
  have h1 := cd_lt c
  have h2 := cr_lt c
  refine ⟨_, rfl, ?_, by rw [wr_pc]; exact hp⟩
  dsimp only [Isa.exec]
  rw [abs_wr _ _ _ (by omega), reg_abs _ _ (by omega)]

theorem ok_swap : Ok (exec .swap c s) (Isa.exec ⟨.swap, cd c, 0⟩ (abs s)) := by
  have h1 := cd_lt c
  refine ⟨_, rfl, ?_, by rw [wr_pc]; exact hp⟩
  dsimp only [Isa.exec]
  rw [abs_wr _ _ _ (by omega), reg_abs _ _ (by omega), swap_val]

theorem ok_inp : Ok (exec .inp c s) (Isa.exec ⟨.inp, cd c, cP c⟩ (abs s)) := by
  have h1 := cd_lt c
  have h2 := cP_lt c
  refine ⟨_, rfl, ?_, by rw [wr_pc]; exact hp⟩
  dsimp only [Isa.exec]
  rw [abs_wr _ _ _ (by omega), reg_abs _ _ (by omega), Nat.add_comm]

theorem ok_out : Ok (exec .out c s) (Isa.exec ⟨.out, cd c, cP c⟩ (abs s)) := by
  have h1 := cd_lt c
  have h2 := cP_lt c
  refine ⟨_, rfl, ?_, by rw [wr_pc]; exact hp⟩
  dsimp only [Isa.exec]
  rw [abs_wr _ _ _ (by omega), reg_abs _ _ (by omega), Nat.add_comm]

end

end Ucsim.Avr
