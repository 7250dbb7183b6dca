import Verif.Proof.AvrExec
/- The member functions execute the instructions of the manual: words, bits, pointers, stack. -/
namespace Ucsim.Avr

open Isa (Ins Mach reg pair flag carry setReg setMem setPair setFlags)

theorem tick_pc (n : Nat) (s : St) : (tick n s).pc = s.pc := rfl

/-! ### Words -/

theorem setReg_comm (m : Mach) (a b : Nat) (v w : Byte) (ha : a < 0x10000) (hb : b < 0x10000) (h : a ≠ b) :
    setReg a v (setReg b w m) = setReg b w (setReg a v m) := by
  apply mach_ext <;> try rfl
  intro x
  have hn : BitVec.ofNat 16 a ≠ BitVec.ofNat 16 b := by
    intro e
    have := congrArg BitVec.toNat e
    simp only [BitVec.toNat_ofNat] at this
    omega
  unfold Isa.setReg
  simp only
  by_cases h1 : x = BitVec.ofNat 16 a
  · subst h1
    simp [hn]
  · simp [h1]

theorem setMem_setReg_comm (m : Mach) (a : Word) (b : Nat) (v w : Byte) (h : a ≠ BitVec.ofNat 16 b) :
    setMem a v (setReg b w m) = setReg b w (setMem a v m) := by
  apply mach_ext <;> try rfl
  intro x
  unfold Isa.setReg Isa.setMem
  simp only
  by_cases h1 : x = a
  · subst h1
    simp [h]
  · simp [h1]

theorem lo_eq (w : Word) (n : Nat) (h : w = BitVec.ofNat 16 n) : w.extractLsb' 0 8 = BitVec.ofNat 8 n := by
  subst h
  apply BitVec.eq_of_toNat_eq
  rw [BitVec.extractLsb'_toNat, BitVec.toNat_ofNat, BitVec.toNat_ofNat, Nat.shiftRight_zero]
  omega

theorem hi_eq (w : Word) (n : Nat) (h : w = BitVec.ofNat 16 n) (hn : n < 0x10000) : w.extractLsb' 8 8 = BitVec.ofNat 8 (n / 256) := by
  subst h
  apply BitVec.eq_of_toNat_eq
  rw [BitVec.extractLsb'_toNat, BitVec.toNat_ofNat, BitVec.toNat_ofNat, Nat.shiftRight_eq_div_pow]
  omega

theorem abs_setPair (d : Nat) (n : Nat) (w : Word) (s : St) (hd : d < 0x7f) (hw : w.toNat = n) :
    abs (wr (d + 1) (BitVec.ofNat 8 (n / 256)) (wr d (BitVec.ofNat 8 n) s)) = setPair d w (abs s) := by
  have hw' : w = BitVec.ofNat 16 n := by rw [← hw, BitVec.ofNat_toNat, BitVec.setWidth_eq]
  have hn : n < 0x10000 := by rw [← hw]; exact w.isLt
  rw [abs_wr _ _ _ (by omega), abs_wr _ _ _ (by omega)]
  unfold Isa.setPair
  rw [lo_eq w n hw', hi_eq w n hw' hn]

theorem abs_setPair' (d : Nat) (n : Nat) (w : Word) (s : St) (hd : d < 0x7f) (hw : w.toNat = n) :
    abs (wr d (BitVec.ofNat 8 n) (wr (d + 1) (BitVec.ofNat 8 (n / 256)) s)) = setPair d w (abs s) := by
  rw [← abs_setPair d n w s hd hw]
  simp only [abs_wr _ _ _ (show d < 0x80 by omega), abs_wr _ _ _ (show d + 1 < 0x80 by omega)]
  exact setReg_comm _ _ _ _ _ (by omega) (by omega) (by omega)

section
variable (c : Nat) (s : St) (hp : s.pc < 0x10000)
include hp

theorem ok_adiw (hd : ¬ Differs ⟨.adiw, cdl c, cK6 c⟩ (abs s)) : Ok (exec .adiw c s) (Isa.exec ⟨.adiw, cdl c, cK6 c⟩ (abs s)) := by
  have h1 := cdl_lt c
  have h2 := cK6_lt c
  have hd : ¬ (pair (abs s) (cdl c) + BitVec.ofNat 16 (cK6 c)).msb = true := hd
  have hm : (pair (abs s) (cdl c) + BitVec.ofNat 16 (cK6 c)).msb = false := by
    cases h : (pair (abs s) (cdl c) + BitVec.ofNat 16 (cK6 c)).msb
    · rfl
    · exact absurd h hd
  have hw := pair_toNat s (cdl c) (by omega)
  generalize hW : pair (abs s) (cdl c) = w at *
  have hr : (ptr (cdl c) s + cK6 c) &&& 0xffff = (w + BitVec.ofNat 16 (cK6 c)).toNat := by
    rw [and_ffff, BitVec.toNat_add, BitVec.toNat_ofNat, hw]
    omega
  refine ⟨_, rfl, ?_, ?_⟩
  · dsimp only [Isa.exec]
    rw [abs_tick, hW, hr]
    refine Eq.trans (fin_flags [(4, decide (w.toInt + cK6 c < 0)), (3, decide (32768 ≤ w.toInt + cK6 c)), (2, (w + BitVec.ofNat 16 (cK6 c)).msb),
        (1, w + BitVec.ofNat 16 (cK6 c) == 0#16), (0, decide (65536 ≤ w.toNat + cK6 c))] _ _ ?_) ?_
    · rw [← hw, sreg_wr _ _ _ (by omega), sreg_wr _ _ _ (by omega)]
      exact adiwF_eq w (cK6 c) h2 hm _
    · rw [Nat.shiftRight_eq_div_pow, abs_setPair' (cdl c) _ _ s (by omega) rfl]
  · simp only [tick_pc, setSreg_pc, wr_pc]
    exact hp

theorem ok_sbiw (hd : ¬ Differs ⟨.sbiw, cdl c, cK6 c⟩ (abs s)) : Ok (exec .sbiw c s) (Isa.exec ⟨.sbiw, cdl c, cK6 c⟩ (abs s)) := by
  have h1 := cdl_lt c
  have hd : ¬ 32 ≤ cK6 c := hd
  have hk : (cK6 c &&& 0x20 != 0) = false := by
    have := mask_bit' 5 (cK6 c)
    rw [testBit_nat] at this
    refine Eq.trans this ?_
    rw [decide_eq_false_iff_not]
    simp only [Nat.reducePow]
    omega
  have hw := pair_toNat s (cdl c) (by omega)
  generalize hW : pair (abs s) (cdl c) = w at *
  refine ⟨_, rfl, ?_, ?_⟩
  · dsimp only [Isa.exec]
    rw [abs_tick, hW, hk]
    simp only [Bool.false_eq_true, if_false]
    rw [← hw]
    change abs (setSreg (sbiwF (sx16 w.toNat) (sub32 (sx16 w.toNat) (cK6 c) &&& 0xffff) _)
      (wr (cdl c) (BitVec.ofNat 8 (sub32 (sx16 w.toNat) (cK6 c) &&& 0xffff))
       (wr (cdl c + 1) (BitVec.ofNat 8 ((sub32 (sx16 w.toNat) (cK6 c) &&& 0xffff) >>> 8)) s))) = _
    rw [sbiw_val w (cK6 c) (by omega)]
    refine Eq.trans (fin_flags [(4, decide (w.toInt - cK6 c < 0)), (3, decide (w.toInt - cK6 c < -32768)), (2, (w - BitVec.ofNat 16 (cK6 c)).msb),
        (1, w - BitVec.ofNat 16 (cK6 c) == 0#16), (0, decide (w.toNat < cK6 c))] _ _ ?_) ?_
    · simp only [sreg_wr (cdl c) _ _ (by omega), sreg_wr (cdl c + 1) _ _ (by omega)]
      exact sbiwF_eq w (cK6 c) (by omega) _
    · rw [Nat.shiftRight_eq_div_pow, abs_setPair' (cdl c) _ _ s (by omega) rfl]
  · simp only [tick_pc, setSreg_pc, wr_pc]
    exact hp

theorem ok_mul (hd : ¬ Differs ⟨.mul, cd c, cr c⟩ (abs s)) : Ok (exec .mul c s) (Isa.exec ⟨.mul, cd c, cr c⟩ (abs s)) := by
  have h1 := cd_lt c
  have h2 := cr_lt c
  have hd : flag (abs s) 1 = decide ((reg (abs s) (cd c)).toNat * (reg (abs s) (cr c)).toNat = 0) := Classical.byContradiction hd
  rw [reg_abs _ _ (by omega), reg_abs _ _ (by omega), flag_abs] at hd
  have hlt : (rd s (cd c)).toNat * (rd s (cr c)).toNat ≤ 255 * 255 :=
    Nat.mul_le_mul (Nat.le_of_lt_succ (rd s (cd c)).isLt) (Nat.le_of_lt_succ (rd s (cr c)).isLt)
  refine ⟨_, rfl, ?_, ?_⟩
  · dsimp only [Isa.exec]
    rw [abs_tick, reg_abs _ _ (by omega), reg_abs _ _ (by omega), Nat.mul_comm (rd s (cr c)).toNat]
    generalize hn : (rd s (cd c)).toNat * (rd s (cr c)).toNat = n at *
    unfold Isa.product
    have hh : (n >>> 8) &&& 0xff = n / 256 := by
      rw [show (0xff : Nat) = 2 ^ 8 - 1 from rfl, Nat.and_two_pow_sub_one_eq_mod, Nat.shiftRight_eq_div_pow]
      omega
    have hc : ((n >>> 8) &&& 0xff &&& 0x80 != 0) = decide (0x8000 ≤ n) := by
      rw [hh]
      refine Eq.trans (mask_bit' 7 (n / 256)) ?_
      rw [testBit_nat, decide_eq_decide]
      simp only [Nat.reducePow]
      omega
    rw [hc, hh]
    have hz : (BitVec.ofNat 16 n == 0#16) = decide (n = 0) := by
      rw [← beq16, BitVec.toNat_ofNat, Nat.mod_eq_of_lt (by omega)]
      cases h : decide (n = 0) with
      | true => rw [beq_iff_eq]; exact of_decide_eq_true h
      | false => rw [beq_eq_false_iff_ne]; exact of_decide_eq_false h
    rw [hz, ← hd]
    refine Eq.trans (fin_flags [(1, (sreg s).getLsbD 1), (0, decide (0x8000 ≤ n))] _ _ ?_) ?_
    · rw [sreg_wr _ _ _ (by omega), sreg_wr _ _ _ (by omega)]
      have key : ∀ (b : Bool) (p : Byte), (if b then (p &&& ~~~bC) ||| bC else p &&& ~~~bC) = bits [(1, p.getLsbD 1), (0, b)] p := by
        decide +kernel
      rw [← key (decide (0x8000 ≤ n)) (sreg s)]
    · rw [abs_setPair 0 n (BitVec.ofNat 16 n) s (by omega) (by rw [BitVec.toNat_ofNat]; omega)]
  · simp only [tick_pc, setSreg_pc, wr_pc]
    exact hp

/-! ### Bits -/

omit hp
theorem or_bit' (v : Byte) (i : Nat) : bit i ||| v = Isa.setBit i true v := BitVec.or_comm _ _
theorem and_bit' (v : Byte) (i : Nat) : ~~~bit i &&& v = Isa.setBit i false v := BitVec.and_comm _ _

theorem bit_ne (v : Byte) (i : Nat) (h : i < 8) : (v &&& bit i != 0#8) = v.getLsbD i := by
  have hb : ∀ v : Byte, (v &&& bit 0 != 0#8) = v.getLsbD 0 ∧ (v &&& bit 1 != 0#8) = v.getLsbD 1 ∧ (v &&& bit 2 != 0#8) = v.getLsbD 2 ∧
    (v &&& bit 3 != 0#8) = v.getLsbD 3 ∧ (v &&& bit 4 != 0#8) = v.getLsbD 4 ∧ (v &&& bit 5 != 0#8) = v.getLsbD 5 ∧
    (v &&& bit 6 != 0#8) = v.getLsbD 6 ∧ (v &&& bit 7 != 0#8) = v.getLsbD 7 := by decide +kernel
  have hv := hb v
  have : i = 0 ∨ i = 1 ∨ i = 2 ∨ i = 3 ∨ i = 4 ∨ i = 5 ∨ i = 6 ∨ i = 7 := by omega
  rcases this with h | h | h | h | h | h | h | h <;> subst h
  · exact hv.1
  · exact hv.2.1
  · exact hv.2.2.1
  · exact hv.2.2.2.1
  · exact hv.2.2.2.2.1
  · exact hv.2.2.2.2.2.1
  · exact hv.2.2.2.2.2.2.1
  · exact hv.2.2.2.2.2.2.2

theorem bit_eq (v : Byte) (i : Nat) (h : i < 8) : (v &&& bit i == 0#8) = !v.getLsbD i := by
  rw [← bit_ne v i h, bne, Bool.not_not]
include hp

theorem ok_bset (i : Nat) : Ok (exec (.bset i) c s) (Isa.exec ⟨.bset, i, 0⟩ (abs s)) := by
  refine ⟨_, rfl, ?_, by rw [setSreg_pc]; exact hp⟩
  dsimp only [Isa.exec]
  exact fin_flags [(i, true)] _ _ (or_bit' _ _)

theorem ok_bclr (i : Nat) : Ok (exec (.bclr i) c s) (Isa.exec ⟨.bclr, i, 0⟩ (abs s)) := by
  refine ⟨_, rfl, ?_, by rw [setSreg_pc]; exact hp⟩
  dsimp only [Isa.exec]
  exact fin_flags [(i, false)] _ _ (and_bit' _ _)

theorem ok_cbi : Ok (exec .cbi c s) (Isa.exec ⟨.cbi, cP5 c, cb c⟩ (abs s)) := by
  have h1 := cP5_lt c
  refine ⟨_, rfl, ?_, by change (wr _ _ _).pc < _; rw [wr_pc]; exact hp⟩
  dsimp only [Isa.exec]
  rw [abs_tick, abs_wr _ _ _ (by omega), reg_abs _ _ (by omega), Nat.add_comm 0x20, and_bit']

theorem ok_sbi : Ok (exec .sbi c s) (Isa.exec ⟨.sbi, cP5 c, cb c⟩ (abs s)) := by
  have h1 := cP5_lt c
  refine ⟨_, rfl, ?_, by change (wr _ _ _).pc < _; rw [wr_pc]; exact hp⟩
  dsimp only [Isa.exec]
  rw [abs_tick, abs_wr _ _ _ (by omega), reg_abs _ _ (by omega), Nat.add_comm 0x20, or_bit']

theorem ok_bld : Ok (exec .bld c s) (Isa.exec ⟨.bld, cd c, cb c⟩ (abs s)) := by
  have h1 := cd_lt c
  refine ⟨_, rfl, ?_, by rw [wr_pc]; exact hp⟩
  dsimp only [Isa.exec]
  have ht : (sreg s &&& bT != 0#8) = (sreg s).getLsbD 6 := bit_ne (sreg s) 6 (by omega)
  rw [abs_wr _ _ _ (by omega), reg_abs _ _ (by omega), ht, flag_abs]
  rfl

theorem ok_bst : Ok (exec .bst c s) (Isa.exec ⟨.bst, cd c, cb c⟩ (abs s)) := by
  have h1 := cd_lt c
  refine ⟨_, rfl, ?_, by rw [setSreg_pc]; exact hp⟩
  dsimp only [Isa.exec]
  rw [bit_ne _ _ (cb_lt c), reg_abs _ _ (by omega)]
  exact fin_flags [(6, (rd s (cd c)).getLsbD (cb c))] _ _ rfl

/-! ### Loads and stores -/

theorem ok_ldd (p : Nat) (h : (ptr p s) + cq c < 0x10000) (hpp : p < 0x7f) :
    Ok (exec (.ldd p) c s) (setReg (cd c) ((abs s).mem (pair (abs s) p + BitVec.ofNat 16 (cq c))) (abs s)) := by
  have h1 := cd_lt c
  refine ⟨_, rfl, ?_, by change (wr _ _ _).pc < _; rw [wr_pc]; exact hp⟩
  rw [abs_tick, abs_wr _ _ _ (by omega), mem_abs, BitVec.toNat_add, BitVec.toNat_ofNat, pair_toNat _ _ (by omega)]
  rw [show (ptr p s + cq c % 2 ^ 16) % 2 ^ 16 = ptr p s + cq c by omega]

theorem ok_std (p : Nat) (h : (ptr p s) + cq c < 0x80) (hpp : p < 0x7f) :
    Ok (exec (.std p) c s) (setMem (pair (abs s) p + BitVec.ofNat 16 (cq c)) (reg (abs s) (cd c)) (abs s)) := by
  have h1 := cd_lt c
  refine ⟨_, rfl, ?_, by change (wr _ _ _).pc < _; rw [wr_pc]; exact hp⟩
  rw [abs_tick, abs_wrm (pair (abs s) p + BitVec.ofNat 16 (cq c)) _ _ _ ?_ h, reg_abs _ _ (by omega)]
  rw [BitVec.toNat_add, BitVec.toNat_ofNat, pair_toNat _ _ (by omega)]
  omega

theorem ok_ldX : Ok (exec .ldX c s) (Isa.exec ⟨.ldX, cd c, 0⟩ (abs s)) := by
  have h1 := cd_lt c
  refine ⟨_, rfl, ?_, by change (wr _ _ _).pc < _; rw [wr_pc]; exact hp⟩
  dsimp only [Isa.exec]
  rw [abs_tick, abs_wr _ _ _ (by omega), mem_abs, pair_toNat _ _ (by decide)]
  rfl

theorem ok_stX (hd : ¬ Differs ⟨.stX, cd c, 0⟩ (abs s)) : Ok (exec .stX c s) (Isa.exec ⟨.stX, cd c, 0⟩ (abs s)) := by
  have h1 := cd_lt c
  have hd : ¬ 0x80 ≤ (pair (abs s) Isa.X).toNat := hd
  rw [pair_toNat _ _ (by decide)] at hd
  refine ⟨_, rfl, ?_, by change (wr _ _ _).pc < _; rw [wr_pc]; exact hp⟩
  dsimp only [Isa.exec]
  rw [abs_tick, abs_wrm (pair (abs s) Isa.X) (ptr rX s) _ _ (pair_toNat _ _ (by decide)) (show ptr rX s < 0x80 from Nat.lt_of_not_le hd), reg_abs _ _ (by omega)]
omit hp

theorem setReg_same (m : Mach) (a : Nat) (v : Byte) (h : reg m a = v) : setReg a v m = m := by
  apply mach_ext <;> try rfl
  intro x
  unfold Isa.setReg
  unfold Isa.reg at h
  simp only
  split
  · subst x; exact h.symm
  · rfl

theorem lo_append (h l : Byte) : (h ++ l : Word).extractLsb' 0 8 = l := by
  apply BitVec.eq_of_toNat_eq
  rw [BitVec.extractLsb'_toNat, append_toNat, Nat.shiftRight_zero]
  have := l.isLt
  omega

theorem hi_append (h l : Byte) : (h ++ l : Word).extractLsb' 8 8 = h := by
  apply BitVec.eq_of_toNat_eq
  rw [BitVec.extractLsb'_toNat, append_toNat, Nat.shiftRight_eq_div_pow]
  have := l.isLt
  have := h.isLt
  omega

theorem inc_word (h l : Byte) : (h ++ l : Word) + 1 = (if l + 1#8 == 0#8 then h + 1#8 else h) ++ (l + 1#8) := by
  apply BitVec.eq_of_toNat_eq
  rw [BitVec.toNat_add, append_toNat, append_toNat]
  have hl := l.isLt
  have hh := h.isLt
  change (h.toNat * 256 + l.toNat + 1) % 65536 = _
  rw [BitVec.toNat_add l]
  by_cases e : l + 1#8 = 0#8
  · have e2 := congrArg BitVec.toNat e
    rw [BitVec.toNat_add] at e2
    simp only [BitVec.toNat_ofNat] at e2 ⊢
    simp only [e, beq_self_eq_true, if_true, BitVec.toNat_add, BitVec.toNat_ofNat]
    omega
  · have e2 : ¬ (l.toNat + 1) % 256 = 0 := by
      intro h
      apply e
      apply BitVec.eq_of_toNat_eq
      rw [BitVec.toNat_add]
      simpa using h
    rw [if_neg (by simpa using e)]
    simp only [BitVec.toNat_ofNat]
    omega

theorem dec_word (h l : Byte) : (h ++ l : Word) - 1 = (if l - 1#8 == 0xff#8 then h - 1#8 else h) ++ (l - 1#8) := by
  apply BitVec.eq_of_toNat_eq
  rw [BitVec.toNat_sub, append_toNat, append_toNat]
  have hl := l.isLt
  have hh := h.isLt
  change (65536 - 1 + (h.toNat * 256 + l.toNat)) % 65536 = _
  rw [BitVec.toNat_sub l]
  by_cases e : l = 0#8
  · subst e
    rw [if_pos (by decide), BitVec.toNat_sub]
    simp only [BitVec.toNat_ofNat]
    omega
  · have e2 : l.toNat ≠ 0 := by
      intro h
      apply e
      apply BitVec.eq_of_toNat_eq
      simpa using h
    rw [if_neg]
    · simp only [BitVec.toNat_ofNat]
      omega
    · intro h
      apply e
      rw [beq_iff_eq] at h
      have h2 := congrArg BitVec.toNat h
      rw [BitVec.toNat_sub] at h2
      simp only [BitVec.toNat_ofNat] at h2
      apply BitVec.eq_of_toNat_eq
      simp only [BitVec.toNat_ofNat]
      omega

theorem abs_incPtr (p : Nat) (s : St) (h : p < 0x7f) : abs (incPtr p s) = setPair p (pair (abs s) p + 1) (abs s) := by
  have hw : pair (abs s) p + 1 = (if rd s p + 1#8 == 0#8 then rd s (p + 1) + 1#8 else rd s (p + 1)) ++ (rd s p + 1#8) := by
    unfold Isa.pair
    rw [reg_abs _ _ (by omega), reg_abs _ _ (by omega), inc_word]
  rw [hw]
  unfold Isa.setPair
  rw [lo_append, hi_append]
  unfold incPtr
  simp only
  by_cases e : (rd s p + 1#8 == 0#8) = true
  · rw [if_pos e, if_pos e, abs_wr _ _ _ (by omega), abs_wr _ _ _ (by omega), rd_wr _ _ _ _ (by omega), if_neg (by omega)]
  · rw [if_neg e, if_neg e, abs_wr _ _ _ (by omega), setReg_same _ (p + 1)]
    rw [reg_setReg _ _ _ _ (by omega) (by omega), if_neg (by omega), reg_abs _ _ (by omega)]

theorem abs_decPtr (p : Nat) (s : St) (h : p < 0x7f) : abs (decPtr p s).2 = setPair p (pair (abs s) p - 1) (abs s) ∧
    (decPtr p s).1 = (pair (abs s) p - 1).toNat := by
  have hw : pair (abs s) p - 1 = (if rd s p - 1#8 == 0xff#8 then rd s (p + 1) - 1#8 else rd s (p + 1)) ++ (rd s p - 1#8) := by
    unfold Isa.pair
    rw [reg_abs _ _ (by omega), reg_abs _ _ (by omega), dec_word]
  rw [hw, append_toNat]
  unfold Isa.setPair
  rw [lo_append, hi_append]
  unfold decPtr
  simp only
  by_cases e : (rd s p - 1#8 == 0xff#8) = true
  · rw [if_pos e, if_pos e, abs_wr _ _ _ (by omega), abs_wr _ _ _ (by omega), rd_wr _ _ _ _ (by omega), if_neg (by omega)]
    rw [rd_wr _ _ _ _ (by omega), if_pos rfl]
    exact ⟨rfl, rfl⟩
  · rw [if_neg e, if_neg e, abs_wr _ _ _ (by omega), setReg_same _ (p + 1)]
    · rw [rd_wr _ _ _ _ (by omega), if_neg (by omega)]
      exact ⟨rfl, rfl⟩
    · rw [reg_setReg _ _ _ _ (by omega) (by omega), if_neg (by omega), reg_abs _ _ (by omega)]

theorem incPtr_pc (p : Nat) (s : St) : (incPtr p s).pc = s.pc := by
  unfold incPtr
  simp only
  split
  · rw [wr_pc, wr_pc]
  · rw [wr_pc]

theorem decPtr_pc (p : Nat) (s : St) : (decPtr p s).2.pc = s.pc := by
  unfold decPtr
  simp only
  split
  · rw [wr_pc, wr_pc]
  · rw [wr_pc]

theorem setReg_setPair (m : Mach) (d p : Nat) (v : Byte) (w : Word) (hd : d < 0x10000) (hp : p < 0xffff) (h1 : d ≠ p) (h2 : d ≠ p + 1) :
    setReg d v (setPair p w m) = setPair p w (setReg d v m) := by
  unfold Isa.setPair
  rw [setReg_comm _ _ _ _ _ (by omega) (by omega) h2, setReg_comm _ _ _ _ _ (by omega) (by omega) h1]

theorem setMem_setPair (m : Mach) (a : Word) (p : Nat) (v : Byte) (w : Word) (h1 : a ≠ BitVec.ofNat 16 p) (h2 : a ≠ BitVec.ofNat 16 (p + 1)) :
    setMem a v (setPair p w m) = setPair p w (setMem a v m) := by
  unfold Isa.setPair
  rw [setMem_setReg_comm _ _ _ _ _ h2, setMem_setReg_comm _ _ _ _ _ h1]

theorem pair_setReg (m : Mach) (d p : Nat) (v : Byte) (hd : d < 0x10000) (hp : p < 0xffff) (h1 : d ≠ p) (h2 : d ≠ p + 1) :
    pair (setReg d v m) p = pair m p := by
  unfold Isa.pair
  rw [reg_setReg _ _ _ _ (by omega) (by omega), reg_setReg _ _ _ _ (by omega) (by omega), if_neg (fun h => h2 h.symm), if_neg (fun h => h1 h.symm)]

theorem pair_setMem (m : Mach) (a : Word) (p : Nat) (v : Byte) (h1 : a ≠ BitVec.ofNat 16 p) (h2 : a ≠ BitVec.ofNat 16 (p + 1)) :
    pair (setMem a v m) p = pair m p := by
  unfold Isa.pair Isa.reg Isa.setMem
  simp only
  rw [if_neg (fun h => h2 h.symm), if_neg (fun h => h1 h.symm)]

theorem mem_setPair (m : Mach) (a : Word) (p : Nat) (w : Word) (h1 : a ≠ BitVec.ofNat 16 p) (h2 : a ≠ BitVec.ofNat 16 (p + 1)) :
    (setPair p w m).mem a = m.mem a := by
  unfold Isa.setPair Isa.setReg
  simp only
  rw [if_neg h2, if_neg h1]

theorem reg_setPair (m : Mach) (d p : Nat) (w : Word) (hd : d < 0x10000) (hp : p < 0xffff) (h1 : d ≠ p) (h2 : d ≠ p + 1) :
    reg (setPair p w m) d = reg m d := by
  unfold Isa.setPair
  rw [reg_setReg _ _ _ _ (by omega) (by omega), reg_setReg _ _ _ _ (by omega) (by omega), if_neg h2, if_neg h1]

include hp
theorem ok_ldInc (p : Nat) (hpp : p < 0x7f) (hd : ¬ (cd c = p ∨ cd c = p + 1)) :
    Ok (exec (.ldInc p) c s) (Isa.ld (cd c) p (pair (abs s) p) (pair (abs s) p + 1) (abs s)) := by
  have h1 := cd_lt c
  refine ⟨_, rfl, ?_, by change (incPtr _ _).pc < _; rw [incPtr_pc, wr_pc]; exact hp⟩
  rw [abs_tick, abs_incPtr _ _ hpp, abs_wr _ _ _ (by omega), pair_setReg _ _ _ _ (by omega) (by omega) (by omega) (by omega)]
  unfold Isa.ld
  rw [setReg_setPair _ _ _ _ _ (by omega) (by omega) (by omega) (by omega), mem_abs, pair_toNat _ _ (by omega)]

theorem ok_ldDec (p : Nat) (hpp : p < 0x7f) (hd : ¬ Alias (cd c) p (pair (abs s) p - 1)) :
    Ok (exec (.ldDec p) c s) (Isa.ld (cd c) p (pair (abs s) p - 1) (pair (abs s) p - 1) (abs s)) := by
  have h1 := cd_lt c
  unfold Alias at hd
  simp only [not_or] at hd
  refine ⟨tick 1 (wr (cd c) (rd (decPtr p s).2 (decPtr p s).1) (decPtr p s).2), rfl, ?_, by change (wr _ _ _).pc < _; rw [wr_pc, decPtr_pc]; exact hp⟩
  rw [abs_tick, abs_wr _ _ _ (by omega), (abs_decPtr p s hpp).1, (abs_decPtr p s hpp).2, ← mem_abs, (abs_decPtr p s hpp).1,
    mem_setPair _ _ _ _ hd.2.2.1 hd.2.2.2]
  rfl

theorem ok_stInc (p : Nat) (hpp : p < 0x7f) (hd : ¬ (NoRam (pair (abs s) p) ∨ Alias (cd c) p (pair (abs s) p))) :
    Ok (exec (.stInc p) c s) (Isa.st (cd c) p (pair (abs s) p) (pair (abs s) p + 1) (abs s)) := by
  have h1 := cd_lt c
  unfold Alias NoRam at hd
  simp only [not_or] at hd
  refine ⟨_, rfl, ?_, by change (incPtr _ _).pc < _; rw [incPtr_pc, wr_pc]; exact hp⟩
  rw [abs_tick, abs_incPtr _ _ hpp, abs_wrm (pair (abs s) p) _ _ _ (pair_toNat _ _ (by omega)) (by rw [← pair_toNat _ _ (by omega)]; omega),
    pair_setMem _ _ _ _ hd.2.2.2.1 hd.2.2.2.2, reg_abs _ _ (by omega) |>.symm]
  rfl

theorem ok_stDec (p : Nat) (hpp : p < 0x7f) (hd : ¬ (NoRam (pair (abs s) p - 1) ∨ Alias (cd c) p (pair (abs s) p - 1))) :
    Ok (exec (.stDec p) c s) (Isa.st (cd c) p (pair (abs s) p - 1) (pair (abs s) p - 1) (abs s)) := by
  have h1 := cd_lt c
  unfold Alias NoRam at hd
  simp only [not_or] at hd
  refine ⟨tick 1 (wr (decPtr p s).1 (rd (decPtr p s).2 (cd c)) (decPtr p s).2), rfl, ?_, by change (wr _ _ _).pc < _; rw [wr_pc, decPtr_pc]; exact hp⟩
  rw [abs_tick, abs_wrm (pair (abs s) p - 1) _ _ _ (abs_decPtr p s hpp).2.symm (by rw [(abs_decPtr p s hpp).2]; omega), (abs_decPtr p s hpp).1,
    ← reg_abs _ _ (by omega), (abs_decPtr p s hpp).1, reg_setPair _ _ _ _ (by omega) (by omega) hd.2.1 hd.2.2.1,
    setMem_setPair _ _ _ _ _ hd.2.2.2.1 hd.2.2.2.2]
  rfl

end

end Ucsim.Avr
