import Verif.Props.I80

/-
C65: the ten additional instructions of the 8085 (DSUB, ARHL, RDEL, LDHI, LDSI, RSTV, SHLX,
JNX5, LHLX, JX5): what each is to do is written out in the statements.  V is bit 1, X5 bit 5
of the flag byte.
-/
namespace Ucsim.I80

/-- The step, by the instruction found. -/
theorem step_eq (s : St) (op : Byte) (i : Inst) (hop : s.mem s.pc = op) (hi : itab .i8085 op = some i) :
    ∃ t, (step .i8085 s).2 = { exec .i8085 op i (fetched s (s.ticks + 1)) with ticks := t } := by
  unfold step
  simp only [fetch_eq, hop, hi]
  exact ⟨_, rfl⟩

theorem abs_tk (s : St) (t : Int) : abs { s with ticks := t } = abs s := rfl

/-- ARHL: HL is shifted right, bit 15 stays, bit 0 goes to CY; nothing else changes. -/
theorem c65_arhl (s : St) (h : s.mem s.pc = 0x10#8) :
    abs (step .i8085 s).2 = { (abs s).setRp 2 ((abs s).HL.sshiftRight 1) with cy := (abs s).HL.getLsbD 0, pc := s.pc + 1 } := by
  obtain ⟨t, e⟩ := step_eq s _ .arhl h (by decide +kernel)
  have k := maskC s.f
  have b0 : ∀ v : Byte, (v &&& 1#8 != 0#8) = v.getLsbD 0 := by decide +kernel
  have b1 : (abs s).HL.getLsbD 0 = s.l.getLsbD 0 := BitVec.getLsbD_append ..
  rw [e, abs_tk]
  simp only [exec, arhl, abs_setF, orIf_bit, fbits, abs_set16, hl_eq]
  rw [show (fetched s (s.ticks + 1)).f = s.f from rfl, show (fetched s (s.ticks + 1)).l = s.l from rfl]
  simp only [k, b0, b1, Bool.false_or, Bool.and_true, Bool.and_false, Bool.or_false]
  rfl

/-- RDEL: DE is rotated left through CY; V tells whether bits 15 and 14 were different. -/
theorem c65_rdel (s : St) (h : s.mem s.pc = 0x18#8) :
    abs (step .i8085 s).2 =
      { (abs s).setRp 1 (BitVec.ofNat 16 (2 * ((abs s).rp 1).toNat + (abs s).cy.toNat)) with cy := ((abs s).rp 1).getLsbD 15, pc := s.pc + 1 } ∧
    (step .i8085 s).2.f.getLsbD 1 = (((abs s).rp 1).getLsbD 15 != ((abs s).rp 1).getLsbD 14) := by
  obtain ⟨t, e⟩ := step_eq s _ .rdel h (by decide +kernel)
  have k := maskCV s.f
  have kv : ∀ f : Byte, (f &&& ~~~(flagC ||| flagV)).getLsbD 1 = false := by decide +kernel
  have fv : ∀ f : Byte, (flagOp .i8085 f).getLsbD 1 = f.getLsbD 1 := by decide +kernel
  have cv : flagC.getLsbD 1 = false ∧ flagV.getLsbD 1 = true := by decide
  have b15 : ((abs s).rp 1).getLsbD 15 = s.d.getLsbD 7 := BitVec.getLsbD_append ..
  have b14 : ((abs s).rp 1).getLsbD 14 = s.d.getLsbD 6 := BitVec.getLsbD_append ..
  have bx : ∀ v : Byte, bit7 (v ^^^ (v <<< 1)) = (v.getLsbD 7 != v.getLsbD 6) := by decide +kernel
  have hde : (if s.f.getLsbD 0 = true then (s.d ++ s.e : Word) <<< 1 ||| 1#16 else (s.d ++ s.e : Word) <<< 1) =
      BitVec.ofNat 16 (2 * (s.d ++ s.e : Word).toNat + (s.f.getLsbD 0).toNat) := by
    generalize (s.d ++ s.e : Word) = w
    apply BitVec.eq_of_toNat_eq
    have hw := w.isLt
    have e1 : (w <<< 1).toNat = 2 * w.toNat % 65536 := by simp [BitVec.toNat_shiftLeft, Nat.shiftLeft_eq]; omega
    have e2 : (w <<< 1 ||| 1#16).toNat = (2 * w.toNat + 1) % 65536 := by
      rw [BitVec.toNat_or, e1]
      have h1 : 2 * w.toNat % 65536 = (w.toNat % 32768) <<< 1 := by rw [Nat.shiftLeft_eq]; omega
      rw [h1, show (1#16 : Word).toNat = 1 from rfl, ← Nat.shiftLeft_add_eq_or_of_lt (by decide), Nat.shiftLeft_eq]
      omega
    cases s.f.getLsbD 0
    · simp [e1]
    · simp only [if_true, e2, Bool.toNat_true, BitVec.toNat_ofNat]
  constructor
  · rw [e, abs_tk]
    simp only [exec, rdel, abs_setF, orIf_bit, fbits, abs_set16, pair_eq, bit7_lsb, (flag_ne _).1]
    rw [show (fetched s (s.ticks + 1)).f = s.f from rfl, show (fetched s (s.ticks + 1)).d = s.d from rfl,
      show (fetched s (s.ticks + 1)).e = s.e from rfl, hde]
    simp only [k, b15, Bool.false_or, Bool.and_true, Bool.and_false, Bool.or_false]
    rfl
  · rw [e, b15, b14]
    show (flagOp .i8085 _).getLsbD 1 = _
    rw [fv]
    simp only [orIf_bit, kv, cv, bx]
    simp [fetched]

/-- LHLX: HL is loaded from the address in DE (DE = 0xFFFF left out: the high byte is then
read from outside of memory). -/
theorem c65_lhlx_partial (s : St) (h : s.mem s.pc = 0xed#8) (hd : (abs s).rp 1 ≠ 0xffff#16) :
    abs (step .i8085 s).2 = { (abs s).setRp 2 ((abs s).load16 ((abs s).rp 1)) with pc := s.pc + 1 } := by
  obtain ⟨t, e⟩ := step_eq s _ .lhlx h (by decide +kernel)
  rw [e, abs_tk]
  simp only [exec, abs_set16, get16_eq]
  rw [show (abs (fetched s (s.ticks + 1))).rp (numP .de) = (abs s).rp 1 from rfl, readAddr_eq _ _ hd]; rfl

/-- SHLX: HL is stored at the address in DE. -/
theorem c65_shlx (s : St) (h : s.mem s.pc = 0xd9#8) :
    abs (step .i8085 s).2 = { (abs s).store16 ((abs s).rp 1) (abs s).HL with pc := s.pc + 1 } := by
  obtain ⟨t, e⟩ := step_eq s _ .shlx h (by decide +kernel)
  rw [e, abs_tk]
  simp only [exec, get16_eq, wr_word]
  unfold Isa.Mach.store16 Isa.Mach.store Isa.loByte Isa.hiByte
  simp only [Isa.Mach.HL, Isa.word, hi_pair, lo_pair]
  rfl

/-- RSTV: if V is set, a call to 0x40; else nothing. -/
theorem c65_rstv (s : St) (h : s.mem s.pc = 0xcb#8) :
    abs (step .i8085 s).2 = if s.f.getLsbD 1 then { (abs s).push (s.pc + 1) with pc := 0x40#16 } else (abs s).next 1 := by
  obtain ⟨t, e⟩ := step_eq s _ .rstv h (by decide +kernel)
  have kv : ∀ f : Byte, (f &&& flagV != 0#8) = f.getLsbD 1 := by decide +kernel
  rw [e, abs_tk]
  simp only [exec]
  rw [kv, show (fetched s (s.ticks + 1)).f = s.f from rfl]
  cases s.f.getLsbD 1
  · rfl
  · simp only [if_true, push2_eq, hi_eq, lo_eq]; rfl

/-- DSUB: HL gets HL - BC; Z of the whole word, S its bit 15, P of the high byte, CY the borrow (BC = 0 left
out: CY is then set). -/
theorem c65_dsub_partial (s : St) (h : s.mem s.pc = 0x08#8) (hb : (abs s).rp 0 ≠ 0#16) :
    (abs (step .i8085 s).2).HL = (abs s).HL - (abs s).rp 0 ∧
    (abs (step .i8085 s).2).cy = decide ((abs s).HL.toNat < ((abs s).rp 0).toNat) ∧
    (abs (step .i8085 s).2).z = decide ((abs s).HL = (abs s).rp 0) ∧
    (abs (step .i8085 s).2).s = ((abs s).HL - (abs s).rp 0).getLsbD 15 ∧
    (abs (step .i8085 s).2).p = Isa.evenOnes (Isa.hiByte ((abs s).HL - (abs s).rp 0)) := by
  obtain ⟨t, e⟩ := step_eq s _ .dsub h (by decide +kernel)
  have k := maskAll s.f
  have e1 : hl (fetched s (s.ticks + 1)) = (abs s).HL := pair_eq ..
  have e2 : pair (fetched s (s.ticks + 1)).b (fetched s (s.ticks + 1)).c = (abs s).rp 0 := pair_eq ..
  have e3 : (fetched s (s.ticks + 1)).f = s.f := rfl
  rw [e, abs_tk]
  simp only [exec, dsub, abs_setF, orIf_bit, fbits, abs_set16, e1, e2, e3, k]
  generalize (abs s).HL = x at *
  generalize (abs s).rp 0 = y at *
  have hx := x.isLt
  have hy := y.isLt
  have hy0 : y.toNat ≠ 0 := fun e => hb (BitVec.eq_of_toNat_eq (by simpa using e))
  have en : (~~~y + 1).toNat = 65536 - y.toNat := by
    rw [BitVec.toNat_add, BitVec.toNat_not]; simp; omega
  have er : (BitVec.ofNat 16 (x.toNat + (~~~y + 1).toNat) : Word) = x - y := by
    apply BitVec.eq_of_toNat_eq
    rw [BitVec.toNat_ofNat, BitVec.toNat_sub, en]; omega
  rw [er]
  refine ⟨?_, ?_, ?_, ?_, ?_⟩
  rotate_right
  · simp only [Bool.false_or, Bool.and_true, Bool.and_false, Bool.or_false]
    rw [parity_ok, hi_eq]; rfl
  · show Isa.word (Isa.hiByte (x - y)) (Isa.loByte (x - y)) = x - y
    unfold Isa.word Isa.hiByte Isa.loByte
    rw [← hi_eq, ← lo_eq, ← pair_eq]
    apply BitVec.eq_of_toNat_eq
    have := (x - y).isLt
    simp only [hi, lo, pair, BitVec.toNat_ofNat]; omega
  · simp only [Bool.false_or, Bool.and_true, Bool.and_false, Bool.or_false]
    rw [en]
    simp only [decide_eq_decide]; omega
  · simp only [Bool.false_or, Bool.and_true, Bool.and_false, Bool.or_false]
    have : (x - y = 0#16) ↔ x = y := by
      constructor
      · intro h
        apply BitVec.eq_of_toNat_eq
        have := congrArg BitVec.toNat h
        rw [BitVec.toNat_sub] at this
        simp at this; omega
      · intro h; subst h; simp
    by_cases hxy : x = y
    · rw [this.mpr hxy]; simp [hxy]
    · rw [beq_eq_false_iff_ne.mpr (fun h => hxy (this.mp h))]; simp [hxy]
  · simp only [Bool.false_or, Bool.and_true, Bool.and_false, Bool.or_false]
    have hm : ∀ n, n < 131072 → ((n &&& 0x8000) != 0) = (BitVec.ofNat 16 n : Word).getLsbD 15 := by
      intro n hn
      rw [BitVec.getLsbD_ofNat]
      have e : ∀ i, (n &&& 0x8000).testBit i = (n.testBit i && decide (15 = i)) := by
        intro i
        rw [Nat.testBit_and, show (0x8000 : Nat) = 2 ^ 15 from rfl, Nat.testBit_two_pow]
      cases c : n.testBit 15
      · have : n &&& 0x8000 = 0 := by
          apply Nat.eq_of_testBit_eq
          intro i
          rw [e, Nat.zero_testBit]
          by_cases hi : 15 = i
          · subst hi; simp [c]
          · simp [hi]
        rw [this]; rfl
      · have : n &&& 0x8000 ≠ 0 := by
          intro h0
          have := e 15
          rw [h0, c] at this
          simp at this
        simp [this]
    rw [hm _ (by rw [en]; omega), er]

/-! ### Where it goes wrong -/

/-- JNX5 jumps if X5 is set, JX5 if it is clear: they are exchanged. -/
theorem c65_false_jx5 (s : St) :
    (s.mem s.pc = 0xdd#8 → (step .i8085 s).2.pc = if s.f.getLsbD 5 then (abs s).imm16 else s.pc + 3) ∧
    (s.mem s.pc = 0xfd#8 → (step .i8085 s).2.pc = if s.f.getLsbD 5 then s.pc + 3 else (abs s).imm16) := by
  have kv : ∀ f : Byte, (f &&& flagK != 0#8) = f.getLsbD 5 := by decide +kernel
  constructor
  · intro h
    obtain ⟨t, e⟩ := step_eq s _ .jnx5 h (by decide +kernel)
    rw [e]
    simp only [exec, jmpIf, fetch16_fetched]
    rw [kv, show (fetched s (s.ticks + 1)).f = s.f from rfl]
    cases s.f.getLsbD 5 <;> rfl
  · intro h
    obtain ⟨t, e⟩ := step_eq s _ .jx5 h (by decide +kernel)
    rw [e]
    simp only [exec, jmpIf, fetch16_fetched]
    rw [kv, show (fetched s (s.ticks + 1)).f = s.f from rfl]
    cases s.f.getLsbD 5 <;> rfl

/-- LDHI n is to load DE with HL + n; it loads the word at that address.  LDSI likewise. -/
theorem c65_false_ldhi (s : St) (h : s.mem s.pc = 0x28#8) (hd : (abs s).HL + (abs s).imm8.zeroExtend 16 ≠ 0xffff#16) :
    (abs (step .i8085 s).2).rp 1 = (abs s).load16 ((abs s).HL + (abs s).imm8.zeroExtend 16) := by
  obtain ⟨t, e⟩ := step_eq s _ .ldhi h (by decide +kernel)
  rw [e, abs_tk]
  simp only [exec, fetch_fetched, abs_set16]
  rw [show hl { fetched s (s.ticks + 1) with pc := s.pc + 2 } = (abs s).HL from pair_eq .., readAddr_eq _ _ hd]
  generalize hv : Isa.Mach.load16 _ _ = v
  rw [show (abs s).load16 ((abs s).HL + (abs s).imm8.zeroExtend 16) = v from hv]
  show Isa.word (Isa.hiByte v) (Isa.loByte v) = v
  unfold Isa.word Isa.hiByte Isa.loByte
  rw [← hi_eq, ← lo_eq, ← pair_eq]
  apply BitVec.eq_of_toNat_eq
  have := v.isLt
  simp only [hi, lo, pair, BitVec.toNat_ofNat]; omega

/-- DSUB of zero tells a borrow. -/
theorem c65_false_dsub : (abs (step .i8085 (demo 0 0 0 (prog [0x08]))).2).cy = true := by decide +kernel

/-! The hypotheses can be met. -/
example : (abs (step .i8085 (demo 0 0 0x4011 (prog [0x08]))).2).cy = true ∧ (abs (step .i8085 (demo 0 0 0x4011 (prog [0x08]))).2).HL = 0xffff ∧
    (abs (demo 0 0 0x4011 (prog [0x08]))).rp 0 = 0x4011 ∧ (abs (demo 0 0 0x4011 (prog [0xed]))).rp 1 = 0x1234 ∧
    (abs (demo 0 0 0 (prog [0x28, 0x01]))).HL + 1 ≠ 0xffff#16 := by decide +kernel

end Ucsim.I80
