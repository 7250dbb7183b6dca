import Verif.Pdk.Chain
/-
Logic, shifts, bits and moves of the PDK processors; the stack; the skips; the cycles.
-/
namespace Ucsim.Pdk

section
variable {v : Var} {id : Nat} {c : Cpu} {s : Sh} {m k a n : Nat}

/-! ### Logic, shifts, moves -/

theorem logic_bits (o : Op) (x y : Byte) (i : Nat) :
    (logic o x y).getLsbD i = bitwise o (x.getLsbD i) (y.getLsbD i) := by
  cases o <;> simp [logic, bitwise]

/-- and, or, xor -/
def isLogic (o : Op) : Bool := match o with | .and | .or | .xor => true | _ => false

/-- C140: and, or, xor: the operands by the form, the result bit by bit, Z, and nothing else -/
theorem c140_logic (o : Op) (ho : isLogic o = true) (d : Dir) (h : Enc v (s.rom c.PC) (.alu o d) [m]) :
    ∃ r : Byte,
      (∀ i, r.getLsbD i = bitwise o (c.A.getLsbD i) (match d with | .ak => m.testBit i && decide (i < 8) | _ => (s.ram m).getLsbD i)) ∧
      step v id c s = ⟨{ c with A := (if d = .ma then c.A else r), F := withZ c.F (r == 0), PC := nextPC c.PC },
        (if d = .ma then { s with ram := upd s.ram m r } else s), 1, true⟩ := by
  rw [step_enc h]
  cases d with
  | ak =>
    have hk := argk h (by rfl)
    refine ⟨logic o c.A (BitVec.ofNat 8 m), fun i => ?_, ?_⟩
    · rw [logic_bits]; simp [BitVec.getLsbD_ofNat, Bool.and_comm]
    · cases o <;> first | (exact absurd ho (by decide)) | (simp only [run, runAlu, hk]; rfl)
  | am =>
    have hk := arg1 (w := mMask v) h (by rfl)
    refine ⟨logic o c.A (s.ram m), fun i => logic_bits _ _ _ _, ?_⟩
    cases o <;> first | (exact absurd ho (by decide)) | (simp only [run, runAlu, hk]; rfl)
  | ma =>
    have hk := arg1 (w := mMask v) h (by rfl)
    refine ⟨logic o c.A (s.ram m), fun i => logic_bits _ _ _ _, ?_⟩
    cases o <;> first | (exact absurd ho (by decide)) | (simp only [run, runAlu, hk]; rfl)

theorem shiftOf_eq (o : Shift) (x : Byte) (F : Byte) :
    (shiftOf o x (cy F)).1.toNat = (shifted o x.toNat (cy F)).1 ∧
    (shiftOf o x (cy F)).2 = ((shifted o x.toNat (cy F)).2 == 1) := by
  have : ∀ (x : Byte) (b : Bool), (shiftOf o x (if b then 1 else 0)).1.toNat = (shifted o x.toNat (if b then 1 else 0)).1 ∧
    (shiftOf o x (if b then 1 else 0)).2 = ((shifted o x.toNat (if b then 1 else 0)).2 == 1) := by
    cases o <;> decide +kernel
  exact this x (F.getLsbD 1)

/-- C140: the shifts, on A and on memory: the number, C, and nothing else -/
theorem c140_shift_a (o : Shift) (h : Enc v (s.rom c.PC) (.sh o true) []) :
    ∃ r : Byte, r.toNat = (shifted o c.A.toNat (cy c.F)).1 ∧
      step v id c s = ⟨{ c with A := r, F := withC c.F ((shifted o c.A.toNat (cy c.F)).2 == 1), PC := nextPC c.PC }, s, 1, true⟩ := by
  refine ⟨(shiftOf o c.A (cy c.F)).1, (shiftOf_eq o _ _).1, ?_⟩
  rw [step_enc h, ← (shiftOf_eq o _ _).2]
  simp only [run, fC_eq]; rfl

theorem c140_shift_m (o : Shift) (h : Enc v (s.rom c.PC) (.sh o false) [m]) :
    ∃ r : Byte, r.toNat = (shifted o (s.ram m).toNat (cy c.F)).1 ∧
      step v id c s = ⟨{ c with F := withC c.F ((shifted o (s.ram m).toNat (cy c.F)).2 == 1), PC := nextPC c.PC },
        { s with ram := upd s.ram m r }, 1, true⟩ := by
  have hk := arg1 (w := mMask v) h rfl
  refine ⟨(shiftOf o (s.ram m) (cy c.F)).1, (shiftOf_eq o _ _).1, ?_⟩
  rw [step_enc h, ← (shiftOf_eq o _ _).2]
  simp only [run, fC_eq, hk]; rfl

/-- C140: not and neg on A and on memory -/
theorem c140_unary_a (neg : Bool) (h : Enc v (s.rom c.PC) (.un neg true) []) :
    ∃ r : Byte, r.toNat = (if neg then (256 - c.A.toNat) % 256 else 255 - c.A.toNat) ∧
      step v id c s = ⟨{ c with A := r, F := withZ c.F (r == 0), PC := nextPC c.PC }, s, 1, true⟩ := by
  refine ⟨if neg then -c.A else ~~~c.A, ?_, ?_⟩
  · cases neg <;> simp [BitVec.toNat_not, BitVec.toNat_neg]
  · rw [step_enc h]; cases neg <;> simp only [run] <;> rfl

theorem c140_unary_m (neg : Bool) (h : Enc v (s.rom c.PC) (.un neg false) [m]) :
    ∃ r : Byte, r.toNat = (if neg then (256 - (s.ram m).toNat) % 256 else 255 - (s.ram m).toNat) ∧
      step v id c s = ⟨{ c with F := withZ c.F (r == 0), PC := nextPC c.PC }, { s with ram := upd s.ram m r }, 1, true⟩ := by
  have hk := arg1 (w := mMask v) h rfl
  refine ⟨if neg then -(s.ram m) else ~~~(s.ram m), ?_, ?_⟩
  · cases neg <;> simp [BitVec.toNat_not, BitVec.toNat_neg]
  · rw [step_enc h]; cases neg <;> simp only [run, hk] <;> rfl

/-- C140: clear, xch, the moves, swap -/
theorem c140_clear (h : Enc v (s.rom c.PC) .clear [m]) :
    step v id c s = ⟨{ c with PC := nextPC c.PC }, { s with ram := upd s.ram m 0 }, 1, true⟩ := by
  have hk := arg1 (w := mMask v) h rfl
  rw [step_enc h]; simp only [run, hk]; rfl

theorem c140_xch (h : Enc v (s.rom c.PC) .xch [m]) :
    step v id c s = ⟨{ c with A := s.ram m, PC := nextPC c.PC }, { s with ram := upd s.ram m c.A }, 1, true⟩ := by
  have hk := arg1 (w := mMask v) h rfl
  rw [step_enc h]; simp only [run, hk]; rfl

theorem c140_mov_ma (h : Enc v (s.rom c.PC) .movMA [m]) :
    step v id c s = ⟨{ c with PC := nextPC c.PC }, { s with ram := upd s.ram m c.A }, 1, true⟩ := by
  have hk := arg1 (w := mMask v) h rfl
  rw [step_enc h]; simp only [run, hk]; rfl

theorem c140_mov_am (h : Enc v (s.rom c.PC) .movAM [m]) :
    step v id c s = ⟨{ c with A := s.ram m, PC := nextPC c.PC }, s, 1, true⟩ := movAM_step h

theorem c140_mov_ak (h : Enc v (s.rom c.PC) .movAK [k]) :
    step v id c s = ⟨{ c with A := BitVec.ofNat 8 k, PC := nextPC c.PC }, s, 1, true⟩ := by
  have hk := argk h rfl
  rw [step_enc h]; simp only [run, hk]

theorem c140_swap (h : Enc v (s.rom c.PC) .swap []) :
    ∃ r : Byte, r.toNat = c.A.toNat / 16 + 16 * (c.A.toNat % 16) ∧
      step v id c s = ⟨{ c with A := r, PC := nextPC c.PC }, s, 1, true⟩ := by
  refine ⟨(c.A <<< 4) ||| (c.A >>> 4), ?_, ?_⟩
  · have : ∀ x : Byte, ((x <<< 4) ||| (x >>> 4)).toNat = x.toNat / 16 + 16 * (x.toNat % 16) := by decide +kernel
    exact this c.A
  · rw [step_enc h]; simp only [run]

/-- C140: an indirect move reads or writes the byte whose address is in memory -/
theorem c140_idxm_am (h : Enc v (s.rom c.PC) .idxmAM [m]) :
    (step v id c s).cpu = { c with A := s.ram (s.ram m).toNat, PC := nextPC c.PC } ∧ (step v id c s).sh = s := by
  have hk := arg1 (w := wMask v) h rfl
  rw [step_enc h]; simp only [run, hk, and_self]

theorem c140_idxm_ma (h : Enc v (s.rom c.PC) .idxmMA [m]) :
    (step v id c s).cpu = { c with PC := nextPC c.PC } ∧
    (step v id c s).sh = { s with ram := upd s.ram (s.ram m).toNat c.A } := by
  have hk := arg1 (w := wMask v) h rfl
  rw [step_enc h]; simp only [run, hk, wr8, and_self]

theorem bit_lt (v : Var) (code : Word) : ((code &&& nMask v) >>> nShift v).toNat < 8 := by
  have hc := code.isLt
  cases v <;> simp [nMask, nShift, BitVec.toNat_and, Nat.shiftRight_eq_div_pow]
  · have : code.toNat &&& 224 ≤ 224 := Nat.and_le_right
    omega
  · have : code.toNat &&& 448 ≤ 448 := Nat.and_le_right
    omega
  · have : code.toNat &&& 896 ≤ 896 := Nat.and_le_right
    omega

theorem set_bits (x : Byte) (n i : Nat) (one : Bool) (hn : n < 8) (hi : i < 8) :
    (if one then x ||| bitN n else x &&& ~~~bitN n).getLsbD i = if i = n then one else x.getLsbD i := by
  have : ∀ (x : Byte) (n i : Fin 8) (one : Bool),
      (if one then x ||| bitN n else x &&& ~~~bitN n).getLsbD i = if i = n then one else x.getLsbD i := by decide +kernel
  have := this x ⟨n, hn⟩ ⟨i, hi⟩ one
  simpa [Fin.ext_iff] using this

theorem test_bit (x : Byte) (n : Nat) (hn : n < 8) : ((x &&& bitN n) != 0) = x.getLsbD n := by
  have : ∀ (x : Byte) (n : Fin 8), ((x &&& bitN n) != 0) = x.getLsbD n := by decide +kernel
  exact this x ⟨n, hn⟩

/-- C140: set0 and set1 of a memory bit change that bit and nothing else -/
theorem c140_bit_m (one : Bool) (h : Enc v (s.rom c.PC) (.bit one false) [m, n]) :
    ∃ r : Byte, (∀ i, i < 8 → r.getLsbD i = if i = n then one else (s.ram m).getLsbD i) ∧
      step v id c s = ⟨{ c with PC := nextPC c.PC }, { s with ram := upd s.ram m r }, 1, true⟩ := by
  obtain ⟨h1, h2⟩ := arg2 (w := bMask v) (w' := nMask v) (n := nShift v) h rfl
  have hn : n < 8 := by rw [← h2]; exact bit_lt v _
  refine ⟨if one then s.ram m ||| bitN n else s.ram m &&& ~~~bitN n, fun i hi => set_bits _ _ _ _ hn hi, ?_⟩
  rw [step_enc h]; simp only [run, h1, h2]; rfl

/-- C140: an io register, but FPPEN and MULRH, keeps what mov io,a writes: a mov a,io of it, the next
instruction, gives the value back; and every other io register keeps its value -/
theorem c140_io (ha : a ≠ 1) (ha9 : a ≠ 9) (h : Enc v (s.rom c.PC) .movIA [a])
    (h2 : Enc v (s.rom (nextPC c.PC)) .movAI [k]) :
    ((stepN v id 2 (c, s)).1.A = if k = a then c.A else getIo k c s) ∧
    (stepN v id 2 (c, s)).2.ram = s.ram := by
  have e1 := arg1 (w := ioMask v) h rfl
  have e2 := arg1 (w := ioMask v) h2 rfl
  have q : ∀ x c' s', putIo a x c' s' = if a = 0 then ({ c' with F := x }, s') else if a = 2 then ({ c' with SP := x }, s') else (c', { s' with sfr := upd s'.sfr a x }) := by
    intro x c' s'; simp [putIo, ha]
  have r1 : step v id c s = ⟨(putIo a c.A { c with PC := nextPC c.PC } s).1, (putIo a c.A { c with PC := nextPC c.PC } s).2, 1, true⟩ := by
    rw [step_enc h]; simp only [run, e1]
  simp only [stepN, r1]
  have hpc : (putIo a c.A { c with PC := nextPC c.PC } s).1.PC = nextPC c.PC := by
    rw [q]; split
    · rfl
    · split <;> rfl
  have hrom : (putIo a c.A { c with PC := nextPC c.PC } s).2.rom = s.rom := by
    rw [q]; split
    · rfl
    · split <;> rfl
  rw [step_enc (f := .movAI) (args := [k]) (by rw [hpc, hrom]; exact h2)]
  simp only [hpc, hrom, run, e2]
  rw [q]
  by_cases h0 : a = 0
  · subst h0
    refine ⟨?_, by simp⟩
    by_cases hk : k = 0
    · subst hk; simp [getIo]
    · simp [getIo, hk]
  · by_cases h3 : a = 2
    · subst h3
      refine ⟨?_, by simp⟩
      by_cases hk : k = 2
      · subst hk; simp [getIo]
      · simp [getIo, hk]
    · refine ⟨?_, by simp [h0, h3]⟩
      by_cases hk : k = a
      · subst hk; simp [getIo, h0, ha, h3, ha9, upd]
      · simp [getIo, h0, h3, upd, hk]

/-- the io registers that are only memory -/
def Plain (a : Nat) : Prop := a ≠ 0 ∧ a ≠ 1 ∧ a ≠ 2 ∧ a ≠ 9

/-- C140: set0 and set1 of a bit of an io register -/
theorem c140_bit_io (one : Bool) (ha : Plain a) (h : Enc v (s.rom c.PC) (.bit one true) [a, n]) :
    ∃ r : Byte, (∀ i, i < 8 → r.getLsbD i = if i = n then one else (s.sfr a).getLsbD i) ∧
      step v id c s = ⟨{ c with PC := nextPC c.PC }, { s with sfr := upd s.sfr a r }, 1, true⟩ := by
  obtain ⟨h1, h2⟩ := arg2 (w := ioMask v) (w' := nMask v) (n := nShift v) h rfl
  have hn : n < 8 := by rw [← h2]; exact bit_lt v _
  obtain ⟨a0, a1, a2, a9⟩ := ha
  refine ⟨if one then s.sfr a ||| bitN n else s.sfr a &&& ~~~bitN n, fun i hi => set_bits _ _ _ _ hn hi, ?_⟩
  rw [step_enc h]; simp only [run, h1, h2, getIo, putIo, a0, a1, a2, a9, if_false]

/-- C140: xor io,a -/
theorem c140_xor_io (ha : Plain a) (h : Enc v (s.rom c.PC) .xorIA [a]) :
    step v id c s = ⟨{ c with PC := nextPC c.PC }, { s with sfr := upd s.sfr a (c.A ^^^ s.sfr a) }, 1, true⟩ := by
  have h1 := arg1 (w := ioMask v) h rfl
  obtain ⟨a0, a1, a2, a9⟩ := ha
  rw [step_enc h]; simp only [run, h1, getIo, putIo, a0, a1, a2, a9, if_false]

/-- C140: swapc exchanges C and a bit of an io register -/
theorem c140_swapc (ha : Plain a) (h : Enc v (s.rom c.PC) .swapc [a, n]) :
    ∃ r : Byte, (∀ i, i < 8 → r.getLsbD i = if i = n then c.F.getLsbD 1 else (s.sfr a).getLsbD i) ∧
      step v id c s = ⟨{ c with F := withC c.F ((s.sfr a).getLsbD n), PC := nextPC c.PC }, { s with sfr := upd s.sfr a r }, 1, true⟩ := by
  obtain ⟨h1, h2⟩ := arg2 (w := ioMask v) (w' := nMask v) (n := nShift v) h rfl
  have hn : n < 8 := by rw [← h2]; exact bit_lt v _
  obtain ⟨a0, a1, a2, a9⟩ := ha
  refine ⟨if c.F.getLsbD 1 then s.sfr a ||| bitN n else s.sfr a &&& ~~~bitN n, fun i hi => set_bits _ _ _ _ hn hi, ?_⟩
  rw [step_enc h]; simp only [run, h1, h2, getIo, putIo, a0, a1, a2, a9, if_false, fC_eq, test_bit _ n hn, cy]
  cases c.F.getLsbD 1 <;> rfl

/-- C140: mul, then reading MULRH: the 16 bit product of A and MULOP -/
theorem c140_mul (h : Enc v (s.rom c.PC) .mul []) (h2 : Enc v (s.rom (nextPC c.PC)) .movAI [9]) :
    let lo := (stepN v id 1 (c, s)).1.A
    let hi := (stepN v id 2 (c, s)).1.A
    lo.toNat + 256 * hi.toNat = c.A.toNat * (s.sfr 8).toNat := by
  have e2 := arg1 (w := ioMask v) h2 rfl
  have r1 : step v id c s = ⟨{ c with A := BitVec.ofNat 8 (c.A.toNat * (s.sfr 8).toNat), PC := nextPC c.PC }, { s with mulrh := BitVec.ofNat 8 (c.A.toNat * (s.sfr 8).toNat / 256) }, 1, true⟩ := by
    rw [step_enc h]; simp only [run, getIo]; rfl
  simp only [stepN, r1]
  rw [step_enc (f := .movAI) (args := [9]) h2]
  simp only [run, e2, getIo]
  have hp : c.A.toNat * (s.sfr 8).toNat < 65536 :=
    Nat.lt_of_lt_of_le (Nat.mul_lt_mul'' c.A.isLt (s.sfr 8).isLt) (by decide)
  generalize c.A.toNat * (s.sfr 8).toNat = p at *
  simp [BitVec.toNat_ofNat]
  omega

/-- C140: stt16, then ldt16: the counter of T16 goes from memory and comes back to memory, low byte
first (the counter must not run in between) -/
theorem c140_t16 (h : Enc v (s.rom c.PC) .stt16 [m]) (h2 : Enc v (s.rom (nextPC c.PC)) .ldt16 [k]) :
    ((stepN v id 1 (c, s)).2.t16.toNat = (s.ram m).toNat + 256 * (s.ram (m + 1)).toNat) ∧
    ((stepN v id 2 (c, s)).2.ram k = s.ram m) ∧ ((stepN v id 2 (c, s)).2.ram (k + 1) = s.ram (m + 1)) := by
  have e1 := arg1 (w := wMask v) h rfl
  have e2 := arg1 (w := wMask v) h2 rfl
  have r1 : step v id c s = ⟨{ c with PC := nextPC c.PC }, { s with t16 := BitVec.ofNat 16 ((s.ram (m + 1)).toNat * 256 + (s.ram m).toNat) }, 1, true⟩ := by
    rw [step_enc h]; simp only [run, e1]
  have b1 := (s.ram m).isLt
  have b2 := (s.ram (m + 1)).isLt
  simp only [stepN, r1]
  rw [step_enc (f := .ldt16) (args := [k]) h2]
  simp only [run, e2, wr8, upd]
  refine ⟨by simp; omega, ?_, ?_⟩
  · rw [if_neg (by omega)]
    simp only [if_true]
    apply BitVec.eq_of_toNat_eq
    simp; omega
  · simp only [if_true]
    apply BitVec.eq_of_toNat_eq
    simp [Nat.shiftRight_eq_div_pow]; omega

/-! ### The skips -/

/-- where a skip goes: over the next instruction, or to it -/
def skipTo (b : Bool) (pc : Nat) : Nat := if b then nextPC (nextPC pc) else nextPC pc

theorem skip_pc (b : Bool) (pc : Nat) (h : pc % 4096 ≠ 4094) :
    (if b = true then nextPC pc + 1 else nextPC pc) = skipTo b pc := by
  cases b
  · rfl
  · simp only [skipTo, if_true, nextPC]; omega

/-- C142: t0sn and t1sn of a memory bit. What is missing: the word 4094, see c142_false. -/
theorem c142_tsn_m_partial (one : Bool) (hpc : c.PC % 4096 ≠ 4094) (h : Enc v (s.rom c.PC) (.tsn one false) [m, n]) :
    (step v id c s).cpu = { c with PC := skipTo ((s.ram m).getLsbD n == one) c.PC } ∧ (step v id c s).sh = s ∧ (step v id c s).ok = true := by
  obtain ⟨h1, h2⟩ := arg2 (w := bMask v) (w' := nMask v) (n := nShift v) h rfl
  have hn : n < 8 := by rw [← h2]; exact bit_lt v _
  rw [step_enc h]; simp only [run, h1, h2, test_bit _ n hn, skip_pc _ _ hpc, and_self]

/-- C142: t0sn and t1sn of a bit of an io register (F, FPPEN, SP, MULRH or one kept by the io memory) -/
theorem c142_tsn_io_partial (one : Bool) (hpc : c.PC % 4096 ≠ 4094) (h : Enc v (s.rom c.PC) (.tsn one true) [a, n]) :
    (step v id c s).cpu = { c with PC := skipTo ((getIo a c s).getLsbD n == one) c.PC } ∧ (step v id c s).sh = s ∧ (step v id c s).ok = true := by
  obtain ⟨h1, h2⟩ := arg2 (w := ioMask v) (w' := nMask v) (n := nShift v) h rfl
  have hn : n < 8 := by rw [← h2]; exact bit_lt v _
  have hg : getIo a { c with PC := nextPC c.PC } s = getIo a c s := rfl
  rw [step_enc h]; simp only [run, h1, h2, hg, test_bit _ n hn, skip_pc _ _ hpc, and_self]

/-- C142: ceqsn and cneqsn with a constant and with memory: skip if equal (not equal), the flags are
those of the subtraction -/
theorem c142_ceq_partial (ne kk : Bool) (hpc : c.PC % 4096 ≠ 4094) (h : Enc v (s.rom c.PC) (.ceq ne kk) [m]) :
    let x : Byte := if kk then BitVec.ofNat 8 m else s.ram m
    (step v id c s).cpu = { c with F := subFlags c.A x 0, PC := skipTo ((c.A == x) != ne) c.PC } ∧ (step v id c s).sh = s ∧ (step v id c s).ok = true := by
  cases kk
  · have hk := arg1 (w := mMask v) h rfl
    rw [step_enc h]; simp only [run, hk, subTo0, skip_pc _ _ hpc, and_self, if_false, Bool.false_eq_true]
  · have hk := argk h rfl
    rw [step_enc h]; simp only [run, hk, subTo0, skip_pc _ _ hpc, and_self, if_true]

/-- C142: izsn and dzsn: count A or memory up or down, skip if it becomes zero -/
theorem c142_izs_a_partial (dec : Bool) (hpc : c.PC % 4096 ≠ 4094) (h : Enc v (s.rom c.PC) (.izs dec true) []) :
    let r := arith dec c.A 1 0
    (step v id c s).cpu = { c with A := r.1, F := r.2, PC := skipTo (r.1 == 0) c.PC } ∧ (step v id c s).sh = s ∧ (step v id c s).ok = true := by
  have := skip_pc ((arith dec c.A 1 0).1 == 0) c.PC hpc
  rw [step_enc h]
  simp only [beq_iff_eq] at this
  cases dec <;> simp only [run, addOne, subOne, arith, if_true, if_false, Bool.false_eq_true, and_self, and_true] at this ⊢ <;> rw [this]

theorem c142_izs_m_partial (dec : Bool) (hpc : c.PC % 4096 ≠ 4094) (h : Enc v (s.rom c.PC) (.izs dec false) [m]) :
    let r := arith dec (s.ram m) 1 0
    (step v id c s).cpu = { c with F := r.2, PC := skipTo (r.1 == 0) c.PC } ∧
    (step v id c s).sh = { s with ram := upd s.ram m r.1 } ∧ (step v id c s).ok = true := by
  have hk := arg1 (w := mMask v) h rfl
  have := skip_pc ((arith dec (s.ram m) 1 0).1 == 0) c.PC hpc
  rw [step_enc h]
  simp only [beq_iff_eq] at this
  cases dec <;> simp only [run, hk, addOne, subOne, arith, wr8, if_true, if_false, Bool.false_eq_true, and_self, and_true] at this ⊢ <;> rw [this]

end

/-- C142 is false at the word 4094: the program counter leaves its 12 bits. -/
theorem c142_false :
    Enc .p15 0x5205 (.ceq false true) [5] ∧
    (step .p15 0 { A := 5, F := 0, SP := 0, PC := 4094 } (exSh 0x5205 0)).cpu.PC = 4096 ∧
    skipTo true 4094 = 0 := by decide +kernel

example : Enc .p14 0x2c0f (.alu .and .ak) [15] ∧ Enc .p13 0x0785 (.alu .xor .am) [5] ∧ Enc .p15 0x1505 (.alu .or .ma) [5] ∧
    Enc .p14 0x006c (.sh .src true) [] ∧ Enc .p14 0x1682 (.sh .slc false) [2] ∧ Enc .p13 0x0019 (.un true true) [] ∧
    Enc .p14 0x1403 (.un false false) [3] ∧ Enc .p15 0x2607 .clear [7] ∧ Enc .p15 0x2707 .xch [7] ∧ Enc .p14 0x0b85 .movMA [5] ∧
    Enc .p14 0x0f85 .movAM [5] ∧ Enc .p14 0x2f55 .movAK [0x55] ∧ Enc .p14 0x006e .swap [] ∧ Enc .p14 0x0383 .idxmAM [2] ∧
    Enc .p14 0x0382 .idxmMA [2] ∧ Enc .p14 0x2682 (.bit true false) [2, 2] ∧ Enc .p14 0x0188 .movIA [8] ∧ Enc .p14 0x01c9 .movAI [9] ∧
    Enc .p14 0x007c .mul [] ∧ Enc .p14 0x0302 .stt16 [2] ∧ Enc .p14 0x0303 .ldt16 [2] ∧
    Enc .p14 0x2042 (.tsn false false) [2, 1] ∧ Enc .p15 0x3485 (.tsn true true) [5, 1] ∧ Enc .p14 0x2a07 (.ceq false true) [7] ∧
    Enc .p14 0x1e88 (.bit true true) [8, 2] ∧ Enc .p14 0x00c8 .xorIA [8] ∧ Enc .p15 0x5c88 .swapc [8, 1] ∧
    Enc .p14 0x0063 (.izs true true) [] ∧ Enc .p14 0x1103 (.izs false false) [3] := by decide +kernel
-- dzsn a with A = 1 skips, with A = 2 it does not
example : (step .p14 0 (exCpu 1 0 0) (exSh 0x63 0)).cpu.PC = 9 ∧ (step .p14 0 (exCpu 2 0 0) (exSh 0x63 0)).cpu.PC = 8 := by decide +kernel

end Ucsim.Pdk
