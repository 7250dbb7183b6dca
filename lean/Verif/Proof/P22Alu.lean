import Verif.Proof.P15Alu
/-
The ALU and the conditions of the P2223.
-/
set_option linter.constructorNameAsVariable false
namespace Ucsim.P15
open Spec

/-! ### conditions -/

theorem cond22_iff (t : St) (code : Wd) (cc : Cc) (h : code.toNat / 2 ^ 28 = cc.num) : cond22 t code = true ↔ cc.holds (flags t.F) := by
  have hl := lt_wd code
  have h2 : (fld code 28 4).toNat = cc.num := by rw [fld_toNat, ← h]; omega
  have en : fl t bS = (flags t.F).n := rfl
  have ec : fl t bC = (flags t.F).c := rfl
  have ez : fl t bZ = (flags t.F).z := rfl
  have ev : fl t bO = (flags t.F).v := rfl
  unfold cond22
  rw [h2, en, ec, ez, ev]
  generalize flags t.F = f
  obtain ⟨n, z, c, v⟩ := f
  cases cc <;> simp only [Cc.num, Cc.holds] <;> cases n <;> cases z <;> cases c <;> cases v <;> decide

theorem sub_eq_zero_iff (a b : Wd) : a - b = 0 ↔ a = b := by
  constructor
  · intro h
    have h2 := congrArg BitVec.toNat h
    rw [BitVec.toNat_sub] at h2
    have h0 : (0 : BitVec 32).toNat = 0 := rfl
    rw [h0] at h2
    have ha := lt_wd a
    have hb := lt_wd b
    apply BitVec.eq_of_toNat_eq
    omega
  · intro h; subst h; exact BitVec.sub_self a

theorem compares_iff (a b : Wd) (cc : Cc) (p : Prop) (h : cc.compares a b = some p) : cc.holds (subFlags a b true) ↔ p := by
  have ha := lt_wd a
  have hb := lt_wd b
  have hsub : (a - b).toNat = (4294967296 - b.toNat + a.toNat) % 4294967296 := BitVec.toNat_sub a b
  have hz : (subFlags a b true).z = decide (a = b) := by
    show decide (a - b - 0 = 0) = _
    rw [sub_zero']; congr 1; exact propext (sub_eq_zero_iff a b)
  have hc : (subFlags a b true).c = decide (b.toNat ≤ a.toNat) := rfl
  have hn : (subFlags a b true).n = decide (2147483648 ≤ (a - b).toNat) := by
    show decide ((a - b - 0).toInt < 0) = _
    rw [sub_zero', neg_iff]
  have hv : (subFlags a b true).v = decide (¬inRange (a.toInt - b.toInt)) := by
    show decide (¬inRange (a.toInt - b.toInt - ((false).toNat : Nat))) = _
    rw [Bool.toNat_false]
    show decide (¬inRange (a.toInt - b.toInt - 0)) = _
    rw [Int.sub_zero]
  have heq : a = b ↔ a.toNat = b.toNat := ⟨fun e => by rw [e], fun e => BitVec.eq_of_toNat_eq e⟩
  have hnv : (subFlags a b true).n = (subFlags a b true).v ↔ b.toInt ≤ a.toInt := by
    rw [hn, hv, hsub, Bool.eq_iff_iff, decide_eq_true_eq, decide_eq_true_eq]
    unfold inRange
    rcases toInt_cases a with ⟨h1, e1⟩ | ⟨h1, e1⟩ <;> rcases toInt_cases b with ⟨h2, e2⟩ | ⟨h2, e2⟩ <;> rw [e1, e2] <;> omega
  cases cc <;> simp only [Cc.compares, Option.some.injEq, reduceCtorEq] at h <;> subst h <;> simp only [Cc.holds]
  · rw [hz, decide_eq_true_eq]
  · rw [hz, decide_eq_false_iff_not]
  · rw [hc, decide_eq_true_eq]
  · rw [hc, decide_eq_false_iff_not]; omega
  · rw [hc, hz, decide_eq_true_eq, decide_eq_false_iff_not, heq]; omega
  · rw [hc, hz, decide_eq_true_eq, decide_eq_false_iff_not, heq]; omega
  · exact hnv
  · rw [Ne, hnv]; omega
  · rw [hnv, hz, decide_eq_false_iff_not, ← BitVec.toInt_inj]; omega
  · rw [Ne, hnv, hz, decide_eq_true_eq, ← BitVec.toInt_inj]; omega

/-! ### operands -/

theorem low16 (code : Wd) (i : BitVec 16) (h : code.toNat % 65536 = i.toNat) : code &&& 0x0000ffff#32 = i.zeroExtend 32 := by
  apply BitVec.eq_of_toNat_eq
  have hi := i.isLt
  rw [BitVec.toNat_and, BitVec.zeroExtend, BitVec.toNat_setWidth, BitVec.toNat_ofNat]
  have e : 65535 % 2 ^ 32 = 2 ^ 16 - 1 := rfl
  rw [e, Nat.and_two_pow_sub_one_eq_mod, h]
  omega

theorem or_high16 (i : BitVec 16) : i.zeroExtend 32 ||| 0xffff0000#32 = 0xffff#16 ++ i := by
  apply BitVec.eq_of_toNat_eq
  have hi := i.isLt
  rw [BitVec.toNat_or, BitVec.toNat_append, BitVec.zeroExtend, BitVec.toNat_setWidth, BitVec.toNat_ofNat, BitVec.toNat_ofNat,
    Nat.or_comm, Nat.mod_eq_of_lt (a := i.toNat) (by omega)]
  rfl

theorem imS_eq (code : Wd) (i : BitVec 16) (h : code.toNat % 65536 = i.toNat) : imS code = i.signExtend 32 := by
  have hi := i.isLt
  unfold imS
  rw [low16 code i h]
  have hb : (i.zeroExtend 32).getLsbD 15 = i.msb := by
    rw [BitVec.msb_eq_getLsbD_last, BitVec.zeroExtend, BitVec.getLsbD_setWidth]; simp
  simp only [hb]
  rw [or_high16]
  apply BitVec.eq_of_toNat_eq
  rw [BitVec.toNat_signExtend]
  cases i.msb
  · rfl
  · simp only [if_true]
    rw [BitVec.toNat_append, BitVec.toNat_ofNat, ← Nat.shiftLeft_add_eq_or_of_lt hi, Nat.shiftLeft_eq, BitVec.toNat_setWidth]
    omega

/-! ### the operations -/

theorem flags_nz (F : Wd) (v : Wd) : flags (setBit (setBit F bZ (v == 0)) bS (v.getLsbD 31)) = nz v (flags F) := by
  rw [flags_S, flags_Z, msb_iff, ← neg_iff]; rfl

theorem rest_nz (F : Wd) (v : Wd) : rest (setBit (setBit F bZ (v == 0)) bS (v.getLsbD 31)) = rest F := by
  rw [rest_S, rest_Z]

theorem wzs_spec (t : St) (d : Rn) (v : Wd) :
    Wrote t (wzs t d v) d (some v) ∧ flags (wzs t d v).F = nz v (flags t.F) ∧ rest (wzs t d v).F = rest t.F := by
  refine ⟨⟨rfl, rfl, rfl, rfl⟩, ?_, ?_⟩
  · show flags (setBit (setBit t.F bZ ((setR t d v).R d == 0)) bS (((setR t d v).R d).getLsbD 31)) = _
    rw [setR_self]; exact flags_nz _ _
  · exact rest_nz _ _

theorem setZS_spec (t : St) (d : Rn) (v : Wd) :
    Wrote t (setZS t v) d none ∧ flags (setZS t v).F = nz v (flags t.F) ∧ rest (setZS t v).F = rest t.F :=
  ⟨⟨rfl, rfl, rfl, rfl⟩, flags_nz _ _, rest_nz _ _⟩

theorem and_ofAll (o : Op2) (i : BitVec 16) (h : o = .and) : i.zeroExtend 32 ||| 0xffff0000#32 = o.imm i := by
  subst h; exact or_high16 i

/-- The tail of inst_alu, with the operands the operation is documented to use. -/
theorem aluTail_spec (t : St) (o : Op2) (d : Rn) (iop uop y : Wd) (hand : o ≠ .and) (hb : o ≠ .btst)
    (hy : y = match o with | .or | .xor | .btst | .test => uop | _ => iop) :
    Wrote t (aluTail t d o.num iop uop) d (o.value (t.R d) y (flags t.F).c) ∧
    flags (aluTail t d o.num iop uop).F = o.flags (t.R d) y (flags t.F) ∧ rest (aluTail t d o.num iop uop).F = rest t.F := by
  subst hy
  cases o
  case and => exact absurd rfl hand
  case btst => exact absurd rfl hb
  case add => have h := ad_spec t d (t.R d) iop false; rw [if_neg Bool.false_ne_true, add_zero'] at h; exact h
  case adc => exact ad_spec t d (t.R d) iop (flags t.F).c
  case sub => have h := ad_sub t d (t.R d) iop true; rw [if_pos rfl, sub_zero'] at h; exact h
  case sbb => exact ad_sub t d (t.R d) iop (flags t.F).c
  case cmp =>
    refine ⟨⟨rfl, rfl, rfl, rfl⟩, ?_, instAd_rest _ _ _ _⟩
    exact Eq.trans (instAd_flags t (t.R d) (~~~iop) true) (addFlags_not (t.R d) iop true)
  case mul => exact wzs_spec t d (t.R d * iop)
  case plus => exact ⟨⟨rfl, rfl, rfl, rfl⟩, rfl, rfl⟩
  case test => exact setZS_spec t d (t.R d &&& uop)
  case or => exact wzs_spec t d (t.R d ||| uop)
  case xor => exact wzs_spec t d (t.R d ^^^ uop)

theorem alu22_reg (t : St) (code : Wd) (o : Op2) (cc : Nat) (d b : Rn) (h : Enc22 code cc 0 d o.num) (hb : code.toNat / 2 ^ 8 % 16 = b.toNat)
    (hbt : o ≠ .btst) :
    ∃ t', alu22 t code = (t', .go) ∧ Wrote t t' d (o.value (t.R d) (t.R b) (flags t.F).c) ∧
      flags t'.F = o.flags (t.R d) (t.R b) (flags t.F) ∧ rest t'.F = rest t.F := by
  have hd := fld_rn code 20 d h.d
  have hbb := fld_rn code 8 b hb
  have ho : (fld code 16 4).toNat = o.num := by rw [fld_toNat]; exact h.op
  have h25 : (fld code 25 3).toNat = 0 := by rw [fld_toNat]; have := h.grp; omega
  have h24 : code.getLsbD 24 = false := by rw [bit_of, decide_eq_false_iff_not]; have := h.grp; omega
  unfold alu22
  rw [hd, hbb, ho, h25, h24, if_neg (by decide)]
  simp only [Bool.false_eq_true, if_false]
  by_cases ha : o = .and
  · subst ha
    exact ⟨_, rfl, wzs_spec t d (t.R d &&& t.R b)⟩
  · refine ⟨aluTail t d o.num (t.R b) (t.R b), ?_, aluTail_spec t o d (t.R b) (t.R b) (t.R b) ha hbt (by cases o <;> rfl)⟩
    cases o <;> first | rfl | exact absurd rfl ha

theorem alu22_imm (t : St) (code : Wd) (o : Op2) (cc : Nat) (d : Rn) (i : BitVec 16) (h : Enc22 code cc 1 d o.num) (hi : code.toNat % 2 ^ 16 = i.toNat)
    (hbt : o ≠ .btst) :
    ∃ t', alu22 t code = (t', .go) ∧ Wrote t t' d (o.value (t.R d) (o.imm i) (flags t.F).c) ∧
      flags t'.F = o.flags (t.R d) (o.imm i) (flags t.F) ∧ rest t'.F = rest t.F := by
  have hd := fld_rn code 20 d h.d
  have ho : (fld code 16 4).toNat = o.num := by rw [fld_toNat]; exact h.op
  have h25 : (fld code 25 3).toNat = 0 := by rw [fld_toNat]; have := h.grp; omega
  have h24 : code.getLsbD 24 = true := by rw [bit_of, decide_eq_true_eq]; have := h.grp; omega
  unfold alu22
  rw [hd, ho, h25, h24, if_neg (by decide), imS_eq code i hi, low16 code i hi]
  simp only [if_true]
  by_cases ha : o = .and
  · subst ha
    refine ⟨_, rfl, ?_⟩
    have := wzs_spec t d (t.R d &&& (i.zeroExtend 32 ||| 0xffff0000#32))
    rw [or_high16] at this ⊢
    exact this
  · refine ⟨aluTail t d o.num (i.signExtend 32) (i.zeroExtend 32), ?_, aluTail_spec t o d (i.signExtend 32) (i.zeroExtend 32) (o.imm i) ha hbt ?_⟩
    · cases o <;> first | rfl | exact absurd rfl ha
    · cases o <;> first | rfl | exact absurd rfl ha

theorem body22_alu (ver : Wd) (t t' : St) (code : Wd) (r : Res) (hcc : code.toNat / 2 ^ 28 ≠ 15) (hg : code.toNat / 2 ^ 24 % 16 < 4)
    (h : alu22 t code = (t', r)) : body22 ver t code = ({ t' with PC := t'.R 15 }, r) := by
  have hl := lt_wd code
  have h28 : (fld code 28 4).toNat ≠ 15 := by rw [fld_toNat]; omega
  have h25 : (fld code 25 3).toNat < 2 := by rw [fld_toNat]; omega
  unfold body22
  rw [if_neg h28]
  have : (fld code 25 3).toNat = 0 ∨ (fld code 25 3).toNat = 1 := by omega
  rcases this with e | e <;> rw [e] <;> simp only [h]

theorem ccnum_ne (cc : Cc) : cc.num ≠ 15 := by cases cc <;> decide

theorem exec22_of (ver : Wd) (s : St) (code : Wd) (cc : Cc) (t' : St) (d : Rn) (v : Option Wd) (f : Flags)
    (hat : at15 s code) (hcc : code.toNat / 2 ^ 28 = cc.num) (hg : code.toNat / 2 ^ 24 % 16 < 4) (hc : cc.holds (flags s.F))
    (ha : alu22 (fetched 4 s) code = (t', .go)) (hw : Wrote (fetched 4 s) t' d v) (hf : flags t'.F = f) (hr : rest t'.F = rest s.F) :
    (exec22 ver false s).2 = .go ∧ Next 4 s (exec22 ver false s).1 (res d v) ∧ flags (exec22 ver false s).1.F = f ∧
      rest (exec22 ver false s).1.F = rest s.F := by
  rw [exec22_eq ver s code hat, if_pos ((cond22_iff (fetched 4 s) code cc hcc).2 hc),
    body22_alu ver (fetched 4 s) t' code .go (by rw [hcc]; exact ccnum_ne cc) hg ha]
  exact ⟨rfl, next_of_wrote hw, hf, hr⟩

theorem exec22_reg (ver : Wd) (s : St) (code : Wd) (o : Op2) (cc : Cc) (d b : Rn) (h : Enc22 code cc.num 0 d o.num)
    (hb : code.toNat / 2 ^ 8 % 16 = b.toNat) (hbt : o ≠ .btst) (hat : at15 s code) (hc : cc.holds (flags s.F)) :
    (exec22 ver false s).2 = .go ∧ Next 4 s (exec22 ver false s).1 (res d (o.value (src s d) (src s b) (flags s.F).c)) ∧
      flags (exec22 ver false s).1.F = o.flags (src s d) (src s b) (flags s.F) ∧ rest (exec22 ver false s).1.F = rest s.F := by
  obtain ⟨t', ha, hw, hf, hr⟩ := alu22_reg (fetched 4 s) code o _ d b h hb hbt
  exact exec22_of ver s code cc t' d _ _ hat h.cc (by rw [h.grp]; decide) hc ha hw hf hr

theorem exec22_imm (ver : Wd) (s : St) (code : Wd) (o : Op2) (cc : Cc) (d : Rn) (i : BitVec 16) (h : Enc22 code cc.num 1 d o.num)
    (hi : code.toNat % 2 ^ 16 = i.toNat) (hbt : o ≠ .btst) (hat : at15 s code) (hc : cc.holds (flags s.F)) :
    (exec22 ver false s).2 = .go ∧ Next 4 s (exec22 ver false s).1 (res d (o.value (src s d) (o.imm i) (flags s.F).c)) ∧
      flags (exec22 ver false s).1.F = o.flags (src s d) (o.imm i) (flags s.F) ∧ rest (exec22 ver false s).1.F = rest s.F := by
  obtain ⟨t', ha, hw, hf, hr⟩ := alu22_imm (fetched 4 s) code o _ d i h hi hbt
  exact exec22_of ver s code cc t' d _ _ hat h.cc (by rw [h.grp]; decide) hc ha hw hf hr

/-! ### one operand -/

theorem zeb_val (a : Wd) : a &&& 0x000000ff#32 = BitVec.ofNat 32 (a.toNat % 256) := by
  apply BitVec.eq_of_toNat_eq
  rw [BitVec.toNat_and, BitVec.toNat_ofNat, BitVec.toNat_ofNat]
  have e : 255 % 2 ^ 32 = 2 ^ 8 - 1 := rfl
  rw [e, Nat.and_two_pow_sub_one_eq_mod]; omega

theorem zew_val (a : Wd) : a &&& 0x0000ffff#32 = BitVec.ofNat 32 (a.toNat % 65536) := by
  apply BitVec.eq_of_toNat_eq
  rw [BitVec.toNat_and, BitVec.toNat_ofNat, BitVec.toNat_ofNat]
  have e : 65535 % 2 ^ 32 = 2 ^ 16 - 1 := rfl
  rw [e, Nat.and_two_pow_sub_one_eq_mod]; omega

theorem sew_val (a : Wd) : (if (a &&& 0x0000ffff#32).getLsbD 15 then (a &&& 0x0000ffff#32) ||| 0xffff0000#32 else a &&& 0x0000ffff#32) = (a.setWidth 16).signExtend 32 :=
  imS_eq a (a.setWidth 16) (by rw [BitVec.toNat_setWidth])

theorem seb_val (a : Wd) : (if (a &&& 0x000000ff#32).getLsbD 7 then (a &&& 0x000000ff#32) ||| 0xffffff00#32 else a &&& 0x000000ff#32) = (a.setWidth 8).signExtend 32 := by
  have hi := (a.setWidth 8).isLt
  have e : a &&& 0x000000ff#32 = (a.setWidth 8).setWidth 32 := by
    rw [zeb_val]
    apply BitVec.eq_of_toNat_eq
    rw [BitVec.toNat_setWidth, BitVec.toNat_setWidth, BitVec.toNat_ofNat]
  rw [e]
  generalize a.setWidth 8 = i at hi
  have hb : (i.setWidth 32).getLsbD 7 = i.msb := by
    rw [BitVec.msb_eq_getLsbD_last, BitVec.getLsbD_setWidth]; simp
  rw [hb]
  apply BitVec.eq_of_toNat_eq
  rw [BitVec.toNat_signExtend]
  cases i.msb
  · rfl
  · simp only [if_true]
    rw [BitVec.toNat_or, BitVec.toNat_ofNat, Nat.or_comm, BitVec.toNat_setWidth, Nat.mod_eq_of_lt (a := i.toNat) (by omega)]
    have e2 : 4294967040 % 2 ^ 32 = 16777215 <<< 8 := rfl
    rw [e2, ← Nat.shiftLeft_add_eq_or_of_lt hi, Nat.shiftLeft_eq]
    omega

theorem alu1op_spec (t : St) (code : Wd) (o : Op1) (d : Rn) (hd : code.toNat / 2 ^ 20 % 16 = d.toNat) (ho : code.toNat / 2 ^ 16 % 16 = o.num) :
    Wrote t (alu1op t code) d (o.value (t.R d) (flags t.F).c) ∧ flags (alu1op t code).F = o.flags (t.R d) (flags t.F) ∧
      rest (alu1op t code).F = rest t.F := by
  have hdd := fld_rn code 20 d hd
  have hoo : (fld code 16 4).toNat = o.num := by rw [fld_toNat]; exact ho
  have hfc : fl t bC = (flags t.F).c := rfl
  unfold alu1op
  simp only [hdd, hoo]
  generalize t.R d = x
  cases o
  case zeb => exact ⟨⟨by rw [Op1.value, ← zeb_val]; rfl, rfl, rfl, rfl⟩, rfl, rfl⟩
  case zew => exact ⟨⟨by rw [Op1.value, ← zew_val]; rfl, rfl, rfl, rfl⟩, rfl, rfl⟩
  case seb => exact ⟨⟨by rw [Op1.value, ← seb_val]; rfl, rfl, rfl, rfl⟩, rfl, rfl⟩
  case sew => exact ⟨⟨by rw [Op1.value, ← sew_val]; rfl, rfl, rfl, rfl⟩, rfl, rfl⟩
  case not => exact wzs_spec t d (~~~x)
  case neg =>
    have h := ad_sub t d 0 x true
    have e : (0 : Wd) - x = -x := BitVec.zero_sub x
    rw [if_pos rfl, sub_zero', e] at h
    exact h
  case ror =>
    have e := ror_val x (fl t bC)
    refine ⟨⟨?_, rfl, rfl, rfl⟩, ?_, ?_⟩
    · show (setR t d (if fl t bC then (x >>> 1) ||| 0x80000000#32 else x >>> 1)).R = (setR t d (BitVec.ofNat 32 ((x.toNat + (flags t.F).c.toNat * 2 ^ 32) / 2))).R
      rw [e]; rfl
    · refine Eq.trans (flags_nz _ ((setR t d (if fl t bC then (x >>> 1) ||| 0x80000000#32 else x >>> 1)).R d)) ?_
      show nz _ (flags (setBit t.F bC (x.getLsbD 0))) = _
      rw [setR_self, e, flags_C, bit0]; rfl
    · exact Eq.trans (rest_nz _ _) (rest_C _ _)
  case rol =>
    have e := rol_val x (fl t bC)
    refine ⟨⟨?_, rfl, rfl, rfl⟩, ?_, ?_⟩
    · show (setR t d ((x <<< 1) + (if fl t bC then 1#32 else 0#32))).R = (setR t d (BitVec.ofNat 32 (2 * x.toNat + (flags t.F).c.toNat))).R
      rw [e]; rfl
    · refine Eq.trans (flags_nz _ ((setR t d ((x <<< 1) + (if fl t bC then 1#32 else 0#32))).R d)) ?_
      show nz _ (flags (setBit t.F bC (x.getLsbD 31))) = _
      rw [setR_self, e, flags_C, msb_iff]; rfl
    · exact Eq.trans (rest_nz _ _) (rest_C _ _)
  case shl =>
    obtain ⟨w, f, r⟩ := wzs_spec (setF t bC (x.getLsbD 31)) d (x <<< 1)
    refine ⟨?_, ?_, Eq.trans r (rest_C _ _)⟩
    · rw [Op1.value, ← shl_val]; exact w.pre
    · refine Eq.trans f ?_
      show nz _ (flags (setBit t.F bC (x.getLsbD 31))) = _
      rw [flags_C, msb_iff, shl_val]; rfl
  case shr =>
    obtain ⟨w, f, r⟩ := wzs_spec (setF t bC (x.getLsbD 0)) d (x >>> 1)
    refine ⟨?_, ?_, Eq.trans r (rest_C _ _)⟩
    · rw [Op1.value, ← shr_val]; exact w.pre
    · refine Eq.trans f ?_
      show nz _ (flags (setBit t.F bC (x.getLsbD 0))) = _
      rw [flags_C, bit0, shr_val]; rfl
  case sha =>
    obtain ⟨w, f, r⟩ := wzs_spec (setF t bC (x.getLsbD 0)) d (x.sshiftRight 1)
    refine ⟨?_, ?_, Eq.trans r (rest_C _ _)⟩
    · rw [Op1.value, ← sha_val]; exact w.pre
    · refine Eq.trans f ?_
      show nz _ (flags (setBit t.F bC (x.getLsbD 0))) = _
      rw [flags_C, bit0, sha_val]; rfl
  case sz => exact setZS_spec t d x
  case sec => exact ⟨⟨rfl, rfl, rfl, rfl⟩, flags_C _ _, rest_C _ _⟩
  case clc => exact ⟨⟨rfl, rfl, rfl, rfl⟩, flags_C _ _, rest_C _ _⟩

theorem alu22_1op (t : St) (code : Wd) (g : Nat) (hg : code.toNat / 2 ^ 24 % 16 = g) (h2 : g / 2 = 1) : alu22 t code = (alu1op t code, .go) := by
  unfold alu22
  rw [if_pos (by rw [fld_toNat]; omega)]

theorem exec22_op1 (ver : Wd) (s : St) (code : Wd) (o : Op1) (cc : Cc) (d : Rn) (g : Nat) (h : Enc22 code cc.num g d o.num) (hg : g / 2 = 1)
    (hat : at15 s code) (hc : cc.holds (flags s.F)) :
    (exec22 ver false s).2 = .go ∧ Next 4 s (exec22 ver false s).1 (res d (o.value (src s d) (flags s.F).c)) ∧
      flags (exec22 ver false s).1.F = o.flags (src s d) (flags s.F) ∧ rest (exec22 ver false s).1.F = rest s.F := by
  obtain ⟨hw, hf, hr⟩ := alu1op_spec (fetched 4 s) code o d h.d h.op
  exact exec22_of ver s code cc _ d _ _ hat h.cc (by rw [h.grp]; omega) hc (alu22_1op _ code g h.grp hg) hw hf hr

end Ucsim.P15
