import Verif.Z80.Step
import Verif.Spec.Z80

namespace Ucsim.Z80
open Isa (Flags)

/-- What the manual's machine sees of the simulated one. -/
def abs (s : St) : Isa.Mach where
  a := s.a
  b := s.b
  c := s.c
  d := s.d
  e := s.e
  h := s.h
  l := s.l
  f := .ofByte s.f
  a' := s.a2
  b' := s.b2
  c' := s.c2
  d' := s.d2
  e' := s.e2
  h' := s.h2
  l' := s.l2
  f' := .ofByte s.f2
  ix := s.ix
  iy := s.iy
  sp := s.sp
  pc := BitVec.ofNat 16 s.pc
  i := s.iv
  iff1 := s.iff1
  iff2 := s.iff2
  im := s.imode
  mem := s.mem
  inp := s.inp
  out := s.out

/-! ### Words and bytes -/

theorem pair_eq (h l : Byte) : pair h l = Isa.word h l := by
  apply BitVec.eq_of_toNat_eq
  have := h.isLt
  have := l.isLt
  unfold Isa.word
  rw [BitVec.toNat_append, ← Nat.shiftLeft_add_eq_or_of_lt l.isLt, Nat.shiftLeft_eq]
  unfold pair
  rw [BitVec.toNat_ofNat, Nat.mod_eq_of_lt (by omega)]

theorem of_eq (h l : Byte) : BitVec.ofNat 16 (h.toNat * 256 + l.toNat) = Isa.word h l := pair_eq h l

theorem hi_eq (w : Word) : hi w = Isa.hiByte w := by
  apply BitVec.eq_of_toNat_eq
  have := w.isLt
  simp only [hi, Isa.hiByte, BitVec.extractLsb'_toNat, BitVec.toNat_ofNat, Nat.shiftRight_eq_div_pow]

theorem lo_eq (w : Word) : lo w = Isa.loByte w := by
  apply BitVec.eq_of_toNat_eq
  simp [lo, Isa.loByte, BitVec.extractLsb'_toNat, BitVec.toNat_ofNat]

theorem hi_pair (h l : Byte) : Isa.hiByte (Isa.word h l) = h := by
  rw [← hi_eq, ← pair_eq]
  apply BitVec.eq_of_toNat_eq
  have := h.isLt
  have := l.isLt
  simp only [hi, pair, BitVec.toNat_ofNat]; omega

theorem lo_pair (h l : Byte) : Isa.loByte (Isa.word h l) = l := by
  rw [← lo_eq, ← pair_eq]
  apply BitVec.eq_of_toNat_eq
  have := h.isLt
  have := l.isLt
  simp only [lo, pair, BitVec.toNat_ofNat]; omega

@[simp] theorem ofNat_toNat16 (w : Word) : BitVec.ofNat 16 w.toNat = w := by simp

theorem rd_word (s : St) (w : Word) : rd s w.toNat = s.mem w := by
  unfold rd; rw [if_pos w.isLt, ofNat_toNat16]

theorem wr_word (s : St) (w : Word) (v : Byte) :
    wr s w.toNat v = { s with mem := fun x => if x = w then v else s.mem x } := by
  unfold wr; rw [if_pos w.isLt, ofNat_toNat16]

theorem succ_word (w : Word) (h : w ≠ 0xffff#16) : w.toNat + 1 = (w + 1).toNat := by
  have := w.isLt
  have : w.toNat ≠ 0xffff := fun e => h (BitVec.eq_of_toNat_eq (by simpa using e))
  rw [BitVec.toNat_add]; simp; omega

theorem get1_eq (s : St) (w : Word) : get1 s w = (abs s).mem w := rd_word s w

theorem abs_store1 (s : St) (w : Word) (v : Byte) : abs (store1 w v s) = (abs s).store w v := by
  unfold store1; rw [wr_word]; rfl

theorem abs_store2 (s : St) (w v : Word) (h : w ≠ 0xffff#16) : abs (store2 w v s) = (abs s).store16 w v := by
  unfold store2; rw [wr_word, succ_word w h, wr_word, hi_eq, lo_eq]; rfl

theorem get2_eq (s : St) (w : Word) (h : w ≠ 0xffff#16) : get2 s w = (abs s).load16 w := by
  unfold get2; rw [rd_word, succ_word w h, rd_word, pair_eq]; rfl

theorem bc_eq (s : St) : bc s = (abs s).BC := pair_eq _ _
theorem de_eq (s : St) : de s = (abs s).DE := pair_eq _ _
theorem hl_eq (s : St) : hl s = (abs s).HL := pair_eq _ _

/-! ### PC -/

/-- The state with PC `k` bytes after `w`. -/
def adv (w : Word) (k : Nat) (s : St) : St := { s with pc := (w + BitVec.ofNat 16 k).toNat }

/-- The manual's machine before the instruction at `w`. -/
def base (w : Word) (s : St) : Isa.Mach := { abs s with pc := w }

theorem abs_adv (w : Word) (k : Nat) (s : St) : abs (adv w k s) = (base w s).next k := by
  unfold abs adv base Isa.Mach.next
  simp only [ofNat_toNat16]; rfl

theorem fetch_adv (w : Word) (k : Nat) (s : St) :
    fetch (adv w k s) = (s.mem (w + BitVec.ofNat 16 k), adv w (k + 1) s) := by
  have e : ((w + BitVec.ofNat 16 k).toNat + 1) % 0x10000 = (w + BitVec.ofNat 16 (k + 1)).toNat := by
    simp only [BitVec.toNat_add, BitVec.toNat_ofNat]; omega
  unfold fetch
  show (rd (adv w k s) (w + BitVec.ofNat 16 k).toNat, { s with pc := ((w + BitVec.ofNat 16 k).toNat + 1) % 0x10000 }) = _
  rw [e, rd_word]; rfl

theorem fetch2_adv (w : Word) (k : Nat) (s : St) :
    fetch2 (adv w k s) = (Isa.word (s.mem (w + BitVec.ofNat 16 (k + 1))) (s.mem (w + BitVec.ofNat 16 k)), adv w (k + 2) s) := by
  unfold fetch2
  simp only [fetch_adv, of_eq]

theorem fetch_imm (w : Word) (k : Nat) (s : St) : fetch (adv w k s) = ((base w s).imm8 (k + 1), adv w (k + 1) s) := fetch_adv w k s
theorem fetch2_imm (w : Word) (k : Nat) (s : St) : fetch2 (adv w k s) = ((base w s).imm16 (k + 2), adv w (k + 2) s) := fetch2_adv w k s

/-! ### Flags -/

theorem fl_xy (v f : Byte) : Flags.ofByte (xy v f) = .ofByte f := by
  have : ∀ n ∈ [0, 1, 2, 4, 6, 7], (xy v f).getLsbD n = f.getLsbD n := by
    intro n hn
    have h1 : (0x28#8).getLsbD n = false := by revert n; decide
    have h2 : n < 8 := by revert n; decide
    simp only [xy, BitVec.getLsbD_or, BitVec.getLsbD_and, BitVec.getLsbD_not, h1, h2, decide_true, Bool.true_and, Bool.not_false, Bool.and_true, Bool.and_false, Bool.or_false]
  unfold Flags.ofByte
  simp only [this 0 (by decide), this 1 (by decide), this 2 (by decide), this 4 (by decide), this 6 (by decide), this 7 (by decide)]

theorem fl_C (c : Bool) (f : Byte) : Flags.ofByte (orIf c bitC f) = { Flags.ofByte f with cy := (Flags.ofByte f).cy || c } := by
  revert f; cases c <;> decide +kernel
theorem fl_N (c : Bool) (f : Byte) : Flags.ofByte (orIf c bitN f) = { Flags.ofByte f with n := (Flags.ofByte f).n || c } := by
  revert f; cases c <;> decide +kernel
theorem fl_P (c : Bool) (f : Byte) : Flags.ofByte (orIf c bitP f) = { Flags.ofByte f with pv := (Flags.ofByte f).pv || c } := by
  revert f; cases c <;> decide +kernel
theorem fl_A (c : Bool) (f : Byte) : Flags.ofByte (orIf c bitA f) = { Flags.ofByte f with h := (Flags.ofByte f).h || c } := by
  revert f; cases c <;> decide +kernel
theorem fl_Z (c : Bool) (f : Byte) : Flags.ofByte (orIf c bitZ f) = { Flags.ofByte f with z := (Flags.ofByte f).z || c } := by
  revert f; cases c <;> decide +kernel
theorem fl_S (c : Bool) (f : Byte) : Flags.ofByte (orIf c bitS f) = { Flags.ofByte f with s := (Flags.ofByte f).s || c } := by
  revert f; cases c <;> decide +kernel
theorem fl_orN (f : Byte) : Flags.ofByte (f ||| bitN) = { Flags.ofByte f with n := true } := by revert f; decide +kernel
theorem fl_orA (f : Byte) : Flags.ofByte (f ||| bitA) = { Flags.ofByte f with h := true } := by revert f; decide +kernel
theorem fl_orP (f : Byte) : Flags.ofByte (f ||| bitP) = { Flags.ofByte f with pv := true } := by revert f; decide +kernel
theorem fl_orC (f : Byte) : Flags.ofByte (f ||| bitC) = { Flags.ofByte f with cy := true } := by revert f; decide +kernel
theorem fl_orZ (f : Byte) : Flags.ofByte (f ||| bitZ) = { Flags.ofByte f with z := true } := by revert f; decide +kernel
theorem fl_orS (f : Byte) : Flags.ofByte (f ||| bitS) = { Flags.ofByte f with s := true } := by revert f; decide +kernel
theorem fl_none (f : Byte) : Flags.ofByte (f &&& ~~~bitAll) = ⟨false, false, false, false, false, false⟩ := by revert f; decide +kernel
theorem fl_noN (f : Byte) : Flags.ofByte (f &&& ~~~bitN) = { Flags.ofByte f with n := false } := by revert f; decide +kernel
theorem fl_noZ (f : Byte) : Flags.ofByte (f &&& ~~~bitZ) = { Flags.ofByte f with z := false } := by revert f; decide +kernel
theorem fl_noS (f : Byte) : Flags.ofByte (f &&& ~~~bitS) = { Flags.ofByte f with s := false } := by revert f; decide +kernel
theorem fl_noAC (f : Byte) : Flags.ofByte (f &&& ~~~(bitA ||| bitC)) = { Flags.ofByte f with h := false, cy := false } := by revert f; decide +kernel
theorem fl_noAN (f : Byte) : Flags.ofByte (f &&& ~~~(bitA ||| bitN)) = { Flags.ofByte f with h := false, n := false } := by revert f; decide +kernel
theorem fl_noPN (f : Byte) : Flags.ofByte (f &&& ~~~(bitP ||| bitN)) = { Flags.ofByte f with pv := false, n := false } := by revert f; decide +kernel
theorem fl_noNP (f : Byte) : Flags.ofByte (f &&& ~~~(bitN ||| bitP)) = { Flags.ofByte f with pv := false, n := false } := by revert f; decide +kernel
theorem fl_noPNA (f : Byte) : Flags.ofByte (f &&& ~~~(bitP ||| bitN ||| bitA)) = { Flags.ofByte f with pv := false, n := false, h := false } := by revert f; decide +kernel
theorem fl_noANP (f : Byte) : Flags.ofByte (f &&& ~~~(bitA ||| bitN ||| bitP)) = { Flags.ofByte f with pv := false, n := false, h := false } := by revert f; decide +kernel
theorem fl_noANC (f : Byte) : Flags.ofByte (f &&& ~~~(bitA ||| bitN ||| bitC)) = { Flags.ofByte f with cy := false, n := false, h := false } := by revert f; decide +kernel
theorem fl_noACN (f : Byte) : Flags.ofByte (f &&& ~~~(bitA ||| bitC ||| bitN)) = { Flags.ofByte f with cy := false, n := false, h := false } := by revert f; decide +kernel
theorem fl_noNAC (f : Byte) : Flags.ofByte (f &&& ~~~(bitN ||| bitA ||| bitC)) = { Flags.ofByte f with cy := false, n := false, h := false } := by revert f; decide +kernel
theorem fl_noPAZS (f : Byte) : Flags.ofByte (f &&& ~~~(bitP ||| bitA ||| bitZ ||| bitS)) =
    { Flags.ofByte f with pv := false, h := false, z := false, s := false } := by revert f; decide +kernel
theorem fl_incM (f : Byte) : Flags.ofByte (f &&& ~~~(bitN ||| bitP ||| bitA ||| bitZ ||| bitS)) =
    { Flags.ofByte f with n := false, pv := false, h := false, z := false, s := false } := by revert f; decide +kernel

theorem parity_ok : ∀ r : Byte, parity r = Isa.evenOnes r := by decide +kernel
theorem bit7_ok : ∀ r : Byte, bit7 r = Isa.neg8 r := by decide +kernel
theorem zero_ok (r : Byte) : (r == 0#8) = (r.toNat == 0) := by
  by_cases h : r = 0#8
  · subst h; rfl
  · have : r.toNat ≠ 0 := fun e => h (BitVec.eq_of_toNat_eq (by simpa using e))
    rw [beq_eq_false_iff_ne.mpr h, beq_eq_false_iff_ne.mpr this]
theorem zero_ok16 (r : Word) : (r == 0#16) = (r.toNat == 0) := by
  by_cases h : r = 0#16
  · subst h; rfl
  · have : r.toNat ≠ 0 := fun e => h (BitVec.eq_of_toNat_eq (by simpa using e))
    rw [beq_eq_false_iff_ne.mpr h, beq_eq_false_iff_ne.mpr this]
theorem nz_ok (r : Byte) : (r != 0#8) = (r.toNat != 0) := by unfold bne; rw [zero_ok]
theorem nz_ok16 (r : Word) : (r != 0#16) = (r.toNat != 0) := by unfold bne; rw [zero_ok16]

theorem isC_ok (s : St) : isC s = (abs s).f.cy := by
  have : ∀ f : Byte, (f &&& bitC != 0#8) = (Flags.ofByte f).cy := by decide +kernel
  exact this s.f

theorem and15 (n : Nat) : n &&& 15 = n % 16 := Nat.and_two_pow_sub_one_eq_mod n 4
theorem and127 (n : Nat) : n &&& 127 = n % 128 := Nat.and_two_pow_sub_one_eq_mod n 7
theorem and4095 (n : Nat) : n &&& 4095 = n % 4096 := Nat.and_two_pow_sub_one_eq_mod n 12

/-- The state with A and F changed. -/
theorem abs_af (s : St) (a f : Byte) : abs { s with a := a, f := f } = { abs s with a := a, f := .ofByte f } := rfl
theorem abs_hlf (s : St) (h l f : Byte) : abs { s with h := h, l := l, f := f } = { abs s with h := h, l := l, f := .ofByte f } := rfl
theorem abs_f (s : St) (f : Byte) : abs { s with f := f } = { abs s with f := .ofByte f } := rfl

/-! ### Arithmetic -/

theorem abs_addA (c : Bool) (v : Byte) (s : St) (h : c = true → v.toNat % 16 ≠ 15) :
    abs (addA c.toNat v s) = (abs s).addA v c := by
  have hc : c.toNat ≤ 1 := by cases c <;> decide
  have h' : c.toNat = 1 → v.toNat % 16 ≠ 15 := by cases c <;> simp at h ⊢; exact h
  unfold addA
  simp only [abs_af, fl_xy, fl_S, fl_Z, fl_C, fl_P, fl_A, fl_noN, fl_none, bit7_ok, zero_ok, and15]
  unfold Isa.Mach.addA
  simp only [Isa.over8, Bool.false_or, Bool.decide_or, ← Nat.add_assoc]
  have e1 : decide (s.a.toNat % 16 + (v.toNat + c.toNat) % 16 > 15) = decide (16 ≤ s.a.toNat % 16 + v.toNat % 16 + c.toNat) := by
    rw [decide_eq_decide]; omega
  rw [e1]; rfl

theorem diff_eq (a v : Byte) (c : Nat) : a - BitVec.ofNat 8 (v.toNat + c) = BitVec.ofInt 8 ((a.toNat : Int) - v.toNat - c) := by
  apply BitVec.eq_of_toNat_eq
  have := a.isLt
  have := v.isLt
  rw [BitVec.toNat_sub, BitVec.toNat_ofNat, BitVec.toNat_ofInt]
  omega

theorem diff_eq16 (a v : Word) (c : Nat) : a - BitVec.ofNat 16 (v.toNat + c) = BitVec.ofInt 16 ((a.toNat : Int) - v.toNat - c) := by
  apply BitVec.eq_of_toNat_eq
  have := a.isLt
  have := v.isLt
  rw [BitVec.toNat_sub, BitVec.toNat_ofNat, BitVec.toNat_ofInt]
  omega

theorem abs_subA (c : Bool) (v : Byte) (s : St) (h : c = true → v.toNat % 16 ≠ 15) :
    abs (subA c.toNat v s) = (abs s).subA v c := by
  have hc : c.toNat ≤ 1 := by cases c <;> decide
  have h' : c.toNat = 1 → v.toNat % 16 ≠ 15 := by cases c <;> simp at h ⊢; exact h
  unfold subA
  simp only [abs_af, fl_xy, fl_S, fl_Z, fl_C, fl_P, fl_A, fl_orN, fl_none, bit7_ok, zero_ok, and15, diff_eq]
  unfold Isa.Mach.subA
  simp only [Isa.over8, Bool.false_or, Bool.decide_or]
  have e1 : decide (s.a.toNat % 16 < (v.toNat + c.toNat) % 16) = decide (s.a.toNat % 16 < v.toNat % 16 + c.toNat) := by
    rw [decide_eq_decide]; omega
  rw [e1]; rfl

theorem diff0 (a v : Byte) : a - v = BitVec.ofInt 8 ((a.toNat : Int) - v.toNat) := by
  have := diff_eq a v 0
  simpa using this

theorem beq_toNat (a v : Byte) : (a.toNat == v.toNat) = ((a - v).toNat == 0) := by
  rw [Bool.eq_iff_iff]
  have := a.isLt
  have := v.isLt
  simp only [beq_iff_eq, BitVec.toNat_sub]
  omega

theorem over_ok (a v : Byte) : Isa.over8 (a.toInt - v.toInt) =
    (decide (a.toNat % 128 < v.toNat % 128) ^^ decide (a.toNat < v.toNat)) := by
  have := a.isLt
  have := v.isLt
  rw [Bool.eq_iff_iff]
  simp only [Isa.over8, BitVec.toInt_eq_toNat_cond, decide_eq_true_eq, bne_iff_ne, ne_eq, decide_eq_decide]
  split <;> split <;> omega

theorem fl_cpC (f : Byte) : Flags.ofByte ((f ||| bitC) ^^^ bitP) = { Flags.ofByte f with cy := true, pv := !(Flags.ofByte f).pv } := by
  revert f; decide +kernel

theorem abs_cp (v : Byte) (s : St) : abs (cp v s) = (abs s).cp v := by
  unfold cp
  have e2 : ∀ f : Byte, Flags.ofByte (if s.a.toNat < v.toNat then (f ||| bitC) ^^^ bitP else f) =
      { Flags.ofByte f with cy := (Flags.ofByte f).cy || decide (s.a.toNat < v.toNat),
                            pv := ((Flags.ofByte f).pv ^^ decide (s.a.toNat < v.toNat)) } := by
    intro f; split <;> rename_i hh <;> simp [fl_cpC, hh]
  simp only [abs_f, fl_xy, fl_S, fl_Z, e2, fl_P, fl_A, fl_orN, fl_none, bit7_ok, and15, and127, beq_toNat]
  unfold Isa.Mach.cp Isa.Mach.subA
  simp only [Bool.false_or, Bool.toNat_false, Nat.add_zero, Int.natCast_zero, Int.sub_zero]
  have e3 : Isa.over8 ((abs s).a.toInt - v.toInt) = (decide (s.a.toNat % 128 < v.toNat % 128) ^^ decide (s.a.toNat < v.toNat)) := over_ok _ _
  rw [e3, ← diff0]; rfl

theorem abs_logic (f a : Byte) (s : St) (h : Bool) (hf : Flags.ofByte f = ⟨false, false, h, false, false, false⟩) :
    abs (logic f a s) = (abs s).logic a h := by
  unfold logic
  simp only [abs_af, fl_xy, fl_S, fl_Z, fl_P, hf, bit7_ok, zero_ok, parity_ok, Bool.false_or]; rfl

def numAlu : Alu → BitVec 3
  | .add => 0 | .adc => 1 | .sub => 2 | .sbc => 3 | .and => 4 | .xor => 5 | .or => 6 | .cp => 7

theorem abs_alu (k : Alu) (v : Byte) (s : St) (h : ¬ ((numAlu k = 1 ∨ numAlu k = 3) ∧ (abs s).f.cy = true ∧ v.toNat % 16 = 15)) :
    abs (aluOp k v s) = (abs s).alu (numAlu k) v := by
  cases k
  case add => exact abs_addA false v s (by simp)
  case sub => exact abs_subA false v s (by simp)
  case adc => simp only [aluOp, isC_ok]; exact abs_addA _ v s (fun a b => h ⟨Or.inl rfl, a, b⟩)
  case sbc => simp only [aluOp, isC_ok]; exact abs_subA _ v s (fun a b => h ⟨Or.inr rfl, a, b⟩)
  case and => exact abs_logic _ _ _ _ (by rw [fl_orA, fl_none])
  case xor => exact abs_logic _ _ _ _ (by rw [fl_none])
  case or => exact abs_logic _ _ _ _ (by rw [fl_none])
  case cp => exact abs_cp v s

theorem inc_ok (v f : Byte) : (incV v f).1 = v + 1 ∧ Flags.ofByte (incV v f).2 = Isa.Mach.incFlags (.ofByte f) v := by
  refine ⟨rfl, ?_⟩
  have e1 : ∀ v : Byte, (v + 1 == 0x80#8) = decide (v.toNat = 127) := by decide +kernel
  have e2 : ∀ v : Byte, ((v + 1) &&& 0x0f#8 == 0#8) = decide (v.toNat % 16 = 15) := by decide +kernel
  simp only [incV, fl_xy, fl_S, fl_Z, fl_P, fl_A, fl_incM, bit7_ok, zero_ok, e1, e2, Bool.false_or]; rfl

theorem dec_ok (v f : Byte) : (decV v f).1 = v - 1 ∧ Flags.ofByte (decV v f).2 = Isa.Mach.decFlags (.ofByte f) v := by
  refine ⟨rfl, ?_⟩
  have e1 : ∀ v : Byte, (v - 1 == 0x7f#8) = decide (v.toNat = 128) := by decide +kernel
  have e2 : ∀ v : Byte, ((v - 1) &&& 0x0f#8 == 0x0f#8) = decide (v.toNat % 16 = 0) := by decide +kernel
  simp only [decV, fl_xy, fl_S, fl_Z, fl_P, fl_A, fl_orN, fl_incM, bit7_ok, zero_ok, e1, e2, Bool.false_or]; rfl

def numRot : Rot → Option (BitVec 3)
  | .rlc => some 0 | .rrc => some 1 | .rl => some 2 | .rr => some 3 | .sla => some 4 | .sra => some 5 | .slia => none | .srl => some 7

theorem rotV_ok (k : Rot) (n : BitVec 3) (h : numRot k = some n) (c : Bool) (v : Byte) : rotV k c v = Isa.rotate n c v := by
  cases k <;> simp only [numRot, Option.some.injEq, reduceCtorEq] at h <;> subst h <;> revert v <;> cases c <;> decide +kernel

theorem rotF_ok (a v : Byte) (c : Bool) (f : Byte) (h : Isa.evenOnes a = Isa.evenOnes v) :
    Flags.ofByte (rotF a v c f) = Isa.rotFlags v c := by
  simp only [rotF, fl_xy, fl_S, fl_Z, fl_P, fl_C, fl_none, bit7_ok, zero_ok, parity_ok, h, Bool.false_or]; rfl

theorem bitF_ok (n : Nat) (hn : n < 8) (v f : Byte) : Flags.ofByte (bitF n v f) =
    { Flags.ofByte f with z := !v.getLsbD n, h := true, n := false, s := (bitF n v f).getLsbD 7, pv := (bitF n v f).getLsbD 2 } := by
  have e1 : ∀ n, n < 8 → ∀ v : Byte, (v &&& (1#8 <<< n) = 0#8) ↔ v.getLsbD n = false := by decide +kernel
  have fl20 : ∀ (c : Bool) (f : Byte), Flags.ofByte (orIf c 0x20#8 f) = Flags.ofByte f := by decide +kernel
  have fl08 : ∀ (c : Bool) (f : Byte), Flags.ofByte (orIf c 0x08#8 f) = Flags.ofByte f := by decide +kernel
  have flM : ∀ f : Byte, Flags.ofByte ((f &&& ~~~(bitN ||| bitP ||| bitA ||| bitZ ||| bitS ||| 0x20#8)) ||| bitA) =
    { Flags.ofByte f with n := false, pv := false, h := true, z := false, s := false } := by decide +kernel
  have flZP : ∀ f : Byte, Flags.ofByte (f ||| (bitZ ||| bitP)) = { Flags.ofByte f with z := true, pv := true } := by decide +kernel
  have key : ∀ (g : Byte) (F : Flags), (Flags.ofByte g).z = F.z → (Flags.ofByte g).h = F.h → (Flags.ofByte g).n = F.n → (Flags.ofByte g).cy = F.cy →
      Flags.ofByte g = { F with s := g.getLsbD 7, pv := g.getLsbD 2 } := by
    intro g F h1 h2 h3 h4
    ext1 <;> first | exact h1 | exact h2 | exact h3 | exact h4 | rfl
  apply key (bitF n v f) { Flags.ofByte f with z := !v.getLsbD n, h := true, n := false }
  all_goals
    unfold bitF
    split <;> rename_i hh <;> rw [e1 n hn] at hh <;>
      simp [fl_S, fl20, fl08, flM, flZP, hh]

/-! ### Sixteen bits -/

theorem ofNat_add16 (a b : Word) : BitVec.ofNat 16 (a.toNat + b.toNat) = a + b := BitVec.eq_of_toNat_eq (by simp [BitVec.toNat_add])

theorem bit15 (w : Word) : (w &&& 0x8000#16 != 0#16) = decide (32768 ≤ w.toNat) := by
  have h1 : (w &&& 0x8000#16 != 0#16) = w.getLsbD 15 := by
    have e : ∀ b : Bool, (w.getLsbD 15 = b) → (w &&& 0x8000#16) = if b then 0x8000#16 else 0#16 := by
      intro b hb
      apply BitVec.eq_of_getLsbD_eq
      intro i hi
      have h2 : (0x8000#16).getLsbD i = decide (i = 15) := by revert i; decide
      rw [BitVec.getLsbD_and, h2]
      by_cases h3 : i = 15
      · subst h3; rw [hb]; cases b <;> simp
      · cases b <;> simp [h3, h2]
    cases h : w.getLsbD 15
    · rw [e _ h]; rfl
    · rw [e _ h]; rfl
  rw [h1, ← BitVec.msb_eq_getLsbD_last, BitVec.msb_eq_decide]

theorem abs_adcHL (v : Word) (s : St) (h : (abs s).f.cy = true → v.toNat % 4096 ≠ 4095) : abs (adcHL v s) = (abs s).adcHL v := by
  have hc : (abs s).f.cy.toNat ≤ 1 := by cases (abs s).f.cy <;> decide
  have h' : (abs s).f.cy.toNat = 1 → v.toNat % 4096 ≠ 4095 := by
    cases c : (abs s).f.cy <;> simp [c] at h ⊢; exact h
  have e1 : decide ((abs s).HL.toNat % 4096 + (v.toNat + (abs s).f.cy.toNat) % 4096 > 4095) =
      decide (4096 ≤ (abs s).HL.toNat % 4096 + v.toNat % 4096 + (abs s).f.cy.toNat) := by
    rw [decide_eq_decide]; omega
  unfold adcHL
  simp only [abs_hlf, fl_S, fl_Z, fl_C, fl_P, fl_A, fl_noN, fl_none, bit15, zero_ok16, isC_ok, hl_eq, hi_eq, lo_eq]
  simp only [and4095, e1]
  simp only [← Nat.add_assoc]
  unfold Isa.Mach.adcHL
  simp only [Isa.over16, Bool.false_or, Bool.decide_or]; rfl

theorem abs_sbcHL (v : Word) (s : St) (h : (abs s).f.cy = true → v.toNat % 4096 ≠ 4095) : abs (sbcHL v s) = (abs s).sbcHL v := by
  have hc : (abs s).f.cy.toNat ≤ 1 := by cases (abs s).f.cy <;> decide
  have h' : (abs s).f.cy.toNat = 1 → v.toNat % 4096 ≠ 4095 := by
    cases c : (abs s).f.cy <;> simp [c] at h ⊢; exact h
  have e1 : decide ((abs s).HL.toNat % 4096 < (v.toNat + (abs s).f.cy.toNat) % 4096) =
      decide ((abs s).HL.toNat % 4096 < v.toNat % 4096 + (abs s).f.cy.toNat) := by
    rw [decide_eq_decide]; omega
  unfold sbcHL
  simp only [abs_hlf, fl_S, fl_Z, fl_C, fl_P, fl_A, fl_orN, fl_none, bit15, zero_ok16, isC_ok, hl_eq, hi_eq, lo_eq, diff_eq16]
  simp only [and4095, e1]
  unfold Isa.Mach.sbcHL
  simp only [Isa.over16, Bool.false_or, Bool.decide_or]; rfl

/-! ### Accumulator -/

theorem abs_rlca (s : St) : abs (rlca s) =
    { abs s with a := (Isa.rotate 0 (abs s).f.cy s.a).1, f := { (abs s).f with h := false, n := false, cy := (Isa.rotate 0 (abs s).f.cy s.a).2 } } := by
  have e : ∀ v : Byte, (if bit7 v then (v <<< 1) ||| 1#8 else v <<< 1) = v.rotateLeft 1 ∧ bit7 v = v.getLsbD 7 := by decide +kernel
  have := e s.a
  unfold rlca
  split <;> rename_i hh <;> simp only [hh, Bool.false_eq_true, if_true, if_false] at this <;>
    simp only [abs_af, fl_orC, fl_noANC, this.1] <;> simp only [Isa.rotate] <;> simp only [← this.2] <;> rfl

theorem abs_rrca (s : St) : abs (rrca s) =
    { abs s with a := (Isa.rotate 1 (abs s).f.cy s.a).1, f := { (abs s).f with h := false, n := false, cy := (Isa.rotate 1 (abs s).f.cy s.a).2 } } := by
  have e : ∀ v : Byte, (if v &&& 1#8 != 0#8 then (v >>> 1) ||| 0x80#8 else v >>> 1) = v.rotateRight 1 ∧ (v &&& 1#8 != 0#8) = v.getLsbD 0 := by decide +kernel
  have := e s.a
  unfold rrca
  split <;> rename_i hh <;> simp only [hh, Bool.false_eq_true, if_true, if_false] at this <;>
    simp only [abs_af, fl_orC, fl_noANC, this.1] <;> simp only [Isa.rotate] <;> simp only [← this.2] <;> rfl

theorem abs_rla (s : St) : abs (rla s) =
    { abs s with a := (Isa.rotate 2 (abs s).f.cy s.a).1, f := { (abs s).f with h := false, n := false, cy := (Isa.rotate 2 (abs s).f.cy s.a).2 } } := by
  have e : ∀ (v : Byte) (c : Bool), (v <<< 1) ||| (if c then 1#8 else 0#8) = (Isa.rotate 2 c v).1 ∧ bit7 v = (Isa.rotate 2 c v).2 := by decide +kernel
  have g : ∀ (f : Byte) (c : Bool), Flags.ofByte (f ||| (if c then bitC else 0#8)) = { Flags.ofByte f with cy := (Flags.ofByte f).cy || c } := by decide +kernel
  have := e s.a (abs s).f.cy
  unfold rla
  simp only [abs_af, g, fl_noACN, isC_ok, this, Bool.false_or]; rfl

theorem abs_rra (s : St) : abs (rra s) =
    { abs s with a := (Isa.rotate 3 (abs s).f.cy s.a).1, f := { (abs s).f with h := false, n := false, cy := (Isa.rotate 3 (abs s).f.cy s.a).2 } } := by
  have e : ∀ (v : Byte) (c : Bool), (v >>> 1) ||| (if c then 0x80#8 else 0#8) = (Isa.rotate 3 c v).1 ∧ (v &&& 1#8 != 0#8) = (Isa.rotate 3 c v).2 := by decide +kernel
  have g : ∀ (f : Byte) (c : Bool), Flags.ofByte (f ||| (if c then bitC else 0#8)) = { Flags.ofByte f with cy := (Flags.ofByte f).cy || c } := by decide +kernel
  have := e s.a (abs s).f.cy
  unfold rra
  simp only [abs_af, g, fl_noNAC, isC_ok, this, Bool.false_or]; rfl

theorem abs_ccf (s : St) : abs (ccf s) = { abs s with f := { (abs s).f with h := (abs s).f.cy, n := false, cy := !(abs s).f.cy } } := by
  have e : ∀ f : Byte, Flags.ofByte ((orIf ((f &&& ~~~(bitA ||| bitN)) &&& bitC != 0#8) bitA (f &&& ~~~(bitA ||| bitN))) ^^^ bitC) =
    { Flags.ofByte f with h := (Flags.ofByte f).cy, n := false, cy := !(Flags.ofByte f).cy } := by decide +kernel
  unfold ccf
  simp only [abs_f, e]; rfl

theorem abs_neg (s : St) : abs (neg s) = (abs s).neg := by
  have e : ∀ a : Byte, (0#8 - a = BitVec.ofInt 8 (((0#8 : Byte).toNat : Int) - a.toNat - (0 : Nat))) ∧
      (a != 0#8) = decide ((0#8 : Byte).toNat < a.toNat + 0) ∧ (a == 0x80#8) = Isa.over8 ((0#8 : Byte).toInt - a.toInt - (0 : Nat)) ∧
      (a &&& 0x0f#8 != 0#8) = decide ((0#8 : Byte).toNat % 16 < a.toNat % 16 + 0) := by decide +kernel
  obtain ⟨e1, e2, e3, e4⟩ := e s.a
  unfold neg
  simp only [abs_af, fl_S, fl_Z, fl_orN, fl_C, fl_P, fl_A, fl_none, bit7_ok, zero_ok, e2, e3, e4, Bool.false_or]
  rw [e1]; rfl

end Ucsim.Z80
