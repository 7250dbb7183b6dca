import Verif.Proof.P15
/-
The ALU of the P1516.
-/
namespace Ucsim.P15
open Spec

/-- What a state change after the fetch does apart from flags. -/
structure Wrote (t t' : St) (d : Rn) (v : Option Wd) : Prop where
  R : t'.R = match v with | some v => (setR t d v).R | none => t.R
  mem : t'.mem = t.mem
  dummy : t'.dummy = t.dummy
  ticks : t'.ticks = t.ticks

theorem setR_self (t : St) (d : Rn) (v : Wd) : (setR t d v).R d = v := if_pos rfl

theorem add_zero' (a : Wd) : a + 0 = a := BitVec.add_zero a
theorem sub_zero' (a : Wd) : a - 0 = a := BitVec.sub_zero a

theorem ad_spec (t : St) (d : Rn) (a b : Wd) (c : Bool) :
    Wrote t (ad t d a b c) d (some (a + b + (if c then 1 else 0))) ∧ flags (ad t d a b c).F = addFlags a b c ∧ rest (ad t d a b c).F = rest t.F := by
  refine ⟨⟨?_, rfl, rfl, rfl⟩, instAd_flags t a b c, instAd_rest t a b c⟩
  show (setR (instAd t a b c).2 d (instAd t a b c).1).R = _
  rw [instAd_val]; rfl

theorem ad_sub (t : St) (d : Rn) (a b : Wd) (c : Bool) :
    Wrote t (ad t d a (~~~b) c) d (some (a - b - (if c then 0 else 1))) ∧ flags (ad t d a (~~~b) c).F = subFlags a b c ∧ rest (ad t d a (~~~b) c).F = rest t.F := by
  have h := ad_spec t d a (~~~b) c
  rw [sub_val, addFlags_not] at h
  exact h

theorem wz_spec (t : St) (d : Rn) (v : Wd) :
    Wrote t (wz t d v) d (some v) ∧ flags (wz t d v).F = { flags t.F with z := decide (v = 0) } ∧ rest (wz t d v).F = rest t.F := by
  refine ⟨⟨rfl, rfl, rfl, rfl⟩, ?_, ?_⟩
  · show flags (setBit t.F bZ ((setR t d v).R d == 0)) = _
    rw [flags_Z, setR_self]; rfl
  · exact rest_Z _ _

/-- Flags set before, and after, do not matter for registers and memory. -/
theorem Wrote.pre {t t' : St} {d : Rn} {v : Option Wd} {F : Wd} (h : Wrote { t with F := F } t' d v) : Wrote t t' d v :=
  ⟨by rw [h.R]; cases v <;> rfl, h.mem, h.dummy, h.ticks⟩

theorem Op.num_lt (o : Op) : o.num < 32 := by cases o <;> decide

theorem alu15_spec (t : St) (code : Wd) (o : Op) (d a b : Rn) (h : Alu15 code o d a b) (hdiv : o ≠ .div) :
    Wrote t (alu15 t code) d (o.value (t.R a) (t.R b) (flags t.F).c) ∧
    flags (alu15 t code).F = o.flags (t.R a) (t.R b) (flags t.F) ∧ rest (alu15 t code).F = rest t.F := by
  have hd := fld_rn code 20 d h.d
  have ha := fld_rn code 16 a h.a
  have hb := fld_rn code 12 b h.b
  have ho : (fld code 7 5).toNat = o.num := by rw [fld_toNat]; exact h.op
  unfold alu15
  rw [hd, ha, hb, ho]
  generalize t.R a = x
  generalize t.R b = y
  have hfc : fl t bC = (flags t.F).c := rfl
  cases o
  case div => exact absurd rfl hdiv
  case add => have h := ad_spec t d x y false; rw [if_neg Bool.false_ne_true, add_zero'] at h; exact h
  case addc => exact ad_spec t d x y (flags t.F).c
  case sub => have h := ad_sub t d x y true; rw [if_pos rfl, sub_zero'] at h; exact h
  case sbb => exact ad_sub t d x y (flags t.F).c
  case inc => have h := ad_spec t d x 1 false; rw [if_neg Bool.false_ne_true, add_zero'] at h; exact h
  case dec => have h := ad_sub t d x 1 true; rw [if_pos rfl, sub_zero'] at h; exact h
  case and => exact wz_spec t d (x &&& y)
  case or => exact wz_spec t d (x ||| y)
  case xor => exact wz_spec t d (x ^^^ y)
  case shl =>
    have := wz_spec (setF t bC (x.getLsbD 31)) d (x <<< 1)
    obtain ⟨w, f, r⟩ := this
    refine ⟨?_, ?_, ?_⟩
    · show Wrote t (wz (setF t bC (x.getLsbD 31)) d (x <<< 1)) d (some (BitVec.ofNat 32 (2 * x.toNat)))
      rw [← shl_val]; exact w.pre
    · refine Eq.trans f ?_
      show ({ flags (setBit t.F bC (x.getLsbD 31)) with z := decide (x <<< 1 = 0) } : Flags) = _
      rw [flags_C, msb_iff, shl_val]; rfl
    · exact Eq.trans r (rest_C _ _)
  case shr =>
    have := wz_spec (setF t bC (x.getLsbD 0)) d (x >>> 1)
    obtain ⟨w, f, r⟩ := this
    have hl := lt_wd x
    refine ⟨?_, ?_, ?_⟩
    · show Wrote t (wz (setF t bC (x.getLsbD 0)) d (x >>> 1)) d (some (BitVec.ofNat 32 (x.toNat / 2)))
      rw [← shr_val]; exact w.pre
    · refine Eq.trans f ?_
      show ({ flags (setBit t.F bC (x.getLsbD 0)) with z := decide (x >>> 1 = 0) } : Flags) = _
      rw [flags_C, bit0, shr_val]
      simp only [ofNat_zero_iff (x.toNat / 2) (by omega)]; rfl
    · exact Eq.trans r (rest_C _ _)
  case sha =>
    have := wz_spec (setF t bC (x.getLsbD 0)) d (x.sshiftRight 1)
    obtain ⟨w, f, r⟩ := this
    refine ⟨?_, ?_, ?_⟩
    · show Wrote t (wz (setF t bC (x.getLsbD 0)) d (x.sshiftRight 1)) d (some (BitVec.ofInt 32 (x.toInt / 2)))
      rw [← sha_val]; exact w.pre
    · refine Eq.trans f ?_
      show ({ flags (setBit t.F bC (x.getLsbD 0)) with z := decide (x.sshiftRight 1 = 0) } : Flags) = _
      rw [flags_C, bit0, sha_val]
      simp only [sha_zero_iff x]; rfl
    · exact Eq.trans r (rest_C _ _)
  case rol =>
    have e := rol_val x (fl t bC)
    refine ⟨⟨?_, rfl, rfl, rfl⟩, ?_, ?_⟩
    · show (setR t d ((x <<< 1) + (if fl t bC then 1#32 else 0#32))).R = (setR t d (BitVec.ofNat 32 (2 * x.toNat + (flags t.F).c.toNat))).R
      rw [e]; rfl
    · show flags (setBit (setBit t.F bC (x.getLsbD 31)) bZ ((setR t d ((x <<< 1) + (if fl t bC then 1#32 else 0#32))).R d == 0)) = _
      rw [flags_Z, flags_C, setR_self, e, msb_iff]; rfl
    · exact Eq.trans (rest_Z _ _) (rest_C _ _)
  case ror =>
    have e := ror_val x (fl t bC)
    have hl := lt_wd x
    refine ⟨⟨?_, rfl, rfl, rfl⟩, ?_, ?_⟩
    · show (setR t d (if fl t bC then (x >>> 1) ||| 0x80000000#32 else x >>> 1)).R = (setR t d (BitVec.ofNat 32 ((x.toNat + (flags t.F).c.toNat * 2 ^ 32) / 2))).R
      rw [e]; rfl
    · show flags (setBit (setBit t.F bC (x.getLsbD 0)) bZ ((setR t d (if fl t bC then (x >>> 1) ||| 0x80000000#32 else x >>> 1)).R d == 0)) = _
      rw [flags_Z, flags_C, setR_self, e, bit0]
      have hc1 : (fl t bC).toNat ≤ 1 := Bool.toNat_le _
      have hz := ofNat_zero_iff ((x.toNat + (fl t bC).toNat * 2 ^ 32) / 2) (by omega)
      have hz2 : (BitVec.ofNat 32 ((x.toNat + (fl t bC).toNat * 2 ^ 32) / 2) == 0) = decide ((x.toNat + (fl t bC).toNat * 2 ^ 32) / 2 = 0) := by
        rw [Bool.eq_iff_iff, beq_iff_eq, decide_eq_true_eq]; exact hz
      rw [hz2]; rfl
    · exact Eq.trans (rest_Z _ _) (rest_C _ _)
  case mul =>
    refine ⟨⟨?_, rfl, rfl, rfl⟩, ?_, ?_⟩
    · show (setR t d (x * y)).R = (setR t d (BitVec.ofNat 32 (x.toNat * y.toNat))).R
      rw [mul_val]
    · show flags (setBit (wz t d (x * y)).F bS (((setR t d (x * y)).R d).getLsbD 31)) = _
      rw [flags_S, (wz_spec t d (x * y)).2.1, setR_self, msb_iff, ← neg_iff, mul_val]; rfl
    · exact Eq.trans (rest_S _ _) (wz_spec t d (x * y)).2.2
  case muh =>
    have h1 := lt_wd x
    have h2 := lt_wd y
    have hm : x.toNat * y.toNat < 18446744073709551616 := by
      have := Nat.mul_lt_mul'' h1 h2; omega
    refine ⟨⟨rfl, rfl, rfl, rfl⟩, ?_, ?_⟩
    · show flags (setBit (wz t d (BitVec.ofNat 32 (x.toNat * y.toNat / 2 ^ 32))).F bS (((setR t d (BitVec.ofNat 32 (x.toNat * y.toNat / 2 ^ 32))).R d).getLsbD 31)) = _
      rw [flags_S, (wz_spec t d _).2.1, setR_self, msb_iff, BitVec.toNat_ofNat]
      simp only [ofNat_zero_iff (x.toNat * y.toNat / 2 ^ 32) (by omega)]
      have : decide (2147483648 ≤ x.toNat * y.toNat / 2 ^ 32 % 2 ^ 32) = decide (2 ^ 63 ≤ x.toNat * y.toNat) := by
        congr 1; apply propext; omega
      rw [this]; rfl
    · exact Eq.trans (rest_S _ _) (wz_spec t d _).2.2
  case cmp =>
    refine ⟨⟨rfl, rfl, rfl, rfl⟩, ?_, instAd_rest _ _ _ _⟩
    refine Eq.trans (instAd_flags t x (~~~y) true) ?_
    exact addFlags_not x y true
  case setc => exact ⟨⟨rfl, rfl, rfl, rfl⟩, flags_C _ _, rest_C _ _⟩
  case clrc => exact ⟨⟨rfl, rfl, rfl, rfl⟩, flags_C _ _, rest_C _ _⟩

theorem next_of_wrote {k : Nat} {s t : St} {d : Rn} {v : Option Wd} (h : Wrote (fetched k s) t d v) :
    Next k s { t with PC := t.R 15 } (res d v) := by
  cases v with
  | some v => exact next_setR k s _ d v h.R rfl h.mem h.dummy h.ticks
  | none => exact next_keep k s _ h.R rfl h.mem h.dummy h.ticks

theorem body15_grp (t : St) (code : Wd) (g : Nat) (hg : code.toNat / 2 ^ 24 % 16 = g) (h8 : g < 8) : code.getLsbD 27 = false ∧ (fld code 24 4).toNat = g := by
  refine ⟨?_, ?_⟩
  · rw [bit_of, decide_eq_false_iff_not]; omega
  · rw [fld_toNat]; exact hg

theorem exec15_alu (s : St) (code : Wd) (o : Op) (d a b : Rn) (h : Alu15 code o d a b) (hat : at15 s code)
    (hc : holds15 (flags s.F) code) (hdiv : o ≠ .div) :
    Next 1 s (exec15 false s).1 (res d (o.value (src s a) (src s b) (flags s.F).c)) ∧
    flags (exec15 false s).1.F = o.flags (src s a) (src s b) (flags s.F) ∧ rest (exec15 false s).1.F = rest s.F := by
  rw [exec15_eq s code hat, if_pos ((cond15_iff (fetched 1 s) code).2 hc)]
  obtain ⟨h27, hg⟩ := body15_grp (fetched 1 s) code 7 h.grp (by decide)
  unfold body15
  rw [hg, h27]
  obtain ⟨w, f, r⟩ := alu15_spec (fetched 1 s) code o d a b h hdiv
  exact ⟨next_of_wrote w, f, r⟩

end Ucsim.P15
