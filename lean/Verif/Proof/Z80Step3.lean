import Verif.Proof.Z80Step2

namespace Ucsim.Z80
open Isa (Flags Differs)

section
variable (x : Ix) (off : Byte)

theorem adv_b (w : Word) (n : Nat) (s : St) : (adv w n s).b = s.b ∧ (adv w n s).c = s.c := ⟨rfl, rfl⟩

theorem word_hl (v : Word) : Isa.word (Isa.hiByte v) (Isa.loByte v) = v := by
  rw [← hi_eq, ← lo_eq, ← pair_eq]
  unfold pair hi lo
  apply BitVec.eq_of_toNat_eq
  have := v.isLt
  simp only [BitVec.toNat_ofNat]; omega

/-- One round of a block move before P/V and the repetition. -/
def moved (m : Isa.Mach) (dn : Bool) (F : Flags) : Isa.Mach :=
  { (((m.store m.DE (m.mem m.HL)).setPair (.idx .hl) (Isa.Mach.step1 dn m.HL)).setPair .de (Isa.Mach.step1 dn m.DE)).setPair .bc (m.BC - 1) with f := F }

theorem moved_ok (dn : Bool) (s : St) (w : Word) (k : Nat) : abs (blkMove dn (adv w k s)) =
    (moved (base w s) dn { (base w s).f with h := false, n := false, pv := false }).next k := by
  rw [abs_blkMove, abs_adv]; rfl

theorem moved_BC (m : Isa.Mach) (dn : Bool) (F : Flags) (k : Nat) : ((moved m dn F).next k).BC = m.BC - 1 := word_hl _

theorem g_ldi (dn : Bool) : Good x 2 off (if dn then .ldd else .ldi) (.bld dn false) := by
  intro s w u _ _ _ _ _
  have e : exec w.toNat x off (if dn then .ldd else .ldi) (adv w 2 s) = pIfBc (blkMove dn (adv w 2 s)) := by cases dn <;> rfl
  rw [e, abs_pIfBc, moved_ok, moved_BC]
  simp only [Isa.exec, Isa.Mach.blockLd, Bool.false_and, Bool.false_eq_true, if_false]
  simp only [Isa.Mach.next, moved, Bool.false_or]

theorem g_ldir : Good x 2 off .ldir (.bld false true) := by
  intro s w u _ hfl _ _ _
  have hc : bc (blkMove false (adv w 2 s)) = (base w s).BC - 1 := by rw [bc_eq, moved_ok, moved_BC]
  have hP : (Flags.ofByte u.fl).pv = u.fl.getLsbD 2 := rfl
  simp only [exec, hc, nz_ok16] at hfl ⊢
  simp only [Isa.exec, Isa.Mach.blockLd, Bool.true_and]
  cases hz : ((base w s).BC - 1).toNat != 0 with
  | false =>
    rw [abs_again]
    simp only [Bool.false_eq_true, if_false]
    rw [abs_pIfBc, moved_ok, moved_BC]
    simp only [Isa.Mach.next, moved, Bool.false_or, hz]
  | true =>
    have hf : u.fl.getLsbD 2 = true := by
      have : (Flags.ofByte (again w.toNat true (pIfBc (blkMove false (adv w 2 s)))).f).pv = true := by
        show (abs (pIfBc (blkMove false (adv w 2 s)))).f.pv = true
        rw [abs_pIfBc, moved_ok, moved_BC]
        simp only [hz, Bool.or_true]
      rw [hz] at hfl
      rw [hfl]; exact this
    rw [abs_again]
    simp only [if_true]
    rw [abs_pIfBc, moved_ok, moved_BC, hf]
    simp only [Isa.Mach.next, moved, Bool.false_or, hz]
    rfl

theorem g_lddr : Good x 2 off .lddr (.bld true true) := by
  intro s w u _ hfl _ _ _
  have hc : bc (blkMove true (adv w 2 s)) = (base w s).BC - 1 := by rw [bc_eq, moved_ok, moved_BC]
  simp only [exec, hc, nz_ok16] at hfl ⊢
  simp only [Isa.exec, Isa.Mach.blockLd, Bool.true_and]
  cases hz : ((base w s).BC - 1).toNat != 0 with
  | false =>
    rw [abs_again]
    simp only [Bool.false_eq_true, if_false]
    rw [moved_ok]
    simp only [Isa.Mach.next, moved]
  | true =>
    have hf : u.fl.getLsbD 2 = false := by
      have : (Flags.ofByte (again w.toNat true (blkMove true (adv w 2 s))).f).pv = false := by
        show (abs (blkMove true (adv w 2 s))).f.pv = false
        rw [moved_ok]; rfl
      rw [hz] at hfl
      rw [hfl]; exact this
    rw [abs_again]
    simp only [if_true]
    rw [moved_ok, hf]
    simp only [Isa.Mach.next, moved]
    rfl

theorem one_of (v : Word) (h : (v - 1).toNat = 0) : v = 1#16 := by
  apply BitVec.eq_of_toNat_eq
  have := v.isLt
  simp only [BitVec.toNat_sub] at h
  simp at h ⊢
  omega

theorem g_cpi : Good x 2 off .cpi (.bcp false false) := by
  intro s w u _ _ _ _ hd
  have hd : ¬ ((base w s).f.cy ≠ decide ((base w s).a.toNat < ((base w s).mem (base w s).HL).toNat) ∨
      ((base w s).BC = 1#16 ∧ Isa.over8 ((base w s).a.toInt - ((base w s).mem (base w s).HL).toInt) = true)) := hd
  simp only [not_or, Classical.not_not] at hd
  obtain ⟨d1, d2⟩ := hd
  simp only [exec, cpi, abs_pIfBc, abs_set16, hl_eq, bc_eq, get1_eq, abs_cp, abs_adv]
  simp only [Isa.exec, Isa.Mach.blockCp, Bool.false_and, Bool.false_eq_true, if_false]
  have hbc : (((((base w s).next 2).cp (((base w s).next 2).mem ((base w s).next 2).HL)).setPair (pairO .ix .hl)
      ((((base w s).next 2).cp (((base w s).next 2).mem ((base w s).next 2).HL)).HL + 1)).setPair (pairO .ix .bc)
        (((((base w s).next 2).cp (((base w s).next 2).mem ((base w s).next 2).HL)).setPair (pairO .ix .hl)
          ((((base w s).next 2).cp (((base w s).next 2).mem ((base w s).next 2).HL)).HL + 1)).BC - 1)).BC = (base w s).BC - 1 := word_hl _
  rw [hbc]
  have hp : (Isa.over8 ((base w s).a.toInt - ((base w s).mem (base w s).HL).toInt - (0 : Nat)) || ((base w s).BC - 1).toNat != 0) =
      (((base w s).BC - 1).toNat != 0) := by
    cases hz : (((base w s).BC - 1).toNat != 0) with
    | true => simp
    | false =>
      have hz : ((base w s).BC - 1).toNat = 0 := by simpa using hz
      have := one_of _ hz
      simp only [Int.natCast_zero, Int.sub_zero, Bool.or_false]
      simpa using fun e => d2 ⟨this, e⟩
  have hF : ({ ((base w s).cp ((base w s).mem (base w s).HL)).f with
      pv := ((base w s).cp ((base w s).mem (base w s).HL)).f.pv || ((base w s).BC - 1).toNat != 0 } : Flags) =
      { ((base w s).cp ((base w s).mem (base w s).HL)).f with cy := (base w s).f.cy, pv := ((base w s).BC - 1).toNat != 0 } := by
    have e1 : ((base w s).cp ((base w s).mem (base w s).HL)).f.cy = (base w s).f.cy := by
      rw [d1]; rfl
    have e2 : (((base w s).cp ((base w s).mem (base w s).HL)).f.pv || ((base w s).BC - 1).toNat != 0) = (((base w s).BC - 1).toNat != 0) := hp
    rw [e2, ← e1]
  rw [← hF]; rfl

/-- The three parts of CPIR. -/
def cpirF (a v f : Byte) : Byte :=
  let f := f &&& ~~~(bitP ||| bitA ||| bitZ ||| bitS)
  let f := f ||| bitN
  let f := if a = v then f ||| bitZ else f &&& ~~~bitZ
  if bit7 (a - v) then f ||| bitS else f &&& ~~~bitS
def cpirCount (s : St) : St :=
  let s := set16 .ix .hl (hl s + 1) s
  set16 .ix .bc (bc s - 1) s
def cpirEnd (ipc : Nat) (s : St) : St :=
  if bc s ≠ 0#16 then again ipc (s.f &&& bitZ == 0#8) { s with f := s.f ||| bitP } else s

/-- CPIR always clears H; the rest is right. -/
theorem cpir_h (s : St) (w : Word) (u : Isa.Und) : abs (exec w.toNat x off .cpir (adv w 2 s)) =
    { Isa.exec u (.bcp false true) 2 (base w s) with f := { (Isa.exec u (.bcp false true) 2 (base w s)).f with h := false } } := by
  have hg : get1 (adv w 2 s) (hl (adv w 2 s)) = (base w s).mem (base w s).HL := by rw [get1_eq, hl_eq, abs_adv]; rfl
  generalize hv : (base w s).mem (base w s).HL = v at hg
  have hF : Flags.ofByte (cpirF s.a v s.f) =
      { ((base w s).cp v).f with cy := (base w s).f.cy, h := false, pv := false } := by
    have e : ({ ((base w s).cp v).f with cy := (base w s).f.cy, h := false, pv := false } : Flags) =
        { s := Isa.neg8 (s.a - v), z := (s.a - v).toNat == 0, h := false, pv := false, n := true, cy := (Flags.ofByte s.f).cy } := by
      unfold Isa.Mach.cp Isa.Mach.subA
      simp only [Bool.toNat_false, Nat.add_zero, Int.natCast_zero, Int.sub_zero]
      rw [← diff0]; rfl
    rw [e]
    have hz : (s.a = v) ↔ ((s.a - v).toNat == 0) = true := by
      rw [← beq_toNat, beq_iff_eq]; exact ⟨fun e => by rw [e], fun e => BitVec.eq_of_toNat_eq e⟩
    simp only [cpirF, hz, bit7_ok]
    cases Isa.neg8 (s.a - v) <;> cases (s.a - v).toNat == 0 <;>
      simp [fl_noPAZS, fl_orN, fl_orZ, fl_orS, fl_noZ, fl_noS]
  have key : exec w.toNat x off .cpir (adv w 2 s) = cpirEnd w.toNat (cpirCount { adv w 2 s with f := cpirF s.a (get1 (adv w 2 s) (hl (adv w 2 s))) s.f }) := rfl
  rw [key, hg]
  generalize hG : cpirF s.a v s.f = G at hF
  generalize hT : cpirCount { adv w 2 s with f := G } = T
  have aT : abs T = ({ ((base w s).setPair (.idx .hl) ((base w s).HL + 1)).setPair .bc ((base w s).BC - 1) with
      f := { ((base w s).cp v).f with cy := (base w s).f.cy, h := false, pv := false } } : Isa.Mach).next 2 := by
    rw [← hT]
    simp only [cpirCount, abs_set16, hl_eq, bc_eq, abs_f, hF, abs_adv]; rfl
  have bT : bc T = (base w s).BC - 1 := by rw [bc_eq, aT]; exact word_hl _
  have fT : T.f = G := by rw [← hT]; rfl
  have zT : (T.f &&& bitZ == 0#8) = ((base w s).a != v) := by
    have e : ∀ f : Byte, (f &&& bitZ == 0#8) = !(Flags.ofByte f).z := by decide +kernel
    rw [e, fT, hF]
    show (!(BitVec.ofInt 8 _ : Byte).toNat == 0) = _
    have : (BitVec.ofInt 8 (((base w s).a.toNat : Int) - v.toNat - (false.toNat : Nat)) : Byte) = (base w s).a - v := by
      rw [diff0]; simp
    rw [this, ← beq_toNat]
    unfold bne
    congr 1
    rw [Bool.eq_iff_iff, beq_iff_eq, beq_iff_eq]
    exact ⟨fun e => BitVec.eq_of_toNat_eq e, fun e => by rw [e]⟩
  simp only [cpirEnd, Isa.exec, Isa.Mach.blockCp, Bool.true_and, hv, bT]
  cases hz : ((base w s).BC - 1).toNat != 0 with
  | false =>
    have hz' : (base w s).BC - 1 = 0#16 := BitVec.eq_of_toNat_eq (by simpa using hz)
    rw [if_neg (by rw [hz']; simp)]
    rw [aT]
    simp only [Bool.false_and, Bool.false_eq_true, if_false]; rfl
  | true =>
    have hz' : (base w s).BC - 1 ≠ 0#16 := by intro e; rw [e] at hz; simp at hz
    rw [if_pos hz', zT, abs_again]
    rw [abs_f, fl_orP, aT]
    simp only [Bool.true_and]
    cases (base w s).a != v
    · simp only [Bool.false_eq_true, if_false, fT, hF]; rfl
    · simp only [if_true, fT, hF]; rfl

theorem g_cpir : Good x 2 off .cpir (.bcp false true) := by
  intro s w u _ _ _ _ hd
  have hd : ¬ ((base w s).a.toNat % 16 < ((base w s).mem (base w s).HL).toNat % 16) := hd
  rw [cpir_h x off s w u]
  have : (Isa.exec u (.bcp false true) 2 (base w s)).f.h = false := by
    have k : (Isa.exec u (.bcp false true) 2 (base w s)).f.h = decide ((base w s).a.toNat % 16 < ((base w s).mem (base w s).HL).toNat % 16) := by
      simp only [Isa.exec, Isa.Mach.blockCp]
      split <;> rfl
    rw [k]; simpa using hd
  show _ = Isa.exec u (.bcp false true) 2 (base w s)
  generalize Isa.exec u (.bcp false true) 2 (base w s) = m at this
  show { m with f := { m.f with h := false } } = m
  rw [← this]

end

end Ucsim.Z80
