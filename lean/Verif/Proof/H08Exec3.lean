import Verif.Proof.H08Exec2

namespace Ucsim.H08

/-! ### The stack -/

theorem push1_abs (s : St) (v : Byte) : abs (push1 v s) = (abs s).push v ∧ (push1 v s).p = s.p ∧ (push1 v s).pc = s.pc ∧
    (push1 v s).vector = s.vector ∧ (push1 v s).s08 = s.s08 := by
  unfold push1
  rw [store1_word]
  exact ⟨rfl, rfl, rfl, rfl, rfl⟩

theorem store_comm (m : Isa.Mach) (a b : Word) (x y : Byte) (h : a ≠ b) : (m.store a x).store b y = (m.store b y).store a x := by
  unfold Isa.Mach.store
  simp only
  congr 1
  funext z
  by_cases h1 : z = b
  · rw [if_pos h1, if_neg (fun e => h (e.symm.trans h1)), if_pos h1]
  · rw [if_neg h1, if_neg h1]

theorem push2_abs (s : St) (w : Word) : abs (push2 w.toNat s) = (abs s).pushw w ∧ (push2 w.toNat s).p = s.p ∧ (push2 w.toNat s).pc = s.pc ∧
    (push2 w.toNat s).vector = s.vector ∧ (push2 w.toNat s).s08 = s.s08 := by
  unfold push2 store2
  rw [store1_word, store1_word, hi_eq, lo_eq]
  refine ⟨?_, rfl, rfl, rfl, rfl⟩
  have e1 : s.sp - 1 + 1 = s.sp := BitVec.sub_add_cancel _ _
  have e2 : s.sp - 2 = s.sp - 1 - 1 := by rw [BitVec.sub_sub]; rfl
  have c := store_comm (abs s) (s.sp - 1) s.sp (w.extractLsb' 8 8) (w.extractLsb' 0 8) (by
    intro e
    have h := congrArg BitVec.toNat e
    have := s.sp.isLt
    simp [BitVec.toNat_sub] at h
    omega)
  show ({ ((abs s).store (s.sp - 1) (w.extractLsb' 8 8)).store (s.sp - 1 + 1) (w.extractLsb' 0 8) with sp := s.sp - 2 } : Isa.Mach) = _
  rw [e1, e2, c]; rfl

theorem sp_add (s : St) (k : Nat) : get1 s (s.sp.toNat + k) = (abs s).pull (BitVec.ofNat 16 k) := by
  rw [get1_eq]
  unfold Isa.Mach.pull
  congr 1
  apply BitVec.eq_of_toNat_eq
  simp [BitVec.toNat_add, abs]

theorem pop1_abs (s : St) : pop1 s = ((abs s).pull 1, { s with sp := s.sp + 1 }) := by
  unfold pop1; rw [sp_add]; rfl

theorem pop2_abs (s : St) : pop2 s = (((abs s).pull 1 ++ (abs s).pull 2 : Word).toNat, { s with sp := s.sp + 2 }) := by
  unfold pop2 get2
  rw [Nat.add_assoc, sp_add, sp_add, of_eq]; rfl

theorem toNat_pc (w : Word) : BitVec.ofNat 16 w.toNat = w := by simp

theorem rts_ok (s : St) (code : Byte) (pre : Bool) (n t : Nat) (hc : CcOk s) : Refines s (exec .rts code pre (fr s n t)) n .rts := by
  simp only [exec, rts, pop2_abs]
  refine ⟨rfl, ⟨u0, ?_⟩, ⟨BitVec.isLt _, hc, rfl, rfl⟩⟩
  show ({ abs (fr s n t) with pc := BitVec.ofNat 16 ((abs (fr s n t)).pull 1 ++ (abs (fr s n t)).pull 2 : Word).toNat, sp := s.sp + 2 } : Isa.Mach) = _
  rw [toNat_pc, abs_fr]; rfl

theorem rti_ok (s : St) (code : Byte) (pre : Bool) (n t : Nat) : Refines s (exec .rti code pre (fr s n t)) n .rti := by
  simp only [exec, rti, pop1_abs, pop2_abs]
  have e1 : s.sp + 1 + 1 = s.sp + 2 := by rw [BitVec.add_assoc]; rfl
  have e2 : s.sp + 2 + 1 = s.sp + 3 := by rw [BitVec.add_assoc]; rfl
  have e3 : s.sp + 3 + 1 = s.sp + 4 := by rw [BitVec.add_assoc]; rfl
  have e4 : s.sp + 3 + 2 = s.sp + 5 := by rw [BitVec.add_assoc]; rfl
  refine ⟨rfl, ⟨u0, ?_⟩, ⟨BitVec.isLt _, cc_or _, rfl, rfl⟩⟩
  have h : ∀ X : St, ∀ f : Byte, X.p = f ||| 0x60#8 → X.a = s.mem (s.sp + 2) → X.x = s.mem (s.sp + 3) → X.h = s.h → X.sp = s.sp + 5 →
      X.mem = s.mem → BitVec.ofNat 16 X.pc = s.mem (s.sp + 4) ++ s.mem (s.sp + 5) → f = s.mem (s.sp + 1) →
      abs X = Isa.exec u0 (abs s) ((abs s).pc + BitVec.ofNat 16 n) .rti := by
    intro X f h1 h2 h3 h4 h5 h6 h7 h8
    have : abs X = ({ abs s with a := s.mem (s.sp + 2), x := s.mem (s.sp + 3), sp := s.sp + 5, pc := s.mem (s.sp + 4) ++ s.mem (s.sp + 5) } : Isa.Mach).setCcr (f ||| 0x60#8) := by
      unfold abs
      rw [h1, h2, h3, h4, h5, h6, h7]; rfl
    rw [this, ccr_or, h8]; rfl
  refine h _ (s.mem (s.sp + 1)) rfl ?_ ?_ rfl ?_ rfl ?_ rfl
  · show s.mem (s.sp + 1 + 1) = _; rw [e1]
  · show s.mem (s.sp + 1 + 1 + 1) = _; rw [e1, e2]
  · show s.sp + 1 + 1 + 1 + 2 = _; rw [e1, e2, e4]
  · show BitVec.ofNat 16 (s.mem (s.sp + 1 + 1 + 1 + 1) ++ s.mem (s.sp + 1 + 1 + 1 + 2) : Word).toNat = _
    rw [toNat_pc, e1, e2, e3, e4]

theorem jmp_ok (s : St) (code : Byte) (pre : Bool) (n t : Nat) (hc : CcOk s) (hn : code.toNat / 16 ∈ [0, 1, 3, 6, 7, 11, 12, 13, 14, 15])
    (hd : ¬ Isa.Differs (abs s) ((abs s).pc + BitVec.ofNat 16 n) (.jmp (modeOf (code.toNat / 16) pre))) :
    Refines s (exec .jmp code pre (fr s n t)) n (.jmp (modeOf (code.toNat / 16) pre)) := by
  simp only [exec, fetchea_ok s _ pre n t hn]
  refine ⟨rfl, ⟨u0, ?_⟩, ⟨Nat.lt_of_not_ge hd, hc, rfl, rfl⟩⟩
  have e : ∀ (X : St) (a : Nat), abs (tick 1 { X with pc := a }) = { abs X with pc := BitVec.ofNat 16 a } := fun _ _ => rfl
  rw [e, sum_ea, abs_fr]; rfl

theorem jsr_ok (s : St) (code : Byte) (pre : Bool) (n t : Nat) (hc : CcOk s) (hn : code.toNat / 16 ∈ [0, 1, 3, 6, 7, 11, 12, 13, 14, 15])
    (hd : ¬ Isa.Differs (abs s) ((abs s).pc + BitVec.ofNat 16 n) (.jsr (modeOf (code.toNat / 16) pre))) :
    Refines s (exec .jsr code pre (fr s n t)) n (.jsr (modeOf (code.toNat / 16) pre)) := by
  simp only [exec, fetchea_ok s _ pre n t hn]
  rw [fr_pc]
  obtain ⟨k1, k2, k3, k4, k5⟩ := push2_abs (fr s (n + (modeOf (code.toNat / 16) pre).bytes) (t + eaClk (modeOf (code.toNat / 16) pre)))
    ((abs s).pc + BitVec.ofNat 16 (n + (modeOf (code.toNat / 16) pre).bytes))
  refine ⟨rfl, ⟨u0, ?_⟩, ⟨Nat.lt_of_not_ge hd, ?_, k4, k5⟩⟩
  · have e : ∀ (X : St) (a : Nat), abs (tick 1 { tick 2 X with pc := a }) = { abs X with pc := BitVec.ofNat 16 a } := fun _ _ => rfl
    rw [e, k1, sum_ea, abs_fr, pc_add]; rfl
  · show (push2 _ _).p &&& _ = _
    rw [k2]; exact hc

theorem bsr_ok (s : St) (code : Byte) (pre : Bool) (n t : Nat) (hc : CcOk s)
    (hd : ¬ Isa.Differs (abs s) ((abs s).pc + BitVec.ofNat 16 n) .bsr) :
    Refines s (exec .bsr code pre (fr s n t)) n .bsr := by
  simp only [exec, fetch_fr]
  rw [fr_pc]
  obtain ⟨k1, k2, k3, k4, k5⟩ := push2_abs (fr s (n + 1) t) ((abs s).pc + BitVec.ofNat 16 (n + 1))
  generalize push2 ((abs s).pc + BitVec.ofNat 16 (n + 1)).toNat (fr s (n + 1) t) = X at k1 k2 k3 k4 k5
  have hl := Classical.not_not.mp fun k => hd ⟨rfl, k⟩
  rw [← pc_succ] at hl
  have k := rel_add ((abs s).pc + BitVec.ofNat 16 (n + 1)) _ hl.1 hl.2
  rw [fr_pc] at k3
  have hp : (tick 1 (addPC (s.mem ((abs s).pc + BitVec.ofNat 16 n)) (tick 2 X))).pc =
      (((((abs s).pc + BitVec.ofNat 16 (n + 1)).toNat : Int) + ((abs s).mem ((abs s).pc + BitVec.ofNat 16 n)).toInt) % 0x100000000).toNat := by
    rw [← k3]; rfl
  refine ⟨rfl, ⟨u0, ?_⟩, ⟨by rw [hp]; exact k.2, ?_, k4, k5⟩⟩
  · have e : ∀ (X : St) (o : Byte), abs (tick 1 (addPC o (tick 2 X))) = { abs X with pc := BitVec.ofNat 16 (tick 1 (addPC o (tick 2 X))).pc } := fun _ _ => rfl
    rw [e, hp, k.1, k1, abs_fr, pc_succ]; rfl
  · show X.p &&& _ = _
    rw [k2]; exact hc

/-! ### MOV -/

theorem movEnd_ok (s : St) (n t : Nat) (w : Word) (v : Byte) (aix : Bool) :
    abs (movEnd w.toNat v aix (fr s n t)) = { (if aix then ((abs s).store w v).setHX ((abs s).hx + 1) else (abs s).store w v).logic v with pc := (abs s).pc + BitVec.ofNat 16 n } ∧
    (movEnd w.toNat v aix (fr s n t)).pc = (fr s n t).pc ∧ (movEnd w.toNat v aix (fr s n t)).p &&& 0x60#8 = s.p &&& 0x60#8 ∧
    (movEnd w.toNat v aix (fr s n t)).vector = s.vector ∧ (movEnd w.toNat v aix (fr s n t)).s08 = s.s08 := by
  unfold movEnd
  rw [store1_word]
  cases aix
  · simp only [Bool.false_eq_true, if_false]
    refine ⟨?_, rfl, ?_, rfl, rfl⟩
    · rw [abs_p, ccr_V, ccr_nz, setCcr_self]
      show ({ ((abs (fr s n t)).store w v).nz v with v := false } : Isa.Mach) = _
      rw [abs_fr]; rfl
    · rw [cc_V, cc_nz]; rfl
  · simp only [if_true]
    refine ⟨?_, rfl, ?_, rfl, rfl⟩
    · rw [abs_p, ccr_V, ccr_nz, setCcr_self, incx_abs]
      show ({ (((abs (fr s n t)).store w v).setHX ((abs s).hx + 1)).nz v with v := false } : Isa.Mach) = _
      rw [abs_fr]; rfl
    · rw [cc_V, cc_nz]; rfl

def movMode (code : Byte) : Isa.MovMode :=
  if code = 0x4e#8 then .dd else if code = 0x5e#8 then .dix else if code = 0x6e#8 then .imd else .ixd

theorem get1_byte (s : St) (d : Byte) : get1 s d.toNat = s.mem (d.zeroExtend 16) := by
  rw [get1_eq, ← ext_toNat, toNat_pc]

theorem mov_ok (s : St) (code : Byte) (pre : Bool) (n t : Nat) (hc : CcOk s) :
    Refines s (exec .mov code pre (fr s n t)) n (.mov (movMode code)) := by
  have hm : ∀ n t, (fr s n t).mem = (abs s).mem := fun _ _ => rfl
  have fin : ∀ (m : Isa.MovMode) (n' t' : Nat) (w : Word) (v : Byte) (aix : Bool),
      ({ (if aix then ((abs s).store w v).setHX ((abs s).hx + 1) else (abs s).store w v).logic v with pc := (abs s).pc + BitVec.ofNat 16 n' } : Isa.Mach) =
        Isa.exec u0 (abs s) ((abs s).pc + BitVec.ofNat 16 n) (.mov m) →
      Refines s (.go, movEnd w.toNat v aix (fr s n' t')) n (.mov m) := by
    intro m n' t' w v aix h
    obtain ⟨k1, k2, k3, k4, k5⟩ := movEnd_ok s n' t' w v aix
    exact ⟨rfl, ⟨u0, k1.trans h⟩, ⟨by rw [k2]; exact mod_pc _ _ _, k3.trans hc, k4, k5⟩⟩
  have e2 : (abs s).pc + BitVec.ofNat 16 (n + 1 + 1) = (abs s).pc + BitVec.ofNat 16 n + 2 := pc_add _ n 2
  simp only [exec, mov, movMode]
  by_cases h1 : code = 0x4e#8
  · simp only [if_pos h1, fetch_fr, tick_fr, get1_byte, hm]
    rw [← ext_toNat]
    apply fin
    simp only [Bool.false_eq_true, if_false, e2, pc_succ]; rfl
  by_cases h2 : code = 0x5e#8
  · simp only [if_neg h1, if_pos h2, fetch_fr, tick_fr, get1_byte, hm]
    rw [show hx (fr s n t) = (abs s).hx.toNat from hx_eq s]
    apply fin
    simp only [if_true, pc_succ]; rfl
  by_cases h3 : code = 0x6e#8
  · simp only [if_neg h1, if_neg h2, if_pos h3, fetch_fr, tick_fr, get1_byte, hm]
    rw [← ext_toNat]
    apply fin
    simp only [Bool.false_eq_true, if_false, e2, pc_succ]; rfl
  · simp only [if_neg h1, if_neg h2, if_neg h3, fetch_fr, tick_fr, get1_byte, hm]
    rw [show hx (fr s n t) = (abs s).hx.toNat from hx_eq s, ← ext_toNat, get1_eq, toNat_pc]
    apply fin
    simp only [if_true, pc_succ]; rfl

/-! ### 16 bit loads, stores and compares -/

theorem hxP_abs (s : St) : abs (hxP s) = (abs s).nz16 (abs s).hx ∧ (hxP s).p &&& 0x60#8 = s.p &&& 0x60#8 := by
  have h1 : ∀ h : Byte, (h &&& 0x80#8 != 0#8) = h.msb := by decide +kernel
  have h2 : ∀ h x : Byte, (h ++ x : Word).msb = h.msb := by intro h x; rw [BitVec.msb_append]; rfl
  have h3 : ∀ h x : Byte, ((h ++ x : Word) == 0) = (x == 0#8 && h == 0#8) := by
    intro h x
    rw [Bool.eq_iff_iff]
    simp only [beq_iff_eq, Bool.and_eq_true]
    constructor
    · intro e
      have e' := congrArg BitVec.toNat e
      rw [← of_eq] at e'
      have : (0 : Word).toNat = 0 := rfl
      constructor <;> apply BitVec.eq_of_toNat_eq <;> simp <;> omega
    · rintro ⟨rfl, rfl⟩; rfl
  unfold hxP
  refine ⟨?_, ?_⟩
  · rw [abs_p, ccr_Z, ccr_N, ccr_V, setCcr_self, h1]
    unfold Isa.Mach.nz16 Isa.Mach.hx
    rw [h2, h3]; rfl
  · rw [cc_Z, cc_N, cc_V]

/-- The forms of LDHX, STHX and CPHX. -/
def hxMode (code : Byte) (pre : Bool) : Isa.Mode :=
  if pre then
    if code = 0xae#8 then .ix else if code = 0xbe#8 then .ix2 else if code = 0xce#8 then .ix1 else .sp1
  else if code = 0x45#8 ∨ code = 0x65#8 then .imm
  else if code = 0x35#8 ∨ code = 0x55#8 ∨ code = 0x75#8 then .dir else .ext

theorem setHX_word (m : Isa.Mach) (a b : Byte) : m.setHX (a ++ b) = { m with h := a, x := b } := by
  have e1 : (a ++ b : Word).extractLsb' 8 8 = a := by
    apply BitVec.eq_of_toNat_eq
    rw [BitVec.extractLsb'_toNat, ← of_eq, Nat.shiftRight_eq_div_pow]
    have := a.isLt; have := b.isLt; omega
  have e2 : (a ++ b : Word).extractLsb' 0 8 = b := by
    apply BitVec.eq_of_toNat_eq
    rw [BitVec.extractLsb'_toNat, ← of_eq]
    have := a.isLt; have := b.isLt; simp; omega
  unfold Isa.Mach.setHX; rw [e1, e2]

theorem ldhxFin (s : St) (n t n' t' : Nat) (k : Isa.Mode) (hk : k ≠ .imm) (hn : n' = n + k.bytes) (a : Nat) (ha : a = (abs s).sum ((abs s).pc + BitVec.ofNat 16 n) k) (hc : CcOk s) :
    let X := tick t' { fr s n' t with h := get1 (fr s n' t) a }
    Refines s (.go, hxP (tick 1 { X with x := get1 X (a + 1) })) n (.ldhx k) := by
  intro X
  have eh : get1 (fr s n' t) a = (abs s).mem ((abs s).ea ((abs s).pc + BitVec.ofNat 16 n) k) := by rw [ha, get1_sum]
  have ex : get1 X (a + 1) = (abs s).mem ((abs s).ea ((abs s).pc + BitVec.ofNat 16 n) k + 1) := by
    rw [get1_eq, ha]
    have : BitVec.ofNat 16 ((abs s).sum ((abs s).pc + BitVec.ofNat 16 n) k + 1) = (abs s).ea ((abs s).pc + BitVec.ofNat 16 n) k + 1 := by
      rw [← sum_ea]
      apply BitVec.eq_of_toNat_eq; simp [BitVec.toNat_add]
    rw [this]; rfl
  have kk := hxP_abs (tick 1 { X with x := get1 X (a + 1) })
  refine ⟨rfl, ⟨u0, ?_⟩, ⟨mod_pc s n' t, kk.2.trans hc, rfl, rfl⟩⟩
  have eX : abs (tick 1 { X with x := get1 X (a + 1) }) = { abs (fr s n' t) with h := get1 (fr s n' t) a, x := get1 X (a + 1) } := rfl
  rw [kk.1, eX, eh, ex, abs_fr, hn, pc_add]
  simp only [Isa.exec]
  have e2 : (abs s).operand2 ((abs s).pc + BitVec.ofNat 16 n) k = (abs s).word ((abs s).ea ((abs s).pc + BitVec.ofNat 16 n) k) := by
    cases k <;> first | rfl | exact absurd rfl hk
  rw [e2, if_neg hk]
  unfold Isa.Mach.word
  rw [setHX_word]; rfl

theorem ldhx_ok (s : St) (code : Byte) (pre : Bool) (n t : Nat) (hc : CcOk s)
    (hf : (pre = false ∧ select code = .ldhx ∧ (code = 0x32#8 → s.s08)) ∨ (pre = true ∧ select9e code = .ldhx ∧ s.s08)) :
    Refines s (exec .ldhx code pre (fr s n t)) n (.ldhx (hxMode code pre)) := by
  have s1 : ∀ c : Byte, select c = .ldhx → c = 0x45#8 ∨ c = 0x55#8 ∨ c = 0x32#8 := by decide +kernel
  have s2 : ∀ c : Byte, select9e c = .ldhx → c = 0xae#8 ∨ c = 0xbe#8 ∨ c = 0xce#8 ∨ c = 0xfe#8 := by decide +kernel
  have hs : ∀ n t, (fr s n t).s08 = s.s08 := fun _ _ => rfl
  have hh : ∀ n t, hx (fr s n t) = (abs s).hx.toNat := fun _ _ => hx_eq s
  have hsp : ∀ n t, (fr s n t).sp = (abs s).sp := fun _ _ => rfl
  rcases hf with ⟨rfl, hf, h08⟩ | ⟨rfl, hf, h08⟩
  · rcases s1 code hf with rfl | rfl | rfl
    · have kk := hxP_abs (tick 1 { fr { s with h := (abs s).mem ((abs s).pc + BitVec.ofNat 16 n) } (n + 2) (t + 1) with x := (abs s).mem ((abs s).pc + BitVec.ofNat 16 n + 1) })
      have e : exec .ldhx 0x45#8 false (fr s n t) = (.go, hxP (tick 1 { fr { s with h := (abs s).mem ((abs s).pc + BitVec.ofNat 16 n) } (n + 2) (t + 1) with x := (abs s).mem ((abs s).pc + BitVec.ofNat 16 n + 1) })) := by
        simp only [exec, ldhx, fetch_fr, if_pos]
        have e2 : tick 1 { fr s (n + 1) t with h := s.mem ((abs s).pc + BitVec.ofNat 16 n) } = fr { s with h := s.mem ((abs s).pc + BitVec.ofNat 16 n) } (n + 1) (t + 1) := rfl
        rw [e2, fetch_fr]
        simp only [orInv]
        have e3 : (abs { s with h := s.mem ((abs s).pc + BitVec.ofNat 16 n) }).pc = (abs s).pc := rfl
        rw [e3, pc_succ]; rfl
      rw [e]
      refine ⟨rfl, ⟨u0, ?_⟩, ⟨mod_pc s (n + 2) t, kk.2.trans hc, rfl, rfl⟩⟩
      rw [kk.1]
      have eX : ∀ (s : St) (a b : Byte), abs (tick 1 { fr { s with h := a } (n + 2) (t + 1) with x := b }) = { abs (fr s (n + 2) t) with h := a, x := b } := fun _ _ _ => rfl
      rw [eX, abs_fr, pc_add]
      show _ = ({ ((abs s).setHX ((abs s).mem ((abs s).pc + BitVec.ofNat 16 n) ++ (abs s).mem ((abs s).pc + BitVec.ofNat 16 n + 1))).nz16 _ with pc := _ } : Isa.Mach)
      rw [setHX_word]; rfl
    · simp only [exec, ldhx]
      rw [if_neg (by decide), if_pos trivial]
      simp only [fetch_fr, tick_fr, orInv, hh, hsp]
      exact ldhxFin s n _ (n + 1) 1 .dir (by decide) rfl _ rfl hc
    · simp only [exec, ldhx]
      rw [if_neg (by decide), if_neg (by decide), if_pos ⟨trivial, h08 rfl⟩]
      simp only [fetch2_fr, tick_fr, orInv, hh, hsp]
      exact ldhxFin s n _ (n + 2) 1 .ext (by decide) rfl _ rfl hc
  · rcases s2 code hf with rfl | rfl | rfl | rfl
    · simp only [exec, ldhx]
      rw [if_neg (by decide), if_neg (by decide), if_neg (fun h => absurd h.1 (by decide)), if_pos ⟨trivial, trivial, h08⟩]
      simp only [tick_fr, orInv, hh, hsp]
      exact ldhxFin s n _ (n) 1 .ix (by decide) rfl _ rfl hc
    · simp only [exec, ldhx]
      rw [if_neg (by decide), if_neg (by decide), if_neg (fun h => absurd h.1 (by decide)), if_neg (fun h => absurd h.2.1 (by decide)), if_pos ⟨trivial, trivial, h08⟩]
      simp only [fetch2_fr, tick_fr, orInv, hh, hsp]
      exact ldhxFin s n _ (n + 2) 1 .ix2 (by decide) rfl _ rfl hc
    · simp only [exec, ldhx]
      rw [if_neg (by decide), if_neg (by decide), if_neg (fun h => absurd h.1 (by decide)), if_neg (fun h => absurd h.2.1 (by decide)), if_neg (fun h => absurd h.2.1 (by decide)), if_pos ⟨trivial, trivial, h08⟩]
      simp only [fetch_fr, tick_fr, orInv, hh, hsp]
      exact ldhxFin s n _ (n + 1) 1 .ix1 (by decide) rfl _ rfl hc
    · simp only [exec, ldhx]
      rw [if_neg (by decide), if_neg (by decide), if_neg (fun h => absurd h.1 (by decide)), if_neg (fun h => absurd h.2.1 (by decide)), if_neg (fun h => absurd h.2.1 (by decide)), if_neg (fun h => absurd h.2.1 (by decide)), if_pos ⟨trivial, trivial, h08⟩]
      simp only [fetch_fr, tick_fr, orInv, hh, hsp]
      exact ldhxFin s n _ (n + 1) 1 .sp1 (by decide) rfl _ rfl hc

end Ucsim.H08
