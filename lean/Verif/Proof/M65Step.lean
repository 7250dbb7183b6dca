import Verif.Proof.M65Exec

/-
6502: what the instructions leave alone, BRK and the other interrupts, whole steps, clocks.
-/
namespace Ucsim.M65

/-! ### Frames -/

/-- The part of the state instructions do not touch, apart from BRK and RTI. -/
def side (s : St) : Bool × Bool × Bool × Bool × List Nat := (s.irq, s.nmi, s.brk, s.setB, s.levels)

theorem side_wr (s : St) (a : Nat) (v : Byte) : side (wr s a v) = side s ∧ (wr s a v).p = s.p ∧ (wr s a v).pc = s.pc ∧ (wr s a v).ticks = s.ticks := by
  unfold wr; split <;> exact ⟨rfl, rfl, rfl, rfl⟩

theorem side_wrRef (s : St) (r : Ref) (v : Byte) : side (wrRef s r v) = side s ∧ (wrRef s r v).p = s.p ∧ (wrRef s r v).pc = s.pc ∧ (wrRef s r v).ticks = s.ticks := by
  cases r
  · exact ⟨rfl, rfl, rfl, rfl⟩
  · exact side_wr ..

theorem side_push (s : St) (v : Byte) : side (push v s) = side s ∧ (push v s).p = s.p ∧ (push v s).pc = s.pc ∧ (push v s).ticks = s.ticks := side_wr s _ v

theorem side_pushAddr (s : St) (n : Nat) : side (pushAddr n s) = side s ∧ (pushAddr n s).p = s.p ∧ (pushAddr n s).pc = s.pc ∧ (pushAddr n s).ticks = s.ticks + 2 := by
  obtain ⟨a1, a2, a3, a4⟩ := side_push s (BitVec.ofNat 8 (n / 256))
  obtain ⟨b1, b2, b3, b4⟩ := side_push (push (BitVec.ofNat 8 (n / 256)) s) (BitVec.ofNat 8 n)
  refine ⟨b1.trans a1, b2.trans a2, b3.trans a3, ?_⟩
  show (push (BitVec.ofNat 8 n) (push (BitVec.ofNat 8 (n / 256)) s)).ticks + 2 = _
  rw [b4, a4]

theorem side_cross (a b : Nat) (s : St) : side (cross a b s) = side s ∧ (cross a b s).p = s.p ∧ (cross a b s).pc = s.pc := by
  unfold cross; split <;> exact ⟨rfl, rfl, rfl⟩

theorem fetch_pc (s : St) : (fetch s).2.pc < 0x10000 := Nat.mod_lt _ (by decide)

theorem side_operand (m : Mode) (s : St) : side (operand m s).2 = side s ∧ (operand m s).2.p = s.p ∧ (operand m s).2.pc < 0x10000 := by
  cases m
  case absX | absY | indY =>
    simp only [operand]
    obtain ⟨h1, h2, h3⟩ := side_cross _ _ _
    refine ⟨h1.trans rfl, h2.trans rfl, ?_⟩
    rw [h3]; exact Nat.mod_lt _ (by decide)
  all_goals exact ⟨rfl, rfl, Nat.mod_lt _ (by decide)⟩

theorem side_rmwOperand (m : Mode) (s : St) : side (rmwOperand m s).2 = side s ∧ (rmwOperand m s).2.p = s.p ∧ (rmwOperand m s).2.pc < 0x10000 := by
  cases m <;> exact side_operand _ _

theorem b_and (f m : Byte) (h : f.getLsbD 4 = false) : (f &&& m).getLsbD 4 = false := by
  rw [BitVec.getLsbD_and, h]; rfl
theorem b4 : flagC.getLsbD 4 = false ∧ flagZ.getLsbD 4 = false ∧ flagN.getLsbD 4 = false ∧ flagV.getLsbD 4 = false ∧ flagI.getLsbD 4 = false ∧ flagD.getLsbD 4 = false := by decide
theorem b_nz (v f : Byte) (h : f.getLsbD 4 = false) : (nz v f).getLsbD 4 = false := by
  simp only [orIf_bit, nz_bits, BitVec.getLsbD_and, BitVec.getLsbD_or, h, b4, Bool.false_and, Bool.and_false, Bool.or_false]
theorem b_or (f : Byte) (h : f.getLsbD 4 = false) (c : Bool) (m : Byte) (hm : m.getLsbD 4 = false) : (orIf c m f).getLsbD 4 = false := by
  rw [orIf_bit, h, hm]; simp

theorem b_adc (b : Byte) (s : St) (h : s.p.getLsbD 4 = false) : (adc b s).p.getLsbD 4 = false := by
  unfold adc
  dsimp only
  split
  · simp only [orIf_bit, nz_bits, BitVec.getLsbD_and, BitVec.getLsbD_or, h, b4, Bool.false_and, Bool.and_false, Bool.or_false]
  · split <;> simp only [orIf_bit, nz_bits, BitVec.getLsbD_and, BitVec.getLsbD_or, h, b4, Bool.false_and, Bool.and_false, Bool.or_false]

theorem b_sbc (b : Byte) (s : St) (h : s.p.getLsbD 4 = false) : (sbc b s).p.getLsbD 4 = false := by
  unfold sbc
  dsimp only
  split
  · simp only [orIf_bit, nz_bits, BitVec.getLsbD_and, BitVec.getLsbD_or, h, b4, Bool.false_and, Bool.and_false, Bool.or_false]
  · refine b_or _ (b_or _ ?_ _ _ b4.2.1) _ _ b4.2.2.1
    generalize (digits s.a : Int) - digits b - (if (carry s).toNat = 0 then 1 else 0) = n
    by_cases hn : n < 0
    · simp only [if_pos hn]; simp only [orIf_bit, nz_bits, BitVec.getLsbD_and, BitVec.getLsbD_or, h, b4, Bool.false_and, Bool.and_false, Bool.or_false]
    · simp only [if_neg hn]; simp only [orIf_bit, nz_bits, BitVec.getLsbD_and, BitVec.getLsbD_or, h, b4, Bool.false_and, Bool.and_false, Bool.or_false]

theorem b_rmw (o : Rmw) (f v : Byte) (h : f.getLsbD 4 = false) : (rmw o f v).2.getLsbD 4 = false := by
  cases o <;> simp only [rmw, orIf_bit, nz_bits, BitVec.getLsbD_and, BitVec.getLsbD_or, h, b4, Bool.false_and, Bool.and_false, Bool.or_false]

theorem b_clr : ∀ p : Byte, (p &&& ~~~(0x20#8 ||| flagB)).getLsbD 4 = false := by decide +kernel

theorem exec_b (i : Inst) (hb : i ≠ .brk) (s : St) (h : s.p.getLsbD 4 = false) : (exec i s).p.getLsbD 4 = false := by
  cases i
  case brk => exact absurd rfl hb
  case nop | txs => exact h
  case cli | clc | clv | cld => exact b_and _ _ h
  case sei | sec | sed => show (s.p ||| _).getLsbD 4 = false; rw [BitVec.getLsbD_or, h]; rfl
  case php => rw [show (exec .php s).p = s.p from (side_push s _).2.1]; exact h
  case pha => rw [show (exec .pha s).p = s.p from (side_push s _).2.1]; exact h
  case plp => exact b_clr _
  case rti => exact b_clr _
  case rts => exact h
  case jmpA | jmpI => exact h
  case jsr =>
    simp only [exec]
    rw [(side_pushAddr _ _).2.1]; exact h
  case branch g v =>
    simp only [exec, branch]
    split
    · show (cross _ _ _).p.getLsbD 4 = false
      rw [(side_cross _ _ _).2.1]; exact h
    · exact h
  case pla | dey | iny | inx | dex => exact b_nz _ _ (b_and _ _ h)
  case tya | tay | txa | tax | tsx =>
    simp only [exec, transNZ, tick]
    split <;> split <;> simp only [orIf_bit, nz_bits, BitVec.getLsbD_and, BitVec.getLsbD_or, h, b4, Bool.false_and, Bool.and_false, Bool.or_false]
  case ora m | and m | eor m | lda m =>
    simp only [exec]
    obtain ⟨h1, h2, h3⟩ := side_operand m s
    exact b_nz _ _ (b_and _ _ (h2 ▸ h))
  case ld r m =>
    simp only [exec]
    obtain ⟨h1, h2, h3⟩ := side_operand m s
    refine b_nz _ _ (b_and _ _ ?_)
    cases r <;> exact h2 ▸ h
  case adc m => exact b_adc _ _ ((side_operand m s).2.1 ▸ h)
  case sbc m => exact b_sbc _ _ ((side_operand m s).2.1 ▸ h)
  case sta t m =>
    simp only [exec]
    rw [(side_wrRef _ _ _).2.1, (side_operand m _).2.1]; exact h
  case st r m =>
    simp only [exec]
    rw [(side_wrRef _ _ _).2.1, (side_operand m _).2.1]; exact h
  case cmp r m =>
    have k := (side_operand m s).2.1 ▸ h
    simp only [exec, cmp]
    simp only [orIf_bit, nz_bits, BitVec.getLsbD_and, BitVec.getLsbD_or, k, b4, Bool.false_and, Bool.and_false, Bool.or_false]
  case bit m =>
    have k := (side_operand m s).2.1 ▸ h
    simp only [exec, bit]
    simp only [orIf_bit, nz_bits, BitVec.getLsbD_and, BitVec.getLsbD_or, k, b4, Bool.false_and, Bool.and_false, Bool.or_false]
  case rmw o m => exact b_rmw _ _ _ ((side_rmwOperand m s).2.1 ▸ h)
  case rmwA o => exact b_rmw _ _ _ h

theorem exec_side (i : Inst) (hb : i ≠ .brk) (hr : i ≠ .rti) (s : St) : side (exec i s) = side s := by
  cases i
  case brk => exact absurd rfl hb
  case rti => exact absurd rfl hr
  case ora m | and m | eor m | lda m => exact (side_operand m s).1
  case cmp r m => exact (side_operand m s).1
  case bit m => exact (side_operand m s).1
  case ld r m => cases r <;> exact (side_operand m s).1
  case adc m => simp only [exec]; rw [keep_adc]; exact (side_operand m s).1
  case sbc m => simp only [exec]; rw [keep_sbc]; exact (side_operand m s).1
  case sta t m => simp only [exec]; rw [(side_wrRef _ _ _).1]; exact (side_operand m _).1
  case st r m => simp only [exec]; rw [(side_wrRef _ _ _).1]; exact (side_operand m _).1
  case rmw o m =>
    simp only [exec]
    exact ((side_wrRef _ _ _).1).trans (side_rmwOperand m s).1
  case php | pha => exact (side_push s _).1
  case jsr => simp only [exec]; exact (side_pushAddr _ _).1
  case branch g v =>
    simp only [exec, branch]
    split
    · exact (side_cross _ _ _).1
    · rfl
  all_goals rfl

theorem exec_rti_side (s : St) : side (exec .rti s) = (s.irq, s.nmi, s.brk, s.setB, s.levels.drop 1) := rfl

theorem exec_pc (i : Inst) (s : St) (h : s.pc < 0x10000) (hr : i = .rts → s.mem (1#8 ++ (s.sp + 1)) = 0xff#8 → s.mem (1#8 ++ (s.sp + 2)) ≠ 0xff#8) :
    (exec i s).pc < 0x10000 := by
  have m1 : ∀ n, n % 0x10000 < 0x10000 := fun n => Nat.mod_lt _ (by decide)
  cases i
  case brk => exact m1 _
  case rti => simp only [exec, pop_eq, popAddr_eq]; exact BitVec.isLt _
  case rts =>
    simp only [exec, popAddr_eq]
    show BitVec.toNat _ + 1 < _
    have k := of_eq (s.mem (1#8 ++ (s.sp + 2))) (s.mem (1#8 ++ (s.sp + 1)))
    have l1 := (s.mem (1#8 ++ (s.sp + 2))).isLt
    have l2 := (s.mem (1#8 ++ (s.sp + 1))).isLt
    rw [← k]
    by_cases e1 : s.mem (1#8 ++ (s.sp + 1)) = 0xff#8
    · have := hr rfl e1
      have : (s.mem (1#8 ++ (s.sp + 2))).toNat ≠ 255 := fun e => this (BitVec.eq_of_toNat_eq e)
      omega
    · have : (s.mem (1#8 ++ (s.sp + 1))).toNat ≠ 255 := fun e => e1 (BitVec.eq_of_toNat_eq e)
      omega
  case ora m | and m | eor m | lda m => exact (side_operand m s).2.2
  case cmp r m => exact (side_operand m s).2.2
  case bit m => exact (side_operand m s).2.2
  case ld r m => cases r <;> exact (side_operand m s).2.2
  case adc m => simp only [exec]; rw [keep_adc]; exact (side_operand m s).2.2
  case sbc m => simp only [exec]; rw [keep_sbc]; exact (side_operand m s).2.2
  case sta t m => simp only [exec]; rw [(side_wrRef _ _ _).2.2.1]; exact (side_operand m _).2.2
  case st r m => simp only [exec]; rw [(side_wrRef _ _ _).2.2.1]; exact (side_operand m _).2.2
  case rmw o m =>
    simp only [exec]
    rw [(side_wrRef _ _ _).2.2.1]; exact (side_rmwOperand m s).2.2
  case php => rw [show (exec .php s).pc = s.pc from (side_push s _).2.2.1]; exact h
  case pha => rw [show (exec .pha s).pc = s.pc from (side_push s _).2.2.1]; exact h
  case jsr => exact m1 _
  case jmpA => simp only [exec, i16, of_eq]; exact BitVec.isLt _
  case jmpI => simp only [exec, readAddr, of_eq]; exact BitVec.isLt _
  case branch g v =>
    simp only [exec, branch]
    split
    · show Int.toNat _ < _
      omega
    · exact m1 _
  all_goals exact h

/-! ### Interrupts -/

theorem vec_ok (s : St) (w : Word) (h : w ≠ 0xffff#16) : readAddr s w.toNat = ((abs s).vec w).toNat := by
  unfold readAddr Isa.Mach.vec
  have hw := w.isLt
  have : w.toNat ≠ 0xffff := fun e => h (BitVec.eq_of_toNat_eq e)
  have e : w.toNat + 1 = (w + 1).toNat := by
    rw [BitVec.toNat_add, show (1 : Word).toNat = 1 from rfl]; omega
  rw [e, rd_word, rd_word, of_eq]; rfl

def vecOf : Src → Word
  | .nmi => 0xfffa#16 | _ => 0xfffe#16

theorem clrBo : ∀ p : Byte, let g := p &&& ~~~flagB ||| flagI; g.getLsbD 0 = p.getLsbD 0 ∧ g.getLsbD 1 = p.getLsbD 1 ∧ g.getLsbD 2 = true ∧
    g.getLsbD 3 = p.getLsbD 3 ∧ g.getLsbD 6 = p.getLsbD 6 ∧ g.getLsbD 7 = p.getLsbD 7 := by decide +kernel

/-- First half of accept_it: the pushes. -/
def acc1 (s : St) : St :=
  let t := pushAddr s.pc (tick 2 s)
  wr t (stackAt t) (t.p ||| 0x20#8)

/-- The rest. -/
def acc2 (q : Src) (s : St) : St :=
  let s := if s.setB then { s with p := s.p &&& ~~~flagB } else s
  let s := tick 1 { s with sp := s.sp - 1 }
  let s := tick 2 { s with pc := readAddr s q.vector }
  { s with p := s.p ||| flagI, brk := if q = .brk then false else s.brk, levels := q.level :: s.levels }

theorem accept_eq (q : Src) (s : St) : accept q s = acc2 q (acc1 s) := rfl

theorem acc2_eq (q : Src) (s : St) : acc2 q s = { s with
    p := (if s.setB then s.p &&& ~~~flagB else s.p) ||| flagI, sp := s.sp - 1, ticks := s.ticks + 3,
    pc := ((abs s).vec (vecOf q)).toNat, brk := if q = .brk then false else s.brk, levels := q.level :: s.levels } := by
  have hv : q.vector = (vecOf q).toNat := by cases q <;> rfl
  have hq : vecOf q ≠ 0xffff#16 := by cases q <;> decide
  unfold acc2
  by_cases hb : s.setB = true
  · simp only [if_pos hb, hv, vec_ok _ _ hq]
    rfl
  · simp only [if_neg hb, hv, vec_ok _ _ hq]
    rfl

theorem acc1_abs (s : St) : abs (acc1 s) = ((abs s).pushw (abs s).pc).store (1#8 ++ ((abs s).pushw (abs s).pc).s) (s.p ||| 0x20#8) := by
  have ha : abs (pushAddr s.pc (tick 2 s)) = (abs s).pushw (abs s).pc := by rw [abs_pushAddr, abs_tick]; rfl
  have hs2 : (pushAddr s.pc (tick 2 s)).p = s.p := (side_pushAddr (tick 2 s) s.pc).2.1
  unfold acc1
  dsimp only
  generalize pushAddr s.pc (tick 2 s) = t at *
  rw [hs2, stackAt_eq, wr_word, ← ha]; rfl

theorem acc1_side (s : St) : side (acc1 s) = side s ∧ (acc1 s).p = s.p ∧ (acc1 s).ticks = s.ticks + 4 := by
  obtain ⟨h1, h2, h3, h4⟩ := side_pushAddr (tick 2 s) s.pc
  obtain ⟨g1, g2, g3, g4⟩ := side_wr (pushAddr s.pc (tick 2 s)) (stackAt (pushAddr s.pc (tick 2 s))) ((pushAddr s.pc (tick 2 s)).p ||| 0x20#8)
  exact ⟨g1.trans h1, g2.trans h2, g4.trans h4⟩

/-- The sequence pushes PC and the status as it is, sets I and takes the vector. -/
theorem abs_accept (q : Src) (s : St) (b : Bool) (h : s.p ||| 0x20#8 = (abs s).status b) :
    abs (accept q s) = (abs s).interrupt b (vecOf q) := by
  obtain ⟨h1, h2, h3⟩ := acc1_side s
  have ha := acc1_abs s
  rw [accept_eq, acc2_eq]
  generalize acc1 s = t at *
  have e : abs { t with
      p := (if t.setB then t.p &&& ~~~flagB else t.p) ||| flagI, sp := t.sp - 1, ticks := t.ticks + 3,
      pc := ((abs t).vec (vecOf q)).toNat, brk := if q = .brk then false else t.brk, levels := q.level :: t.levels } =
      { abs t with i := true, s := (abs t).s - 1, pc := (abs t).vec (vecOf q) } := by
    have k1 := clrBo t.p
    have k2 := orI t.p
    cases t.setB
    · simp only [Bool.false_eq_true, if_false]
      show Isa.Mach.mk .. = _
      simp only [k2, toNat_pc]; rfl
    · simp only [if_true]
      show Isa.Mach.mk .. = _
      simp only [k1, toNat_pc]; rfl
  rw [e, ha, h]; rfl

theorem accept_pc (q : Src) (s : St) : (accept q s).pc < 0x10000 := by
  rw [accept_eq, acc2_eq]; exact BitVec.isLt _

theorem accept_ticks (q : Src) (s : St) : (accept q s).ticks = s.ticks + 7 := by
  rw [accept_eq, acc2_eq]
  show (acc1 s).ticks + 3 = _
  rw [(acc1_side s).2.2]

theorem accept_side (q : Src) (s : St) : (accept q s).irq = s.irq ∧ (accept q s).nmi = s.nmi ∧
    (accept q s).brk = (if q = .brk then false else s.brk) ∧ (accept q s).levels = q.level :: s.levels ∧ (accept q s).setB = s.setB := by
  have h := (acc1_side s).1
  simp only [side, Prod.mk.injEq] at h
  rw [accept_eq, acc2_eq]
  simp only [h]
  simp

theorem accept_b (q : Src) (s : St) (h : s.p.getLsbD 4 = false ∨ s.setB = true) : (accept q s).p.getLsbD 4 = false := by
  obtain ⟨h1, h2, h3⟩ := acc1_side s
  simp only [side, Prod.mk.injEq] at h1
  have e : ∀ p : Byte, (p &&& ~~~flagB).getLsbD 4 = false := by decide +kernel
  rw [accept_eq, acc2_eq]
  simp only [BitVec.getLsbD_or]
  rw [h2, h1.2.2.2.1, b4.2.2.2.2.1, Bool.or_false]
  rcases h with h | h
  · split
    · exact e _
    · exact h
  · rw [if_pos h]; exact e _

theorem und_ok (s : St) : und s = ⟨(abs s).n, (abs s).v, (abs s).z⟩ := rfl

/-! ### Whole steps -/

/-- Nothing requests an interrupt. -/
def Quiet (s : St) : Prop := s.irq = false ∧ s.nmi = false ∧ s.brk = false

theorem quiet_none (s : St) (h : Quiet s) : doInterrupt s = s := by
  obtain ⟨h1, h2, h3⟩ := h
  unfold doInterrupt sources
  simp [wants, h1, h2, h3]

theorem step_of (s : St) (hpc : s.pc < 0x10000) (i : Inst) (h : table.getD (s.mem (abs s).pc).toNat none = some i) :
    step s = (.go, doInterrupt (exec i (fr s 1 (s.ticks + 1) s.i8d))) := by
  unfold step
  rw [execInst_fr s hpc, h]; rfl

theorem brk_accept (s : St) (h : s.brk = true) (hl : level s < 4) : doInterrupt s = accept .brk s := by
  unfold doInterrupt sources
  simp [wants, h, Src.level, hl]

theorem brk_ok (s : St) (t : Nat) (v : Byte) (hl : level s < 4) :
    abs (doInterrupt (exec .brk (fr s 1 t v))) = ({ abs s with pc := (abs s).pc + 2 } : Isa.Mach).interrupt true 0xfffe := by
  rw [brk_accept (exec .brk (fr s 1 t v)) rfl hl]
  have e : abs (exec .brk (fr s 1 t v)) = { abs s with pc := (abs s).pc + 2 } := by
    have k : ∀ p : Byte, let g := p ||| flagB; g.getLsbD 0 = p.getLsbD 0 ∧ g.getLsbD 1 = p.getLsbD 1 ∧ g.getLsbD 2 = p.getLsbD 2 ∧
      g.getLsbD 3 = p.getLsbD 3 ∧ g.getLsbD 6 = p.getLsbD 6 ∧ g.getLsbD 7 = p.getLsbD 7 := by decide +kernel
    have k := k s.p
    show { (abs s).setStatus (s.p ||| flagB) with pc := BitVec.ofNat 16 (((s.pc + 1) % 0x10000 + 1) % 0x10000) } = _
    unfold Isa.Mach.setStatus
    simp only [k]
    have e2 : ((s.pc + 1) % 0x10000 + 1) % 0x10000 = (s.pc + 2) % 0x10000 := by omega
    rw [e2, pc_fr]; rfl
  have hs : (exec .brk (fr s 1 t v)).p ||| 0x20#8 = (abs (exec .brk (fr s 1 t v))).status true := by
    have k := status_true (exec .brk (fr s 1 t v))
    rw [← k]
    show s.p ||| flagB ||| 0x20#8 = s.p ||| flagB ||| 0x20#8 ||| flagB
    generalize s.p = p
    revert p; decide +kernel
  rw [abs_accept .brk _ true hs, e]; rfl

/-- One instruction, with no interrupt requested. -/
theorem step_ok (s : St) (hpc : s.pc < 0x10000) (hq : Quiet s) (hd : ¬ Isa.Differs (abs s) (Isa.decode ((abs s).mem (abs s).pc)))
    (hl : Isa.decode ((abs s).mem (abs s).pc) = .brk → level s < 4) :
    (step s).1 = .go ∧ abs (step s).2 = Isa.step (und (step s).2) (abs s) := by
  cases h : table.getD (s.mem (abs s).pc).toNat none with
  | none =>
    have := decode_none _ h
    have e : (abs s).mem (abs s).pc = s.mem (abs s).pc := rfl
    rw [e, this] at hd
    exact absurd trivial hd
  | some i =>
    obtain ⟨h1, h2⟩ := decode_ok _ _ h
    have e : (abs s).mem (abs s).pc = s.mem (abs s).pc := rfl
    rw [step_stepI, step_of s hpc i h]
    rw [e, h1] at hd hl ⊢
    refine ⟨rfl, ?_⟩
    by_cases hb : i = .brk
    · subst hb
      rw [brk_ok s _ _ (hl rfl)]; rfl
    · have hq2 : Quiet (exec i (fr s 1 (s.ticks + 1) s.i8d)) := by
        by_cases hr : i = .rti
        · subst hr
          have k := exec_rti_side (fr s 1 (s.ticks + 1) s.i8d)
          simp only [side, Prod.mk.injEq] at k
          exact ⟨k.1.trans hq.1, k.2.1.trans hq.2.1, k.2.2.1.trans hq.2.2⟩
        · have k := exec_side i hb hr (fr s 1 (s.ticks + 1) s.i8d)
          simp only [side, Prod.mk.injEq] at k
          exact ⟨k.1.trans hq.1, k.2.1.trans hq.2.1, k.2.2.1.trans hq.2.2⟩
      simp only [quiet_none _ hq2]
      exact exec_ok i h2 s _ _ hb hd

theorem level_cons (s : St) (x : Nat) (l : List Nat) (h : s.levels = x :: l) : level s = x := by
  unfold level; rw [h]; rfl

/-- The state keeps what `step_ok` asks for. -/
theorem step_keeps (s : St) (hpc : s.pc < 0x10000) (hq : Quiet s) (hd : ¬ Isa.Differs (abs s) (Isa.decode ((abs s).mem (abs s).pc)))
    (hl : Isa.decode ((abs s).mem (abs s).pc) = .brk → level s < 4) :
    (step s).2.pc < 0x10000 ∧ Quiet (step s).2 ∧ (step s).2.levels =
      (match Isa.decode ((abs s).mem (abs s).pc) with
        | .brk => 4 :: s.levels
        | .rti => s.levels.drop 1
        | _ => s.levels) := by
  cases h : table.getD (s.mem (abs s).pc).toNat none with
  | none =>
    have := decode_none _ h
    have e : (abs s).mem (abs s).pc = s.mem (abs s).pc := rfl
    rw [e, this] at hd
    exact absurd trivial hd
  | some i =>
    obtain ⟨h1, h2⟩ := decode_ok _ _ h
    have e : (abs s).mem (abs s).pc = s.mem (abs s).pc := rfl
    rw [step_of s hpc i h]
    rw [e, h1] at hd hl ⊢
    by_cases hb : i = .brk
    · subst hb
      simp only [brk_accept (exec .brk (fr s 1 (s.ticks + 1) s.i8d)) rfl (hl rfl)]
      obtain ⟨k1, k2, k3, k4, k5⟩ := accept_side .brk (exec .brk (fr s 1 (s.ticks + 1) s.i8d))
      exact ⟨accept_pc .., ⟨k1.trans hq.1, k2.trans hq.2.1, k3⟩, k4⟩
    · by_cases hr : i = .rti
      · subst hr
        have k := exec_rti_side (fr s 1 (s.ticks + 1) s.i8d)
        simp only [side, Prod.mk.injEq] at k
        have hq2 : Quiet (exec .rti (fr s 1 (s.ticks + 1) s.i8d)) := ⟨k.1.trans hq.1, k.2.1.trans hq.2.1, k.2.2.1.trans hq.2.2⟩
        simp only [quiet_none _ hq2]
        exact ⟨exec_pc _ _ (Nat.mod_lt _ (by decide)) (fun h => by cases h), hq2, k.2.2.2.2⟩
      · have k := exec_side i hb hr (fr s 1 (s.ticks + 1) s.i8d)
        simp only [side, Prod.mk.injEq] at k
        have hq2 : Quiet (exec i (fr s 1 (s.ticks + 1) s.i8d)) := ⟨k.1.trans hq.1, k.2.1.trans hq.2.1, k.2.2.1.trans hq.2.2⟩
        simp only [quiet_none _ hq2]
        refine ⟨exec_pc _ _ (Nat.mod_lt _ (by decide)) (fun hi h3 h4 => ?_), hq2, ?_⟩
        · subst hi
          exact hd ⟨h3, h4⟩
        · rw [k.2.2.2.2]
          cases i <;> first | exact absurd rfl hb | exact absurd rfl hr | rfl | (rename_i o m; cases o <;> rfl) | (rename_i o; cases o <;> rfl)

/-! ### Clocks -/

theorem wrRef_ticks (s : St) (r : Ref) (v : Byte) : (wrRef s r v).ticks = s.ticks := (side_wrRef s r v).2.2.2

theorem rdClk_pos (m : Isa.Mach) (k : Isa.Mode) : 2 ≤ m.rdClk k := by
  unfold Isa.Mach.rdClk; cases k <;> simp <;> omega

theorem fr_ticks (s : St) (n t : Nat) (v : Byte) : (fr s n t v).ticks = t := rfl

theorem exec_ticks (i : Inst) (hw : wf i = true) (s : St) (t : Nat) (v : Byte)
    (hd : ¬ Isa.Differs (abs s) (insOf i)) (hc : ¬ Isa.ClkDiffers (abs s) (insOf i)) :
    (exec i (fr s 1 t v)).ticks + 1 = t + Isa.clocks (abs s) (insOf i) := by
  have rdc : ∀ m, ¬ (conv m).Differs (abs s) → (operand m (fr s 1 t v)).2.ticks + 1 = t + (abs s).rdClk (conv m) := fun m h => by
    rw [operand_ok m s t v h]
    have := rdClk_pos (abs s) (conv m)
    show t + opClk (abs s) m + 1 = _
    unfold opClk; omega
  cases i
  case brk | nop | jsr => exact absurd trivial hc
  case ora m | and m | eor m | lda m => exact rdc m hd
  case cmp r m => exact rdc m hd
  case ld r m => cases r <;> exact rdc m hd
  case bit m => exact rdc m (by cases m <;> first | exact id | exact absurd hw (by decide))
  case adc m => simp only [exec]; rw [keep_adc]; exact rdc m (fun h => hd (Or.inl h))
  case sbc m => simp only [exec]; rw [keep_sbc]; exact rdc m (fun h => hd (Or.inl h))
  case sta c m =>
    have hd : ¬ (conv m).Differs (abs s) := hd
    have k := operand_ok m s (t + c) v hd
    simp only [exec, tick_fr, k, wrRef_ticks, fr_ticks]
    simp only [wf, Bool.and_eq_true, beq_iff_eq] at hw
    obtain ⟨hm, hw⟩ := hw
    cases m
    case imm => exact absurd hm (by decide)
    case absX =>
      have hc : ¬ (abs s).pageCross .absx = true := hc
      have e : opClk (abs s) .absX = 4 + ((abs s).pageCross .absx).toNat - 1 := rfl
      rw [e, hw]; simp only [hc]
      show _ = t + 5
      simp
    case absY =>
      have hc : (abs s).pageCross .absy = true := by
        have hc : ¬ (abs s).pageCross .absy = false := hc
        simpa using hc
      have e : opClk (abs s) .absY = 4 + ((abs s).pageCross .absy).toNat - 1 := rfl
      rw [e, hw, hc]; rfl
    case indY =>
      have hc : (abs s).pageCross .indy = true := by
        have hc : ¬ (abs s).pageCross .indy = false := hc
        simpa using hc
      have e : opClk (abs s) .indY = 5 + ((abs s).pageCross .indy).toNat - 1 := rfl
      rw [e, hw, hc]; rfl
    all_goals
      rw [hw]; rfl
  case st r m =>
    have hd : ¬ (conv m).Differs (abs s) := hd
    simp only [exec, operand_ok m s t v hd, wrRef_ticks, fr_ticks]
    cases r <;> cases m <;> first | exact absurd hw (by decide) | rfl
  case rmw o m =>
    have hw' : wf (.rmw .inc m) = true := hw
    simp only [exec, rmwOperand_ok m s t v hw', wrRef_ticks, fr_ticks]
    cases m
    case absX =>
      have hc : ¬ (abs s).pageCross .absx = true := by cases o <;> exact hc
      have e : opClk (abs s) .absX = 4 + ((abs s).pageCross .absx).toNat - 1 := rfl
      rw [e]; simp only [hc]
      cases o <;> rfl
    all_goals (cases o <;> first | exact absurd hw (by decide) | rfl)
  case rmwA o => cases o <;> rfl
  case php | pha =>
    simp only [exec, tick]
    rw [(side_push _ _).2.2.2]; rfl
  case branch g b =>
    have hp : (fr s 1 t v).p = s.p := rfl
    have hf : ((s.p &&& g != 0#8) == b) = decide ((abs s).flag (flagOf g) = b) := flag_ok s g b hw
    simp only [exec, hp, hf, branch, fetch_fr]
    by_cases h : (abs s).flag (flagOf g) = b
    · simp only [h, decide_true, if_true, insOf, Isa.clocks]
      have e := rel_ok s (abs s).op1 2 t v
      have e2 : (s.mem ((abs s).pc + BitVec.ofNat 16 1)) = (abs s).op1 := rfl
      have e3 : (fr s (1 + 1) t v).pc % 0x10000 = ((abs s).pc + 2).toNat := by
        rw [fr_pc]; exact Nat.mod_eq_of_lt (BitVec.isLt _)
      rw [e2, e, e3]
      have e4 : (abs s).pc + BitVec.ofNat 16 2 = (abs s).pc + 2 := rfl
      rw [e4]
      by_cases hx : ((abs s).pc + 2 + BitVec.signExtend 16 (abs s).op1).toNat / 256 = ((abs s).pc + 2).toNat / 256
      · rw [if_pos hx]
        unfold cross
        rw [if_neg (fun h => h hx.symm)]; rfl
      · rw [if_neg hx]
        unfold cross
        rw [if_pos (fun h => hx h.symm)]; rfl
    · simp only [h, decide_false, Bool.false_eq_true, if_false, insOf, Isa.clocks]; rfl
  all_goals rfl

theorem step_ticks (s : St) (hpc : s.pc < 0x10000) (hq : Quiet s) (hd : ¬ Isa.Differs (abs s) (Isa.decode ((abs s).mem (abs s).pc)))
    (hc : ¬ Isa.ClkDiffers (abs s) (Isa.decode ((abs s).mem (abs s).pc))) :
    (step s).2.ticks = s.ticks + Isa.clocks (abs s) (Isa.decode ((abs s).mem (abs s).pc)) := by
  cases h : table.getD (s.mem (abs s).pc).toNat none with
  | none =>
    have := decode_none _ h
    have e : (abs s).mem (abs s).pc = s.mem (abs s).pc := rfl
    rw [e, this] at hd
    exact absurd trivial hd
  | some i =>
    obtain ⟨h1, h2⟩ := decode_ok _ _ h
    have e : (abs s).mem (abs s).pc = s.mem (abs s).pc := rfl
    rw [step_of s hpc i h]
    rw [e, h1] at hd hc ⊢
    have hb : i ≠ .brk := fun hb => by subst hb; exact hc trivial
    have hq2 : Quiet (exec i (fr s 1 (s.ticks + 1) s.i8d)) := by
      by_cases hr : i = .rti
      · subst hr
        have k := exec_rti_side (fr s 1 (s.ticks + 1) s.i8d)
        simp only [side, Prod.mk.injEq] at k
        exact ⟨k.1.trans hq.1, k.2.1.trans hq.2.1, k.2.2.1.trans hq.2.2⟩
      · have k := exec_side i hb hr (fr s 1 (s.ticks + 1) s.i8d)
        simp only [side, Prod.mk.injEq] at k
        exact ⟨k.1.trans hq.1, k.2.1.trans hq.2.1, k.2.2.1.trans hq.2.2⟩
    simp only [quiet_none _ hq2]
    have := exec_ticks i h2 s (s.ticks + 1) s.i8d hd hc
    omega

end Ucsim.M65
