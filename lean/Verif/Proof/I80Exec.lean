import Verif.Proof.I80
import Verif.Spec.I80Diff

namespace Ucsim.I80
open Isa (Differs)

theorem psw_eq (s : St) : (abs s).psw 0x2a#8 s.f = s.f := by
  have : ∀ f : Byte, ((Isa.bitAt (f.getLsbD 7) 7 ||| Isa.bitAt (f.getLsbD 6) 6 ||| Isa.bitAt (f.getLsbD 4) 4 ||| Isa.bitAt (f.getLsbD 2) 2 |||
      Isa.bitAt (f.getLsbD 0) 0) &&& ~~~0x2a#8) ||| (f &&& 0x2a#8) = f := by decide +kernel
  exact this s.f

/-- The instruction of the manual for a body of the simulator. -/
def conv (op : Byte) : Inst → Option Isa.Ins
  | .nop => some .nop | .hlt => some .hlt | .ei => some .ei | .di => some .di
  | .mov d s => some (.mov (num d) (num s)) | .mvi d => some (.mvi (num d)) | .lxi p => some (.lxi (numP p))
  | .lda => some .lda | .sta => some .sta | .lhld => some .lhld | .shld => some .shld
  | .ldax p => some (.ldax (numP p)) | .stax p => some (.stax (numP p)) | .xchg => some .xchg | .inp => some .inp | .out => some .out
  | .push p => some (.push (numP p)) | .pushPsw => some .pushPsw | .pop p => some (.pop (numP p)) | .popPsw => some .popPsw
  | .xthl => some .xthl | .sphl => some .sphl | .pchl => some .pchl
  | .add8 (.reg r) c => some (.alu (if c then 1 else 0) (num r)) | .add8 .imm c => some (.alui (if c then 1 else 0))
  | .sub8 (.reg r) false true => some (.alu 7 (num r)) | .sub8 .imm false true => some (.alui 7)
  | .sub8 (.reg r) c false => some (.alu (if c then 3 else 2) (num r)) | .sub8 .imm c false => some (.alui (if c then 3 else 2))
  | .sub8 _ true true => none
  | .ana (.reg r) => some (.alu 4 (num r)) | .ana .imm => some (.alui 4)
  | .xra (.reg r) => some (.alu 5 (num r)) | .xra .imm => some (.alui 5)
  | .ora (.reg r) => some (.alu 6 (num r)) | .ora .imm => some (.alui 6)
  | .dad p => some (.dad (numP p)) | .inr r => some (.inr (num r)) | .dcr r => some (.dcr (num r))
  | .inx p => some (.inx (numP p)) | .dcx p => some (.dcx (numP p))
  | .rlc => some .rlc | .rrc => some .rrc | .ral => some .ral | .rar => some .rar | .daa => some .daa | .cma => some .cma | .cmc => some .cmc
  | .stc => some .stc | .jmp => some .jmp | .call => some .call | .ret => some .ret
  | .jmpIf g v => (cc g v).map .jcc | .callIf g v => (cc g v).map .ccc | .retIf g v => (cc g v).map .rcc
  | .rst => some (.rst (op.extractLsb' 3 3))
  | _ => none
where
  /-- The number of a condition. -/
  cc (g : Byte) (v : Bool) : Option (BitVec 3) :=
    if g = flagZ then some (if v then 1 else 0)
    else if g = flagC then some (if v then 3 else 2)
    else if g = flagP then some (if v then 5 else 4)
    else if g = flagS then some (if v then 7 else 6)
    else none

theorem itab_ok (cpu : Cpu) : ∀ op : Byte, Isa.decode op = .other ∨ (itab cpu op).bind (conv op) = some (Isa.decode op) := by
  cases cpu <;> decide +kernel

theorem itab_total (cpu : Cpu) : ∀ op : Byte, (itab cpu op).isSome = true := by
  cases cpu <;> decide +kernel

theorem cond_eq (s : St) (g : Byte) (v : Bool) (c : BitVec 3) (h : conv.cc g v = some c) : cond s g v = (abs s).cond c := by
  unfold conv.cc at h
  obtain ⟨h0, h2, _, h6, h7⟩ := flag_ne s.f
  unfold cond
  split at h
  · rename_i e; subst e; rw [h6]; cases v <;> cases h <;> simp [Isa.Mach.cond, abs]
  · split at h
    · rename_i e; subst e; rw [h0]; cases v <;> cases h <;> simp [Isa.Mach.cond, abs]
    · split at h
      · rename_i e; subst e; rw [h2]; cases v <;> cases h <;> simp [Isa.Mach.cond, abs]
      · split at h
        · rename_i e; subst e; rw [h7]; cases v <;> cases h <;> simp [Isa.Mach.cond, abs]
        · exact absurd h (by simp)

/-- DAA where it is right. -/
theorem abs_daa (cpu : Cpu) (s : St) (h : Isa.DaaOk (abs s)) : abs (daa cpu s) = (abs s).daa := by
  obtain ⟨h1, h2, h3⟩ := h
  have h1 : s.f.getLsbD 4 = decide (9 < s.a.toNat % 16) := h1
  have h2 : s.f.getLsbD 0 = true → 0x9a ≤ s.a.toNat := h2
  have ha := s.a.isLt
  have hs : (s.a >>> 4).toNat = s.a.toNat / 16 := by rw [BitVec.toNat_ushiftRight, Nat.shiftRight_eq_div_pow]
  have hf := flag_ne s.f
  have hcorr : daaCorr s.a s.f = if 9 < s.a.toNat % 16 then
      (if 0x99 < s.a.toNat then 0x66#8 else 0x06#8) else (if 0x9f < s.a.toNat then 0x60#8 else 0#8) := by
    unfold daaCorr
    rw [and15, hf.2.2.1, hf.1, hs, h1]
    by_cases g1 : 9 < s.a.toNat % 16
    · simp only [g1, decide_true, true_or, if_true]
      by_cases g2 : 0x99 < s.a.toNat
      · rw [if_pos g2, if_pos (Or.inl (by omega))]; rfl
      · rw [if_neg g2, if_neg]
        intro k; rcases k with k | k
        · omega
        · have := h2 k; omega
    · simp only [g1, decide_false, Bool.false_eq_true, or_false, gt_iff_lt, if_false]
      rw [if_neg (by decide : ¬ (0#8 : Byte) = 6#8)]
      by_cases g2 : 0x9f < s.a.toNat
      · rw [if_pos g2, if_pos (Or.inl (by omega))]; rfl
      · rw [if_neg g2, if_neg]
        intro k; rcases k with k | k
        · omega
        · have := h2 k; omega
  unfold daa
  rw [hcorr]
  have key : ∀ (c : Byte) (high : Bool), c ≠ 0#8 → (high = decide (256 ≤ s.a.toNat + c.toNat)) →
      (decide (9 < (if 9 < s.a.toNat % 16 ∨ (abs s).ac = true then s.a.toNat + 6 else s.a.toNat) / 16) || (abs s).cy) = high →
      (BitVec.ofNat 8 (if high = true then (if 9 < s.a.toNat % 16 ∨ (abs s).ac = true then s.a.toNat + 6 else s.a.toNat) + 0x60
        else (if 9 < s.a.toNat % 16 ∨ (abs s).ac = true then s.a.toNat + 6 else s.a.toNat)) : Byte) = BitVec.ofNat 8 (s.a.toNat + c.toNat) →
      abs (if c ≠ 0#8 then add8 cpu c false true s else s) = (abs s).daa := by
    intro c high hc e1 e2 e3
    rw [if_pos hc]
    have hlt : s.a.toNat + c.toNat < 512 := by have := c.isLt; omega
    have k := maskAllA s.f
    have e4 : (abs s).daa = { (abs s).zsp (BitVec.ofNat 8 (s.a.toNat + c.toNat)) with a := BitVec.ofNat 8 (s.a.toNat + c.toNat), cy := high, ac := decide (9 < s.a.toNat % 16) } := by
      rw [← e3, ← e2]; rfl
    rw [e4]
    unfold add8
    simp only [Bool.false_and, Bool.false_eq_true, if_false, if_true, abs_setF, orIf_bit, fbits, k, res80 _ hlt, parity_ok, zero_ok, Bool.not_true]
    rw [e1, ← h1]
    simp [Isa.Mach.zsp, abs]
    omega
  have hac : ((abs s).ac = true) = (9 < s.a.toNat % 16) := by
    show (s.f.getLsbD 4 = true) = _
    rw [h1]; simp
  have hcy : (abs s).cy = s.f.getLsbD 0 := rfl
  by_cases g1 : 9 < s.a.toNat % 16
  · rw [if_pos g1]
    by_cases g2 : 0x99 < s.a.toNat
    · rw [if_pos g2]
      refine key _ true (by decide) (by simp; omega) ?_ ?_
      · rw [if_pos (Or.inl g1)]; simp only [Bool.or_eq_true, decide_eq_true_eq]; left; omega
      · rw [if_pos rfl, if_pos (Or.inl g1), Nat.add_assoc]; rfl
    · rw [if_neg g2]
      have c0 : (abs s).cy = false := by
        cases c : (abs s).cy
        · rfl
        · have := h2 c; omega
      refine key _ false (by decide) (by simp; omega) ?_ ?_
      · rw [if_pos (Or.inl g1), c0]; simp; omega
      · rw [if_neg (by decide), if_pos (Or.inl g1)]; rfl
  · rw [if_neg g1]
    have hno : ¬ (9 < s.a.toNat % 16 ∨ (abs s).ac = true) := by rw [hac]; simpa using g1
    by_cases g2 : 0x9f < s.a.toNat
    · rw [if_pos g2]
      refine key _ true (by decide) (by simp; omega) ?_ ?_
      · rw [if_neg hno]; simp only [Bool.or_eq_true, decide_eq_true_eq]; left; omega
      · rw [if_pos rfl, if_neg hno]; rfl
    · rw [if_neg g2, if_neg (by simp)]
      have c0 : (abs s).cy = false := by
        cases c : (abs s).cy
        · rfl
        · have := h2 c; omega
      have a0 : (abs s).ac = false := by
        cases c : (abs s).ac
        · rfl
        · exact absurd (by rw [← hac]; exact c) g1
      have z := h3 a0 c0 (show s.a.toNat < 0xa0 by omega)
      have e : (abs s).daa = { (abs s).zsp (abs s).a with a := (abs s).a, cy := false, ac := false } := by
        have : (decide (9 < (abs s).a.toNat / 16) || (abs s).cy) = false := by
          rw [c0]; simp; show s.a.toNat / 16 ≤ 9; omega
        have hno' : ¬ (9 < (abs s).a.toNat % 16 ∨ (abs s).ac = true) := hno
        unfold Isa.Mach.daa
        simp only [if_neg hno', this]
        have e2 : (BitVec.ofNat 8 (abs s).a.toNat : Byte) = (abs s).a := by simp
        simp only [Bool.false_eq_true, if_false, e2]
        have : decide (9 < (abs s).a.toNat % 16) = false := by simpa [abs] using g1
        rw [this]
      rw [e, z]
      ext1 <;> first | rfl | exact c0 | exact a0

/-! ### The PC and the rest do not depend on each other -/

section
variable (m : Isa.Mach) (w : Word)

theorem nx_setReg (r : R8) (v : Byte) : (m.next w).setReg (num r) v = (m.setReg (num r) v).next w := by cases r <;> rfl
theorem nx_reg (r : R8) : (m.next w).reg (num r) = m.reg (num r) := by cases r <;> rfl
theorem nx_setRp (r : RP) (v : Word) : (m.next w).setRp (numP r) v = (m.setRp (numP r) v).next w := by cases r <;> rfl
theorem nx_rp (r : RP) : (m.next w).rp (numP r) = m.rp (numP r) := by cases r <;> rfl
theorem nx_inr (r : R8) : (m.next w).inr (num r) = (m.inr (num r)).next w := by cases r <;> rfl
theorem nx_dcr (r : R8) : (m.next w).dcr (num r) = (m.dcr (num r)).next w := by cases r <;> rfl

theorem nx_nx (v : Word) : (m.next w).next v = m.next (w + v) := by unfold Isa.Mach.next; simp only [BitVec.add_assoc]

/-- After the opcode has been fetched. -/
def fetched (s : St) (t : Int) : St := { s with pc := s.pc + 1, shift := false, ticks := t }

theorem abs_fetched (s : St) (t : Int) : abs (fetched s t) = (abs s).next 1 := rfl

theorem fetch_fetched (s : St) (t : Int) : fetch (fetched s t) = ((abs s).imm8, { fetched s t with pc := s.pc + 2 }) := by
  rw [fetch_eq]; unfold fetched; simp only [add11]; rfl

theorem fetch16_fetched (s : St) (t : Int) : fetch16 (fetched s t) = ((abs s).imm16, { fetched s t with pc := s.pc + 3 }) := by
  rw [fetch16_eq]; unfold fetched; simp only [add11, add12]; rfl

theorem abs_pc2 (s : St) (t : Int) : abs { fetched s t with pc := s.pc + 2 } = (abs s).next 2 := rfl
theorem abs_pc3 (s : St) (t : Int) : abs { fetched s t with pc := s.pc + 3 } = (abs s).next 3 := rfl
end

/-- The accumulator operations. -/
theorem alu_ok (cpu : Cpu) (s : St) (v : Byte) (o : BitVec 3) (w : Word) (m : Isa.Mach) (e : abs s = m.next w)
    (hd : ¬ Isa.aluDiffers (cpu == .i8085) m o v) :
    (o = 0 → abs (add8 cpu v false false s) = (m.alu (cpu == .i8085) o v).next w) ∧
    (o = 1 → abs (add8 cpu v true false s) = (m.alu (cpu == .i8085) o v).next w) ∧
    (o = 2 → abs (sub8 cpu v false false s) = (m.alu (cpu == .i8085) o v).next w) ∧
    (o = 3 → abs (sub8 cpu v true false s) = (m.alu (cpu == .i8085) o v).next w) ∧
    (o = 4 → abs (ana cpu v s) = (m.alu (cpu == .i8085) o v).next w) ∧
    (o = 5 → abs (xra cpu v s) = (m.alu (cpu == .i8085) o v).next w) ∧
    (o = 6 → abs (ora cpu v s) = (m.alu (cpu == .i8085) o v).next w) ∧
    (o = 7 → abs (sub8 cpu v false true s) = (m.alu (cpu == .i8085) o v).next w) := by
  have ca : s.a = m.a := congrArg Isa.Mach.a e
  have cc : s.f.getLsbD 0 = m.cy := congrArg Isa.Mach.cy e
  refine ⟨?_, ?_, ?_, ?_, ?_, ?_, ?_, ?_⟩ <;> intro h <;> subst h
  · rw [abs_add8, e]; rfl
  · have hd : ¬ (m.cy = true ∧ v.toNat % 16 = 15) := hd
    rw [abs_adc8, e]
    · rfl
    · rw [cc]; exact fun h1 h2 => hd ⟨h1, h2⟩
  · have hd : ¬ (v.toNat % 16 = 0) := hd
    rw [abs_sub8 _ _ _ hd, e]; rfl
  · have hd : ¬ (if m.cy then m.a = v else v.toNat % 16 = 0) := hd
    rw [abs_sbb8, e]
    · rfl
    · rw [cc, ca]; cases c : m.cy <;> simpa [c] using hd
  · have hd : ¬ ((cpu == .i8085) = false ∧ m.a.getLsbD 3 = false ∧ v.getLsbD 3 = false) := hd
    rw [abs_ana, e]
    · rfl
    · intro hc
      subst hc
      rw [ca]
      cases c1 : m.a.getLsbD 3
      · cases c2 : v.getLsbD 3
        · exact absurd ⟨rfl, c1, c2⟩ hd
        · exact Or.inr rfl
      · exact Or.inl rfl
  · rw [abs_xra, e]; rfl
  · rw [abs_ora, e]; rfl
  · have hd : ¬ (v.toNat % 16 = 0) := hd
    rw [abs_cmp8 _ _ _ hd, e]; rfl

theorem rst_addr : ∀ op : Byte, (op.extractLsb' 3 3).getLsbD 1 = false → op &&& 0xc7#8 = 0xc7#8 →
    (BitVec.ofNat 16 (op.toNat &&& 0x28) : Word) = BitVec.ofNat 16 (8 * (op.extractLsb' 3 3).toNat) := by decide +kernel

theorem jmpIf_ok (s : St) (t : Int) (c : Bool) :
    abs (jmpIf c (fetched s t)) = if c then { abs s with pc := (abs s).imm16 } else (abs s).next 3 := by
  unfold jmpIf
  rw [fetch16_fetched]
  cases c <;> rfl

theorem callIf_ok (s : St) (t : Int) (c : Bool) :
    abs (callIf c (fetched s t)) = if c then { (abs s).push ((abs s).pc + 3) with pc := (abs s).imm16 } else (abs s).next 3 := by
  unfold callIf
  rw [fetch16_fetched]
  cases c
  · rfl
  · simp only [if_true, push2_eq, hi_eq, lo_eq]; rfl

theorem retIf_ok (s : St) (t : Int) (c : Bool) :
    abs (retIf c (fetched s t)) = if c then { (abs s).drop with pc := (abs s).top } else (abs s).next 1 := by
  unfold retIf ret
  rw [pop2_eq]
  cases c <;> rfl

theorem store16_ok (s : St) (a : Word) (h : a ≠ 0xffff#16) :
    abs (wr (wr s a.toNat s.l) (a.toNat + 1) s.h) = (abs s).store16 a (abs s).HL := by
  rw [wr_word, wr_succ _ _ _ h]
  unfold Isa.Mach.store16 Isa.Mach.store abs Isa.loByte Isa.hiByte
  simp only [Isa.Mach.HL, Isa.word, hi_pair, lo_pair]

/-- Every body does what the manual says of its instruction. -/
theorem exec_ok (cpu : Cpu) (op : Byte) (i : Inst) (ins : Isa.Ins) (s : St) (t : Int) (h : conv op i = some ins)
    (hop : i = .rst → op &&& 0xc7#8 = 0xc7#8)
    (hd : ¬ Differs (cpu == .i8085) (abs s) ins) :
    abs (exec cpu op i (fetched s t)) = Isa.exec (cpu == .i8085) 0x2a#8 s.f ins (abs s) := by
  cases i <;> simp only [conv, Option.some.injEq, reduceCtorEq] at h
  case nop => subst h; rfl
  case hlt => subst h; rfl
  case ei => subst h; rfl
  case di => subst h; rfl
  case mov d r => subst h; simp only [exec, Isa.exec, abs_set8, get8_eq, abs_fetched, nx_setReg, nx_reg]
  case mvi d => subst h; simp only [exec, Isa.exec, fetch_fetched, abs_set8, abs_pc2, nx_setReg]
  case lxi p => subst h; simp only [exec, Isa.exec, fetch16_fetched, abs_set16, abs_pc3, nx_setRp]
  case lda => subst h; simp only [exec, Isa.exec, fetch16_fetched, rd_word]; rfl
  case sta => subst h; simp only [exec, Isa.exec, fetch16_fetched, wr_word]; rfl
  case lhld =>
    subst h
    simp only [exec, Isa.exec, fetch16_fetched, abs_set16]
    rw [readAddr_eq _ _ hd, abs_pc3]
    exact nx_setRp _ _ .hl _
  case shld =>
    subst h
    simp only [exec, Isa.exec, fetch16_fetched]
    rw [store16_ok _ _ hd, abs_pc3]; rfl
  case ldax p => subst h; simp only [exec, Isa.exec, rd_word, get16_eq, abs_fetched, nx_rp]; rfl
  case stax p => subst h; simp only [exec, Isa.exec, wr_word, get16_eq, abs_fetched, nx_rp]; rfl
  case xchg => subst h; rfl
  case inp => subst h; exact absurd trivial hd
  case out => subst h; exact absurd trivial hd
  case push p => subst h; simp only [exec, Isa.exec, abs_push2, get16_eq, abs_fetched, nx_rp]; rfl
  case pushPsw =>
    subst h
    simp only [exec, Isa.exec, abs_push2, pair_eq, abs_fetched, psw_eq]; rfl
  case pop p => subst h; simp only [exec, Isa.exec, pop2_eq, abs_set16]; cases p <;> rfl
  case popPsw => subst h; simp only [exec, Isa.exec, pop2_eq, hi_eq, lo_eq]; rfl
  case xthl =>
    subst h
    have hd : (fetched s t).sp ≠ 0xffff#16 := hd
    simp only [exec, Isa.exec, abs_set16]
    rw [readAddr_eq _ _ hd, store16_ok _ _ hd]; rfl
  case sphl => subst h; simp only [exec, Isa.exec, hl_eq]; rfl
  case add8 o c =>
    cases o <;> cases c <;> simp only [conv, Option.some.injEq, if_true, Bool.false_eq_true, if_false] at h <;> subst h
    case reg.false r =>
      have k := (alu_ok cpu (fetched s t) ((abs s).reg (num r)) 0 1 (abs s) rfl hd).1 rfl
      simpa only [exec, Isa.exec, src, get8_eq, abs_fetched, nx_reg] using k
    case reg.true r =>
      have k := (alu_ok cpu (fetched s t) ((abs s).reg (num r)) 1 1 (abs s) rfl hd).2.1 rfl
      simpa only [exec, Isa.exec, src, get8_eq, abs_fetched, nx_reg] using k
    case imm.false =>
      have k := (alu_ok cpu { fetched s t with pc := s.pc + 2 } (abs s).imm8 0 2 (abs s) rfl hd).1 rfl
      simpa only [exec, Isa.exec, src, fetch_fetched] using k
    case imm.true =>
      have k := (alu_ok cpu { fetched s t with pc := s.pc + 2 } (abs s).imm8 1 2 (abs s) rfl hd).2.1 rfl
      simpa only [exec, Isa.exec, src, fetch_fetched] using k
  case sub8 o c k =>
    cases o <;> cases c <;> cases k <;>
      simp only [conv, Option.some.injEq, if_true, Bool.false_eq_true, if_false, reduceCtorEq] at h <;> subst h
    case reg.false.false r =>
      have k := (alu_ok cpu (fetched s t) ((abs s).reg (num r)) 2 1 (abs s) rfl hd).2.2.1 rfl
      simpa only [exec, Isa.exec, src, get8_eq, abs_fetched, nx_reg] using k
    case reg.true.false r =>
      have k := (alu_ok cpu (fetched s t) ((abs s).reg (num r)) 3 1 (abs s) rfl hd).2.2.2.1 rfl
      simpa only [exec, Isa.exec, src, get8_eq, abs_fetched, nx_reg] using k
    case reg.false.true r =>
      have k := (alu_ok cpu (fetched s t) ((abs s).reg (num r)) 7 1 (abs s) rfl hd).2.2.2.2.2.2.2 rfl
      simpa only [exec, Isa.exec, src, get8_eq, abs_fetched, nx_reg] using k
    case imm.false.false =>
      have k := (alu_ok cpu { fetched s t with pc := s.pc + 2 } (abs s).imm8 2 2 (abs s) rfl hd).2.2.1 rfl
      simpa only [exec, Isa.exec, src, fetch_fetched] using k
    case imm.true.false =>
      have k := (alu_ok cpu { fetched s t with pc := s.pc + 2 } (abs s).imm8 3 2 (abs s) rfl hd).2.2.2.1 rfl
      simpa only [exec, Isa.exec, src, fetch_fetched] using k
    case imm.false.true =>
      have k := (alu_ok cpu { fetched s t with pc := s.pc + 2 } (abs s).imm8 7 2 (abs s) rfl hd).2.2.2.2.2.2.2 rfl
      simpa only [exec, Isa.exec, src, fetch_fetched] using k
  case dad p =>
    subst h
    simp only [exec, Isa.exec, abs_dad, get16_eq, abs_fetched, nx_rp]; rfl
  case inr r => subst h; simp only [exec, Isa.exec, abs_inr, abs_fetched, nx_inr]
  case dcr r => subst h; simp only [exec, Isa.exec, abs_dcr, abs_fetched, nx_dcr]
  case inx p => subst h; simp only [exec, Isa.exec, abs_inx, abs_fetched, nx_setRp, nx_rp]
  case dcx p => subst h; simp only [exec, Isa.exec, abs_dcx, abs_fetched, nx_setRp, nx_rp]
  case ana o =>
    cases o <;> simp only [conv, Option.some.injEq] at h <;> subst h
    case reg r =>
      have k := (alu_ok cpu (fetched s t) ((abs s).reg (num r)) 4 1 (abs s) rfl hd).2.2.2.2.1 rfl
      simpa only [exec, Isa.exec, src, get8_eq, abs_fetched, nx_reg] using k
    case imm =>
      have k := (alu_ok cpu { fetched s t with pc := s.pc + 2 } (abs s).imm8 4 2 (abs s) rfl hd).2.2.2.2.1 rfl
      simpa only [exec, Isa.exec, src, fetch_fetched] using k
  case ora o =>
    cases o <;> simp only [conv, Option.some.injEq] at h <;> subst h
    case reg r =>
      have k := (alu_ok cpu (fetched s t) ((abs s).reg (num r)) 6 1 (abs s) rfl hd).2.2.2.2.2.2.1 rfl
      simpa only [exec, Isa.exec, src, get8_eq, abs_fetched, nx_reg] using k
    case imm =>
      have k := (alu_ok cpu { fetched s t with pc := s.pc + 2 } (abs s).imm8 6 2 (abs s) rfl hd).2.2.2.2.2.2.1 rfl
      simpa only [exec, Isa.exec, src, fetch_fetched] using k
  case xra o =>
    cases o <;> simp only [conv, Option.some.injEq] at h <;> subst h
    case reg r =>
      have k := (alu_ok cpu (fetched s t) ((abs s).reg (num r)) 5 1 (abs s) rfl hd).2.2.2.2.2.1 rfl
      simpa only [exec, Isa.exec, src, get8_eq, abs_fetched, nx_reg] using k
    case imm =>
      have k := (alu_ok cpu { fetched s t with pc := s.pc + 2 } (abs s).imm8 5 2 (abs s) rfl hd).2.2.2.2.2.1 rfl
      simpa only [exec, Isa.exec, src, fetch_fetched] using k
  case rlc => subst h; simp only [exec, Isa.exec, abs_rlc]; rfl
  case rrc => subst h; simp only [exec, Isa.exec, abs_rrc]; rfl
  case ral => subst h; simp only [exec, Isa.exec, abs_ral]; rfl
  case rar => subst h; simp only [exec, Isa.exec, abs_rar]; rfl
  case daa =>
    subst h
    have hd : ¬ ¬ Isa.DaaOk (abs s) := hd
    have ok : Isa.DaaOk (abs (fetched s t)) := by
      obtain ⟨h1, h2, h3⟩ := Classical.not_not.mp hd
      refine ⟨h1, h2, fun x y z => ?_⟩
      rw [abs_fetched]
      exact congrArg (·.next 1) (h3 x y z)
    simp only [exec, Isa.exec, abs_daa _ _ ok]; rfl
  case cma => subst h; rfl
  case cmc =>
    subst h
    have e : ∀ f : Byte, (f ^^^ flagC).getLsbD 0 = !f.getLsbD 0 ∧ (f ^^^ flagC).getLsbD 2 = f.getLsbD 2 ∧ (f ^^^ flagC).getLsbD 4 = f.getLsbD 4 ∧
      (f ^^^ flagC).getLsbD 6 = f.getLsbD 6 ∧ (f ^^^ flagC).getLsbD 7 = f.getLsbD 7 := by decide +kernel
    simp only [exec, Isa.exec, abs_setF, e]; rfl
  case stc =>
    subst h
    have e : ∀ f : Byte, (f ||| flagC).getLsbD 0 = true ∧ (f ||| flagC).getLsbD 2 = f.getLsbD 2 ∧ (f ||| flagC).getLsbD 4 = f.getLsbD 4 ∧
      (f ||| flagC).getLsbD 6 = f.getLsbD 6 ∧ (f ||| flagC).getLsbD 7 = f.getLsbD 7 := by decide +kernel
    simp only [exec, Isa.exec, abs_setF, e]; rfl
  case jmp => subst h; simp only [exec, Isa.exec, fetch16_fetched]; rfl
  case jmpIf g v =>
    obtain ⟨c, hc, rfl⟩ := Option.map_eq_some_iff.mp h
    simp only [exec, Isa.exec, jmpIf_ok, cond_eq _ _ _ _ hc]; rfl
  case call =>
    subst h
    simp only [exec, Isa.exec, call, fetch16_fetched, push2_eq, hi_eq, lo_eq]; rfl
  case callIf g v =>
    obtain ⟨c, hc, rfl⟩ := Option.map_eq_some_iff.mp h
    simp only [exec, Isa.exec, callIf_ok, cond_eq _ _ _ _ hc]; rfl
  case ret => subst h; simp only [exec, Isa.exec, ret, pop2_eq]; rfl
  case retIf g v =>
    obtain ⟨c, hc, rfl⟩ := Option.map_eq_some_iff.mp h
    simp only [exec, Isa.exec, retIf_ok, cond_eq _ _ _ _ hc]; rfl
  case rst =>
    subst h
    have hd : ¬ ((op.extractLsb' 3 3).getLsbD 1 = true) := hd
    simp only [exec, Isa.exec, rst, push2_eq, hi_eq, lo_eq]
    rw [rst_addr op (by simpa using hd) (hop rfl)]; rfl
  case pchl => subst h; simp only [exec, Isa.exec, hl_eq]; rfl

/-- RST is at the codes 11nnn111 only. -/
theorem itab_rst (cpu : Cpu) : ∀ op : Byte, itab cpu op = some .rst → op &&& 0xc7#8 = 0xc7#8 := by
  cases cpu <;> decide +kernel

theorem abs_ticks (s : St) (t : Int) : abs { s with ticks := t } = abs s := rfl

/-- One instruction of the simulator is one instruction of the manual. -/
theorem step_ok (cpu : Cpu) (s : St) (hd : ¬ Differs (cpu == .i8085) (abs s) (Isa.decode (s.mem s.pc))) :
    abs (step cpu s).2 = Isa.step (cpu == .i8085) 0x2a#8 s.f (abs s) := by
  have hne : Isa.decode (s.mem s.pc) ≠ .other := fun e => by rw [e] at hd; exact hd trivial
  have hi := (itab_ok cpu (s.mem s.pc)).resolve_left hne
  obtain ⟨i, h1, h2⟩ := Option.bind_eq_some_iff.mp hi
  have k := exec_ok cpu _ i _ s (s.ticks + 1) h2 (fun e => itab_rst cpu _ (e ▸ h1)) hd
  unfold step
  simp only [fetch_eq, h1, abs_ticks]
  exact k

end Ucsim.I80
