import Verif.Proof.M65

/-
Every instruction of the 6502 simulator against the manual.
-/
namespace Ucsim.M65

/-! ### The opcode map -/

def creg : Reg → Isa.Reg
  | .a => .a | .x => .x | .y => .y

def rmwIns (o : Rmw) (k : Isa.Mode) : Isa.Ins :=
  match o with
  | .inc => .inc k | .dec => .dec k | .asl => .asl k | .lsr => .lsr k | .rol => .rol k | .ror => .ror k

def flagOf (g : Byte) : Isa.Flag := if g = flagN then .n else if g = flagV then .v else if g = flagC then .c else .z

def insOf : Inst → Isa.Ins
  | .nop => .nop | .brk => .brk | .rti => .rti | .cli => .cli | .sei => .sei | .php => .php | .clc => .clc
  | .plp => .plp | .sec => .sec | .pha => .pha | .pla => .pla | .dey => .der .y | .tya => .tr .y .a
  | .tay => .tr .a .y | .clv => .clv | .iny => .inr .y | .cld => .cld | .inx => .inr .x | .sed => .sed
  | .txa => .tr .x .a | .txs => .txs | .tax => .tr .a .x | .tsx => .tsx | .dex => .der .x
  | .ora m => .ora (conv m) | .and m => .and (conv m) | .eor m => .eor (conv m) | .adc m => .adc (conv m)
  | .lda m => .ld .a (conv m) | .sbc m => .sbc (conv m) | .sta _ m => .st .a (conv m)
  | .cmp r m => .cmp (creg r) (conv m) | .st r m => .st (creg r) (conv m) | .ld r m => .ld (creg r) (conv m)
  | .rmw o m => rmwIns o (conv m) | .rmwA o => rmwIns o .acc | .bit m => .bit (conv m)
  | .jmpA => .jmp | .jmpI => .jmpInd | .jsr => .jsr | .rts => .rts | .branch g v => .br (flagOf g) v

/-- What of the bodies occurs in the table; the clocks STA counts itself. -/
def wf : Inst → Bool
  | .sta t m => m ≠ .imm && (t == if m = .absX then 1 else 0)
  | .st _ m => m = .zpg || m = .zpgX || m = .zpgY || m = .abs
  | .rmw _ m => m = .zpg || m = .zpgX || m = .abs || m = .absX
  | .bit m => m = .zpg || m = .abs
  | .branch g _ => g = flagN || g = flagV || g = flagC || g = flagZ
  | _ => true

theorem decode_tab : ∀ op : Byte, (match table.getD op.toNat none with
    | none => decide (Isa.decode op = .other)
    | some i => decide (Isa.decode op = insOf i) && wf i) = true := by decide +kernel

theorem decode_ok (op : Byte) (i : Inst) (h : table.getD op.toNat none = some i) : Isa.decode op = insOf i ∧ wf i = true := by
  have := decode_tab op
  rw [h] at this; simpa using this

theorem decode_none (op : Byte) (h : table.getD op.toNat none = none) : Isa.decode op = .other := by
  have := decode_tab op
  rw [h] at this; simpa using this

/-! ### Effects -/

/-- The manual's step, the instruction given. -/
def stepI (u : Isa.Undef) (m : Isa.Mach) : Isa.Ins → Isa.Mach
  | .jmp => { m with pc := m.opw }
  | .jmpInd => { m with pc := m.mem (m.op2 ++ (m.op1 + 1)) ++ m.mem m.opw }
  | .jsr => { m.pushw (m.pc + 2) with pc := m.opw }
  | .rts => { m with pc := (m.pull 2 ++ m.pull 1) + 1, s := m.s + 2 }
  | .rti => { m.setStatus (m.pull 1) with pc := m.pull 3 ++ m.pull 2, s := m.s + 3 }
  | .brk => { m with pc := m.pc + 2 }.interrupt true 0xfffe
  | .br f b => { m with pc := if m.flag f = b then m.pc + 2 + m.op1.signExtend 16 else m.pc + 2 }
  | i => { Isa.exec u m i with pc := m.pc + BitVec.ofNat 16 (Isa.length i) }

theorem step_stepI (u : Isa.Undef) (m : Isa.Mach) : Isa.step u m = stepI u m (Isa.decode (m.mem m.pc)) := by
  unfold Isa.step stepI
  generalize Isa.decode (m.mem m.pc) = i
  cases i <;> rfl

theorem toNat_pc (w : Word) : BitVec.ofNat 16 w.toNat = w := by simp

/-- PC after the fetches. -/
theorem pc_fr (s : St) (n : Nat) : (BitVec.ofNat 16 ((s.pc + n) % 0x10000) : Word) = (abs s).pc + BitVec.ofNat 16 n := by
  have := fr_pc s n 0 0
  rw [← toNat_pc ((abs s).pc + BitVec.ofNat 16 n), ← this]; rfl

theorem keep_adc (b : Byte) (s : St) : adc b s = { s with a := (adc b s).a, p := (adc b s).p } := by
  unfold adc; dsimp only; split <;> rfl
theorem keep_sbc (b : Byte) (s : St) : sbc b s = { s with a := (sbc b s).a, p := (sbc b s).p } := by
  unfold sbc; dsimp only; split <;> rfl

/-- Changing PC in the abstract machine does not disturb what does not look at it. -/
theorem adc_pc (u : Isa.Undef) (m : Isa.Mach) (w : Word) (b : Byte) : { m with pc := w }.adc u b = { m.adc u b with pc := w } := by
  unfold Isa.Mach.adc; dsimp only; split <;> rfl
theorem sbc_pc (u : Isa.Undef) (m : Isa.Mach) (w : Word) (b : Byte) : { m with pc := w }.sbc u b = { m.sbc u b with pc := w } := by
  unfold Isa.Mach.sbc; dsimp only; split <;> rfl

theorem reg_fr (s : St) (n t : Nat) (v : Byte) (r : Reg) : getReg (fr s n t v) r = (abs s).reg (creg r) := by
  cases r <;> rfl

theorem flag_ok (s : St) (g : Byte) (v : Bool) (h : wf (.branch g v) = true) :
    ((s.p &&& g != 0#8) == v) = decide ((abs s).flag (flagOf g) = v) := by
  obtain ⟨hC, hZ, _, _, hV, hN⟩ := flag_ne s.p
  simp only [wf, Bool.or_eq_true, decide_eq_true_eq] at h
  rcases h with ((h | h) | h) | h <;> subst h
  · rw [hN]; show _ = decide (s.p.getLsbD 7 = v); generalize s.p.getLsbD 7 = b; cases v <;> cases b <;> rfl
  · rw [hV]; show _ = decide (s.p.getLsbD 6 = v); generalize s.p.getLsbD 6 = b; cases v <;> cases b <;> rfl
  · rw [hC]; show _ = decide (s.p.getLsbD 0 = v); generalize s.p.getLsbD 0 = b; cases v <;> cases b <;> rfl
  · rw [hZ]; show _ = decide (s.p.getLsbD 1 = v); generalize s.p.getLsbD 1 = b; cases v <;> cases b <;> rfl

/-- Target of a branch. -/
theorem rel_ok (s : St) (b : Byte) (n t : Nat) (v : Byte) :
    ((((fr s n t v).pc : Int) + b.toInt) % 0x10000).toNat = ((abs s).pc + BitVec.ofNat 16 n + b.signExtend 16).toNat := by
  rw [fr_pc, BitVec.toNat_add ((abs s).pc + BitVec.ofNat 16 n)]
  generalize (abs s).pc + BitVec.ofNat 16 n = w
  have hb := b.isLt
  have hw := w.isLt
  have e : (b.signExtend 16).toNat = if b.toNat < 128 then b.toNat else 0x10000 - 256 + b.toNat := by
    revert b; decide +kernel
  rw [e, toInt_cond]
  split <;> omega

theorem operand_len (k : Mode) (s : St) (t : Nat) (v : Byte) :
    abs (fr s (conv k).length t v) = { abs s with pc := (abs s).pc + BitVec.ofNat 16 (conv k).length } := abs_fr ..

theorem clrI : ∀ p : Byte, let g := p &&& ~~~flagI; g.getLsbD 0 = p.getLsbD 0 ∧ g.getLsbD 1 = p.getLsbD 1 ∧ g.getLsbD 2 = false ∧
    g.getLsbD 3 = p.getLsbD 3 ∧ g.getLsbD 6 = p.getLsbD 6 ∧ g.getLsbD 7 = p.getLsbD 7 := by decide +kernel
theorem clrC : ∀ p : Byte, let g := p &&& ~~~flagC; g.getLsbD 0 = false ∧ g.getLsbD 1 = p.getLsbD 1 ∧ g.getLsbD 2 = p.getLsbD 2 ∧
    g.getLsbD 3 = p.getLsbD 3 ∧ g.getLsbD 6 = p.getLsbD 6 ∧ g.getLsbD 7 = p.getLsbD 7 := by decide +kernel
theorem clrV : ∀ p : Byte, let g := p &&& ~~~flagV; g.getLsbD 0 = p.getLsbD 0 ∧ g.getLsbD 1 = p.getLsbD 1 ∧ g.getLsbD 2 = p.getLsbD 2 ∧
    g.getLsbD 3 = p.getLsbD 3 ∧ g.getLsbD 6 = false ∧ g.getLsbD 7 = p.getLsbD 7 := by decide +kernel
theorem clrD : ∀ p : Byte, let g := p &&& ~~~flagD; g.getLsbD 0 = p.getLsbD 0 ∧ g.getLsbD 1 = p.getLsbD 1 ∧ g.getLsbD 2 = p.getLsbD 2 ∧
    g.getLsbD 3 = false ∧ g.getLsbD 6 = p.getLsbD 6 ∧ g.getLsbD 7 = p.getLsbD 7 := by decide +kernel
theorem clrB : ∀ p : Byte, let g := p &&& ~~~(0x20#8 ||| flagB); g.getLsbD 0 = p.getLsbD 0 ∧ g.getLsbD 1 = p.getLsbD 1 ∧ g.getLsbD 2 = p.getLsbD 2 ∧
    g.getLsbD 3 = p.getLsbD 3 ∧ g.getLsbD 6 = p.getLsbD 6 ∧ g.getLsbD 7 = p.getLsbD 7 := by decide +kernel
theorem orI : ∀ p : Byte, let g := p ||| flagI; g.getLsbD 0 = p.getLsbD 0 ∧ g.getLsbD 1 = p.getLsbD 1 ∧ g.getLsbD 2 = true ∧
    g.getLsbD 3 = p.getLsbD 3 ∧ g.getLsbD 6 = p.getLsbD 6 ∧ g.getLsbD 7 = p.getLsbD 7 := by decide +kernel
theorem orC : ∀ p : Byte, let g := p ||| flagC; g.getLsbD 0 = true ∧ g.getLsbD 1 = p.getLsbD 1 ∧ g.getLsbD 2 = p.getLsbD 2 ∧
    g.getLsbD 3 = p.getLsbD 3 ∧ g.getLsbD 6 = p.getLsbD 6 ∧ g.getLsbD 7 = p.getLsbD 7 := by decide +kernel
theorem orD : ∀ p : Byte, let g := p ||| flagD; g.getLsbD 0 = p.getLsbD 0 ∧ g.getLsbD 1 = p.getLsbD 1 ∧ g.getLsbD 2 = p.getLsbD 2 ∧
    g.getLsbD 3 = true ∧ g.getLsbD 6 = p.getLsbD 6 ∧ g.getLsbD 7 = p.getLsbD 7 := by decide +kernel

theorem status_bits : ∀ p : Byte, p ||| 0x20#8 ||| flagB = Isa.bitAt (p.getLsbD 7) 7 ||| Isa.bitAt (p.getLsbD 6) 6 ||| 0x20 ||| Isa.bitAt true 4 |||
    Isa.bitAt (p.getLsbD 3) 3 ||| Isa.bitAt (p.getLsbD 2) 2 ||| Isa.bitAt (p.getLsbD 1) 1 ||| Isa.bitAt (p.getLsbD 0) 0 := by decide +kernel

theorem status_true (s : St) : s.p ||| 0x20#8 ||| flagB = (abs s).status true := status_bits s.p

theorem status_bits0 : ∀ p : Byte, p.getLsbD 4 = false → p ||| 0x20#8 = Isa.bitAt (p.getLsbD 7) 7 ||| Isa.bitAt (p.getLsbD 6) 6 ||| 0x20 ||| Isa.bitAt false 4 |||
    Isa.bitAt (p.getLsbD 3) 3 ||| Isa.bitAt (p.getLsbD 2) 2 ||| Isa.bitAt (p.getLsbD 1) 1 ||| Isa.bitAt (p.getLsbD 0) 0 := by decide +kernel

theorem status_false (s : St) (h : s.p.getLsbD 4 = false) : s.p ||| 0x20#8 = (abs s).status false := status_bits0 s.p h

theorem rmwOperand_ok (k : Mode) (s : St) (t : Nat) (v : Byte) (hk : wf (.rmw .inc k) = true) :
    rmwOperand k (fr s 1 t v) = (ref (abs s) k, fr s (conv k).length (t + (if k = .absX then 3 else 2) + opClk (abs s) k) v) := by
  have hd : ¬ (conv k).Differs (abs s) := by cases k <;> first | exact id | exact absurd hk (by decide)
  have hi : newI (abs s) k v = v := by cases k <;> first | rfl | exact absurd hk (by decide)
  have h1 : ∀ n, operand k (fr s 1 n v) = _ := fun n => operand_ok k s n v hd
  rw [hi] at h1
  cases k <;> first | exact h1 _ | exact absurd hk (by decide)

set_option maxHeartbeats 1000000 in
theorem exec_ok (i : Inst) (hw : wf i = true) (s : St) (t : Nat) (v : Byte) (hb : i ≠ .brk)
    (hd : ¬ Isa.Differs (abs s) (insOf i)) :
    abs (exec i (fr s 1 t v)) = stepI (und (exec i (fr s 1 t v))) (abs s) (insOf i) := by
  have hp : ∀ n t v, (fr s n t v).p = s.p := fun _ _ _ => rfl
  have ha : ∀ n t v, (fr s n t v).a = s.a := fun _ _ _ => rfl
  have one : abs (fr s 1 t v) = { abs s with pc := (abs s).pc + BitVec.ofNat 16 1 } := abs_fr ..
  cases i
  case brk => exact absurd rfl hb
  case nop => exact one
  case cli =>
    have k := clrI s.p
    show (abs (fr s 1 t v)).setStatus (s.p &&& ~~~flagI) = _
    unfold Isa.Mach.setStatus; rw [one]; simp only [k]; rfl
  case sei =>
    have k := orI s.p
    show (abs (fr s 1 t v)).setStatus (s.p ||| flagI) = _
    unfold Isa.Mach.setStatus; rw [one]; simp only [k]; rfl
  case clc =>
    have k := clrC s.p
    show (abs (fr s 1 t v)).setStatus (s.p &&& ~~~flagC) = _
    unfold Isa.Mach.setStatus; rw [one]; simp only [k]; rfl
  case sec =>
    have k := orC s.p
    show (abs (fr s 1 t v)).setStatus (s.p ||| flagC) = _
    unfold Isa.Mach.setStatus; rw [one]; simp only [k]; rfl
  case cld =>
    have k := clrD s.p
    show (abs (fr s 1 t v)).setStatus (s.p &&& ~~~flagD) = _
    unfold Isa.Mach.setStatus; rw [one]; simp only [k]; rfl
  case sed =>
    have k := orD s.p
    show (abs (fr s 1 t v)).setStatus (s.p ||| flagD) = _
    unfold Isa.Mach.setStatus; rw [one]; simp only [k]; rfl
  case clv =>
    have k := clrV s.p
    show (abs (fr s 1 t v)).setStatus (s.p &&& ~~~flagV) = _
    unfold Isa.Mach.setStatus; rw [one]; simp only [k]; rfl
  case php =>
    show abs (push (s.p ||| 0x20#8 ||| flagB) (fr s 1 t v)) = _
    rw [abs_push, one, status_true]; rfl
  case pha =>
    show abs (push s.a (fr s 1 t v)) = _
    rw [abs_push, one]; rfl
  case pla =>
    simp only [exec, pop_eq, abs_tick, abs_setNZ]
    show { abs (fr s 1 t v) with a := (abs s).pull 1, s := (abs s).s + 1 }.nz ((abs s).pull 1) = _
    rw [one]; rfl
  case plp =>
    simp only [exec, pop_eq, abs_tick]
    have k := clrB ((abs s).pull 1)
    show { (abs (fr s 1 t v)).setStatus ((abs s).pull 1 &&& ~~~(0x20#8 ||| flagB)) with s := (abs s).s + 1 } = _
    unfold Isa.Mach.setStatus; rw [one]; simp only [k]; rfl
  case rti =>
    simp only [exec, pop_eq, popAddr_eq, abs_tick]
    have k := clrB ((abs s).pull 1)
    show { (abs (fr s 1 t v)).setStatus ((abs s).pull 1 &&& ~~~(0x20#8 ||| flagB)) with
      s := s.sp + 1 + 2, pc := BitVec.ofNat 16 (s.mem (1#8 ++ (s.sp + 1 + 2)) ++ s.mem (1#8 ++ (s.sp + 1 + 1)) : Word).toNat } = _
    unfold Isa.Mach.setStatus; rw [one, sp3, sp2]; simp only [k, toNat_pc]; rfl
  case rts =>
    simp only [exec, popAddr_eq, abs_tick]
    show { abs (fr s 1 t v) with s := (abs s).s + 2, pc := BitVec.ofNat 16 ((s.mem (1#8 ++ (s.sp + 2)) ++ s.mem (1#8 ++ (s.sp + 1)) : Word).toNat + 1) } = _
    rw [one]
    have e : ∀ w : Word, BitVec.ofNat 16 (w.toNat + 1) = w + 1 := fun w => by
      apply BitVec.eq_of_toNat_eq; simp [BitVec.toNat_add]
    rw [e]; rfl
  case dey =>
    simp only [exec, abs_tick, abs_setNZ]
    show { abs (fr s 1 t v) with y := s.y - 1 }.nz (s.y - 1) = _
    rw [one]; rfl
  case dex =>
    simp only [exec, abs_tick, abs_setNZ]
    show { abs (fr s 1 t v) with x := s.x - 1 }.nz (s.x - 1) = _
    rw [one]; rfl
  case iny =>
    simp only [exec, abs_tick, abs_setNZ]
    show { abs (fr s 1 t v) with y := s.y + 1 }.nz (s.y + 1) = _
    rw [one]; rfl
  case inx =>
    simp only [exec, abs_tick, abs_setNZ]
    show { abs (fr s 1 t v) with x := s.x + 1 }.nz (s.x + 1) = _
    rw [one]; rfl
  case tya =>
    simp only [exec, abs_tick, abs_transNZ]
    show { abs (fr s 1 t v) with a := s.y }.nz s.y = _
    rw [one]; rfl
  case tay =>
    simp only [exec, abs_tick, abs_transNZ]
    show { abs (fr s 1 t v) with y := s.a }.nz s.a = _
    rw [one]; rfl
  case txa =>
    simp only [exec, abs_tick, abs_transNZ]
    show { abs (fr s 1 t v) with a := s.x }.nz s.x = _
    rw [one]; rfl
  case tax =>
    simp only [exec, abs_tick, abs_transNZ]
    show { abs (fr s 1 t v) with x := s.a }.nz s.a = _
    rw [one]; rfl
  case tsx =>
    simp only [exec, abs_tick, abs_transNZ]
    show { abs (fr s 1 t v) with x := s.sp }.nz s.sp = _
    rw [one]; rfl
  case txs =>
    show { abs (fr s 1 t v) with s := s.x } = _
    rw [one]; rfl
  case ora m =>
    have hd : ¬ (conv m).Differs (abs s) := hd
    simp only [exec, operand_ok m s t v hd, rdRef_ok, abs_setNZ, ha]
    show { abs (fr s (conv m).length _ _) with a := s.a ||| (abs s).operand (conv m) }.nz (s.a ||| (abs s).operand (conv m)) = _
    rw [abs_fr]; rfl
  case and m =>
    have hd : ¬ (conv m).Differs (abs s) := hd
    simp only [exec, operand_ok m s t v hd, rdRef_ok, abs_setNZ, ha]
    show { abs (fr s (conv m).length _ _) with a := s.a &&& (abs s).operand (conv m) }.nz (s.a &&& (abs s).operand (conv m)) = _
    rw [abs_fr]; rfl
  case eor m =>
    have hd : ¬ (conv m).Differs (abs s) := hd
    simp only [exec, operand_ok m s t v hd, rdRef_ok, abs_setNZ, ha]
    show { abs (fr s (conv m).length _ _) with a := s.a ^^^ (abs s).operand (conv m) }.nz (s.a ^^^ (abs s).operand (conv m)) = _
    rw [abs_fr]; rfl
  case lda m =>
    have hd : ¬ (conv m).Differs (abs s) := hd
    simp only [exec, operand_ok m s t v hd, rdRef_ok, abs_setNZ]
    show { abs (fr s (conv m).length _ _) with a := (abs s).operand (conv m) }.nz ((abs s).operand (conv m)) = _
    rw [abs_fr]; rfl
  case ld r m =>
    have hd : ¬ (conv m).Differs (abs s) := hd
    simp only [exec, operand_ok m s t v hd, rdRef_ok, abs_setNZ]
    have e : ∀ q : St, ∀ b, abs (setReg q r b) = (abs q).setReg (creg r) b := fun q b => by cases r <;> rfl
    rw [e, abs_fr]
    cases r <;> rfl
  case adc m =>
    have hd1 : ¬ (conv m).Differs (abs s) := fun h => hd (Or.inl h)
    have hd2 : (abs s).decimal ((abs s).operand (conv m)) := Classical.byContradiction fun h => hd (Or.inr h)
    simp only [exec, operand_ok m s t v hd1, rdRef_ok]
    have hd3 : ∀ n t v, (abs (fr s n t v)).decimal ((abs s).operand (conv m)) := fun _ _ _ => hd2
    rw [abs_adc _ _ (hd3 _ _ _), abs_fr, adc_pc]; rfl
  case sbc m =>
    have hd1 : ¬ (conv m).Differs (abs s) := fun h => hd (Or.inl h)
    have hd2 : (abs s).decimal ((abs s).operand (conv m)) := Classical.byContradiction fun h => hd (Or.inr h)
    simp only [exec, operand_ok m s t v hd1, rdRef_ok]
    have hd3 : ∀ n t v, (abs (fr s n t v)).decimal ((abs s).operand (conv m)) := fun _ _ _ => hd2
    rw [abs_sbc _ _ (hd3 _ _ _), abs_fr, sbc_pc]; rfl
  case cmp r m =>
    have hd : ¬ (conv m).Differs (abs s) := hd
    simp only [exec, operand_ok m s t v hd, rdRef_ok, abs_cmp, reg_fr, abs_fr]
    rfl
  case bit m =>
    have hd : ¬ (conv m).Differs (abs s) := by cases m <;> first | exact id | exact absurd hw (by decide)
    simp only [exec, operand_ok m s t v hd, rdRef_ok, abs_bit, ha, abs_fr]
    rfl
  case sta c m =>
    have hd : ¬ (conv m).Differs (abs s) := hd
    have hm : m ≠ .imm := by rintro rfl; exact absurd hw (by simp [wf])
    simp only [exec, tick_fr, operand_ok m s _ v hd, wrRef_ok m hm, ha]
    show { abs (fr s (conv m).length _ _) with mem := fun x => if x = (abs s).ea (conv m) then s.a else s.mem x } = _
    rw [abs_fr]
    cases m <;> first | exact absurd rfl hm | rfl
  case st r m =>
    have hd : ¬ (conv m).Differs (abs s) := hd
    have hm : m ≠ .imm := by rintro rfl; exact absurd hw (by simp [wf])
    simp only [exec, operand_ok m s _ v hd, wrRef_ok m hm, reg_fr]
    show { abs (fr s (conv m).length _ _) with mem := fun x => if x = (abs s).ea (conv m) then (abs s).reg (creg r) else s.mem x } = _
    rw [abs_fr]
    cases m <;> first | exact absurd rfl hm | rfl
  case rmw o m =>
    have hm : m ≠ .imm := by rintro rfl; exact absurd hw (by simp [wf])
    have hw' : wf (.rmw .inc m) = true := hw
    have hi : newI (abs s) m v = v := by unfold newI; rw [if_neg hm]
    have hr : ∀ n t, rdRef (fr s n t v) (ref (abs s) m) = (abs s).operand (conv m) := fun n t => by
      have := rdRef_ok m s n t v
      rw [hi] at this; exact this
    simp only [exec, rmwOperand_ok m s t v hw', hr, wrRef_ok m hm, rmw_val, hp]
    have e := rmw_flags o ((abs s).operand (conv m)) { fr s (conv m).length (t + (if m = .absX then 3 else 2) + opClk (abs s) m) v with
      mem := fun x => if x = (abs s).ea (conv m) then rmwVal o (s.p.getLsbD 0) ((abs s).operand (conv m)) else s.mem x }
    simp only [hp] at e
    rw [e]
    show { { abs (fr s (conv m).length _ _) with mem := fun x => if x = (abs s).ea (conv m) then rmwVal o (abs s).c ((abs s).operand (conv m)) else s.mem x }
      with c := rmwC o (abs s).c ((abs s).operand (conv m)) }.nz (rmwVal o (abs s).c ((abs s).operand (conv m))) = _
    rw [abs_fr]
    cases o <;> cases m <;> first | exact absurd hw (by decide) | rfl
  case rmwA o =>
    simp only [exec, abs_tick, hp, ha, rmw_val]
    have e := rmw_flags o s.a { fr s 1 t v with a := rmwVal o (s.p.getLsbD 0) s.a }
    simp only [hp] at e
    rw [e]
    show { { abs (fr s 1 t v) with a := rmwVal o (abs s).c s.a } with c := rmwC o (abs s).c s.a }.nz (rmwVal o (abs s).c s.a) = _
    rw [one]
    cases o <;> rfl
  case jmpA =>
    simp only [exec, i16_fr, abs_tick]
    show { abs (fr s 3 t v) with pc := BitVec.ofNat 16 (abs s).opw.toNat } = _
    rw [abs_fr, toNat_pc]; rfl
  case jmpI =>
    have hd : (abs s).op1 ≠ 0xff#8 := hd
    simp only [exec, i16_fr, abs_tick]
    have e : readAddr (fr s 3 t v) (abs s).opw.toNat = ((abs s).mem ((abs s).op2 ++ ((abs s).op1 + 1)) ++ (abs s).mem (abs s).opw : Word).toNat := by
      unfold readAddr
      rw [rd_word]
      have h2 : (abs s).opw.toNat + 1 = ((abs s).op2 ++ ((abs s).op1 + 1) : Word).toNat := by
        unfold Isa.Mach.opw
        rw [← of_eq, ← of_eq, BitVec.toNat_add]
        have := (abs s).op1.isLt
        have : (abs s).op1.toNat ≠ 255 := fun e => hd (BitVec.eq_of_toNat_eq e)
        have h1 : (1 : BitVec 8).toNat = 1 := rfl
        rw [h1]; omega
      rw [h2, rd_word, of_eq]; rfl
    rw [e]
    show { abs (fr s 3 t v) with pc := BitVec.ofNat 16 (((abs s).mem ((abs s).op2 ++ ((abs s).op1 + 1)) ++ (abs s).mem (abs s).opw : Word).toNat) } = _
    rw [abs_fr, toNat_pc]; rfl
  case jsr =>
    simp only [exec, fetch_fr]
    have e : ((s.mem ((abs s).pc + BitVec.ofNat 16 1)).toNat + (s.mem ((abs s).pc + BitVec.ofNat 16 2)).toNat * 256) % 0x10000 = (abs s).opw.toNat := by
      have k := of_eq (s.mem ((abs s).pc + BitVec.ofNat 16 2)) (s.mem ((abs s).pc + BitVec.ofNat 16 1))
      have l : (s.mem ((abs s).pc + BitVec.ofNat 16 2) ++ s.mem ((abs s).pc + BitVec.ofNat 16 1) : Word) = (abs s).opw := rfl
      rw [l] at k
      have := (abs s).opw.isLt
      omega
    show { abs (pushAddr (fr s (1 + 1) t v).pc (fr s (1 + 1 + 1) t v)) with pc := BitVec.ofNat 16 (((s.mem ((abs s).pc + BitVec.ofNat 16 1)).toNat +
      (s.mem ((abs s).pc + BitVec.ofNat 16 2)).toNat * 256) % 0x10000) } = _
    rw [e, toNat_pc, abs_pushAddr, fr_pc, toNat_pc, abs_fr]; rfl
  case branch g b =>
    have hf : ((s.p &&& g != 0#8) == b) = decide ((abs s).flag (flagOf g) = b) := flag_ok s g b hw
    simp only [exec, hp, hf, branch, fetch_fr, abs_tick]
    by_cases h : (abs s).flag (flagOf g) = b
    · simp only [h, decide_true, if_true, abs_tick]
      have e := rel_ok s (abs s).op1 2 t v
      have e2 : (s.mem ((abs s).pc + BitVec.ofNat 16 1)) = (abs s).op1 := rfl
      rw [e2, e]
      have k : ∀ q : St, ∀ w : Word, abs { q with pc := w.toNat } = { abs q with pc := w } := fun q w => by
        show { abs q with pc := BitVec.ofNat 16 w.toNat } = _
        rw [toNat_pc]
      have k2 : ∀ a1 a2, abs (cross a1 a2 (fr s (1 + 1) t v)) = abs (fr s 2 t v) := fun a1 a2 => by
        unfold cross; split <;> rfl
      rw [k, k2, abs_fr]
      simp only [insOf, stepI, if_pos h]; rfl
    · simp only [h, decide_false, Bool.false_eq_true, if_false]
      simp only [insOf, stepI, if_neg h]; rw [abs_fr]; rfl

end Ucsim.M65
