import Verif.Proof.I80Exec

namespace Ucsim.I80
open Isa (Differs)

/-! ### The manual's machine: AC is used by DAA and PUSH PSW only -/

theorem na_reg (m : Isa.Mach) (c : Bool) (r : BitVec 3) : ({ m with ac := c } : Isa.Mach).reg r = m.reg r := by
  unfold Isa.Mach.reg; split <;> rfl
theorem na_rp (m : Isa.Mach) (c : Bool) (r : BitVec 2) : ({ m with ac := c } : Isa.Mach).rp r = m.rp r := by
  unfold Isa.Mach.rp; split <;> rfl
theorem na_cond (m : Isa.Mach) (c : Bool) (r : BitVec 3) : ({ m with ac := c } : Isa.Mach).cond r = m.cond r := by
  unfold Isa.Mach.cond; split <;> rfl
theorem na_setReg (m : Isa.Mach) (c : Bool) (r : BitVec 3) (v : Byte) :
    ({ m with ac := c } : Isa.Mach).setReg r v = { m.setReg r v with ac := c } := by
  unfold Isa.Mach.setReg; split <;> rfl
theorem na_setRp (m : Isa.Mach) (c : Bool) (r : BitVec 2) (v : Word) :
    ({ m with ac := c } : Isa.Mach).setRp r v = { m.setRp r v with ac := c } := by
  unfold Isa.Mach.setRp; split <;> rfl
theorem na_alu (m : Isa.Mach) (c : Bool) (b : Bool) (o : BitVec 3) (v : Byte) :
    (({ m with ac := c } : Isa.Mach).alu b o v).noAc = (m.alu b o v).noAc := by
  unfold Isa.Mach.alu; split <;> rfl

theorem psw_ac (m : Isa.Mach) (c : Bool) (x : Byte) : ({ m with ac := c } : Isa.Mach).psw 0x3a#8 x = m.psw 0x3a#8 x := by
  have : ∀ (c d : Bool) (a b p e : Byte), ((a ||| b ||| Isa.bitAt c 4 ||| p ||| e) &&& ~~~0x3a#8) = ((a ||| b ||| Isa.bitAt d 4 ||| p ||| e) &&& ~~~0x3a#8) := by
    intro c d a b p e
    have z : ∀ c, Isa.bitAt c 4 &&& ~~~0x3a#8 = 0#8 := by decide
    have g : ∀ x y k : Byte, (x ||| y) &&& k = (x &&& k) ||| (y &&& k) := by intro x y k; ext i; simp [Bool.and_or_distrib_right]
    simp only [g, z]
  unfold Isa.Mach.psw
  rw [this c m.ac]

theorem exec_ac (b : Bool) (x : Byte) (i : Isa.Ins) (m : Isa.Mach) (c : Bool) (hi : i ≠ .daa) :
    (Isa.exec b 0x3a#8 x i { m with ac := c }).noAc = (Isa.exec b 0x3a#8 x i m).noAc := by
  cases i
  case daa => exact absurd rfl hi
  case mov d s => simp only [Isa.exec, na_reg, na_setReg]; rfl
  case mvi d => simp only [Isa.exec, na_setReg]; rfl
  case lxi d => simp only [Isa.exec, na_setRp]; rfl
  case lhld => simp only [Isa.exec, na_setRp]; rfl
  case xthl => rfl
  case ldax d => simp only [Isa.exec, na_rp]; rfl
  case stax d => simp only [Isa.exec, na_rp]; rfl
  case push p => simp only [Isa.exec, na_rp]; rfl
  case pushPsw => simp only [Isa.exec, psw_ac]; rfl
  case pop p =>
    have k := na_setRp m.drop c p m.top
    exact (congrArg (fun x => (Isa.Mach.next x 1).noAc) k).trans rfl
  case alu o s =>
    have k := na_alu m c b o (m.reg s)
    simp only [Isa.exec, na_reg]
    exact congrArg (·.next 1) k
  case alui o =>
    have k := na_alu m c b o m.imm8
    simp only [Isa.exec]
    exact congrArg (·.next 2) k
  case dad p => simp only [Isa.exec, na_rp]; rfl
  case inr r => simp only [Isa.exec, Isa.Mach.inr, na_reg, na_setReg]; rfl
  case dcr r => simp only [Isa.exec, Isa.Mach.dcr, na_reg, na_setReg]; rfl
  case inx p => simp only [Isa.exec, na_rp, na_setRp]; rfl
  case dcx p => simp only [Isa.exec, na_rp, na_setRp]; rfl
  case jcc k => simp only [Isa.exec, na_cond]; split <;> rfl
  case ccc k => simp only [Isa.exec, na_cond]; split <;> rfl
  case rcc k => simp only [Isa.exec, na_cond]; split <;> rfl
  all_goals rfl

theorem step_ac (b : Bool) (x : Byte) (m m' : Isa.Mach) (e : m.noAc = m'.noAc) (hi : Isa.decode (m'.mem m'.pc) ≠ .daa) :
    (Isa.step b 0x3a#8 x m).noAc = (Isa.step b 0x3a#8 x m').noAc := by
  have k : m = { m' with ac := m.ac } := by
    have e1 : m = { m.noAc with ac := m.ac } := rfl
    rw [e1, e]; rfl
  rw [k]
  exact exec_ac b x _ m' m.ac hi

/-! ### The simulator -/

/-- What the body does for an accumulator operation. -/
def aluSim (cpu : Cpu) (o : BitVec 3) (v : Byte) (s : St) : St :=
  match o.toNat with
  | 0 => add8 cpu v false false s | 1 => add8 cpu v true false s
  | 2 => sub8 cpu v false false s | 3 => sub8 cpu v true false s
  | 4 => ana cpu v s | 5 => xra cpu v s | 6 => ora cpu v s | _ => sub8 cpu v false true s

theorem exec_alu (cpu : Cpu) (op : Byte) (i : Inst) (o r : BitVec 3) (s : St) (t : Int) (h : conv op i = some (.alu o r)) :
    exec cpu op i (fetched s t) = aluSim cpu o ((abs s).reg r) (fetched s t) := by
  cases i <;> simp only [conv, Option.some.injEq, reduceCtorEq] at h
  case add8 x c =>
    cases x <;> simp only [conv, Option.some.injEq, reduceCtorEq] at h
    cases h; cases c <;> simp only [exec, src, get8_eq, abs_fetched, nx_reg] <;> rfl
  case sub8 x c k =>
    cases x <;> cases c <;> cases k <;> simp only [conv, Option.some.injEq, reduceCtorEq] at h <;> cases h <;>
      simp only [exec, src, get8_eq, abs_fetched, nx_reg] <;> rfl
  case ana x =>
    cases x <;> simp only [conv, Option.some.injEq, reduceCtorEq] at h
    cases h; simp only [exec, src, get8_eq, abs_fetched, nx_reg]; rfl
  case ora x =>
    cases x <;> simp only [conv, Option.some.injEq, reduceCtorEq] at h
    cases h; simp only [exec, src, get8_eq, abs_fetched, nx_reg]; rfl
  case xra x =>
    cases x <;> simp only [conv, Option.some.injEq, reduceCtorEq] at h
    cases h; simp only [exec, src, get8_eq, abs_fetched, nx_reg]; rfl
  all_goals
    obtain ⟨c, _, hc⟩ := Option.map_eq_some_iff.mp h
    cases hc

theorem exec_alui (cpu : Cpu) (op : Byte) (i : Inst) (o : BitVec 3) (s : St) (t : Int) (h : conv op i = some (.alui o)) :
    exec cpu op i (fetched s t) = aluSim cpu o (abs s).imm8 { fetched s t with pc := s.pc + 2 } := by
  cases i <;> simp only [conv, Option.some.injEq, reduceCtorEq] at h
  case add8 x c =>
    cases x <;> simp only [conv, Option.some.injEq, reduceCtorEq] at h
    cases h; cases c <;> simp only [exec, src, fetch_fetched] <;> rfl
  case sub8 x c k =>
    cases x <;> cases c <;> cases k <;> simp only [conv, Option.some.injEq, reduceCtorEq] at h <;> cases h <;>
      simp only [exec, src, fetch_fetched] <;> rfl
  case ana x =>
    cases x <;> simp only [conv, Option.some.injEq, reduceCtorEq] at h
    cases h; simp only [exec, src, fetch_fetched]; rfl
  case ora x =>
    cases x <;> simp only [conv, Option.some.injEq, reduceCtorEq] at h
    cases h; simp only [exec, src, fetch_fetched]; rfl
  case xra x =>
    cases x <;> simp only [conv, Option.some.injEq, reduceCtorEq] at h
    cases h; simp only [exec, src, fetch_fetched]; rfl
  all_goals
    obtain ⟨c, _, hc⟩ := Option.map_eq_some_iff.mp h
    cases hc

theorem adc_na (cpu : Cpu) (op : Byte) (s : St) (h : ¬ (s.f.getLsbD 0 = true ∧ op = 0xff#8)) :
    (abs (add8 cpu op true false s)).noAc = ((abs s).add op (abs s).cy).noAc := by
  by_cases hc : s.f.getLsbD 0 = true
  · have hop := op.isLt
    have hne : op.toNat ≠ 255 := fun e => h ⟨hc, BitVec.eq_of_toNat_eq (by simpa using e)⟩
    have e : (op + 1).toNat = op.toNat + 1 := by
      rw [BitVec.toNat_add]; simp; omega
    have k : abs (add8 cpu op true false s) = abs (add8 cpu (op + 1) false false s) := by
      unfold add8; simp only [(flag_ne s.f).1, hc, Bool.true_and, Bool.false_and, if_true, Bool.false_eq_true, if_false]
    rw [k, abs_add8]
    have hcy : (abs s).cy = true := hc
    simp only [Isa.Mach.add, e, hcy, Bool.toNat_true, Bool.toNat_false, Nat.add_zero, ← Nat.add_assoc]; rfl
  · rw [abs_adc8 _ _ _ (fun k => absurd k hc)]

theorem sub_na (cpu : Cpu) (op : Byte) (s : St) : (abs (sub8 cpu op false false s)).noAc = ((abs s).sub op false).noAc := by
  have hop := op.isLt
  have ha := s.a.isLt
  have hlt : s.a.toNat + (256 - op.toNat) % 256 < 512 := by omega
  have hd := diff_eq s.a op 0 (by omega)
  rw [Nat.add_zero, Nat.mod_eq_of_lt hop] at hd
  unfold sub8
  simp only [Bool.false_and, Bool.false_eq_true, if_false, abs_setF, orIf_bit, fbits, maskAll, neg_toNat, res80 _ hlt, parity_ok, zero_ok, and15, hd]
  simp [Isa.Mach.sub, Isa.Mach.zsp, abs, Isa.Mach.noAc]

theorem sbb_na (cpu : Cpu) (op : Byte) (s : St) (h : ¬ (s.f.getLsbD 0 = true ∧ s.a = op)) :
    (abs (sub8 cpu op true false s)).noAc = ((abs s).sub op (abs s).cy).noAc := by
  by_cases hc : s.f.getLsbD 0 = true
  · rw [abs_sbb8 _ _ _ (by rw [if_pos hc]; exact fun e => h ⟨hc, e⟩)]
  · have hc : s.f.getLsbD 0 = false := by simpa using hc
    have hcy : (abs s).cy = false := hc
    have k : abs (sub8 cpu op true false s) = abs (sub8 cpu op false false s) := by
      unfold sub8; simp only [(flag_ne s.f).1, hc, Bool.true_and, Bool.false_and, Bool.false_eq_true, if_false]
    rw [k, sub_na, hcy]

theorem cmp_na (cpu : Cpu) (op : Byte) (s : St) : (abs (sub8 cpu op false true s)).noAc = ((abs s).cmp op).noAc := by
  have k : abs (sub8 cpu op false true s) = { abs (sub8 cpu op false false s) with a := s.a } := by
    unfold sub8
    simp only [Bool.false_and, Bool.false_eq_true, if_false, abs_setF, if_true]
    rfl
  have g : (abs (sub8 cpu op false true s)).noAc = { (abs (sub8 cpu op false false s)).noAc with a := s.a } := by rw [k]; rfl
  rw [g, sub_na]; rfl

theorem ana_na (cpu : Cpu) (op : Byte) (s : St) (b : Bool) : (abs (ana cpu op s)).noAc = ((abs s).ana b op).noAc := by
  have k := orA s.f
  unfold ana
  rw [abs_logic _ _ _ _ ⟨k.1, k.2.1, k.2.2.1, k.2.2.2.1⟩]; rfl

theorem alu_na (cpu : Cpu) (s : St) (v : Byte) (o : BitVec 3) (w : Word) (m : Isa.Mach) (b : Bool) (e : abs s = m.next w)
    (hd : ¬ Isa.aluWrong m o v) : (abs (aluSim cpu o v s)).noAc = ((m.alu b o v).next w).noAc := by
  have ca : s.a = m.a := congrArg Isa.Mach.a e
  have cc : s.f.getLsbD 0 = m.cy := congrArg Isa.Mach.cy e
  have ho : o = 0 ∨ o = 1 ∨ o = 2 ∨ o = 3 ∨ o = 4 ∨ o = 5 ∨ o = 6 ∨ o = 7 := by clear hd; revert o; decide
  rcases ho with h | h | h | h | h | h | h | h <;> subst h
  · show (abs (add8 cpu v false false s)).noAc = _
    rw [abs_add8, e]; rfl
  · have hd : ¬ (m.cy = true ∧ v = 0xff#8) := hd
    show (abs (add8 cpu v true false s)).noAc = _
    rw [adc_na _ _ _ (by rw [cc]; exact hd), e]; rfl
  · show (abs (sub8 cpu v false false s)).noAc = _
    rw [sub_na, e]; rfl
  · have hd : ¬ (m.cy = true ∧ m.a = v) := hd
    show (abs (sub8 cpu v true false s)).noAc = _
    rw [sbb_na _ _ _ (by rw [cc, ca]; exact hd), e]; rfl
  · show (abs (ana cpu v s)).noAc = _
    rw [ana_na _ _ _ b, e]; rfl
  · show (abs (xra cpu v s)).noAc = _
    rw [abs_xra, e]; rfl
  · show (abs (ora cpu v s)).noAc = _
    rw [abs_ora, e]; rfl
  · show (abs (sub8 cpu v false true s)).noAc = _
    rw [cmp_na, e]; rfl

theorem psw_eq3 (s : St) : (abs s).psw 0x3a#8 s.f = s.f := by
  have : ∀ f : Byte, ((Isa.bitAt (f.getLsbD 7) 7 ||| Isa.bitAt (f.getLsbD 6) 6 ||| Isa.bitAt (f.getLsbD 4) 4 ||| Isa.bitAt (f.getLsbD 2) 2 |||
      Isa.bitAt (f.getLsbD 0) 0) &&& ~~~0x3a#8) ||| (f &&& 0x3a#8) = f := by decide +kernel
  exact this s.f

theorem exec_u (b : Bool) (i : Isa.Ins) (s : St) : Isa.exec b 0x2a#8 s.f i (abs s) = Isa.exec b 0x3a#8 s.f i (abs s) := by
  cases i
  case pushPsw => simp only [Isa.exec, psw_eq, psw_eq3]
  all_goals rfl

/-- One instruction, AC left out. -/
theorem step_na (cpu : Cpu) (s : St) (hd : ¬ Isa.Wrong (abs s) (Isa.decode (s.mem s.pc))) :
    (abs (step cpu s).2).noAc = (Isa.step (cpu == .i8085) 0x3a#8 s.f (abs s)).noAc := by
  by_cases hx : Differs (cpu == .i8085) (abs s) (Isa.decode (s.mem s.pc))
  · have hne : Isa.decode (s.mem s.pc) ≠ .other := fun e => by rw [e] at hd; exact hd trivial
    have hi := (itab_ok cpu (s.mem s.pc)).resolve_left hne
    obtain ⟨i, h1, h2⟩ := Option.bind_eq_some_iff.mp hi
    have k : abs (step cpu s).2 = abs (exec cpu (s.mem s.pc) i (fetched s (s.ticks + 1))) := by
      unfold step
      simp only [fetch_eq, h1, abs_ticks]; rfl
    rw [k]
    show _ = (Isa.exec (cpu == .i8085) 0x3a#8 s.f (Isa.decode (s.mem s.pc)) (abs s)).noAc
    generalize hins : Isa.decode (s.mem s.pc) = ins at hd hx h2
    cases ins <;> first | exact False.elim hx | exact absurd hx hd | exact absurd trivial hd | skip
    case alu o r =>
      rw [exec_alu cpu _ i o r s _ h2]
      exact alu_na cpu (fetched s _) _ o 1 (abs s) _ rfl hd
    case alui o =>
      rw [exec_alui cpu _ i o s _ h2]
      exact alu_na cpu { fetched s _ with pc := s.pc + 2 } _ o 2 (abs s) _ rfl hd
  · rw [step_ok cpu s hx]
    unfold Isa.step
    exact congrArg _ (exec_u _ _ s)

end Ucsim.I80
