import Verif.Props.M65

/-
C69: interrupts of the 6502.
-/
namespace Ucsim.M65

/-- The state in which the end of the instruction looks for interrupts. -/
def after (s : St) : St := (execInst s).2

/-- An instruction other than BRK, requests left out. -/
theorem after_ok (s : St) (hpc : s.pc < 0x10000) (hd : ¬ Isa.Differs (abs s) (here s)) (hb : here s ≠ .brk) :
    (step s).2 = doInterrupt (after s) ∧ abs (after s) = Isa.step (und (after s)) (abs s) ∧
    (after s).irq = s.irq ∧ (after s).nmi = s.nmi ∧ (after s).brk = s.brk ∧ (after s).setB = false ∧
    (after s).levels = (if here s = .rti then s.levels.drop 1 else s.levels) ∧
    (s.p.getLsbD 4 = false → (after s).p.getLsbD 4 = false) := by
  cases h : table.getD (s.mem (abs s).pc).toNat none with
  | none =>
    have := decode_none _ h
    have e : here s = .other := this
    rw [e] at hd
    exact absurd trivial hd
  | some i =>
    obtain ⟨h1, h2⟩ := decode_ok _ _ h
    have e : here s = insOf i := h1
    have ha : after s = exec i (fr s 1 (s.ticks + 1) s.i8d) := by
      unfold after; rw [execInst_fr s hpc, h]
    rw [e] at hd hb ⊢
    have hb : i ≠ .brk := fun k => by subst k; exact hb rfl
    refine ⟨by rw [step_of s hpc i h, ha], ?_, ?_⟩
    · rw [step_stepI, ha, show Isa.decode ((abs s).mem (abs s).pc) = insOf i from h1]
      exact exec_ok i h2 s _ _ hb hd
    · rw [ha]
      have hB : s.p.getLsbD 4 = false → (exec i (fr s 1 (s.ticks + 1) s.i8d)).p.getLsbD 4 = false := fun k => exec_b i hb _ k
      by_cases hr : i = .rti
      · subst hr
        exact ⟨rfl, rfl, rfl, rfl, rfl, hB⟩
      · have k := exec_side i hb hr (fr s 1 (s.ticks + 1) s.i8d)
        simp only [side, Prod.mk.injEq] at k
        obtain ⟨k1, k2, k3, k4, k5⟩ := k
        have hne : insOf i ≠ .rti := by
          cases i <;> (try rename_i o m; cases o <;> simp [insOf, rmwIns]) <;> (try rename_i o; cases o <;> simp [insOf, rmwIns]) <;> simp_all [insOf]
        rw [if_neg hne]
        exact ⟨k1, k2, k3, k4, k5, hB⟩

theorem int_nmi (s : St) (h1 : s.brk = false) (h2 : s.nmi = true) (hl : level s < 1) : doInterrupt s = accept .nmi s := by
  unfold doInterrupt sources
  simp [wants, h1, h2, Src.level, hl]

theorem int_irq (s : St) (h1 : s.brk = false) (h2 : s.nmi = false) (h3 : s.irq = true) (hl : level s < 3) :
    doInterrupt s = if (abs s).i then s else accept .irq s := by
  have k := (flag_ne s.p).2.2.1
  have e : (s.p &&& flagI == 0#8) = !(abs s).i := by
    show _ = !s.p.getLsbD 2
    rw [← k]; simp [bne]
  unfold doInterrupt sources
  cases hi : (abs s).i
  · rw [hi] at e
    simp [wants, h1, h2, h3, Src.level, hl, e]
  · rw [hi] at e
    simp [wants, h1, h2, e]

theorem int_low (s : St) (h1 : s.brk = false) (hl : 3 ≤ level s) : doInterrupt s = s := by
  unfold doInterrupt sources
  have n1 : ¬ level s < 1 := by omega
  have n2 : ¬ level s < 3 := by omega
  simp [wants, h1, Src.level, n1, n2]

/-! ### What is right -/

/-- **C69**, IRQ: requested, with no service in progress after the instruction, it is taken iff I
is clear then: PC and status (B clear) are pushed, I is set, PC comes from FFFE; seven clocks. -/
theorem c69_irq_partial (s : St) (hpc : s.pc < 0x10000) (hd : ¬ Isa.Differs (abs s) (here s)) (hb : here s ≠ .brk)
    (hB : s.p.getLsbD 4 = false) (h1 : s.irq = true) (h2 : s.nmi = false) (h3 : s.brk = false)
    (hl : s.levels = [] ∨ here s = .rti ∧ s.levels.length = 1) :
    ∃ u, let m := Isa.step u (abs s)
      abs (step s).2 = (if m.i then m else m.interrupt false 0xfffe) ∧
      (step s).2.ticks = (after s).ticks + (if m.i then 0 else 7) ∧
      (step s).2.levels = (if m.i then [] else [3]) ∧ (step s).2.pc = (abs (step s).2).pc.toNat ∧ (step s).2.p.getLsbD 4 = false := by
  obtain ⟨a1, a2, a3, a4, a5, a6, a7, a8⟩ := after_ok s hpc hd hb
  have hlev : (after s).levels = [] := by
    rw [a7]
    rcases hl with e | ⟨e, e2⟩
    · rw [e]; split <;> rfl
    · rw [if_pos e]
      match s.levels, e2 with
      | [_], _ => rfl
  have hl0 : level (after s) < 3 := by unfold level; rw [hlev]; decide
  have hBa := a8 hB
  have hpca : (after s).pc < 0x10000 := by
    cases h : table.getD (s.mem (abs s).pc).toNat none with
    | none =>
      have e : here s = .other := decode_none _ h
      rw [e] at hd
      exact absurd trivial hd
    | some i =>
      have ha : after s = exec i (fr s 1 (s.ticks + 1) s.i8d) := by
        unfold after; rw [execInst_fr s hpc, h]
      have e : here s = insOf i := (decode_ok _ _ h).1
      rw [ha]
      refine exec_pc _ _ (Nat.mod_lt _ (by decide)) (fun hi h3 h4 => ?_)
      subst hi
      rw [e] at hd
      exact hd ⟨h3, h4⟩
  refine ⟨und (after s), ?_⟩
  dsimp only
  rw [a1, int_irq _ (a5.trans h3) (a4.trans h2) (a3.trans h1) hl0, ← a2]
  cases hi : (abs (after s)).i
  · simp only [Bool.false_eq_true, if_false]
    refine ⟨abs_accept .irq _ false (status_false _ hBa), accept_ticks .., ?_, ?_, accept_b _ _ (Or.inl hBa)⟩
    · rw [(accept_side .irq (after s)).2.2.2.1, hlev]; rfl
    · have := accept_pc .irq (after s)
      show _ = (BitVec.ofNat 16 (accept .irq (after s)).pc).toNat
      rw [BitVec.toNat_ofNat, Nat.mod_eq_of_lt this]
  · simp only [if_true]
    refine ⟨trivial, rfl, hlev, ?_, hBa⟩
    show _ = (BitVec.ofNat 16 (after s).pc).toNat
    rw [BitVec.toNat_ofNat, Nat.mod_eq_of_lt hpca]

/-- **C69**, NMI: requested, with no service in progress, it is taken whatever I is. -/
theorem c69_nmi_partial (s : St) (hpc : s.pc < 0x10000) (hd : ¬ Isa.Differs (abs s) (here s)) (hb : here s ≠ .brk)
    (hB : s.p.getLsbD 4 = false) (h2 : s.nmi = true) (h3 : s.brk = false)
    (hl : s.levels = [] ∨ here s = .rti ∧ s.levels.length = 1) :
    ∃ u, abs (step s).2 = (Isa.step u (abs s)).interrupt false 0xfffa ∧
      (step s).2.ticks = (after s).ticks + 7 ∧ (step s).2.levels = [1] := by
  obtain ⟨a1, a2, a3, a4, a5, a6, a7, a8⟩ := after_ok s hpc hd hb
  have hlev : (after s).levels = [] := by
    rw [a7]
    rcases hl with e | ⟨e, e2⟩
    · rw [e]; split <;> rfl
    · rw [if_pos e]
      match s.levels, e2 with
      | [_], _ => rfl
  have hl0 : level (after s) < 1 := by unfold level; rw [hlev]; decide
  have hBa := a8 hB
  refine ⟨und (after s), ?_⟩
  rw [a1, int_nmi _ (a5.trans h3) (a4.trans h2) hl0, ← a2]
  refine ⟨abs_accept .nmi _ false (status_false _ hBa), accept_ticks .., ?_⟩
  rw [(accept_side .nmi (after s)).2.2.2.1, hlev]; rfl

/-- **C69**, BRK: outside of BRK handlers, whatever else is requested: PC+2 and the status with B
set are pushed, I is set, PC comes from FFFE; B does not stay in the status. -/
theorem c69_brk_partial (s : St) (hpc : s.pc < 0x10000) (h : here s = .brk) (hl : level s < 4) :
    (∀ u, abs (step s).2 = Isa.step u (abs s)) ∧ (step s).2.p.getLsbD 4 = false ∧ (step s).2.levels = 4 :: s.levels ∧
    (step s).2.brk = false := by
  have ht : table.getD (s.mem (abs s).pc).toNat none = some .brk := by
    have : ∀ op : Byte, Isa.decode op = .brk → table.getD op.toNat none = some .brk := by decide +kernel
    exact this _ h
  rw [step_of s hpc .brk ht]
  have e := brk_accept (exec .brk (fr s 1 (s.ticks + 1) s.i8d)) rfl hl
  refine ⟨fun u => ?_, ?_, ?_, ?_⟩
  · rw [brk_ok s _ _ hl, step_stepI, show Isa.decode ((abs s).mem (abs s).pc) = .brk from h]; rfl
  · simp only [e]; exact accept_b _ _ (Or.inr rfl)
  · simp only [e]; exact (accept_side _ _).2.2.2.1
  · simp only [e]; exact (accept_side _ _).2.2.1

theorem sp_sub3 : ∀ x : Byte, x - 1 - 1 - 1 + 1 = x - 1 - 1 ∧ x - 1 - 1 - 1 + 2 = x - 1 ∧ x - 1 - 1 - 1 + 3 = x ∧
    x ≠ x - 1 ∧ x ≠ x - 1 - 1 ∧ x - 1 ≠ x - 1 - 1 := by decide +kernel

theorem page1 (x y : Byte) : ((1#8 ++ x : Word) = 1#8 ++ y) ↔ x = y := by
  constructor
  · intro h
    have := congrArg BitVec.toNat h
    rw [← of_eq, ← of_eq] at this
    apply BitVec.eq_of_toNat_eq; omega
  · rintro rfl; rfl

theorem word_split (w : Word) : (w.extractLsb' 8 8 ++ w.extractLsb' 0 8 : Word) = w := by
  apply BitVec.eq_of_toNat_eq
  rw [← of_eq]
  simp only [BitVec.extractLsb'_toNat, Nat.shiftRight_eq_div_pow]
  have := w.isLt
  omega

/-- What an interrupt leaves on the stack. -/
theorem pulls (m : Isa.Mach) (b : Bool) (v : Word) : (m.interrupt b v).pull 1 = m.status b ∧
    (m.interrupt b v).pull 3 ++ (m.interrupt b v).pull 2 = m.pc ∧ (m.interrupt b v).s + 3 = m.s := by
  obtain ⟨k1, k2, k3, k4, k5, k6⟩ := sp_sub3 m.s
  have e : ((m.pushw m.pc).push (m.status b)).s = m.s - 1 - 1 - 1 := rfl
  have hs : ∀ w : Word, ∀ b' : Bool, (m.pushw w).status b' = m.status b' := fun _ _ => rfl
  refine ⟨?_, ?_, k3⟩
  · show (if (1#8 ++ (m.s - 1 - 1 - 1 + 1) : Word) = 1#8 ++ (m.s - 1 - 1) then m.status b else _) = _
    rw [k1, if_pos rfl]
  · have h3 : (m.interrupt b v).pull 3 = m.pc.extractLsb' 8 8 := by
      show (if (1#8 ++ (m.s - 1 - 1 - 1 + 3) : Word) = 1#8 ++ (m.s - 1 - 1) then m.status b else
        if (1#8 ++ (m.s - 1 - 1 - 1 + 3) : Word) = 1#8 ++ (m.s - 1) then m.pc.extractLsb' 0 8 else
        if (1#8 ++ (m.s - 1 - 1 - 1 + 3) : Word) = 1#8 ++ m.s then m.pc.extractLsb' 8 8 else _) = _
      simp only [k3, page1]
      rw [if_neg k5, if_neg k4, if_pos trivial]
    have h2 : (m.interrupt b v).pull 2 = m.pc.extractLsb' 0 8 := by
      show (if (1#8 ++ (m.s - 1 - 1 - 1 + 2) : Word) = 1#8 ++ (m.s - 1 - 1) then m.status b else
        if (1#8 ++ (m.s - 1 - 1 - 1 + 2) : Word) = 1#8 ++ (m.s - 1) then m.pc.extractLsb' 0 8 else _) = _
      simp only [k2, page1]
      rw [if_neg k6, if_pos trivial]
    rw [h3, h2, word_split]

theorem setStatus_status (m n : Isa.Mach) (b : Bool) : n.setStatus (m.status b) =
    { n with n := m.n, v := m.v, d := m.d, i := m.i, z := m.z, c := m.c } := by
  have k : ∀ n v b d i z c : Bool, let p := Isa.bitAt n 7 ||| Isa.bitAt v 6 ||| 0x20 ||| Isa.bitAt b 4 ||| Isa.bitAt d 3 ||| Isa.bitAt i 2 ||| Isa.bitAt z 1 ||| Isa.bitAt c 0;
      p.getLsbD 7 = n ∧ p.getLsbD 6 = v ∧ p.getLsbD 3 = d ∧ p.getLsbD 2 = i ∧ p.getLsbD 1 = z ∧ p.getLsbD 0 = c := by decide +kernel
  have k := k m.n m.v b m.d m.i m.z m.c
  unfold Isa.Mach.setStatus Isa.Mach.status
  simp only [k]

/-- **C69**: RTI of a handler which left the three bytes of the stack and S as it found them goes
back to the interrupted program with its flags and its level. -/
theorem c69_rti (q : Src) (s h : St) (b : Bool) (hst : s.p ||| 0x20#8 = (abs s).status b) (hs : s.pc < 0x10000)
    (hpc : h.pc < 0x10000) (hq : Quiet h) (hop : here h = .rti)
    (hsp : h.sp = (accept q s).sp) (hlv : h.levels = (accept q s).levels)
    (hm : ∀ k, 1 ≤ k → k ≤ 3 → (abs h).pull k = (abs (accept q s)).pull k) :
    abs (step h).2 = { abs h with
      pc := (abs s).pc, s := s.sp, n := (abs s).n, v := (abs s).v, d := (abs s).d, i := (abs s).i, z := (abs s).z, c := (abs s).c } ∧ (step h).2.pc = s.pc ∧ (step h).2.levels = s.levels := by
  have hd : ¬ Isa.Differs (abs h) (here h) := by rw [hop]; exact id
  have hbk : Isa.decode ((abs h).mem (abs h).pc) = .brk → level h < 4 := fun e => by
    have : here h = .brk := e
    rw [hop] at this; cases this
  obtain ⟨_, h2⟩ := step_ok h hpc hq hd hbk
  obtain ⟨k1, _, k3⟩ := step_keeps h hpc hq hd hbk
  have ha := abs_accept q s b hst
  have hop' : Isa.decode ((abs h).mem (abs h).pc) = .rti := hop
  obtain ⟨p1, p2, p3⟩ := pulls (abs s) b (vecOf q)
  have e : abs (step h).2 = { abs h with
      pc := (abs s).pc, s := s.sp, n := (abs s).n, v := (abs s).v, d := (abs s).d, i := (abs s).i, z := (abs s).z, c := (abs s).c } := by
    rw [h2, step_stepI, hop']
    show { (abs h).setStatus ((abs h).pull 1) with pc := (abs h).pull 3 ++ (abs h).pull 2, s := (abs h).s + 3 } = _
    rw [hm 1 (by decide) (by decide), hm 2 (by decide) (by decide), hm 3 (by decide) (by decide)]
    have hs' : (abs h).s = ((abs s).interrupt b (vecOf q)).s := by rw [← ha]; exact hsp
    rw [ha, hs', p1, p2, p3, setStatus_status]; rfl
  refine ⟨e, ?_, ?_⟩
  · have : (abs (step h).2).pc = (abs s).pc := by rw [e]
    have := congrArg BitVec.toNat this
    have e1 : (abs (step h).2).pc.toNat = (step h).2.pc := by
      show (BitVec.ofNat 16 _).toNat = _
      rw [BitVec.toNat_ofNat, Nat.mod_eq_of_lt k1]
    have e2 : (abs s).pc.toNat = s.pc := by
      show (BitVec.ofNat 16 _).toNat = _
      rw [BitVec.toNat_ofNat, Nat.mod_eq_of_lt hs]
    omega
  · rw [k3, hop', hlv, (accept_side q s).2.2.2.1]; rfl

/-! ### Examples -/

/-- CLI; NOP with IRQ requested; the handler at 0x400 is RTI. -/
def irqDemo : St := { demo 1 2 3 0x05 (bytes 0x200 [0x58, 0xea] (bytes 0xfffa [0, 5, 0, 2, 0, 4] (bytes 0x400 [0x40]))) with irq := true }

example : lst (steps 1 irqDemo) = [1, 2, 3, 0xfc, 0x05, 0x400, 9] ∧ (steps 1 irqDemo).mem 0x1fd = 0x21 ∧
    (steps 1 irqDemo).mem 0x1ff = 0x02 ∧ (steps 1 irqDemo).mem 0x1fe = 0x01 ∧
    lst (steps 1 { steps 1 irqDemo with irq := false }) = [1, 2, 3, 0xff, 0x01, 0x201, 15] := by decide +kernel
example : ¬ Isa.Differs (abs irqDemo) (here irqDemo) ∧ here irqDemo = .cli ∧ irqDemo.levels = [] ∧ irqDemo.p.getLsbD 4 = false := by
  decide +kernel
/-- NMI with I set -/
example : lst (steps 1 { irqDemo with irq := false, nmi := true, pc := 0x201 }) = [1, 2, 3, 0xfc, 0x05, 0x500, 8] := by decide +kernel

/-! ### What is not -/

/-- NMI must be taken at any time; inside an IRQ or BRK handler it is not. -/
theorem c69_false_nmi_blocked (s : St) (hpc : s.pc < 0x10000) (hd : ¬ Isa.Differs (abs s) (here s)) (hb : here s ≠ .brk)
    (hr : here s ≠ .rti) (h3 : s.brk = false) (hl : 3 ≤ level s) (_hn : s.nmi = true) :
    ∃ u, abs (step s).2 = Isa.step u (abs s) := by
  obtain ⟨a1, a2, a3, a4, a5, a6, a7, a8⟩ := after_ok s hpc hd hb
  rw [if_neg hr] at a7
  have hl' : 3 ≤ level (after s) := by unfold level; rw [a7]; exact hl
  refine ⟨und (after s), ?_⟩
  rw [a1, int_low _ (a5.trans h3) hl', ← a2]

example : lst (steps 2 { irqDemo with irq := false, nmi := true, pc := 0x201, levels := [3] }) ≠ lst (steps 2 { irqDemo with irq := false, nmi := true, pc := 0x201 }) := by
  decide +kernel

/-- NMI must be taken once for each edge; while the line stays active it is taken again at the
end of its handler. -/
theorem c69_false_nmi_again (s : St) (hpc : s.pc < 0x10000) (hop : here s = .rti) (h3 : s.brk = false) (hn : s.nmi = true)
    (hl : s.levels = [1]) (hB : s.p.getLsbD 4 = false) :
    ∃ u, abs (step s).2 = (Isa.step u (abs s)).interrupt false 0xfffa ∧ (step s).2.levels = [1] := by
  have hd : ¬ Isa.Differs (abs s) (here s) := by rw [hop]; exact id
  obtain ⟨u, k1, _, k2⟩ := c69_nmi_partial s hpc hd (by rw [hop]; decide) hB hn h3 (Or.inr ⟨hop, by rw [hl]; rfl⟩)
  exact ⟨u, k1, k2⟩

/-- BRK in a BRK handler must be served like any other; it is skipped. -/
theorem c69_false_brk_nested (s : St) (hpc : s.pc < 0x10000) (h : here s = .brk) (hl : 4 ≤ level s) :
    abs (step s).2 = { abs s with pc := (abs s).pc + 2 } ∧ (step s).2.levels = s.levels := by
  have ht : table.getD (s.mem (abs s).pc).toNat none = some .brk := by
    have : ∀ op : Byte, Isa.decode op = .brk → table.getD op.toNat none = some .brk := by decide +kernel
    exact this _ h
  rw [step_of s hpc .brk ht]
  have n1 : ¬ level (exec .brk (fr s 1 (s.ticks + 1) s.i8d)) < 1 := by
    show ¬ level s < 1; omega
  have n3 : ¬ level (exec .brk (fr s 1 (s.ticks + 1) s.i8d)) < 3 := by
    show ¬ level s < 3; omega
  have n4 : ¬ level (exec .brk (fr s 1 (s.ticks + 1) s.i8d)) < 4 := by
    show ¬ level s < 4; omega
  have e : doInterrupt (exec .brk (fr s 1 (s.ticks + 1) s.i8d)) = exec .brk (fr s 1 (s.ticks + 1) s.i8d) := by
    unfold doInterrupt sources
    simp [Src.level, n1, n3, n4]
  simp only [e]
  refine ⟨?_, rfl⟩
  have k : ∀ p : Byte, let g := p ||| flagB; g.getLsbD 0 = p.getLsbD 0 ∧ g.getLsbD 1 = p.getLsbD 1 ∧ g.getLsbD 2 = p.getLsbD 2 ∧
    g.getLsbD 3 = p.getLsbD 3 ∧ g.getLsbD 6 = p.getLsbD 6 ∧ g.getLsbD 7 = p.getLsbD 7 := by decide +kernel
  have k := k s.p
  show { (abs s).setStatus (s.p ||| flagB) with pc := BitVec.ofNat 16 (((s.pc + 1) % 0x10000 + 1) % 0x10000) } = _
  unfold Isa.Mach.setStatus
  simp only [k]
  have e2 : ((s.pc + 1) % 0x10000 + 1) % 0x10000 = (s.pc + 2) % 0x10000 := by omega
  rw [e2, pc_fr]; rfl

/-- A handler that executes CLI must be interruptible by IRQ; it is not (of IRQ and BRK). -/
theorem c69_false_irq_blocked (s : St) (hpc : s.pc < 0x10000) (hop : here s = .cli) (h3 : s.brk = false) (hl : 3 ≤ level s)
    (_hi : s.irq = true) : (abs (step s).2).i = false ∧ (step s).2.levels = s.levels ∧ (abs (step s).2).pc = (abs s).pc + 1 := by
  have hd : ¬ Isa.Differs (abs s) (here s) := by rw [hop]; exact id
  obtain ⟨a1, a2, a3, a4, a5, a6, a7, a8⟩ := after_ok s hpc hd (by rw [hop]; decide)
  rw [if_neg (by rw [hop]; decide)] at a7
  have hl' : 3 ≤ level (after s) := by unfold level; rw [a7]; exact hl
  rw [a1, int_low _ (a5.trans h3) hl', a2]
  rw [step_stepI, show Isa.decode ((abs s).mem (abs s).pc) = .cli from hop]
  exact ⟨rfl, a7, rfl⟩

end Ucsim.M65
