import Verif.Props.AvrStack
/-
C119: addition of numbers of any length; C120: subtraction; C121: cycles.
-/
namespace Ucsim.Avr

open Isa (Ins Mach reg pair)

/-! ### Addition -/

/-- The number in a list of registers, the low byte first. -/
def valOf (s : St) : List Nat → Nat
  | [] => 0
  | d :: l => (rd s d).toNat + 256 * valOf s l

/-- The carry flag: bit 0 of the cell 0x5f. -/
def cOf (s : St) : Nat := if (rd s 0x5f).getLsbD 0 then 1 else 0

theorem ofFn_add (f : Fn) (c d r : Nat) (h : ofFn f c = some ⟨.add, d, r⟩) : f = .add ∧ cd c = d ∧ cr c = r := by
  cases f <;> simp only [ofFn] at h <;> (repeat' split at h) <;> simp_all
theorem ofFn_adc (f : Fn) (c d r : Nat) (h : ofFn f c = some ⟨.adc, d, r⟩) : f = .adc ∧ cd c = d ∧ cr c = r := by
  cases f <;> simp only [ofFn] at h <;> (repeat' split at h) <;> simp_all
theorem ofFn_sub (f : Fn) (c d r : Nat) (h : ofFn f c = some ⟨.sub, d, r⟩) : f = .sub ∧ cd c = d ∧ cr c = r := by
  cases f <;> simp only [ofFn] at h <;> (repeat' split at h) <;> simp_all

/-- The member function of an instruction. -/
theorem step_fn (s : St) (hp : s.pc < 0x10000) (i : Ins) (hi : Isa.decode (word s) = some i) :
    ∃ f, ofFn f (word s) = some i ∧
      step s = match exec f (word s) (tick 1 (fetch s).2) with
        | some s2 => (true, s2)
        | none => (false, { tick 1 (fetch s).2 with pc := s.pc }) := by
  have hf := fetch_eq s hp
  have hc : (fetch s).1 = word s := hf.1
  have hlt : word s < 0x10000 := (s.rom (BitVec.ofNat 16 s.pc)).isLt
  have hstep : step s = match (select (fetch s).1).bind (fun f => exec f (fetch s).1 (tick 1 (fetch s).2)) with
    | some s2 => (true, s2)
    | none => (false, { tick 1 (fetch s).2 with pc := s.pc }) := rfl
  cases hs : select (word s) with
  | none =>
    have := (select_none _ hlt hs).1
    rw [hi] at this
    cases this
  | some f =>
    have ho := (select_some _ hlt f hs).1
    rw [hi] at ho
    exact ⟨f, ho.symm, by rw [hstep, hc, hs, Option.bind_some]⟩

theorem addF_c (D R n : Nat) (p : Byte) (h : n < 512) : (addF D R n p).getLsbD 0 = decide (256 ≤ n) := by
  have h1 : ∀ (b : Bool) (p : Byte), (put bH b p).getLsbD 0 = p.getLsbD 0 := by decide +kernel
  have h2 : ∀ (b : Bool) (p : Byte), (put bC b p).getLsbD 0 = b := by decide +kernel
  unfold addF
  simp only
  rw [h1, h2, and_not_ff n h]

/-- What ADD (`w` false) and ADC (`w` true) do. -/
theorem add_step (s : St) (hp : s.pc < 0x10000) (w : Bool) (d r : Nat)
    (hi : Isa.decode (word s) = some ⟨if w then .adc else .add, d, r⟩) (hd : d < 32) :
    (step s).1 = true ∧ (step s).2.rom = s.rom ∧ (step s).2.pc = (s.pc + 1) % 0x10000 ∧
    (∀ a, a < 0x5f → a ≠ d → rd (step s).2 a = rd s a) ∧
    (rd (step s).2 d).toNat + 256 * cOf (step s).2 = (rd s d).toNat + (rd s r).toNat + (if w then cOf s else 0) := by
  obtain ⟨f, ho, hs⟩ := step_fn s hp _ hi
  have key : ∀ (n : Nat) (p : Byte) (u : St), n < 512 → u.rom = s.rom → u.pc = (s.pc + 1) % 0x10000 → (∀ a, rd u a = rd s a) →
      p.getLsbD 0 = decide (256 ≤ n) →
      (setSreg p (wr d (BitVec.ofNat 8 n) u)).rom = s.rom ∧ (setSreg p (wr d (BitVec.ofNat 8 n) u)).pc = (s.pc + 1) % 0x10000 ∧
      (∀ a, a < 0x5f → a ≠ d → rd (setSreg p (wr d (BitVec.ofNat 8 n) u)) a = rd s a) ∧
      (rd (setSreg p (wr d (BitVec.ofNat 8 n) u)) d).toNat + 256 * cOf (setSreg p (wr d (BitVec.ofNat 8 n) u)) = n := by
    intro n p u hn h1 h2 h3 h4
    unfold setSreg cOf SREG
    refine ⟨by rw [wr_rom, wr_rom, h1], by rw [wr_pc, wr_pc, h2], ?_, ?_⟩
    · intro a ha hne
      rw [rd_wr _ _ _ _ (by omega), if_neg (by omega), rd_wr _ _ _ _ (by omega), if_neg hne, h3]
    · rw [rd_wr _ d _ _ (by omega), if_neg (by omega), rd_wr _ d _ _ (by omega), if_pos rfl, rd_wr _ _ _ _ (by omega), if_pos rfl, h4,
        BitVec.toNat_ofNat]
      simp only [decide_eq_true_eq]
      split <;> omega
  have hx := (rd s d).isLt
  have hy := (rd s r).isLt
  have hrd : ∀ a, rd (tick 1 (fetch s).2) a = rd s a := fun _ => rfl
  cases w with
  | false =>
    simp only [Bool.false_eq_true, if_false] at ho ⊢
    obtain ⟨h1, h2, h3⟩ := ofFn_add f _ d r ho
    subst h1
    simp only [exec] at hs
    rw [h2, h3, hrd, hrd] at hs
    rw [hs]
    have := key ((rd s d).toNat + (rd s r).toNat) _ (tick 1 (fetch s).2) (by omega) rfl rfl hrd
      (addF_c (rd s d).toNat (rd s r).toNat _ (sreg (wr d (BitVec.ofNat 8 ((rd s d).toNat + (rd s r).toNat)) (tick 1 (fetch s).2))) (by omega))
    exact ⟨rfl, this.1, this.2.1, this.2.2.1, this.2.2.2⟩
  | true =>
    simp only [if_true] at ho ⊢
    obtain ⟨h1, h2, h3⟩ := ofFn_adc f _ d r ho
    subst h1
    simp only [exec] at hs
    rw [h2, h3, hrd, hrd, carry_ne] at hs
    rw [hs]
    have hc : (if (sreg (tick 1 (fetch s).2)).getLsbD 0 = true then 1 else 0) = cOf s := rfl
    have hcl : cOf s ≤ 1 := by unfold cOf; split <;> omega
    rw [hc]
    have := key ((rd s d).toNat + (rd s r).toNat + cOf s) _ (tick 1 (fetch s).2) (by omega) rfl rfl hrd
      (addF_c (rd s d).toNat (rd s r).toNat _ (sreg (tick 1 (fetch s).2)) (by omega))
    exact ⟨rfl, this.1, this.2.1, this.2.2.1, this.2.2.2⟩

/-- From PC: an ADD (ADC if `w`) of the first pair of registers, ADC of the others. -/
def Chain (s : St) : Bool → Nat → List (Nat × Nat) → Prop
  | _, _, [] => True
  | w, pc, (d, r) :: l => Isa.decode (s.rom (BitVec.ofNat 16 pc)).toNat = some ⟨if w then .adc else .add, d, r⟩ ∧ Chain s true ((pc + 1) % 0x10000) l

/-- The registers of the result are different and no operand is overwritten before it is used. -/
def Free : List (Nat × Nat) → Prop
  | [] => True
  | (d, r) :: l => d < 32 ∧ r < 32 ∧ (∀ p ∈ l, p.1 ≠ d ∧ p.2 ≠ d) ∧ Free l

theorem Chain_rom (s t : St) (h : t.rom = s.rom) : ∀ (l : List (Nat × Nat)) (w : Bool) (pc : Nat), Chain s w pc l → Chain t w pc l := by
  intro l
  induction l with
  | nil => intros; trivial
  | cons p l ih =>
    obtain ⟨d, r⟩ := p
    intro w pc hc
    exact ⟨by rw [h]; exact hc.1, ih _ _ hc.2⟩

theorem valOf_congr (s t : St) : ∀ (l : List Nat), (∀ d ∈ l, rd t d = rd s d) → valOf t l = valOf s l := by
  intro l
  induction l with
  | nil => intros; rfl
  | cons d l ih =>
    intro h
    unfold valOf
    rw [h d (by simp), ih (fun x hx => h x (by simp [hx]))]

theorem Free_lt : ∀ (l : List (Nat × Nat)), Free l → ∀ p ∈ l, p.1 < 32 ∧ p.2 < 32 := by
  intro l
  induction l with
  | nil => intro _ p hp; cases hp
  | cons q l ih =>
    obtain ⟨d, r⟩ := q
    intro h p hp
    rcases List.mem_cons.mp hp with e | e
    · subst e; exact ⟨h.1, h.2.1⟩
    · exact ih h.2.2.2 p e

theorem add_chain : ∀ (l : List (Nat × Nat)) (w : Bool) (s : St), s.pc < 0x10000 → Chain s w s.pc l → Free l → (l = [] → w = true) →
    (run l.length s).1 = true ∧ (run l.length s).2.pc = (s.pc + l.length) % 0x10000 ∧
    (∀ a, a < 0x5f → a ∉ l.map (·.1) → rd (run l.length s).2 a = rd s a) ∧
    valOf (run l.length s).2 (l.map (·.1)) + 256 ^ l.length * cOf (run l.length s).2 =
      valOf s (l.map (·.1)) + valOf s (l.map (·.2)) + (if w then cOf s else 0) := by
  intro l
  induction l with
  | nil =>
    intro w s hp _ _ hw
    rw [hw rfl]
    refine ⟨rfl, (Nat.mod_eq_of_lt hp).symm, fun _ _ _ => rfl, ?_⟩
    simp [run, valOf]
  | cons p l ih =>
    obtain ⟨d, r⟩ := p
    intro w s hp hc hf _
    obtain ⟨g1, g2, g3, g4, g5⟩ := add_step s hp w d r hc.1 hf.1
    have hlt := Free_lt l hf.2.2.2
    generalize ht : (step s).2 = t at *
    have hrun : run (l.length + 1) s = run l.length t := by
      change (match step s with | (true, s) => run l.length s | r => r) = _
      rw [show step s = (true, t) from by rw [← g1, ← ht]]
    have htp : t.pc < 0x10000 := by rw [g3]; omega
    have := ih true t htp (by rw [g3]; exact Chain_rom s t g2 l true _ hc.2) hf.2.2.2 (fun _ => rfl)
    obtain ⟨k1, k2, k3, k4⟩ := this
    simp only [List.length_cons, List.map_cons]
    rw [hrun]
    have hnd : d ∉ l.map (·.1) := by
      intro h
      obtain ⟨p, hp, e⟩ := List.mem_map.mp h
      exact (hf.2.2.1 p hp).1 e
    have ev1 : valOf t (l.map (·.1)) = valOf s (l.map (·.1)) := by
      apply valOf_congr
      intro x hx
      obtain ⟨p, hp, e⟩ := List.mem_map.mp hx
      subst e
      exact g4 _ (by have := (hlt p hp).1; omega) (hf.2.2.1 p hp).1
    have ev2 : valOf t (l.map (·.2)) = valOf s (l.map (·.2)) := by
      apply valOf_congr
      intro x hx
      obtain ⟨p, hp, e⟩ := List.mem_map.mp hx
      subst e
      exact g4 _ (by have := (hlt p hp).2; omega) (hf.2.2.1 p hp).2
    refine ⟨k1, ?_, ?_, ?_⟩
    · rw [k2, g3]; omega
    · intro a ha hn
      simp only [List.mem_cons, not_or] at hn
      rw [k3 a ha hn.2, g4 a ha hn.1]
    · unfold valOf
      rw [k3 d (by have := hf.1; omega) hnd]
      rw [ev1, ev2] at k4
      simp only [if_true] at k4
      rw [Nat.pow_succ]
      have e : 256 ^ l.length * 256 * cOf (run l.length t).2 = 256 * (256 ^ l.length * cOf (run l.length t).2) := by
        rw [Nat.mul_comm (256 ^ l.length) 256, Nat.mul_assoc]
      rw [e]
      generalize 256 ^ l.length * cOf (run l.length t).2 = z at *
      omega

/-- ADD of the lowest bytes and ADC of the following ones add numbers of any number of bytes; the
carry flag is the carry of the sum. -/
theorem c119_add (l : List (Nat × Nat)) (s : St) (hp : s.pc < 0x10000) (hne : l ≠ []) (hc : Chain s false s.pc l) (hf : Free l) :
    (run l.length s).1 = true ∧ (run l.length s).2.pc = (s.pc + l.length) % 0x10000 ∧
    (∀ a, a < 0x5f → a ∉ l.map (·.1) → rd (run l.length s).2 a = rd s a) ∧
    valOf (run l.length s).2 (l.map (·.1)) + 256 ^ l.length * cOf (run l.length s).2 = valOf s (l.map (·.1)) + valOf s (l.map (·.2)) :=
  add_chain l false s hp hc hf (fun h => absurd h hne)

/-- R2:R1:R0 += R18:R17:R16 -/
def exAdd : St := mkSt [0x0e00, 0x1e11, 0x1e22] [(0, 0xff), (1, 0xff), (2, 0x80), (16, 1), (17, 0), (18, 0x80)]
example : Chain exAdd false exAdd.pc [(0, 16), (1, 17), (2, 18)] ∧ Free [(0, 16), (1, 17), (2, 18)] ∧
    valOf exAdd [0, 1, 2] = 0x80ffff ∧ valOf (run 3 exAdd).2 [0, 1, 2] = 0x010000 ∧ cOf (run 3 exAdd).2 = 1 := by
  refine ⟨⟨by decide +kernel, by decide +kernel, by decide +kernel, trivial⟩, ?_, by decide +kernel, by decide +kernel, by decide +kernel⟩
  simp [Free]

/-! ### Subtraction -/

theorem bits_c (h s v n z c : Bool) (p : Byte) : (bits [(5, h), (4, s), (3, v), (2, n), (1, z), (0, c)] p).getLsbD 0 = c := by
  have key : ∀ (c : Bool) (p : Byte), (Isa.setBit 0 c p).getLsbD 0 = c := by decide +kernel
  exact key c _

/-- SUB: difference and borrow of one byte. -/
theorem c120_sub_partial (s : St) (hp : s.pc < 0x10000) (d r : Nat) (hi : Isa.decode (word s) = some ⟨.sub, d, r⟩) (hd : d < 32) :
    (step s).1 = true ∧ (step s).2.pc = (s.pc + 1) % 0x10000 ∧ (∀ a, a < 0x5f → a ≠ d → rd (step s).2 a = rd s a) ∧
    (rd (step s).2 d).toNat + (rd s r).toNat = (rd s d).toNat + 256 * cOf (step s).2 := by
  obtain ⟨f, ho, hs⟩ := step_fn s hp _ hi
  obtain ⟨h1, h2, h3⟩ := ofFn_sub f _ d r ho
  subst h1
  have hx := (rd s d).isLt
  have hy := (rd s r).isLt
  have hrd : ∀ a, rd (tick 1 (fetch s).2) a = rd s a := fun _ => rfl
  simp only [exec] at hs
  rw [h2, h3, hrd, hrd, subRes_eq, subF_eq _ _ _ _ (by omega), ofNat_toNat8, sub0] at hs
  rw [hs]
  unfold setSreg cOf SREG
  refine ⟨rfl, by rw [wr_pc, wr_pc]; rfl, ?_, ?_⟩
  · intro a ha hne
    rw [rd_wr _ _ _ _ (by omega), if_neg (by omega), rd_wr _ _ _ _ (by omega), if_neg hne]
    rfl
  · rw [rd_wr _ d _ _ (by omega), if_neg (by omega), rd_wr _ d _ _ (by omega), if_pos rfl, rd_wr _ _ _ _ (by omega), if_pos rfl]
    unfold Isa.subFlags
    rw [bits_c, BitVec.toNat_sub]
    simp only [decide_eq_true_eq]
    split <;> omega

example : let s := mkSt [0x1801] [(0, 5), (1, 7)]
    Isa.decode (word s) = some ⟨.sub, 0, 1⟩ ∧ rd (step s).2 0 = 0xfe#8 ∧ cOf (step s).2 = 1 := by decide +kernel

/-- SUB R0,R16; SBC R1,R17 of 0x0500 and 1: 0x01ff instead of 0x04ff. -/
theorem c120_false : let s := mkSt [0x1a00, 0x0a11] [(1, 5), (16, 1)]
    Isa.decode (word s) = some ⟨.sub, 0, 16⟩ ∧ Isa.decode (word (step s).2) = some ⟨.sbc, 1, 17⟩ ∧ (run 2 s).1 = true ∧
    valOf s [0, 1] = 0x500 ∧ valOf s [16, 17] = 1 ∧ valOf (run 2 s).2 [0, 1] = 0x1ff := by decide +kernel

/-! ### Cycles -/

theorem tick_ticks (n : Nat) (s : St) : (tick n s).ticks = s.ticks + n := rfl
theorem setSreg_ticks (p : Byte) (s : St) : (setSreg p s).ticks = s.ticks := wr_ticks _ _ _
theorem jump_ticks (a : Nat) (s : St) : (jump a s).ticks = s.ticks := rfl
theorem fetch_ticks (s : St) : (fetch s).2.ticks = s.ticks := rfl
theorem setSP_ticks (n : Nat) (s : St) : (setSP n s).ticks = s.ticks := by unfold setSP; rw [wr_ticks, wr_ticks]
theorem pushAddr_ticks (a : Nat) (s : St) : (pushAddr a s).ticks = s.ticks := by
  unfold pushAddr; simp only; rw [setSP_ticks, wr_ticks, wr_ticks]
theorem pushData_ticks (v : Byte) (s : St) : (pushData v s).ticks = s.ticks := by
  unfold pushData; simp only; rw [setSP_ticks, wr_ticks]
theorem popAddr_ticks (s : St) : (popAddr s).2.ticks = s.ticks := setSP_ticks _ _
theorem popData_ticks (s : St) : (popData s).2.ticks = s.ticks := setSP_ticks _ _
theorem incPtr_ticks (p : Nat) (s : St) : (incPtr p s).ticks = s.ticks := by
  unfold incPtr; simp only; split
  · rw [wr_ticks, wr_ticks]
  · rw [wr_ticks]
theorem decPtr_ticks (p : Nat) (s : St) : (decPtr p s).2.ticks = s.ticks := by
  unfold decPtr; simp only; split
  · rw [wr_ticks, wr_ticks]
  · rw [wr_ticks]
theorem fetchN_ticks (n : Nat) : ∀ s : St, (fetchN n s).ticks = s.ticks := by
  induction n with
  | zero => intro s; rfl
  | succ n ih => intro s; unfold fetchN; rw [ih, fetch_ticks]
theorem skipFetch_ticks (s : St) : (skipFetch s).ticks = s.ticks + 1 := by
  unfold skipFetch; simp only; rw [tick_ticks, fetchN_ticks, fetch_ticks]
theorem skipTab_ticks (s t : St) (h : skipTab s = some t) : t.ticks = s.ticks + 1 := by
  unfold skipTab at h
  split at h
  · cases h; rfl
  · cases h
theorem mk_ticks (t : St) (a : Nat) : ({ t with pc := a } : St).ticks = t.ticks := rfl

/-- The instructions the simulator gives another number of cycles. -/
def BadCycles (i : Ins) (m : Mach) : Prop := match i.op with
  | .ijmp | .lds | .sts | .muls | .mulsu | .fmul | .fmuls | .fmulsu | .lpm | .lpmp => True
  | _ => skips i m = some true ∧ Isa.twoWords (m.prog m.pc).toNat = true

theorem skipped_one (m : Mach) (h : ¬ Isa.twoWords (m.prog m.pc).toNat = true) : Isa.skipped m = 1 := by
  unfold Isa.skipped
  rw [if_neg h]

theorem exec_cyc (f : Fn) (c : Nat) (s t : St) (i : Ins) (hi : ofFn f c = some i) (ht : exec f c s = some t) (hb : ¬ BadCycles i (abs s)) :
    t.ticks + 1 = s.ticks + Isa.cycles i (abs s) := by
  have hsk : skips i (abs s) = some true → Isa.skipped (abs s) = 1 := by
    intro h
    apply skipped_one
    intro h2
    apply hb
    unfold BadCycles
    split
    all_goals first | trivial | exact ⟨h, h2⟩
  have hcd := cd_lt c
  have hcr := cr_lt c
  have hcP := cP5_lt c
  cases f <;> simp only [ofFn] at hi <;> (repeat' split at hi) <;> cases hi <;>
    first
    | exact absurd trivial hb
    | (simp only [exec, Option.some.injEq] at ht
       subst ht
       simp only [tick_ticks, setSreg_ticks, wr_ticks, jump_ticks, fetch_ticks, pushAddr_ticks, pushData_ticks, popAddr_ticks, popData_ticks,
         incPtr_ticks, decPtr_ticks, mk_ticks, Isa.cycles]; done)
    | skip
  · simp only [exec, Option.some.injEq] at ht
    subst ht
    rw [tick_ticks]
    change _ = s.ticks + 3
    split <;> rw [wr_ticks]
  · simp only [exec] at ht
    dsimp only [Isa.cycles]
    dsimp only [skips] at hsk
    rw [reg_abs _ _ (by omega), reg_abs _ _ (by omega)] at hsk ⊢
    by_cases he : rd s (cd c) = rd s (cr c)
    · rw [if_pos (by rw [he, beq_self_eq_true])] at ht
      rw [if_pos he, skipTab_ticks s t ht, hsk (by rw [he, beq_self_eq_true])]
    · rw [if_neg (by rw [beq_iff_eq]; exact fun h => he h.symm)] at ht
      cases ht
      rw [if_neg he]
  · simp only [exec, Option.some.injEq] at ht
    subst ht
    dsimp only [Isa.cycles]
    dsimp only [skips] at hsk
    rw [BitVec.and_comm, bit_eq _ _ (cb_lt c), Nat.add_comm (cP5 c)]
    rw [reg_abs _ _ (by omega)] at hsk ⊢
    cases he : (rd s (0x20 + cP5 c)).getLsbD (cb c) with
    | false =>
      rw [he] at hsk
      change (skipFetch s).ticks + 1 = s.ticks + (1 + Isa.skipped (abs s))
      rw [skipFetch_ticks, hsk rfl]
    | true => rfl
  · simp only [exec, Option.some.injEq] at ht
    subst ht
    dsimp only [Isa.cycles]
    dsimp only [skips] at hsk
    rw [BitVec.and_comm, bit_ne _ _ (cb_lt c), Nat.add_comm (cP5 c)]
    rw [reg_abs _ _ (by omega)] at hsk ⊢
    cases he : (rd s (0x20 + cP5 c)).getLsbD (cb c) with
    | true =>
      rw [he] at hsk
      change (skipFetch s).ticks + 1 = s.ticks + (1 + Isa.skipped (abs s))
      rw [skipFetch_ticks, hsk rfl]
    | false => rfl
  · simp only [exec, Option.some.injEq] at ht
    subst ht
    dsimp only [Isa.cycles]
    rw [bit_ne _ _ (cb_lt c), ← flag_abs]
    cases Isa.flag (abs s) (cb c) <;> rfl
  · simp only [exec, Option.some.injEq] at ht
    subst ht
    dsimp only [Isa.cycles]
    rw [bit_eq _ _ (cb_lt c), ← flag_abs]
    cases Isa.flag (abs s) (cb c) <;> rfl
  · simp only [exec] at ht
    dsimp only [Isa.cycles]
    dsimp only [skips] at hsk
    rw [bit_eq _ _ (cb_lt c)] at ht
    rw [reg_abs _ _ (by omega)] at hsk ⊢
    cases he : (rd s (cd c)).getLsbD (cb c) with
    | false =>
      rw [he] at hsk ht
      have ht : skipTab s = some t := ht
      change t.ticks + 1 = s.ticks + (1 + Isa.skipped (abs s))
      rw [skipTab_ticks s t ht, hsk rfl]
    | true =>
      rw [he] at ht
      have ht : some s = some t := ht
      cases ht
      rfl
  · simp only [exec] at ht
    dsimp only [Isa.cycles]
    dsimp only [skips] at hsk
    rw [bit_ne _ _ (cb_lt c)] at ht
    rw [reg_abs _ _ (by omega)] at hsk ⊢
    cases he : (rd s (cd c)).getLsbD (cb c) with
    | true =>
      rw [he] at hsk ht
      have ht : skipTab s = some t := ht
      change t.ticks + 1 = s.ticks + (1 + Isa.skipped (abs s))
      rw [skipTab_ticks s t ht, hsk rfl]
    | false =>
      rw [he] at ht
      have ht : some s = some t := ht
      cases ht
      rfl

/-- The clock of the simulation advances by the number of cycles of the instruction, except for
those of `BadCycles`. -/
theorem c121_cycles_partial (s : St) (hp : s.pc < 0x10000) (i : Ins) (hi : Isa.decode (word s) = some i) (hok : (step s).1 = true)
    (hb : ¬ BadCycles i (Isa.fetch (abs s)).2) :
    (step s).2.ticks = s.ticks + Isa.cycles i (Isa.fetch (abs s)).2 := by
  obtain ⟨f, ho, hs⟩ := step_fn s hp _ hi
  have hf := fetch_eq s hp
  have e : abs (tick 1 (fetch s).2) = (Isa.fetch (abs s)).2 := by rw [abs_tick, hf.2.1]
  rw [hs] at hok ⊢
  cases ht : exec f (word s) (tick 1 (fetch s).2) with
  | none => rw [ht] at hok; cases hok
  | some t =>
    have := exec_cyc f _ _ t i ho ht (by rw [e]; exact hb)
    rw [e, tick_ticks, fetch_ticks] at this
    change t.ticks = _
    omega

instance (i : Ins) (m : Mach) : Decidable (BadCycles i m) := by unfold BadCycles; cases i.op <;> infer_instance

/-- RCALL, and BRCS taken. -/
example : let s := mkSt [0xd001, 0, 0xf008] [(0x5d, 0x7f), (0x5f, 1)]
    Isa.decode (word s) = some ⟨.rcall, 1, 0⟩ ∧ ¬ BadCycles ⟨.rcall, 1, 0⟩ (Isa.fetch (abs s)).2 ∧ (step s).2.ticks = 3 ∧
    Isa.decode (word (step s).2) = some ⟨.brbs, 0, 1⟩ ∧ (run 2 s).2.ticks = 5 := by decide +kernel

/-- The cycles of the first instruction of a program: of the simulator, and of the manual. -/
def cyc (l : List Nat) : Nat × Option Nat :=
  let s := mkSt l []
  ((step s).2.ticks, (Isa.decode (word s)).map (fun i => Isa.cycles i (Isa.fetch (abs s)).2))

/-- IJMP, LDS, STS, CPSE over a JMP, MULS, LPM Rd,Z. -/
theorem c121_false : cyc [0x9409] = (1, some 2) ∧ cyc [0x9000, 0x10] = (3, some 2) ∧ cyc [0x9200, 0x10] = (3, some 2) ∧
    cyc [0x1000, 0x940c, 0] = (2, some 3) ∧ cyc [0x0200] = (1, some 2) ∧ cyc [0x9004] = (1, some 3) := by decide +kernel

end Ucsim.Avr
