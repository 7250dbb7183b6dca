import Verif.Props.Avr
/-
C118: PUSH and POP, calls and returns; C122: skips.
-/
namespace Ucsim.Avr

open Isa (Ins Mach reg pair setReg setMem setPair)

/-- The stack pointer of a state. -/
def spOf (s : St) : Nat := (rd s 0x5e).toNat * 256 + (rd s 0x5d).toNat

theorem spOf_pair (s : St) : (pair (abs s) Isa.SP).toNat = spOf s := sp_nat s

theorem pair_setPair (m : Mach) (p : Nat) (w : Word) (h : p < 0xffff) : pair (setPair p w m) p = w := by
  unfold Isa.pair Isa.setPair
  rw [reg_setReg _ _ _ _ (by omega) (by omega), if_pos rfl, reg_setReg _ _ _ _ (by omega) (by omega), if_neg (by omega),
    reg_setReg _ _ _ _ (by omega) (by omega), if_pos rfl]
  apply BitVec.eq_of_toNat_eq
  rw [append_toNat, BitVec.extractLsb'_toNat, BitVec.extractLsb'_toNat, Nat.shiftRight_eq_div_pow, Nat.shiftRight_zero]
  have := w.isLt
  omega

theorem mem_setMem (m : Mach) (a x : Word) (v : Byte) : (setMem a v m).mem x = if x = a then v else m.mem x := rfl

theorem ne_ofNat (a : Word) (n : Nat) (hn : n < 0x10000) (h : a.toNat ≠ n) : a ≠ BitVec.ofNat 16 n := by
  intro e
  apply h
  rw [e, BitVec.toNat_ofNat]
  omega

/-- The machine of a state after a step: used to go over to the manual. -/
theorem step_to (s : St) (hp : s.pc < 0x10000) (i : Ins) (hi : Isa.decode (word s) = some i)
    (hd : ¬ Differs i (Isa.fetch (abs s)).2) :
    (step s).1 = true ∧ abs (step s).2 = Isa.exec i (Isa.fetch (abs s)).2 ∧ (step s).2.pc < 0x10000 := by
  obtain ⟨s', h1, h2, h3⟩ := step_ok s hp i hi hd
  rw [h1]
  exact ⟨rfl, h2, h3⟩

theorem pc_toNat (s : St) (hp : s.pc < 0x10000) : (abs s).pc.toNat = s.pc := by
  change (BitVec.ofNat 16 s.pc).toNat = _
  rw [BitVec.toNat_ofNat]
  omega

theorem add1_sub1 (w : Word) : w - 1 + 1 = w := BitVec.sub_add_cancel w 1

/-- PUSH Rr, then POP Rd: the value arrives, the stack pointer is back, nothing else changes but
the cell of the stack.  The stack is in the part of the data memory that has cells (0x60-0x7f). -/
theorem c118_push_pop_partial (s : St) (hp : s.pc < 0x10000) (r d : Nat) (hd : d < 32)
    (h1 : Isa.decode (word s) = some ⟨.push, r, 0⟩) (h2 : Isa.decode (s.rom (BitVec.ofNat 16 s.pc + 1)).toNat = some ⟨.pop, d, 0⟩)
    (hsp : 0x60 ≤ spOf s ∧ spOf s < 0x80) :
    (run 2 s).1 = true ∧ rd (run 2 s).2 d = reg (abs s) r ∧ spOf (run 2 s).2 = spOf s ∧ (run 2 s).2.pc = (s.pc + 2) % 0x10000 ∧
    ∀ a, a < 0x10000 → a ≠ d → a ≠ spOf s → rd (run 2 s).2 a = rd s a := by
  have hsn := spOf_pair s
  have hD : ¬ Differs ⟨.push, r, 0⟩ (Isa.fetch (abs s)).2 := by
    change ¬ 0x80 ≤ (pair (abs s) Isa.SP).toNat
    omega
  obtain ⟨g1, g2, g3⟩ := step_to s hp _ h1 hD
  generalize ht : (step s).2 = t at *
  have hrom : t.rom = s.rom := congrArg Mach.prog g2
  have hpc : (abs t).pc = (abs s).pc + 1 := congrArg Mach.pc g2
  have hsp0 : spOf s < 0x10000 := by omega
  have hw : Isa.decode (word t) = some ⟨.pop, d, 0⟩ := by
    unfold word
    rw [hrom, show BitVec.ofNat 16 t.pc = (abs t).pc from rfl, hpc]
    exact h2
  obtain ⟨k1, k2, k3⟩ := step_to t g3 _ hw id
  have hr : run 2 s = step t := by
    change (match step s with | (true, s) => run 1 s | r => r) = _
    rw [show step s = (true, t) from by rw [← g1, ← ht]]
    change (match step t with | (true, s) => (true, s) | r => r) = _
    rw [show step t = (true, (step t).2) from by rw [← k1]]
  rw [hr]
  generalize hu : (step t).2 = u at *
  -- the machine of the manual
  have hm : abs t = setPair Isa.SP (pair (abs s) Isa.SP - 1) (setMem (pair (abs s) Isa.SP) (reg (abs s) r) (Isa.fetch (abs s)).2) := g2
  have hspt : pair (abs t) Isa.SP = pair (abs s) Isa.SP - 1 := by rw [hm, pair_setPair _ _ _ (by decide)]
  have e0 : pair (Isa.fetch (abs t)).2 Isa.SP + 1 = pair (abs s) Isa.SP := by
    change pair (abs t) Isa.SP + 1 = _
    rw [hspt, add1_sub1]
  have hmu : abs u = setReg d ((abs t).mem (pair (abs s) Isa.SP)) (setPair Isa.SP (pair (abs s) Isa.SP) (Isa.fetch (abs t)).2) := by
    rw [k2]
    dsimp only [Isa.exec, Isa.pop]
    rw [e0]
    rfl
  have hv : (abs t).mem (pair (abs s) Isa.SP) = reg (abs s) r := by
    rw [hm, mem_setPair _ _ _ _ (ne_ofNat _ _ (by decide) (by change _ ≠ 0x5d; omega)) (ne_ofNat _ _ (by decide) (by change _ ≠ 0x5e; omega)), mem_setMem, if_pos rfl]
  rw [hv] at hmu
  refine ⟨k1, ?_, ?_, ?_, ?_⟩
  · rw [← reg_abs _ _ (by omega), hmu, reg_setReg _ _ _ _ (by omega) (by omega), if_pos rfl]
  · rw [← spOf_pair u, ← hsn, hmu, pair_setReg _ _ _ _ (by omega) (by decide) (by simp only [Isa.SP]; omega) (by simp only [Isa.SP]; omega),
      pair_setPair _ _ _ (by decide)]
  · have : (abs u).pc = (abs s).pc + 1 + 1 := by rw [hmu, ← hpc]; rfl
    have e := congrArg BitVec.toNat this
    rw [add1_nat, add1_nat, pc_toNat u k3, pc_toNat s hp] at e
    omega
  · intro a ha hnd hns
    rw [← reg_abs _ _ ha, ← reg_abs _ _ ha, hmu, reg_setReg _ _ _ _ (by omega) ha, if_neg hnd]
    have hsd : Isa.SP = 0x5d := rfl
    by_cases h5 : a = 0x5d ∨ a = 0x5e
    · -- the two bytes of the stack pointer
      have hpw : pair (setPair Isa.SP (pair (abs s) Isa.SP) (Isa.fetch (abs t)).2) Isa.SP = pair (abs s) Isa.SP := pair_setPair _ _ _ (by decide)
      unfold Isa.pair at hpw
      have hlo := congrArg (BitVec.extractLsb' 0 8) hpw
      have hhi := congrArg (BitVec.extractLsb' 8 8) hpw
      rw [lo_append, lo_append] at hlo
      rw [hi_append, hi_append] at hhi
      rcases h5 with h | h
      · rw [h]; exact hlo
      · rw [h]; exact hhi
    · have h5 : a ≠ 0x5d ∧ a ≠ 0x5e := by omega
      rw [reg_setPair _ _ _ _ ha (by decide) (by omega) (by omega)]
      change reg (abs t) a = _
      rw [hm, reg_setPair _ _ _ _ ha (by decide) (by omega) (by omega)]
      change (if BitVec.ofNat 16 a = pair (abs s) Isa.SP then _ else reg (abs s) a) = _
      rw [if_neg]
      intro e
      apply hns
      have := congrArg BitVec.toNat e
      rw [BitVec.toNat_ofNat, hsn] at this
      omega

example : let s := mkSt [0x923f, 0x908f] [(3, 0x77), (0x5d, 0x70)]
    Isa.decode (word s) = some ⟨.push, 3, 0⟩ ∧ Isa.decode (s.rom (BitVec.ofNat 16 s.pc + 1)).toNat = some ⟨.pop, 8, 0⟩ ∧
    0x60 ≤ spOf s ∧ spOf s < 0x80 ∧ rd (run 2 s).2 8 = 0x77#8 := by decide +kernel

/-- The calls. -/
def isCallOp (i : Ins) : Prop := i.op = .rcall ∨ i.op = .icall ∨ i.op = .call

/-- The address of the instruction after `i` at PC. -/
def after (i : Ins) (s : St) : Nat := (s.pc + if i.op = .call then 2 else 1) % 0x10000

/-- A return finds what a call left.  `s`: a call; `t`: any state at a RET or RETI with the stack
pointer and the two bytes on the stack as the call left them. -/
theorem c118_call_return_partial (s t : St) (hp : s.pc < 0x10000) (ht : t.pc < 0x10000) (i : Ins) (hi : Isa.decode (word s) = some i)
    (hc : isCallOp i) (hsp : 0x61 ≤ spOf s ∧ spOf s < 0x80) (hd : ¬ Differs i (Isa.fetch (abs s)).2)
    (hr : Isa.decode (word t) = some ⟨.ret, 0, 0⟩ ∨ Isa.decode (word t) = some ⟨.reti, 0, 0⟩)
    (hst : spOf t = spOf (step s).2) (h1 : rd t (spOf t + 1) = rd (step s).2 (spOf t + 1)) (h2 : rd t (spOf t + 2) = rd (step s).2 (spOf t + 2)) :
    (step s).1 = true ∧ spOf (step s).2 = spOf s - 2 ∧ (step t).1 = true ∧ (step t).2.pc = after i s ∧ spOf (step t).2 = spOf s := by
  have hsn := spOf_pair s
  obtain ⟨g1, g2, g3⟩ := step_to s hp _ hi hd
  -- what the call leaves: stack pointer and return address
  obtain ⟨m, q, hm, hq⟩ : ∃ (m : Mach) (q : Word), abs (step s).2 = { Isa.pushPC m with pc := q } ∧
      (pair m Isa.SP = pair (abs s) Isa.SP ∧ m.pc = BitVec.ofNat 16 (after i s)) := by
    have hone : BitVec.ofNat 16 s.pc + 1 = BitVec.ofNat 16 ((s.pc + 1) % 0x10000) := by
      apply BitVec.eq_of_toNat_eq
      rw [add1_nat, BitVec.toNat_ofNat, BitVec.toNat_ofNat]
      omega
    have htwo : BitVec.ofNat 16 s.pc + 1 + 1 = BitVec.ofNat 16 ((s.pc + 2) % 0x10000) := by
      apply BitVec.eq_of_toNat_eq
      rw [add1_nat, add1_nat, BitVec.toNat_ofNat, BitVec.toNat_ofNat]
      omega
    obtain ⟨op, x, y⟩ := i
    rcases hc with h | h | h <;> simp only at h <;> subst h
    · exact ⟨(Isa.fetch (abs s)).2, _, g2, rfl, hone⟩
    · exact ⟨(Isa.fetch (abs s)).2, _, g2, rfl, hone⟩
    · exact ⟨(Isa.fetch (Isa.fetch (abs s)).2).2, _, g2, rfl, htwo⟩
  have hspu : pair (abs (step s).2) Isa.SP = pair (abs s) Isa.SP - 2 := by
    rw [hm, ← hq.1]
    change pair (Isa.pushPC m) Isa.SP = _
    unfold Isa.pushPC
    simp only
    rw [pair_setPair _ _ _ (by decide)]
  have hspn : spOf (step s).2 = spOf s - 2 := by
    rw [← spOf_pair, hspu, sub2, sub1_nat, sub1_nat, hsn]
    omega
  have hne : ∀ w : Word, 0x60 ≤ w.toNat → w ≠ BitVec.ofNat 16 Isa.SP ∧ w ≠ BitVec.ofNat 16 (Isa.SP + 1) := by
    intro w h
    exact ⟨ne_ofNat _ _ (by decide) (by simp only [Isa.SP]; omega), ne_ofNat _ _ (by decide) (by simp only [Isa.SP]; omega)⟩
  have hs1 : (pair (abs s) Isa.SP - 1).toNat = spOf s - 1 := by rw [sub1_nat, hsn]; omega
  have hlo : rd (step s).2 (spOf s - 1) = m.pc.extractLsb' 0 8 := by
    rw [← hs1, ← mem_abs, hm, ← hq.1]
    change (Isa.pushPC m).mem _ = _
    unfold Isa.pushPC
    simp only
    rw [mem_setPair _ _ _ _ (hne _ (by rw [hq.1, hs1]; omega)).1 (hne _ (by rw [hq.1, hs1]; omega)).2, mem_setMem, if_pos rfl]
  have hhi : rd (step s).2 (spOf s) = m.pc.extractLsb' 8 8 := by
    rw [← hsn, ← mem_abs, hm, ← hq.1]
    change (Isa.pushPC m).mem _ = _
    unfold Isa.pushPC
    simp only
    rw [mem_setPair _ _ _ _ (hne _ (by rw [hq.1, hsn]; omega)).1 (hne _ (by rw [hq.1, hsn]; omega)).2, mem_setMem, if_neg, mem_setMem, if_pos rfl]
    intro e
    have e := congrArg BitVec.toNat e
    rw [hq.1, hs1, hsn] at e
    omega
  -- the return
  have hpt : pair (abs t) Isa.SP = pair (abs s) Isa.SP - 2 := by
    apply BitVec.eq_of_toNat_eq
    rw [spOf_pair, hst, ← spOf_pair, hspu]
  have e1 : (pair (abs t) Isa.SP + 1).toNat = spOf t + 1 := by rw [add1_nat, spOf_pair]; omega
  have e2 : (pair (abs t) Isa.SP + 2).toNat = spOf t + 2 := by rw [add2, add1_nat, add1_nat, spOf_pair]; omega
  have hback : pair (abs t) Isa.SP + 2 = pair (abs s) Isa.SP := by
    rw [hpt]
    exact BitVec.sub_add_cancel _ _
  have happ : (m.pc.extractLsb' 8 8 ++ m.pc.extractLsb' 0 8 : Word) = m.pc := by
    apply BitVec.eq_of_toNat_eq
    rw [append_toNat, BitVec.extractLsb'_toNat, BitVec.extractLsb'_toNat, Nat.shiftRight_eq_div_pow, Nat.shiftRight_zero]
    have := m.pc.isLt
    omega
  have hpop : ∀ n : Mach, n.mem = (abs t).mem → (Isa.popPC n).pc = BitVec.ofNat 16 (after i s) ∧ pair (Isa.popPC n) Isa.SP = pair (abs s) Isa.SP := by
    intro n hn
    have hsame : pair n Isa.SP = pair (abs t) Isa.SP := by unfold Isa.pair Isa.reg; rw [hn]
    constructor
    · change (n.mem (pair n Isa.SP + 2) ++ n.mem (pair n Isa.SP + 1) : Word) = _
      rw [hn, hsame, mem_abs, mem_abs, e1, e2, h1, h2, hst, hspn, show spOf s - 2 + 1 = spOf s - 1 by omega,
        show spOf s - 2 + 2 = spOf s by omega, hlo, hhi, happ, hq.2]
    · unfold Isa.popPC
      simp only
      rw [pair_setPair _ _ _ (by decide), hsame, hback]
  have hfin : (step t).1 = true ∧ (abs (step t).2).pc = BitVec.ofNat 16 (after i s) ∧ pair (abs (step t).2) Isa.SP = pair (abs s) Isa.SP ∧
      (step t).2.pc < 0x10000 := by
    rcases hr with hr | hr
    · obtain ⟨k1, k2, k3⟩ := step_to t ht _ hr id
      have := hpop (Isa.fetch (abs t)).2 rfl
      rw [k2]
      exact ⟨k1, this.1, this.2, k3⟩
    · obtain ⟨k1, k2, k3⟩ := step_to t ht _ hr id
      have := hpop (Isa.fetch (abs t)).2 rfl
      rw [k2]
      refine ⟨k1, this.1, ?_, k3⟩
      rw [← this.2]
      exact pair_setReg _ _ _ _ (by decide) (by decide) (by decide) (by decide)
  refine ⟨g1, hspn, hfin.1, ?_, ?_⟩
  · have := congrArg BitVec.toNat hfin.2.1
    rw [pc_toNat _ hfin.2.2.2, BitVec.toNat_ofNat] at this
    rw [this]
    unfold after
    omega
  · rw [← spOf_pair, hfin.2.2.1, hsn]

/-- RCALL 3 at 0; RET at 4. -/
example : let s := mkSt [0xd003, 0, 0, 0, 0x9508] [(0x5d, 0x70)]
    Isa.decode (word s) = some ⟨.rcall, 3, 0⟩ ∧ spOf s = 0x70 ∧ ¬ Differs ⟨.rcall, 3, 0⟩ (Isa.fetch (abs s)).2 ∧
    Isa.decode (word (step s).2) = some ⟨.ret, 0, 0⟩ ∧ (run 2 s).2.pc = 1 := by decide +kernel

/-- With the stack at the top of a usual device's memory (0x25f) a call does not return. -/
theorem c118_false : let s := mkSt [0xd003, 0, 0, 0, 0x9508] [(0x5d, 0x5f), (0x5e, 0x02)]
    spOf s = 0x25f ∧ Isa.decode (word s) = some ⟨.rcall, 3, 0⟩ ∧ Isa.decode (word (step s).2) = some ⟨.ret, 0, 0⟩ ∧
    (run 2 s).1 = true ∧ (run 2 s).2.pc = 0x101 ∧
    (Isa.run 2 (abs s)).map (fun m => m.pc) = some 1#16 := by decide +kernel

/-! ### Skips -/

/-- The condition of a skip. -/
def skips (i : Ins) (m : Mach) : Option Bool := match i.op with
  | .cpse => some (reg m i.x == reg m i.y)
  | .sbrc => some (!(reg m i.x).getLsbD i.y)
  | .sbrs => some ((reg m i.x).getLsbD i.y)
  | .sbic => some (!(reg m (0x20 + i.x)).getLsbD i.y)
  | .sbis => some ((reg m (0x20 + i.x)).getLsbD i.y)
  | _ => none

/-- A skip instruction passes over exactly one instruction of one or two words when its condition
holds, over none when not, and changes nothing else. -/
theorem c122_skip_partial (s : St) (hp : s.pc < 0x10000) (i : Ins) (hi : Isa.decode (word s) = some i) (b : Bool)
    (hb : skips i (abs s) = some b) (hd : ¬ Differs i (Isa.fetch (abs s)).2) :
    (step s).1 = true ∧ (∀ a, a < 0x10000 → rd (step s).2 a = rd s a) ∧ (step s).2.sleep = s.sleep ∧
    (step s).2.pc = (s.pc + 1 + (if b then (if Isa.twoWords (s.rom (BitVec.ofNat 16 s.pc + 1)).toNat then 2 else 1) else 0)) % 0x10000 := by
  obtain ⟨g1, g2, g3⟩ := step_to s hp _ hi hd
  have hx : Isa.exec i (Isa.fetch (abs s)).2 = if b then Isa.skip (Isa.fetch (abs s)).2 else (Isa.fetch (abs s)).2 := by
    obtain ⟨op, x, y⟩ := i
    unfold skips at hb
    have hreg : ∀ k, reg (Isa.fetch (abs s)).2 k = reg (abs s) k := fun _ => rfl
    cases op <;> simp only [Option.some.injEq, reduceCtorEq] at hb <;> dsimp only [Isa.exec] <;> rw [hreg]
    · rw [hreg]
      subst hb
      by_cases h : reg (abs s) x = reg (abs s) y
      · simp [h]
      · simp [h]
    all_goals
      subst hb
      cases BitVec.getLsbD _ y <;> rfl
  rw [hx] at g2
  have hmem : (abs (step s).2).mem = (abs s).mem := by rw [g2]; cases b <;> rfl
  have hsl : (abs (step s).2).asleep = (abs s).asleep := by rw [g2]; cases b <;> rfl
  refine ⟨g1, ?_, hsl, ?_⟩
  · intro a ha
    rw [← reg_abs _ _ ha, ← reg_abs _ _ ha]
    unfold Isa.reg
    rw [hmem]
  · have h : (abs (step s).2).pc = (abs s).pc + 1 + BitVec.ofNat 16 (if b then (if Isa.twoWords (s.rom (BitVec.ofNat 16 s.pc + 1)).toNat then 2 else 1) else 0) := by
      rw [g2]
      cases b with
      | false => exact (BitVec.add_zero _).symm
      | true =>
        change (abs s).pc + 1 + (if Isa.twoWords (s.rom (BitVec.ofNat 16 s.pc + 1)).toNat then 2 else 1) = _
        cases Isa.twoWords (s.rom (BitVec.ofNat 16 s.pc + 1)).toNat <;> rfl
    have e := congrArg BitVec.toNat h
    rw [pc_toNat _ g3, BitVec.toNat_add, add1_nat, pc_toNat s hp, BitVec.toNat_ofNat] at e
    rw [e]
    generalize (if b then (if Isa.twoWords (s.rom (BitVec.ofNat 16 s.pc + 1)).toNat then 2 else 1) else 0) = k
    omega

/-- SBRS R0,7 over JMP. -/
example : let s := mkSt [0xfe07, 0x940c, 5] [(0, 0x80)]
    Isa.decode (word s) = some ⟨.sbrs, 0, 7⟩ ∧ skips ⟨.sbrs, 0, 7⟩ (abs s) = some true ∧ ¬ Differs ⟨.sbrs, 0, 7⟩ (Isa.fetch (abs s)).2 ∧
    (step s).2.pc = 3 := by decide +kernel

/-- SBIC 0,0 over JMP stops in the middle of the JMP; CPSE R0,R0 over MOVW R2,R4 is an invalid instruction. -/
theorem c122_false : (step (mkSt [0x9900, 0x940c, 5] [])).2.pc = 2 ∧ skips ⟨.sbic, 0, 0⟩ (abs (mkSt [0x9900, 0x940c, 5] [])) = some true ∧
    Isa.decode 0x9900 = some ⟨.sbic, 0, 0⟩ ∧ Isa.twoWords 0x940c = true ∧
    Isa.decode 0x1000 = some ⟨.cpse, 0, 0⟩ ∧ Isa.decode 0x0112 = some ⟨.movw, 2, 4⟩ ∧ (step (mkSt [0x1000, 0x0112] [])).1 = false := by
  decide +kernel

end Ucsim.Avr
