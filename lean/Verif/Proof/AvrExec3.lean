import Verif.Proof.AvrExec2
/- The member functions execute the instructions of the manual: stack, jumps, skips; every step. -/
namespace Ucsim.Avr

open Isa (Ins Mach reg pair flag carry setReg setMem setPair setFlags)

/-! ### Stack -/

theorem abs_setSP (w : Word) (n : Nat) (s : St) (hw : w.toNat = n) : abs (setSP n s) = setPair Isa.SP w (abs s) :=
  abs_setPair 0x5d n w s (by omega) hw

theorem setSP_pc (n : Nat) (s : St) : (setSP n s).pc = s.pc := by
  unfold setSP
  rw [wr_pc, wr_pc]

theorem sp_nat (s : St) : (pair (abs s) Isa.SP).toNat = ptr SPL s := pair_toNat s 0x5d (by omega)

theorem sub1_nat (w : Word) : (w - 1).toNat = (w.toNat + 0xffff) % 0x10000 := by
  rw [BitVec.toNat_sub]
  change (65536 - 1 + w.toNat) % 65536 = _
  omega

theorem add1_nat (w : Word) : (w + 1).toNat = (w.toNat + 1) % 0x10000 := by
  rw [BitVec.toNat_add]
  rfl

theorem sub2 (w : Word) : w - 2 = w - 1 - 1 := by
  apply BitVec.eq_of_toNat_eq
  rw [sub1_nat, sub1_nat, BitVec.toNat_sub]
  change (65536 - 2 + w.toNat) % 65536 = _
  omega

theorem add2 (w : Word) : w + 2 = w + 1 + 1 := by
  apply BitVec.eq_of_toNat_eq
  rw [add1_nat, add1_nat, BitVec.toNat_add]
  change (w.toNat + 2) % 65536 = _
  omega

theorem abs_pushData (v : Byte) (s : St) (h : ¬ NoRam (pair (abs s) Isa.SP)) : abs (pushData v s) = Isa.push v (abs s) := by
  unfold NoRam at h
  unfold pushData Isa.push
  simp only
  rw [abs_setSP (pair (abs s) Isa.SP - 1) _ _ (by rw [sub1_nat, sp_nat]),
    abs_wrm (pair (abs s) Isa.SP) (ptr SPL s) _ _ (sp_nat s) (by rw [← sp_nat]; omega)]

theorem pushData_pc (v : Byte) (s : St) : (pushData v s).pc = s.pc := by
  unfold pushData
  simp only
  rw [setSP_pc, wr_pc]

theorem abs_pushAddr (s : St) (hp : s.pc < 0x10000) (h : ¬ NoStack (abs s)) : abs (pushAddr s.pc s) = Isa.pushPC (abs s) := by
  unfold NoStack NoRam at h
  simp only [not_or, Nat.not_le] at h
  unfold pushAddr Isa.pushPC
  simp only
  have h1 : (pair (abs s) Isa.SP - 1).toNat = (ptr SPL s + 0xffff) % 0x10000 := by rw [sub1_nat, sp_nat]
  rw [abs_setSP (pair (abs s) Isa.SP - 2) _ _ (by rw [sub2, sub1_nat, h1]),
    abs_wrm (pair (abs s) Isa.SP - 1) _ _ _ h1 (by rw [← h1]; exact h.2),
    abs_wrm (pair (abs s) Isa.SP) (ptr SPL s) _ _ (sp_nat s) (by rw [← sp_nat]; exact h.1),
    lo_eq (abs s).pc s.pc rfl, hi_eq (abs s).pc s.pc rfl hp]

theorem pushAddr_pc (a : Nat) (s : St) : (pushAddr a s).pc = s.pc := by
  unfold pushAddr
  simp only
  rw [setSP_pc, wr_pc, wr_pc]

theorem abs_popData (s : St) : abs (popData s).2 = (Isa.pop (abs s)).2 ∧ (popData s).1 = (Isa.pop (abs s)).1 := by
  unfold popData Isa.pop
  simp only
  have h1 : (pair (abs s) Isa.SP + 1).toNat = (ptr SPL s + 1) % 0x10000 := by rw [add1_nat, sp_nat]
  refine ⟨abs_setSP _ _ _ h1, ?_⟩
  rw [mem_abs, h1]

theorem abs_popAddr (s : St) : abs (jump (popAddr s).1 (popAddr s).2) = Isa.popPC (abs s) ∧ (popAddr s).1 < 0x10000 := by
  have h1 : (pair (abs s) Isa.SP + 1).toNat = (ptr SPL s + 1) % 0x10000 := by rw [add1_nat, sp_nat]
  have h2 : (pair (abs s) Isa.SP + 2).toNat = ((ptr SPL s + 1) % 0x10000 + 1) % 0x10000 := by rw [add2, add1_nat, h1]
  constructor
  · rw [abs_jump]
    unfold popAddr Isa.popPC
    simp only
    rw [abs_setSP (pair (abs s) Isa.SP + 2) _ _ h2, mem_abs, mem_abs, h1, h2]
    have : ∀ h l : Byte, BitVec.ofNat 16 (h.toNat * 256 + l.toNat) = h ++ l := by
      intro h l
      apply BitVec.eq_of_toNat_eq
      rw [append_toNat, BitVec.toNat_ofNat]
      have := h.isLt
      have := l.isLt
      omega
    rw [this]
    rfl
  · unfold popAddr
    simp only
    have := (rd s (((ptr SPL s + 1) % 0x10000 + 1) % 0x10000)).isLt
    have := (rd s ((ptr SPL s + 1) % 0x10000)).isLt
    omega

/-! ### Jumps -/

theorem fetch_eq (s : St) (hp : s.pc < 0x10000) : (fetch s).1 = ((abs s).prog (abs s).pc).toNat ∧ abs (fetch s).2 = (Isa.fetch (abs s)).2 ∧
    (fetch s).2.pc < 0x10000 := by
  refine ⟨?_, ?_, ?_⟩
  · unfold fetch romRd
    simp only [hp, if_true]
    rfl
  · refine mach_ext rfl (fun _ => rfl) ?_ rfl
    change BitVec.ofNat 16 ((s.pc + 1) % 0x10000) = BitVec.ofNat 16 s.pc + 1
    apply BitVec.eq_of_toNat_eq
    rw [add1_nat, BitVec.toNat_ofNat, BitVec.toNat_ofNat]
    omega
  · unfold fetch
    simp only
    omega

theorem rel_ok (n k K pc : Nat) (hn : n ≤ 12) (hk : k < 2 ^ n)
    (hK : K = if 2 ^ (n - 1) ≤ k then 0x100000000 - 2 ^ n + k else k) (hp : pc < 0x10000) :
    BitVec.ofNat 16 ((pc + K) % 0x100000000) = BitVec.ofNat 16 pc + Isa.rel n k ∧
      ((pc + K) % 0x100000000 = 0x10000 → (pc : Int) + relInt n k = 0x10000) := by
  have hle : 2 ^ n ≤ 2 ^ 12 := Nat.pow_le_pow_right (by omega) hn
  have hle2 : 2 ^ (n - 1) ≤ 2 ^ n := Nat.pow_le_pow_right (by omega) (by omega)
  have ecast : ((2 ^ n : Nat) : Int) = (2 : Int) ^ n := by simp
  generalize hA : 2 ^ n = A at *
  generalize hB : 2 ^ (n - 1) = B at *
  simp only [Nat.reducePow] at hle
  constructor
  · apply BitVec.eq_of_toNat_eq
    unfold Isa.rel
    rw [BitVec.toNat_add, BitVec.toNat_ofNat, BitVec.toNat_ofNat, BitVec.toNat_ofInt, hB, ← ecast]
    simp only [Nat.reducePow]
    by_cases h : B ≤ k
    · rw [if_pos h] at hK
      rw [if_neg (by omega)]
      omega
    · rw [if_neg h] at hK
      rw [if_pos (by omega)]
      omega
  · unfold relInt
    rw [hB, ← ecast]
    intro h0
    by_cases h : B ≤ k
    · rw [if_pos h] at hK
      rw [if_neg (by omega)]
      omega
    · rw [if_neg h] at hK
      rw [if_pos (by omega)]
      omega

theorem or_disj (m k n : Nat) (h : k < 2 ^ n) : k ||| (m * 2 ^ n) = m * 2 ^ n + k := by
  rw [Nat.or_comm, Nat.mul_comm, Nat.two_pow_add_eq_or_of_lt h]

theorem k12_eq (c : Nat) : k12 c = if 2 ^ (12 - 1) ≤ (c &&& 0xfff) then 0x100000000 - 2 ^ 12 + (c &&& 0xfff) else c &&& 0xfff := by
  have hm : c &&& 0xfff < 2 ^ 12 := by
    rw [show (0xfff : Nat) = 2 ^ 12 - 1 from rfl, Nat.and_two_pow_sub_one_eq_mod]
    omega
  unfold k12
  generalize c &&& 0xfff = k at *
  have hb : (k &&& 0x800 != 0) = decide (2 ^ (12 - 1) ≤ k) := by
    refine Eq.trans (mask_bit' 11 k) ?_
    rw [testBit_nat, decide_eq_decide]
    simp only [Nat.reducePow] at hm ⊢
    omega
  rw [hb]
  by_cases h : 2 ^ (12 - 1) ≤ k
  · rw [if_pos (decide_eq_true h), if_pos h]
    exact or_disj 0xfffff k 12 hm
  · rw [if_neg (by simpa using h), if_neg h]

theorem k7_lt (c : Nat) : (c &&& 0x3f8) >>> 3 < 2 ^ 7 := by
  have h1 : c &&& 0x3f8 ≤ 0x3f8 := Nat.and_le_right
  rw [Nat.shiftRight_eq_div_pow]
  omega

theorem k7_eq (c : Nat) : k7 c = if 2 ^ (7 - 1) ≤ ((c &&& 0x3f8) >>> 3) then 0x100000000 - 2 ^ 7 + ((c &&& 0x3f8) >>> 3) else (c &&& 0x3f8) >>> 3 := by
  have hm := k7_lt c
  have hb : (c &&& 0x200 != 0) = decide (2 ^ (7 - 1) ≤ (c &&& 0x3f8) >>> 3) := by
    have e : (c &&& 0x200 != 0) = ((c &&& 0x3f8) >>> 3).testBit 6 := by
      refine Eq.trans (mask_bit' 9 c) ?_
      rw [Nat.testBit_shiftRight, Nat.testBit_and]
      rw [show (0x3f8 : Nat).testBit (3 + 6) = true from by decide, Bool.and_true]
    rw [e, testBit_nat, decide_eq_decide]
    simp only [Nat.reducePow] at hm ⊢
    omega
  unfold k7
  rw [hb]
  generalize (c &&& 0x3f8) >>> 3 = k at *
  by_cases h : 2 ^ (7 - 1) ≤ k
  · rw [if_pos (decide_eq_true h), if_pos h]
    exact or_disj 0x1ffffff k 7 hm
  · rw [if_neg (by simpa using h), if_neg h]

theorem relj (n k K : Nat) (s : St) (hn : n ≤ 12) (hk : k < 2 ^ n) (hK : K = if 2 ^ (n - 1) ≤ k then 0x100000000 - 2 ^ n + k else k)
    (hp : s.pc < 0x10000) (t : St) (ht : t.pc = s.pc) (ha : ¬ AtEnd (abs s) n k) :
    abs (jump (rel t K) t) = { abs t with pc := (abs s).pc + Isa.rel n k } ∧ (jump (rel t K) t).pc < 0x10000 := by
  have h := rel_ok n k K s.pc hn hk hK hp
  constructor
  · rw [abs_jump]
    unfold rel
    rw [ht, h.1]
    rfl
  · unfold jump rel
    simp only
    apply validate_lt
    rw [ht]
    intro h0
    apply ha
    unfold AtEnd
    rw [show (abs s).pc.toNat = s.pc from by
      change (BitVec.ofNat 16 s.pc).toNat = _
      rw [BitVec.toNat_ofNat]
      omega]
    exact h.2 h0

theorem abs_setpc (t : St) (a : Nat) : abs { t with pc := a } = { abs t with pc := BitVec.ofNat 16 a } := rfl

section
variable (c : Nat) (s : St) (hp : s.pc < 0x10000)
include hp

theorem ok_rjmp (hd : ¬ Differs ⟨.rjmp, c &&& 0xfff, 0⟩ (abs s)) : Ok (exec .rjmp c s) (Isa.exec ⟨.rjmp, c &&& 0xfff, 0⟩ (abs s)) := by
  have hk : c &&& 0xfff < 2 ^ 12 := by
    rw [show (0xfff : Nat) = 2 ^ 12 - 1 from rfl, Nat.and_two_pow_sub_one_eq_mod]
    omega
  have h := relj 12 (c &&& 0xfff) (k12 c) s (by omega) hk (k12_eq c) hp s rfl hd
  exact ⟨_, rfl, h.1, h.2⟩

theorem ok_rcall (hd : ¬ Differs ⟨.rcall, c &&& 0xfff, 0⟩ (abs s)) : Ok (exec .rcall c s) (Isa.exec ⟨.rcall, c &&& 0xfff, 0⟩ (abs s)) := by
  have hk : c &&& 0xfff < 2 ^ 12 := by
    rw [show (0xfff : Nat) = 2 ^ 12 - 1 from rfl, Nat.and_two_pow_sub_one_eq_mod]
    omega
  have hd : ¬ (NoStack (abs s) ∨ AtEnd (abs s) 12 (c &&& 0xfff)) := hd
  have h := relj 12 (c &&& 0xfff) (k12 c) s (by omega) hk (k12_eq c) hp (pushAddr s.pc s) (pushAddr_pc _ _) (fun h => hd (Or.inr h))
  refine ⟨tick 2 (jump (rel (pushAddr s.pc s) (k12 c)) (pushAddr s.pc s)), rfl, ?_, h.2⟩
  dsimp only [Isa.exec]
  rw [abs_tick]
  refine Eq.trans h.1 ?_
  rw [abs_pushAddr s hp (fun h => hd (Or.inl h))]

theorem ok_brbs (hd : ¬ Differs ⟨.brbs, cb c, (c &&& 0x3f8) >>> 3⟩ (abs s)) :
    Ok (exec .brbs c s) (Isa.exec ⟨.brbs, cb c, (c &&& 0x3f8) >>> 3⟩ (abs s)) := by
  have hd : ¬ (flag (abs s) (cb c) = true ∧ AtEnd (abs s) 7 ((c &&& 0x3f8) >>> 3)) := hd
  refine ⟨_, rfl, ?_⟩
  dsimp only [Isa.exec]
  rw [bit_ne _ _ (cb_lt c), ← flag_abs]
  by_cases hf : flag (abs s) (cb c) = true
  · rw [if_pos hf, if_pos hf]
    exact relj 7 _ (k7 c) s (by omega) (k7_lt c) (k7_eq c) hp s rfl (fun h => hd ⟨hf, h⟩)
  · rw [if_neg hf, if_neg hf]
    exact ⟨rfl, hp⟩

theorem ok_brbc (hd : ¬ Differs ⟨.brbc, cb c, (c &&& 0x3f8) >>> 3⟩ (abs s)) :
    Ok (exec .brbc c s) (Isa.exec ⟨.brbc, cb c, (c &&& 0x3f8) >>> 3⟩ (abs s)) := by
  have hd : ¬ (flag (abs s) (cb c) = false ∧ AtEnd (abs s) 7 ((c &&& 0x3f8) >>> 3)) := hd
  refine ⟨_, rfl, ?_⟩
  dsimp only [Isa.exec]
  rw [bit_eq _ _ (cb_lt c), ← flag_abs]
  cases hf : flag (abs s) (cb c) with
  | true => exact ⟨rfl, hp⟩
  | false => exact relj 7 _ (k7 c) s (by omega) (k7_lt c) (k7_eq c) hp s rfl (fun h => hd ⟨hf, h⟩)

theorem ok_ijmp : Ok (exec .ijmp c s) (Isa.exec ⟨.ijmp, 0, 0⟩ (abs s)) := by
  refine ⟨_, rfl, ?_, ?_⟩
  · rw [abs_jump]
    dsimp only [Isa.exec]
    rw [pair_abs _ _ (by decide)]
    rfl
  · exact validate_lt _ (by have := ptr_lt rZ s; omega)

theorem ok_icall (hd : ¬ Differs ⟨.icall, 0, 0⟩ (abs s)) : Ok (exec .icall c s) (Isa.exec ⟨.icall, 0, 0⟩ (abs s)) := by
  have hd : ¬ (NoStack (abs s) ∨ pair (abs s) Isa.SP = 30#16 ∨ pair (abs s) Isa.SP = 31#16 ∨ pair (abs s) Isa.SP = 32#16) := hd
  simp only [not_or] at hd
  have ha := abs_pushAddr s hp hd.1
  have hz : pair (Isa.pushPC (abs s)) Isa.Z = pair (abs s) Isa.Z := by
    unfold Isa.pushPC
    simp only
    have hpr : ∀ m : Mach, pair (setPair Isa.SP (pair (abs s) Isa.SP - 2) m) Isa.Z = pair m Isa.Z := by
      intro m
      unfold Isa.pair
      rw [reg_setPair _ _ _ _ (by decide) (by decide) (by decide) (by decide), reg_setPair _ _ _ _ (by decide) (by decide) (by decide) (by decide)]
    rw [hpr]
    have e1 : ∀ k : Word, pair (abs s) Isa.SP - 1 = k - 1 → pair (abs s) Isa.SP = k := by
      intro k h
      have h2 := congrArg (· + 1) h
      simpa using h2
    rw [pair_setMem, pair_setMem]
    · exact hd.2.1
    · exact hd.2.2.1
    · intro h
      exact hd.2.2.1 (e1 31#16 h)
    · intro h
      exact hd.2.2.2 (e1 32#16 h)
  refine ⟨tick 2 { pushAddr s.pc s with pc := ptr rZ (pushAddr s.pc s) }, rfl, ?_, ptr_lt _ _⟩
  dsimp only [Isa.exec]
  rw [abs_tick, abs_setpc, ← hz, ← ha, pair_abs _ _ (by decide)]
  rfl

theorem kh_or (lo : Nat) (h : lo < 0x10000) : (kh c <<< 16) ||| lo = kh c * 0x10000 + lo := by
  rw [← Nat.shiftLeft_add_eq_or_of_lt (by omega : lo < 2 ^ 16), Nat.shiftLeft_eq]

theorem ok_jmp (hd : ¬ Differs ⟨.jmp, kh c, 0⟩ (abs s)) : Ok (exec .jmp c s) (Isa.exec ⟨.jmp, kh c, 0⟩ (abs s)) := by
  have hd : ¬ (kh c = 1 ∧ (abs s).prog (abs s).pc = 0#16) := hd
  have hf := fetch_eq s hp
  have hlt := ((abs s).prog (abs s).pc).isLt
  refine ⟨tick 2 (jump ((kh c <<< 16) ||| (fetch s).1) (fetch s).2), rfl, ?_, ?_⟩
  · rw [abs_tick, abs_jump, hf.2.1, hf.1, kh_or c s hp _ hlt]
    dsimp only [Isa.exec, Isa.fetch]
    congr 1
    apply BitVec.eq_of_toNat_eq
    rw [BitVec.toNat_ofNat]
    omega
  · rw [hf.1, kh_or c s hp _ hlt]
    apply validate_lt
    intro h
    have : ((abs s).prog (abs s).pc).toNat = 0 ∧ kh c = 1 := by omega
    exact hd ⟨this.2, BitVec.eq_of_toNat_eq (by simpa using this.1)⟩

theorem ok_call (hd : ¬ Differs ⟨.call, kh c, 0⟩ (abs s)) : Ok (exec .call c s) (Isa.exec ⟨.call, kh c, 0⟩ (abs s)) := by
  have hd : ¬ (NoStack (abs s) ∨ (kh c = 1 ∧ (abs s).prog (abs s).pc = 0#16)) := hd
  have hf := fetch_eq s hp
  have hlt := ((abs s).prog (abs s).pc).isLt
  have hn : ¬ NoStack (abs (fetch s).2) := by
    rw [hf.2.1]
    exact fun h => hd (Or.inl h)
  refine ⟨tick 3 (jump (kh c * 0x10000 + (fetch s).1) (pushAddr (fetch s).2.pc (fetch s).2)), rfl, ?_, ?_⟩
  · rw [abs_tick, abs_jump, abs_pushAddr _ hf.2.2 hn, hf.2.1, hf.1]
    dsimp only [Isa.exec]
    have e : BitVec.ofNat 16 (kh c * 0x10000 + ((abs s).prog (abs s).pc).toNat) = (Isa.fetch (abs s)).1 := by
      apply BitVec.eq_of_toNat_eq
      rw [BitVec.toNat_ofNat]
      change _ = ((abs s).prog (abs s).pc).toNat
      omega
    rw [e]
  · rw [hf.1]
    apply validate_lt
    intro h
    have : ((abs s).prog (abs s).pc).toNat = 0 ∧ kh c = 1 := by omega
    exact hd (Or.inr ⟨this.2, BitVec.eq_of_toNat_eq (by simpa using this.1)⟩)

theorem ok_ret : Ok (exec .ret c s) (Isa.exec ⟨.ret, 0, 0⟩ (abs s)) := by
  have h := abs_popAddr s
  exact ⟨tick 3 (jump (popAddr s).1 (popAddr s).2), rfl, h.1, validate_lt _ (by omega)⟩

theorem ok_reti : Ok (exec .reti c s) (Isa.exec ⟨.reti, 0, 0⟩ (abs s)) := by
  have h := abs_popAddr s
  refine ⟨tick 3 (setSreg (sreg (jump (popAddr s).1 (popAddr s).2) ||| bI) (jump (popAddr s).1 (popAddr s).2)), rfl, ?_, ?_⟩
  · dsimp only [Isa.exec]
    rw [abs_tick, ← h.1]
    generalize jump (popAddr s).1 (popAddr s).2 = t
    exact fin_flags [(7, true)] _ _ rfl
  · simp only [tick_pc, setSreg_pc]
    exact validate_lt _ (by omega)

theorem ok_push (hd : ¬ Differs ⟨.push, cd c, 0⟩ (abs s)) : Ok (exec .push c s) (Isa.exec ⟨.push, cd c, 0⟩ (abs s)) := by
  have h1 := cd_lt c
  refine ⟨tick 1 (pushData (rd s (cd c)) s), rfl, ?_, by change (pushData _ _).pc < _; rw [pushData_pc]; exact hp⟩
  dsimp only [Isa.exec]
  rw [abs_tick, abs_pushData _ _ hd, reg_abs _ _ (by omega)]

theorem ok_pop : Ok (exec .pop c s) (Isa.exec ⟨.pop, cd c, 0⟩ (abs s)) := by
  have h1 := cd_lt c
  refine ⟨tick 1 (wr (cd c) (popData s).1 (popData s).2), rfl, ?_, ?_⟩
  · dsimp only [Isa.exec]
    rw [abs_tick, abs_wr _ _ _ (by omega), (abs_popData s).1, (abs_popData s).2]
  · change (wr _ _ _).pc < _
    rw [wr_pc]
    unfold popData
    simp only
    rw [setSP_pc]
    exact hp

theorem ok_lds : Ok (exec .lds c s) (Isa.exec ⟨.lds, cd c, 0⟩ (abs s)) := by
  have h1 := cd_lt c
  have hf := fetch_eq s hp
  refine ⟨tick 2 (wr (cd c) (rd (fetch s).2 (fetch s).1) (fetch s).2), rfl, ?_, ?_⟩
  · dsimp only [Isa.exec]
    rw [abs_tick, abs_wr _ _ _ (by omega), hf.2.1, hf.1]
    rfl
  · change (wr _ _ _).pc < _
    rw [wr_pc]
    exact hf.2.2

theorem ok_sts (hd : ¬ Differs ⟨.sts, cd c, 0⟩ (abs s)) : Ok (exec .sts c s) (Isa.exec ⟨.sts, cd c, 0⟩ (abs s)) := by
  have h1 := cd_lt c
  have hf := fetch_eq s hp
  have hd : ¬ 0x80 ≤ ((abs s).prog (abs s).pc).toNat := hd
  refine ⟨tick 2 (wr (fetch s).1 (rd (fetch s).2 (cd c)) (fetch s).2), rfl, ?_, ?_⟩
  · dsimp only [Isa.exec]
    rw [abs_tick, abs_wrm ((abs s).prog (abs s).pc) _ _ _ hf.1.symm (by rw [hf.1]; omega), hf.2.1, ← reg_abs _ _ (by omega), hf.2.1]
    rfl
  · change (wr _ _ _).pc < _
    rw [wr_pc]
    exact hf.2.2

theorem ok_lpm (hd : ¬ Differs ⟨.lpm0, 0, 0⟩ (abs s)) : Ok (exec .lpm c s) (Isa.exec ⟨.lpm0, 0, 0⟩ (abs s)) := by
  have hd : Isa.progByte (abs s) (pair (abs s) Isa.Z) =
      if (pair (abs s) Isa.Z).getLsbD 0 then ((abs s).prog (pair (abs s) Isa.Z)).extractLsb' 8 8 else ((abs s).prog (pair (abs s) Isa.Z)).extractLsb' 0 8 :=
    Classical.byContradiction hd
  have hb : (ptr rZ s &&& 1 != 0) = (pair (abs s) Isa.Z).getLsbD 0 := by
    refine Eq.trans (mask_bit' 0 (ptr rZ s)) ?_
    rw [show ptr rZ s = (pair (abs s) Isa.Z).toNat from (pair_toNat s 30 (by omega)).symm]
    rfl
  have hr : romRd s (ptr rZ s) = (abs s).prog (pair (abs s) Isa.Z) := by
    unfold romRd
    rw [if_pos (ptr_lt _ _), pair_abs _ _ (by decide)]
    rfl
  have hw : ∀ w : Word, BitVec.ofNat 8 (w.toNat >>> 8) = w.extractLsb' 8 8 := by
    intro w
    rw [hi_eq w w.toNat (by rw [BitVec.ofNat_toNat, BitVec.setWidth_eq]) w.isLt, Nat.shiftRight_eq_div_pow]
  have hl : ∀ w : Word, BitVec.ofNat 8 w.toNat = w.extractLsb' 0 8 := by
    intro w
    rw [lo_eq w w.toNat (by rw [BitVec.ofNat_toNat, BitVec.setWidth_eq])]
  refine ⟨_, rfl, ?_, ?_⟩
  · dsimp only [Isa.exec]
    rw [abs_tick, hb, hd, hr]
    cases (pair (abs s) Isa.Z).getLsbD 0
    · simp only [Bool.false_eq_true, if_false]
      rw [abs_wr _ _ _ (by omega), hl]
    · simp only [if_true]
      rw [abs_wr _ _ _ (by omega), hw]
  · rw [tick_pc]
    split
    · rw [wr_pc]; exact hp
    · rw [wr_pc]; exact hp

/-! ### Skips -/

theorem romRd_pc : romRd s s.pc = (abs s).prog (abs s).pc := by
  unfold romRd
  rw [if_pos hp]
  rfl

theorem skipTab_ok (hd : ¬ SkipBad (abs s)) : Ok (skipTab s) (Isa.skip (abs s)) := by
  unfold SkipBad at hd
  simp only [not_or] at hd
  unfold skipTab
  rw [romRd_pc s hp]
  cases he : disEntry ((abs s).prog (abs s).pc).toNat with
  | none => exact absurd he hd.1
  | some e =>
    have hl := disEntry_length _ ((abs s).prog (abs s).pc).isLt e he
    refine ⟨_, rfl, ?_, ?_⟩
    · rw [abs_tick, abs_jump, hl]
      unfold Isa.skip
      refine mach_ext rfl (fun _ => rfl) ?_ rfl
      change BitVec.ofNat 16 (s.pc + _) = BitVec.ofNat 16 s.pc + _
      split <;> exact BitVec.ofNat_add _ _
    · apply validate_lt
      rw [hl]
      have h2 := hd.2
      unfold Isa.skipped at h2
      rw [show (abs s).pc.toNat = s.pc from by
        change (BitVec.ofNat 16 s.pc).toNat = _
        rw [BitVec.toNat_ofNat]
        omega] at h2
      exact h2

theorem instLength_eq (a : Nat) (h : a < 0x10000) : instLength s a = if Isa.twoWords (s.rom (BitVec.ofNat 16 a)).toNat then 2 else 1 := by
  unfold instLength romRd
  rw [if_pos h]
  cases he : disEntry (s.rom (BitVec.ofNat 16 a)).toNat with
  | none => rw [disEntry_none _ (s.rom (BitVec.ofNat 16 a)).isLt he]; rfl
  | some e => exact disEntry_length _ (s.rom (BitVec.ofNat 16 a)).isLt e he

theorem skipFetch_ok (hd : ¬ SkipFar (abs s)) : abs (skipFetch s) = Isa.skip (abs s) ∧ (skipFetch s).pc < 0x10000 := by
  have hf := fetch_eq s hp
  unfold SkipFar at hd
  have hd := Classical.byContradiction hd
  have hl : instLength (fetch s).2 (fetch s).1 = if Isa.twoWords ((abs s).prog (abs s).pc).toNat then 2 else 1 := by
    rw [hf.1, instLength_eq (fetch s).2 hf.2.2 _ ((abs s).prog (abs s).pc).isLt, hd]
    rw [BitVec.ofNat_toNat, BitVec.setWidth_eq]
    rfl
  have hs : skipFetch s = tick 1 (fetchN (instLength (fetch s).2 (fetch s).1 - 1) (fetch s).2) := rfl
  rw [hs, hl, abs_tick]
  unfold Isa.skip
  cases Isa.twoWords ((abs s).prog (abs s).pc).toNat with
  | false =>
    change abs (fetch s).2 = _ ∧ (fetch s).2.pc < 0x10000
    exact ⟨hf.2.1, hf.2.2⟩
  | true =>
    have hg := fetch_eq (fetch s).2 hf.2.2
    change abs (fetch (fetch s).2).2 = _ ∧ (fetch (fetch s).2).2.pc < 0x10000
    refine ⟨?_, hg.2.2⟩
    rw [hg.2.1, hf.2.1]
    unfold Isa.fetch
    simp only [if_true]
    congr 1
    exact (add2 (abs s).pc).symm

theorem ok_cpse (hd : ¬ Differs ⟨.cpse, cd c, cr c⟩ (abs s)) : Ok (exec .cpse c s) (Isa.exec ⟨.cpse, cd c, cr c⟩ (abs s)) := by
  have h1 := cd_lt c
  have h2 := cr_lt c
  have hd : ¬ (reg (abs s) (cd c) = reg (abs s) (cr c) ∧ SkipBad (abs s)) := hd
  dsimp only [Isa.exec, exec]
  rw [reg_abs _ _ (by omega), reg_abs _ _ (by omega)] at hd ⊢
  by_cases he : rd s (cd c) = rd s (cr c)
  · rw [if_pos he, if_pos (by rw [he, beq_self_eq_true])]
    exact skipTab_ok s hp (fun h => hd ⟨he, h⟩)
  · rw [if_neg he, if_neg (by rw [beq_iff_eq]; exact fun h => he h.symm)]
    exact ⟨_, rfl, rfl, hp⟩

theorem ok_sbrc (hd : ¬ Differs ⟨.sbrc, cd c, cb c⟩ (abs s)) : Ok (exec .sbrc c s) (Isa.exec ⟨.sbrc, cd c, cb c⟩ (abs s)) := by
  have h1 := cd_lt c
  have hd : ¬ ((reg (abs s) (cd c)).getLsbD (cb c) = false ∧ SkipBad (abs s)) := hd
  dsimp only [Isa.exec, exec]
  rw [bit_eq _ _ (cb_lt c)]
  rw [reg_abs _ _ (by omega)] at hd ⊢
  cases he : (rd s (cd c)).getLsbD (cb c) with
  | false => exact skipTab_ok s hp (fun h => hd ⟨he, h⟩)
  | true => exact ⟨_, rfl, rfl, hp⟩

theorem ok_sbrs (hd : ¬ Differs ⟨.sbrs, cd c, cb c⟩ (abs s)) : Ok (exec .sbrs c s) (Isa.exec ⟨.sbrs, cd c, cb c⟩ (abs s)) := by
  have h1 := cd_lt c
  have hd : ¬ ((reg (abs s) (cd c)).getLsbD (cb c) = true ∧ SkipBad (abs s)) := hd
  dsimp only [Isa.exec, exec]
  rw [bit_ne _ _ (cb_lt c)]
  rw [reg_abs _ _ (by omega)] at hd ⊢
  cases he : (rd s (cd c)).getLsbD (cb c) with
  | true => exact skipTab_ok s hp (fun h => hd ⟨he, h⟩)
  | false => exact ⟨_, rfl, rfl, hp⟩

theorem ok_sbic (hd : ¬ Differs ⟨.sbic, cP5 c, cb c⟩ (abs s)) : Ok (exec .sbic c s) (Isa.exec ⟨.sbic, cP5 c, cb c⟩ (abs s)) := by
  have h1 := cP5_lt c
  have hd : ¬ ((reg (abs s) (0x20 + cP5 c)).getLsbD (cb c) = false ∧ SkipFar (abs s)) := hd
  dsimp only [Isa.exec, exec]
  rw [BitVec.and_comm, bit_eq _ _ (cb_lt c), Nat.add_comm (cP5 c)]
  rw [reg_abs _ _ (by omega)] at hd ⊢
  cases he : (rd s (0x20 + cP5 c)).getLsbD (cb c) with
  | false =>
    have := skipFetch_ok s hp (fun h => hd ⟨he, h⟩)
    exact ⟨_, rfl, this.1, this.2⟩
  | true => exact ⟨_, rfl, rfl, hp⟩

theorem ok_sbis (hd : ¬ Differs ⟨.sbis, cP5 c, cb c⟩ (abs s)) : Ok (exec .sbis c s) (Isa.exec ⟨.sbis, cP5 c, cb c⟩ (abs s)) := by
  have h1 := cP5_lt c
  have hd : ¬ ((reg (abs s) (0x20 + cP5 c)).getLsbD (cb c) = true ∧ SkipFar (abs s)) := hd
  dsimp only [Isa.exec, exec]
  rw [BitVec.and_comm, bit_ne _ _ (cb_lt c), Nat.add_comm (cP5 c)]
  rw [reg_abs _ _ (by omega)] at hd ⊢
  cases he : (rd s (0x20 + cP5 c)).getLsbD (cb c) with
  | true =>
    have := skipFetch_ok s hp (fun h => hd ⟨he, h⟩)
    exact ⟨_, rfl, this.1, this.2⟩
  | false => exact ⟨_, rfl, rfl, hp⟩

theorem ok_sleep : Ok (exec .sleep c s) (Isa.exec ⟨.sleep, 0, 0⟩ (abs s)) := ⟨_, rfl, rfl, hp⟩
theorem ok_nop : Ok (some s) (abs s) := ⟨_, rfl, rfl, hp⟩

theorem ok_lddY (hd : ¬ Differs ⟨.lddY, cd c, cq c⟩ (abs s)) : Ok (exec (.ldd rY) c s) (Isa.exec ⟨.lddY, cd c, cq c⟩ (abs s)) := by
  have hd : ¬ 0x10000 ≤ (pair (abs s) Isa.Y).toNat + cq c := hd
  rw [show (pair (abs s) Isa.Y).toNat = ptr rY s from pair_toNat s 28 (by omega)] at hd
  exact ok_ldd c s hp rY (by omega) (by decide)
theorem ok_lddZ (hd : ¬ Differs ⟨.lddZ, cd c, cq c⟩ (abs s)) : Ok (exec (.ldd rZ) c s) (Isa.exec ⟨.lddZ, cd c, cq c⟩ (abs s)) := by
  have hd : ¬ 0x10000 ≤ (pair (abs s) Isa.Z).toNat + cq c := hd
  rw [show (pair (abs s) Isa.Z).toNat = ptr rZ s from pair_toNat s 30 (by omega)] at hd
  exact ok_ldd c s hp rZ (by omega) (by decide)
theorem ok_stdY (hd : ¬ Differs ⟨.stdY, cd c, cq c⟩ (abs s)) : Ok (exec (.std rY) c s) (Isa.exec ⟨.stdY, cd c, cq c⟩ (abs s)) := by
  have hd : ¬ 0x80 ≤ (pair (abs s) Isa.Y).toNat + cq c := hd
  rw [show (pair (abs s) Isa.Y).toNat = ptr rY s from pair_toNat s 28 (by omega)] at hd
  exact ok_std c s hp rY (by omega) (by decide)
theorem ok_stdZ (hd : ¬ Differs ⟨.stdZ, cd c, cq c⟩ (abs s)) : Ok (exec (.std rZ) c s) (Isa.exec ⟨.stdZ, cd c, cq c⟩ (abs s)) := by
  have hd : ¬ 0x80 ≤ (pair (abs s) Isa.Z).toNat + cq c := hd
  rw [show (pair (abs s) Isa.Z).toNat = ptr rZ s from pair_toNat s 30 (by omega)] at hd
  exact ok_std c s hp rZ (by omega) (by decide)

/-- Every instruction the manual defines, where the simulator does not differ. -/
theorem exec_ok (f : Fn) (i : Ins) (hi : ofFn f c = some i) (hd : ¬ Differs i (abs s)) :
    Ok (exec f c s) (Isa.exec i (abs s)) := by
  cases f with
  | nop => cases hi; exact ok_nop s hp
  | wdr => simp only [ofFn] at hi; split at hi <;> cases hi; exact ok_nop s hp
  | sleep =>
    simp only [ofFn] at hi
    split at hi
    · cases hi; exact ok_sleep c s hp
    · cases hi; exact absurd trivial hd
  | eijmp => cases hi
  | eicall => cases hi
  | elpm => cases hi
  | spm => cases hi
  | espm => cases hi
  | elpmZ => cases hi
  | elpmZinc => cases hi
  | ser => cases hi
  | movw => cases hi; exact absurd trivial hd
  | muls => cases hi; exact absurd trivial hd
  | mulsu => cases hi; exact absurd trivial hd
  | fmul => cases hi; exact absurd trivial hd
  | fmuls => cases hi; exact absurd trivial hd
  | fmulsu => cases hi; exact absurd trivial hd
  | lpmZ => cases hi; exact absurd trivial hd
  | lpmZinc => cases hi; exact absurd trivial hd
  | ret => simp only [ofFn] at hi; split at hi <;> cases hi; exact ok_ret c s hp
  | reti => simp only [ofFn] at hi; split at hi <;> cases hi; exact ok_reti c s hp
  | ijmp => simp only [ofFn] at hi; split at hi <;> cases hi; exact ok_ijmp c s hp
  | icall => simp only [ofFn] at hi; split at hi <;> cases hi; exact ok_icall c s hp hd
  | sbrc => simp only [ofFn] at hi; split at hi <;> cases hi; exact ok_sbrc c s hp hd
  | sbrs => simp only [ofFn] at hi; split at hi <;> cases hi; exact ok_sbrs c s hp hd
  | bset n => cases hi; exact ok_bset c s hp n
  | bclr n => cases hi; exact ok_bclr c s hp n
  | cpi => cases hi; exact ok_cpi c s hp hd
  | sbci => cases hi; exact ok_sbci c s hp hd
  | subi => cases hi; exact ok_subi c s hp hd
  | ori => cases hi; exact ok_ori c s hp hd
  | andi => cases hi; exact ok_andi c s hp hd
  | rjmp => cases hi; exact ok_rjmp c s hp hd
  | rcall => cases hi; exact ok_rcall c s hp hd
  | cpc => cases hi; exact ok_cpc c s hp hd
  | sbc => cases hi; exact ok_sbc c s hp hd
  | cpse => cases hi; exact ok_cpse c s hp hd
  | adc => cases hi; exact ok_adc c s hp hd
  | mul => cases hi; exact ok_mul c s hp hd
  | adiw => cases hi; exact ok_adiw c s hp hd
  | sbiw => cases hi; exact ok_sbiw c s hp hd
  | sts => cases hi; exact ok_sts c s hp hd
  | stX => cases hi; exact ok_stX c s hp hd
  | push => cases hi; exact ok_push c s hp hd
  | neg => cases hi; exact ok_neg c s hp hd
  | ror => cases hi; exact ok_ror c s hp hd
  | jmp => cases hi; exact ok_jmp c s hp hd
  | call => cases hi; exact ok_call c s hp hd
  | sbic => cases hi; exact ok_sbic c s hp hd
  | sbis => cases hi; exact ok_sbis c s hp hd
  | brbs => cases hi; exact ok_brbs c s hp hd
  | brbc => cases hi; exact ok_brbc c s hp hd
  | ldi => cases hi; exact ok_ldi c s hp
  | add => cases hi; exact ok_add c s hp
  | cp => cases hi; exact ok_cp c s hp
  | sub => cases hi; exact ok_sub c s hp
  | and => cases hi; exact ok_and c s hp
  | eor => cases hi; exact ok_eor c s hp
  | or => cases hi; exact ok_or c s hp
  | mov => cases hi; exact ok_mov c s hp
  | lds => cases hi; exact ok_lds c s hp
  | ldX => cases hi; exact ok_ldX c s hp
  | pop => cases hi; exact ok_pop c s hp
  | com => cases hi; exact ok_com c s hp
  | swap => cases hi; exact ok_swap c s hp
  | inc => cases hi; exact ok_inc c s hp
  | asr => cases hi; exact ok_asr c s hp
  | lsr => cases hi; exact ok_lsr c s hp
  | dec => cases hi; exact ok_dec c s hp
  | cbi => cases hi; exact ok_cbi c s hp
  | sbi => cases hi; exact ok_sbi c s hp
  | inp => cases hi; exact ok_inp c s hp
  | out => cases hi; exact ok_out c s hp
  | bld => cases hi; exact ok_bld c s hp
  | bst => cases hi; exact ok_bst c s hp
  | lpm => cases hi; exact ok_lpm c s hp hd
  | ldd p =>
    simp only [ofFn] at hi
    split at hi
    · subst p; cases hi; exact ok_lddY c s hp hd
    · split at hi
      · subst p; cases hi; exact ok_lddZ c s hp hd
      · cases hi
  | std p =>
    simp only [ofFn] at hi
    split at hi
    · subst p; cases hi; exact ok_stdY c s hp hd
    · split at hi
      · subst p; cases hi; exact ok_stdZ c s hp hd
      · cases hi
  | ldInc p =>
    simp only [ofFn] at hi
    split at hi
    · subst p; cases hi; exact ok_ldInc c s hp rX (by decide) hd
    · split at hi
      · subst p; cases hi; exact ok_ldInc c s hp rY (by decide) hd
      · split at hi
        · subst p; cases hi; exact ok_ldInc c s hp rZ (by decide) hd
        · cases hi
  | ldDec p =>
    simp only [ofFn] at hi
    split at hi
    · subst p; cases hi; exact ok_ldDec c s hp rX (by decide) hd
    · split at hi
      · subst p; cases hi; exact ok_ldDec c s hp rY (by decide) hd
      · split at hi
        · subst p; cases hi; exact ok_ldDec c s hp rZ (by decide) hd
        · cases hi
  | stInc p =>
    simp only [ofFn] at hi
    split at hi
    · subst p; cases hi; exact ok_stInc c s hp rX (by decide) hd
    · split at hi
      · subst p; cases hi; exact ok_stInc c s hp rY (by decide) hd
      · split at hi
        · subst p; cases hi; exact ok_stInc c s hp rZ (by decide) hd
        · cases hi
  | stDec p =>
    simp only [ofFn] at hi
    split at hi
    · subst p; cases hi; exact ok_stDec c s hp rX (by decide) hd
    · split at hi
      · subst p; cases hi; exact ok_stDec c s hp rY (by decide) hd
      · split at hi
        · subst p; cases hi; exact ok_stDec c s hp rZ (by decide) hd
        · cases hi

/-! ### Steps -/

theorem step_ok (i : Ins) (hi : Isa.decode (s.rom (BitVec.ofNat 16 s.pc)).toNat = some i) (hd : ¬ Differs i (Isa.fetch (abs s)).2) :
    ∃ s', step s = (true, s') ∧ abs s' = Isa.exec i (Isa.fetch (abs s)).2 ∧ s'.pc < 0x10000 := by
  have hf := fetch_eq s hp
  have hc : (fetch s).1 = (s.rom (BitVec.ofNat 16 s.pc)).toNat := hf.1
  have hlt : (fetch s).1 < 0x10000 := by rw [hc]; exact (s.rom (BitVec.ofNat 16 s.pc)).isLt
  cases hs : select (fetch s).1 with
  | none =>
    have := (select_none _ hlt hs).1
    rw [hc, hi] at this
    cases this
  | some f =>
    have ho := (select_some _ hlt f hs).1
    rw [hc, hi] at ho
    have hd' : ¬ Differs i (abs (tick 1 (fetch s).2)) := by
      rw [abs_tick, hf.2.1]
      exact hd
    have h := exec_ok (fetch s).1 (tick 1 (fetch s).2) hf.2.2 f i (by rw [hc]; exact ho.symm) hd'
    obtain ⟨s', h1, h2, h3⟩ := h
    refine ⟨s', ?_, ?_, h3⟩
    · have hstep : step s = match (select (fetch s).1).bind (fun f => exec f (fetch s).1 (tick 1 (fetch s).2)) with
        | some s2 => (true, s2)
        | none => (false, { tick 1 (fetch s).2 with pc := s.pc }) := rfl
      rw [hstep, hs, Option.bind_some, h1]
    · rw [h2, abs_tick, hf.2.1]

theorem step_invalid (hi : Isa.decode (s.rom (BitVec.ofNat 16 s.pc)).toNat = none) (ha : accepted (s.rom (BitVec.ofNat 16 s.pc)).toNat = false) :
    step s = (false, { tick 1 (fetch s).2 with pc := s.pc }) := by
  have hf := fetch_eq s hp
  have hc : (fetch s).1 = (s.rom (BitVec.ofNat 16 s.pc)).toNat := hf.1
  have hlt : (fetch s).1 < 0x10000 := by rw [hc]; exact (s.rom (BitVec.ofNat 16 s.pc)).isLt
  have hstep : step s = match (select (fetch s).1).bind (fun f => exec f (fetch s).1 (tick 1 (fetch s).2)) with
    | some s2 => (true, s2)
    | none => (false, { tick 1 (fetch s).2 with pc := s.pc }) := rfl
  cases hs : select (fetch s).1 with
  | none => rw [hstep, hs, Option.bind_none]
  | some f =>
    have ho := select_some _ hlt f hs
    rw [hc] at ho
    rw [hi] at ho
    rw [← ho.1, ha] at ho
    simp at ho

end

end Ucsim.Avr
