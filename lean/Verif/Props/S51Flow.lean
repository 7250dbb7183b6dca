import Verif.Proof.S51Stack
import Verif.S51.Demo

/- 8051 control flow: C36, C37, C40. -/
namespace Ucsim.S51
open Spec

variable {H : Type} (P : Hw H)

/-! ### C36: calls and returns -/

theorem call_common (s u : St H) (k j : Nat) (v : Nat) (t : Nat) (hu : u = after s k j) (hv : v < 65536)
    (h : StackRoom P s 2) (u1 u2 : St H)
    (e1 : u1 = (pushByte P (byte v) u).2) (e2 : u2 = (pushByte P (byte (v / 256)) (tick 1 u1).2).2) (x : St H)
    (ex : x = (setPC t u2).2) : Called s x v t := by
  have hs : sp u = sp s := by rw [hu]; rfl
  have lt := (s.sfr SP).isLt
  have hsp : sp s < 256 := lt
  have r1 : (sp u + 1) % 256 < P.iramSize := by rw [hs]; exact h 1 (by decide) (by decide)
  rw [pushByte_eq P _ _ r1] at e1
  have s1 : sp (tick 1 u1).2 = (sp s + 1) % 256 := by
    rw [e1]
    show (upd u.sfr SP (u.sfr SP + 1#8) SP).toNat = _
    simp only [upd, if_true]
    rw [show u.sfr SP = s.sfr SP by rw [hu]; rfl]
    simp [sp, SP]
  have r2 : (sp (tick 1 u1).2 + 1) % 256 < P.iramSize := by
    rw [s1, show ((sp s + 1) % 256 + 1) % 256 = (sp s + 2) % 256 by omega]
    exact h 2 (by decide) (by decide)
  rw [pushByte_eq P _ _ r2, s1] at e2
  have ne : (sp s + 1) % 256 ≠ ((sp s + 1) % 256 + 1) % 256 := by omega
  have e22 : ((sp s + 1) % 256 + 1) % 256 = (sp s + 2) % 256 := by omega
  rw [e22] at e2 ne
  have i2 : u2.iram = upd (upd s.iram ((sp s + 1) % 256) (byte v)) ((sp s + 2) % 256) (byte (v / 256)) := by
    rw [e2, e1, hs, hu]; rfl
  have f2 : u2.sfr = upd (upd s.sfr SP (s.sfr SP + 1#8)) SP (s.sfr SP + 1#8 + 1#8) := by
    rw [e2, e1, hu]
    show upd (upd s.sfr SP (s.sfr SP + 1#8)) SP (upd s.sfr SP (s.sfr SP + 1#8) SP + 1#8) = _
    simp only [upd, if_true]
  have n1 : (s.sfr SP + 1#8 + 1#8).toNat = (sp s + 2) % 256 := by
    rw [BitVec.toNat_add, BitVec.toNat_add]; show (((sp s) + 1) % 256 + 1) % 256 = _; omega
  subst ex
  refine ⟨rfl, ?_, ?_, ?_, ?_, ⟨?_, ?_, ?_, ?_, ?_, ?_⟩⟩
  · show (u2.sfr SP).toNat = _
    rw [f2]; simp only [upd, if_true]; exact n1
  · show (u2.iram _).toNat = _
    rw [i2]; simp only [upd, if_neg ne, if_true]; rw [byte_toNat]
  · show (u2.iram _).toNat = _
    rw [i2]; simp only [upd, if_true]; rw [byte_toNat]; omega
  · intro a h1 h2
    show u2.iram a = _
    rw [i2]; simp only [upd, if_neg h1, if_neg h2]
  · show u2.xram = _; rw [e2, e1, hu]; rfl
  · show u2.rom = _; rw [e2, e1, hu]; rfl
  · intro a ha
    show u2.sfr a = _
    rw [f2]; simp only [upd, if_neg (show ¬ a = SP from ha)]
  · show u2.levels = _; rw [e2, e1, hu]; rfl
  · show u2.state = _; rw [e2, e1, hu]; rfl
  · show u2.bank = _; rw [e2, e1, hu]; rfl

/-- C36: LCALL puts the address of the next instruction on the stack and jumps to its
argument. -/
theorem c36_lcall (s : St H) (h : Ok P s) (hop : code s 0 = 0x12#8) (hr : StackRoom P s 2) :
    Called s (execInst P s).2 ((s.pc + 3) % 0x10000) (addr16 s) := by
  rw [execInst_after P s h.pc, hop, show decode 0x12#8 = .lcall by decide]
  simp only [exec, bind_def, fetch_after, getPC_val, getPC_pc, after_pc]
  have e : (code s 1).toNat * 256 + (code s 2).toNat = addr16 s := by unfold addr16; omega
  rw [e]
  exact call_common P s (after s 3 1) 3 1 _ _ rfl (Nat.mod_lt _ (by decide)) hr _ _ rfl rfl _ rfl

/-- C36: ACALL likewise, inside of the 2K page of the next instruction. -/
theorem c36_acall (s : St H) (h : Ok P s) (hop : (code s 0).toNat % 32 = 0x11) (hr : StackRoom P s 2) :
    Called s (execInst P s).2 ((s.pc + 2) % 0x10000) (page11 s) := by
  have hd : ∀ c : Byte, c.toNat % 32 = 0x11 → decode c = .acall := by decide +kernel
  rw [execInst_after P s h.pc, hd _ hop]
  simp only [exec, bind_def, fetch_after, getPC_val, getPC_pc, after_pc]
  rw [addr11_eq _ (Nat.mod_lt _ (by decide))]
  exact call_common P s (after s 2 1) 2 1 _ _ rfl (Nat.mod_lt _ (by decide)) hr _ _ rfl rfl _ rfl

theorem ret_common (s u : St H) (k j : Nat) (hu : u = after s k j) (h0 : sp s < P.iramSize)
    (h1 : (sp s + 255) % 256 < P.iramSize) : Returned s (retBody P u).2 := by
  have hs : sp u = sp s := by rw [hu]; rfl
  have hsp : sp s < 256 := (s.sfr SP).isLt
  have sub1 : ∀ b : Byte, (b - 1#8).toNat = (b.toNat + 255) % 256 := by decide +kernel
  simp only [retBody, bind_def]
  rw [popByte_eq P u (by rw [hs]; exact h0)]
  generalize hu1 : ({ u with sfr := upd u.sfr SP (u.sfr SP - 1#8) } : St H) = u1
  have s1 : sp (tick 1 u1).2 = (sp s + 255) % 256 := by
    rw [← hu1, hu]
    show (upd s.sfr SP (s.sfr SP - 1#8) SP).toNat = _
    simp only [upd, if_true]; exact sub1 _
  rw [popByte_eq P _ (by rw [s1]; exact h1), s1]
  refine ⟨?_, ?_, ?_, ?_, ?_, ?_⟩
  · show (u.iram (sp u)).toNat * 256 + (u1.iram _).toNat = _
    rw [hs, ← hu1, hu]; show (s.iram _).toNat * 256 + (s.iram _).toNat = _; omega
  · show (upd u1.sfr SP (u1.sfr SP - 1#8) SP).toNat = _
    simp only [upd, if_true]
    rw [sub1]
    have : (u1.sfr SP).toNat = (sp s + 255) % 256 := s1
    rw [this]; omega
  · show u1.iram = _; rw [← hu1, hu]; rfl
  · show u1.xram = _; rw [← hu1, hu]; rfl
  · show u1.rom = _; rw [← hu1, hu]; rfl
  · intro a ha
    show upd u1.sfr SP (u1.sfr SP - 1#8) a = _
    rw [← hu1, hu]
    simp only [upd, if_neg (show ¬ a = SP from ha)]; rfl

/-- C36: RET continues at the address on top of the stack. -/
theorem c36_ret (s : St H) (h : Ok P s) (hop : code s 0 = 0x22#8) (h0 : sp s < P.iramSize)
    (h1 : (sp s + 255) % 256 < P.iramSize) : Returned s (execInst P s).2 := by
  rw [execInst_after P s h.pc, hop, show decode 0x22#8 = .ret by decide]
  exact ret_common P s _ 1 1 rfl h0 h1

/-- C36: a call, whatever the subroutine does as long as it keeps its return address,
and a return: execution continues after the call and SP is what it was. -/
theorem c36_call_ret (s s' t : St H) (ret target : Nat) (hret : ret < 0x10000) (hc : Called s s' ret target)
    (hr : StackRoom P s 2) (ht : Ok P t) (hsp : sp t = sp s')
    (hm : ∀ i, 1 ≤ i → i ≤ 2 → t.iram ((sp s + i) % 256) = s'.iram ((sp s + i) % 256)) (hop : code t 0 = 0x22#8) :
    (execInst P t).2.pc = ret ∧ sp (execInst P t).2 = sp s := by
  have lsp : sp s < 256 := (s.sfr SP).isLt
  have a1 := hr 1 (by decide) (by decide)
  have a2 := hr 2 (by decide) (by decide)
  have e : sp t = (sp s + 2) % 256 := by rw [hsp, hc.sp]
  have e' : (sp t + 255) % 256 = (sp s + 1) % 256 := by rw [e]; omega
  have r := c36_ret P t ht hop (by rw [e]; exact a2) (by rw [e']; exact a1)
  refine ⟨?_, ?_⟩
  · rw [r.pc, e', e, hm 2 (by decide) (by decide), hm 1 (by decide) (by decide), hc.low, hc.high]; omega
  · rw [r.sp, e]; omega

/-- C36: PUSH puts the byte at its direct address on the stack. -/
theorem c36_push (s : St H) (h : Ok P s) (hop : code s 0 = 0xc0#8) (hr : StackRoom P s 1) :
    let s' := (execInst P s).2
    sp s' = (sp s + 1) % 256 ∧ s'.iram ((sp s + 1) % 256) = direct P s (code s 1) ∧
    (∀ a, a ≠ (sp s + 1) % 256 → s'.iram a = s.iram a) ∧ s'.pc = (s.pc + 2) % 0x10000 ∧ OnlyStack s s' := by
  intro s'
  have e : s' = (exec P .push 0xc0#8 (after s 1 1)).2 := by
    show (execInst P s).2 = _
    rw [execInst_after P s h.pc, hop, show decode 0xc0#8 = .push by decide]
  simp only [exec, bind_def, fetch_after] at e
  obtain ⟨e1, hw, e2⟩ := dirRead_eq P (after s 2 1) h.size (code s 1)
  rw [e1, e2, pushByte_eq P _ _ (by exact hr 1 (by decide) (by decide))] at e
  refine ⟨?_, ?_, ?_, by rw [e]; rfl, by rw [e]; rfl, by rw [e]; rfl, ?_, by rw [e]; rfl, by rw [e]; rfl, by rw [e]; rfl⟩
  · rw [e]
    show (upd s.sfr SP (s.sfr SP + 1#8) SP).toNat = _
    simp only [upd, if_true]; simp [sp, SP]
  · rw [e]
    show upd s.iram ((sp s + 1) % 256) _ _ = _
    simp only [upd, if_true]; rfl
  · intro a ha
    rw [e]
    show upd s.iram ((sp s + 1) % 256) _ a = _
    simp only [upd, if_neg ha]
  · intro a ha
    rw [e]
    show upd s.sfr SP _ a = _
    simp only [upd, if_neg (show ¬ a = SP from ha)]

/-- Writing internal memory or a CPU register other than PSW. -/
theorem dirWrite_core (a v : Byte) (s : St H) (hs : 0x80 ≤ P.iramSize) (ha : a.toNat < 0x80 ∨ isCore a.toNat = true) :
    direct P (dirWrite P a v s).2 a = v := by
  unfold direct dirWrite
  by_cases h : a.toNat < 0x80
  · simp only [if_pos h, iramWrite, if_pos (Nat.lt_of_lt_of_le h hs), upd, if_true]
  · have hc : isCore a.toNat = true := by rcases ha with h1 | h1; exact absurd h1 h; exact h1
    simp only [if_neg h, if_pos hc, bind_def, pure_def]
    unfold sfrWrite
    by_cases h1 : a.toNat = ACC
    · rw [if_pos h1, h1]; simp [accWrite, upd]
    · rw [if_neg h1]
      by_cases h2 : a.toNat = PSW
      · rw [if_pos h2, h2]; simp [pswWrite, upd]
      · rw [if_neg h2, if_pos hc]; simp [upd]

theorem dirWrite_sp (a v : Byte) (s : St H) (ha : a ≠ 0x81#8) : (dirWrite P a v s).2.sfr SP = s.sfr SP := by
  have ha' : SP ≠ a.toNat := by
    intro e; apply ha; apply BitVec.eq_of_toNat_eq; rw [← e]; decide
  unfold dirWrite
  split
  · unfold iramWrite; split <;> rfl
  · simp only [bind_def, pure_def]
    unfold sfrWrite
    split
    · simp [accWrite, upd, SP, ACC, PSW]
    · split
      · simp [pswWrite, upd, SP, PSW]
      · split
        · simp [upd, ha']
        · simp only [upd, if_neg ha', protect, show isCore SP = true by decide, if_true]

/-- C36: POP takes the top byte of the stack to internal memory or a CPU register. -/
theorem c36_pop (s : St H) (h : Ok P s) (hop : code s 0 = 0xd0#8) (hr : sp s < P.iramSize)
    (hd : (code s 1).toNat < 0x80 ∨ isCore (code s 1).toNat = true) :
    let s' := (execInst P s).2
    direct P s' (code s 1) = s.iram (sp s) ∧ (code s 1 ≠ 0x81#8 → sp s' = (sp s + 255) % 256) ∧
    s'.pc = (s.pc + 2) % 0x10000 := by
  intro s'
  have sub1 : ∀ b : Byte, (b - 1#8).toNat = (b.toNat + 255) % 256 := by decide +kernel
  have e : s' = (exec P .pop 0xd0#8 (after s 1 1)).2 := by
    show (execInst P s).2 = _
    rw [execInst_after P s h.pc, hop, show decode 0xd0#8 = .pop by decide]
  simp only [exec, bind_def, fetch_after] at e
  rw [popByte_eq P _ (by exact hr)] at e
  refine ⟨?_, ?_, ?_⟩
  · rw [e]; exact dirWrite_core P (code s 1) (s.iram (sp s)) _ h.size hd
  · intro h81
    rw [e]
    show ((dirWrite P (code s 1) _ _).2.sfr SP).toNat = _
    rw [dirWrite_sp P _ _ _ h81]
    show (upd s.sfr SP (s.sfr SP - 1#8) SP).toNat = _
    simp only [upd, if_true]; exact sub1 _
  · rw [e, tick_pc, dirWrite_pc]; rfl

/-- C36: PUSH x, whatever keeps the stack, and POP y: y holds what x held, SP is what
it was. -/
theorem c36_push_pop (s t : St H) (h : Ok P s) (ht : Ok P t) (hop : code s 0 = 0xc0#8) (hop' : code t 0 = 0xd0#8)
    (hr : StackRoom P s 1) (hsp : sp t = sp (execInst P s).2)
    (hm : t.iram ((sp s + 1) % 256) = (execInst P s).2.iram ((sp s + 1) % 256))
    (hd : (code t 1).toNat < 0x80 ∨ isCore (code t 1).toNat = true) :
    direct P (execInst P t).2 (code t 1) = direct P s (code s 1) ∧
    (code t 1 ≠ 0x81#8 → sp (execInst P t).2 = sp s) := by
  have lsp : sp s < 256 := (s.sfr SP).isLt
  obtain ⟨p1, p2, -⟩ := c36_push P s h hop hr
  have e : sp t = (sp s + 1) % 256 := by rw [hsp, p1]
  obtain ⟨q1, q2, -⟩ := c36_pop P t ht hop' (by rw [e]; exact hr 1 (by decide) (by decide)) hd
  refine ⟨by rw [q1, e, hm, p2], fun h81 => ?_⟩
  rw [q2 h81, e]; omega

/-- With 256 bytes of internal memory there is always room. -/
theorem room256 (hs : P.iramSize = 0x100) (s : St H) (k : Nat) : StackRoom P s k := by
  intro i _ _; rw [hs]; exact Nat.mod_lt _ (by decide)

/-- LCALL with SP = 0xff on an 8052: return address at 0 and 1. -/
example : let s := Demo.st [0x12#8, 0x34#8, 0x56#8] 0#8 0#8 0#8 0xff#8
    Ok Demo.hw s ∧ code s 0 = 0x12#8 ∧ StackRoom Demo.hw s 2 ∧ addr16 s = 0x3456 :=
  ⟨Demo.ok _ _ _ _ _, by decide, room256 _ rfl _ _, by decide⟩

example : let s := Demo.st [0xc0#8, 0x30#8, 0xd0#8, 0xe0#8] 0#8 0#8 0#8 7#8
    Ok Demo.hw s ∧ code s 0 = 0xc0#8 ∧ StackRoom Demo.hw s 1 ∧
    let t := (execInst Demo.hw s).2
    code t 0 = 0xd0#8 ∧ isCore (code t 1).toNat = true ∧ A (execInst Demo.hw t).2 = 0x53#8 :=
  ⟨Demo.ok _ _ _ _ _, by decide, room256 _ rfl _ _, by decide, by decide, by decide⟩

/-! ### C37: length -/

theorem jumps_iff : ∀ c : Byte, c ≠ 0xa5#8 → (decode c).jumps = isBranch c := by decide +kernel

/-- C37: an instruction other than a branch (and other than the reserved opcode 0xA5)
advances PC by the length the disassembler shows. -/
theorem c37_length_partial (s : St H) (hp : s.pc < 0x10000) (hb : isBranch (code s 0) = false)
    (h5 : code s 0 ≠ 0xa5#8) : (execInst P s).2.pc = (s.pc + disLen (code s 0)) % 0x10000 := by
  rw [execInst_after P s hp, exec_pc P _ _ _ (Nat.mod_lt _ (by decide)) (by rw [jumps_iff _ h5]; exact hb), after_pc,
    extra_disLen]
  omega

/-- C37: a relative branch that is not taken does too. -/
theorem c37_not_taken (s : St H) (h : Ok P s) (hr : isRelative (code s 0) = true) (ht : taken P s = false) :
    (execInst P s).2.pc = (s.pc + disLen (code s 0)) % 0x10000 := by
  have e : ∀ c : Byte, isRelative c = true → disLen c = relLen c := by decide +kernel
  rw [rel_pc P s h hr, if_neg (by rw [ht]; decide), e _ hr]

/-- C37 is false for the reserved opcode: PC becomes the (never updated) address of
some earlier instruction plus 1. -/
theorem c37_false_reserved (s : St H) (hp : s.pc < 0x10000) (h5 : code s 0 = 0xa5#8) :
    (execInst P s).2.pc = (s.instPC + 1) % 0x10000 := by
  rw [execInst_after P s hp, h5, show decode 0xa5#8 = .undef by decide]
  rfl

example : let s := { Demo.st [] 0#8 0#8 0#8 7#8 with pc := 0x1234, rom := fun _ => 0xa5#8 }
    (execInst Demo.hw s).2.pc = 1 ∧ disLen (code s 0) = 1 := by decide

/-! ### C40: targets -/

/-- C40: relative branches wrap at 64K, unless the target is exactly 0x10000. -/
theorem c40_relative_partial (s : St H) (h : Ok P s) (hr : isRelative (code s 0) = true) (ht : taken P s = true)
    (hx : relTarget s ≠ 0x10000) : (((execInst P s).2.pc : Nat) : Int) = relTarget s % 0x10000 := by
  rw [rel_pc P s h hr, if_pos ht]
  unfold relTarget at *
  rw [validate_eq _ (Nat.mod_lt _ (by decide)), if_neg hx]
  omega

/-- ... in which case the PC leaves the code memory. -/
theorem c40_false_64k (s : St H) (h : Ok P s) (hr : isRelative (code s 0) = true) (ht : taken P s = true)
    (hx : relTarget s = 0x10000) : (execInst P s).2.pc = 0x10000 := by
  rw [rel_pc P s h hr, if_pos ht]
  unfold relTarget at *
  rw [validate_eq _ (Nat.mod_lt _ (by decide)), if_pos hx]

/-- SJMP +2 at 0xfffc. -/
example : let s := { Demo.st [] 0#8 0#8 0#8 7#8 with pc := 0xfffc, rom := fun a => if a = 0xfffc then 0x80#8 else 2#8 }
    Ok Demo.hw s ∧ isRelative (code s 0) = true ∧ taken Demo.hw s = true ∧ relTarget s = 0x10000 := by
  refine ⟨⟨by decide, by decide, by decide⟩, by decide, by decide, by decide⟩

/-- DJNZ R0 backwards over the start of the memory. -/
example : let s := Demo.st [0xd8#8, 0xf0#8] 0#8 0#8 0#8 7#8
    Ok Demo.hw s ∧ isRelative (code s 0) = true ∧ taken Demo.hw s = true ∧ relTarget s = -14 := by
  refine ⟨Demo.ok _ _ _ _ _, by decide, by decide, by decide⟩

/-- C40, absolute jumps. -/
theorem c40_ljmp (s : St H) (h : Ok P s) (hop : code s 0 = 0x02#8) : (execInst P s).2.pc = addr16 s := by
  rw [execInst_after P s h.pc, hop, show decode 0x02#8 = .ljmp by decide]
  simp only [exec, bind_def, fetch_after, tick_pc, setPC_pc]
  show (code s 1).toNat * 256 + (code s 2).toNat = _
  unfold addr16; omega

theorem c40_ajmp (s : St H) (h : Ok P s) (hop : (code s 0).toNat % 32 = 0x01) : (execInst P s).2.pc = page11 s := by
  have hd : ∀ c : Byte, c.toNat % 32 = 0x01 → decode c = .ajmp := by decide +kernel
  rw [execInst_after P s h.pc, hd _ hop]
  simp only [exec, bind_def, fetch_after, tick_after, getPC_val, getPC_pc, setPC_pc, after_pc]
  rw [addr11_eq _ (Nat.mod_lt _ (by decide))]; rfl

/-- JMP @A+DPTR: wraps at 64K, unless the sum is exactly 0x10000. -/
theorem c40_jmp_dptr_partial (s : St H) (h : Ok P s) (hop : code s 0 = 0x73#8) (hx : dptr s + (A s).toNat ≠ 0x10000) :
    (execInst P s).2.pc = (dptr s + (A s).toNat) % 0x10000 := by
  have la := (A s).isLt
  have l1 := (s.sfr DPH).isLt
  have l2 := (s.sfr DPL).isLt
  rw [execInst_after P s h.pc, hop, show decode 0x73#8 = .jmpADptr by decide]
  simp only [exec, bind_def, dptrRead, sfrGet, accRead, pure_def, tick_pc, setPC_pc]
  have e : (after s 1 1).sfr DPH = s.sfr 0x83 ∧ (after s 1 1).sfr DPL = s.sfr 0x82 ∧ (after s 1 1).sfr ACC = A s :=
    ⟨rfl, rfl, rfl⟩
  rw [e.1, e.2.1, e.2.2]
  unfold dptr at *
  unfold validate
  simp only
  have d1 : (s.sfr 0x83).toNat < 256 := l1
  have d2 : (s.sfr 0x82).toNat < 256 := l2
  split <;> omega

/-! ### C40: along every history -/

/-- The PC is at most one after the end of code memory. -/
def PcLe (s : St H) : Prop := s.pc ≤ 0x10000

theorem pcLe_of {α : Type} {m : M H α} (h : ∀ s, (m s).2.pc = s.pc) : Pres PcLe m := fun s hs => by
  unfold PcLe; rw [h]; exact hs

theorem setPC_le (a : Nat) (h : a ≤ 0x10000) : Pres (PcLe (H := H)) (setPC a) := fun _ _ => h

theorem validate_le (x : Int) : validate x ≤ 0x10000 := by
  unfold validate; simp only; split <;> omega

theorem relJump_le (d : Byte) : Pres (PcLe (H := H)) (relJump d) := fun _ _ => validate_le _

theorem fetch_le : Pres (PcLe (H := H)) (fetch P) := fun s _ => by
  unfold PcLe; rw [fetch_pc]; have := Nat.mod_lt (s.pc + 1) (show 0x10000 > 0 by decide); omega

theorem branchIf_le (b : Bool) (d : Byte) : Pres (PcLe (H := H)) (branchIf b d) := by
  unfold branchIf; exact Pres.ite (relJump_le d) (Pres.pure _)

theorem cjneBody_le (x d j : Byte) : Pres (PcLe (H := H)) (cjneBody x d j) := by
  unfold cjneBody; exact Pres.bind (pcLe_of (bitSet_pc _ _)) fun _ => branchIf_le _ _

theorem hl_le (h l : Byte) : h.toNat * 256 + l.toNat ≤ 0x10000 := by
  have := h.isLt; have := l.isLt; omega

theorem addr11_le (pc : Nat) (h : pc ≤ 0x10000) (c l : Byte) : addr11 pc c l ≤ 0x10000 := by
  have h1 : pc &&& 0xf800 < 2 ^ 16 := Nat.and_lt_two_pow _ (by decide)
  have h2 : ((c.toNat >>> 5) &&& 7) * 256 + l.toNat < 2 ^ 16 := by
    have := l.isLt
    have : (c.toNat >>> 5) &&& 7 < 2 ^ 3 := Nat.and_lt_two_pow _ (by decide)
    omega
  have := Nat.or_lt_two_pow h1 h2
  unfold addr11; omega

theorem retBody_le : Pres (PcLe (H := H)) (retBody P) := by
  unfold retBody
  exact Pres.bind (pcLe_of (popByte_pc P)) fun _ => Pres.bind (pcLe_of (tick_pc 1)) fun _ =>
    Pres.bind (pcLe_of (popByte_pc P)) fun _ => setPC_le _ (hl_le _ _)

theorem undefBody_le : Pres (PcLe (H := H)) (undefBody P) := fun s _ => by
  show (s.instPC + 1) % 0x10000 ≤ 0x10000
  have := Nat.mod_lt (s.instPC + 1) (show 0x10000 > 0 by decide); omega

theorem popLevel_pc (s : St H) : (popLevel s).2.pc = s.pc := by
  unfold popLevel; split
  · split <;> rfl
  · rfl

macro "pcle" : tactic => `(tactic| repeat (first
  | with_reducible exact fetch_le _ | with_reducible exact relJump_le _ | with_reducible exact branchIf_le _ _
  | with_reducible exact cjneBody_le _ _ _ | with_reducible exact retBody_le _ | with_reducible exact undefBody_le _
  | with_reducible exact Pres.pure _ | with_reducible exact setPC_le _ (hl_le _ _)
  | with_reducible exact setPC_le _ (validate_le _)
  | (with_reducible refine Pres.bind ?_ (fun _ => ?_)) | (with_reducible refine Pres.ite ?_ ?_)
  | with_reducible exact pcLe_of (tick_pc _) | with_reducible exact pcLe_of (fun s => congrArg St.pc (getPC_pc s))
  | with_reducible exact pcLe_of (fun s => congrArg St.pc (bitGet_pc _ s))
  | with_reducible exact pcLe_of (bitWrite_pc _ _ _)
  | with_reducible exact pcLe_of (bitRead_pc _ _)
  | with_reducible exact pcLe_of (pushByte_pc _ _)
  | with_reducible exact pcLe_of (dirRead_pc _ _ _)
  | with_reducible exact pcLe_of (fun s => congrArg St.pc (accRead_pc s))
  | with_reducible exact pcLe_of (fun s => congrArg St.pc (dptrRead_pc s))
  | with_reducible exact pcLe_of (fun s => congrArg St.pc (riAddr_pc _ s))
  | with_reducible exact pcLe_of (fun s => congrArg St.pc (regRead_pc _ s))
  | with_reducible exact pcLe_of (regWrite_pc _ _)
  | with_reducible exact pcLe_of (fun s => congrArg St.pc (iramRead_pc _ _ s))
  | with_reducible exact pcLe_of (iramWrite_pc _ _ _)
  | with_reducible exact pcLe_of (sfrWrite_pc _ _ _)
  | with_reducible exact pcLe_of popLevel_pc
  | with_reducible exact pcLe_of (m := setReti) (fun _ => rfl)))

theorem exec_le (o : Op) (c : Byte) (s : St H) (hp : s.pc < 0x10000) : (exec P o c s).2.pc ≤ 0x10000 := by
  cases hj : o.jumps with
  | false =>
    rw [exec_pc P o c s hp hj]
    have := Nat.mod_lt (s.pc + o.extra) (show 0x10000 > 0 by decide); omega
  | true =>
    by_cases ha : o = .ajmp ∨ o = .acall
    · rcases ha with rfl | rfl
      · simp only [exec, bind_def, getPC_pc, setPC_pc, getPC_val, tick_pc, fetch_pc]
        exact addr11_le _ (Nat.le_of_lt (Nat.mod_lt _ (by decide))) _ _
      · simp only [exec, bind_def, getPC_pc, setPC_pc, getPC_val, fetch_pc]
        exact addr11_le _ (Nat.le_of_lt (Nat.mod_lt _ (by decide))) _ _
    · have key : Pres (PcLe (H := H)) (exec P o c) := by
        cases o <;> simp only [Op.jumps, Bool.false_eq_true] at hj <;> 
          first
          | exact absurd (Or.inl rfl) ha
          | exact absurd (Or.inr rfl) ha
          | (simp only [exec]; pcle)
      exact key s (Nat.le_of_lt hp)

theorem execInst_le : Pres (PcLe (H := H)) (execInst P) := fun s _ => by
  simp only [execInst, bind_def]
  refine exec_le P _ _ _ ?_
  rw [tick_pc, fetch_pc]; exact Nat.mod_lt _ (by decide)

theorem tickHw_pc (n : Nat) (s : St H) : (tickHw P n s).2.pc = s.pc := by
  induction n generalizing s with
  | zero => rfl
  | succ n ih => unfold tickHw; rw [ih]

theorem clear_pc (i : ItSrc) (s : St H) : (i.clear P s).2.pc = s.pc := by
  unfold ItSrc.clear; split
  · simp [bind_def, pure_def]
  · rfl

theorem doInst_le (hi : ∀ h, ∀ i ∈ P.sources h, i.addr < 0x10000) : Pres (PcLe (H := H)) (doInst P) := by
  intro s h
  have h1 : PcLe (runPart P s).2 := by
    unfold runPart
    split
    · unfold PcLe postInst; rw [tickHw_pc]; exact execInst_le P _ h
    · exact h
  generalize hs1 : (runPart P s).2 = s1 at h1
  have h2 : PcLe (doInterrupt P s1).2 := by
    unfold doInterrupt
    split
    · exact h1
    · split
      · exact h1
      · split
        · exact h1
        · rename_i i hf
          unfold takeIt
          split
          · exact h1
          · have := hi _ i (List.mem_of_find?_eq_some hf)
            show i.addr ≤ 0x10000
            omega
  simp only [doInst, hs1]
  split
  · exact h1
  · split
    · unfold idlePd; split <;> exact h2
    · exact h2

/-- C40: along every history of instructions, interrupts and device activity the PC
is an address of code memory or the first address after it. -/
theorem c40_history_partial (hi : ∀ h, ∀ i ∈ P.sources h, i.addr < 0x10000) (s : St H) (hs : s.pc < 0x10000) (n : Nat) :
    (steps P n s).pc ≤ 0x10000 := by
  induction n with
  | zero => exact Nat.le_of_lt hs
  | succ n ih => exact doInst_le P hi _ ih

/-- Run on from there the CPU executes a byte that is not in the code memory. -/
theorem c40_false_fetch (s : St H) (hs : s.pc = 0x10000) :
    execInst P s = exec P (decode (P.romDummy s.hw)) (P.romDummy s.hw)
      { s with pc := 1, cyc := s.cyc + 1, total := s.total + 1 } := by
  simp only [execInst, bind_def, fetch, getPC, romRead, setPC, tick, pure_def, hs]
  rfl

example : (∀ h, ∀ i ∈ Demo.hw.sources h, i.addr < 0x10000) ∧ (Demo.st [0x80#8, 0x10#8] 0#8 0#8 0#8 7#8).pc < 0x10000 := by
  refine ⟨fun _ i hi => ?_, by decide⟩
  simp only [Demo.hw, List.mem_cons, List.not_mem_nil, or_false] at hi
  rcases hi with rfl | rfl <;> decide

end Ucsim.S51
