import Verif.Proof.I48
/- The instructions of the MCS-48, one by one. -/
namespace Ucsim.I48

open Isa (next inPage)

def toOp : Op → Isa.Op
  | .add => .add | .adc => .adc | .orl => .orl | .anl => .anl | .xrl => .xrl | .mov => .mov
def toSrc : Src → Isa.Src
  | .imm => .imm | .ir r => .ir r | .r n => .r n
def toCond : Cond → Isa.Cond
  | .nz => .nz | .z => .z | .nc => .nc | .c => .c | .t0 => .t0 | .nt0 => .nt0 | .t1 => .t1 | .nt1 => .nt1
  | .f0 => .f0 | .f1 => .f1 | .ni => .ni
def toPort (two : Bool) : Isa.Port := if two then .p2 else .p1

/-- The manual's instruction for what decode.h selects. -/
def toIns (code : Byte) : Fn → Option Isa.Ins
  | .nop => some (if code = 0x75#8 then .ent0 else .nop)
  | .outlb => some (.outl .bus) | .ins => some (.inP .bus)
  | .alu o k => some (.alu (toOp o) (toSrc k)) | .jmp p => some (.jmp p) | .call p => some (.call p)
  | .eni => some (.eni true) | .disi => some (.eni false)
  | .entcnti => some (.entcnti true) | .distcnti => some (.entcnti false)
  | .deca => some .deca | .inca => some .inca | .clra => some .clra | .cpla => some .cpla | .swapa => some .swap
  | .daa => some .da | .rr => some .rr | .rl => some .rl | .rrc => some .rrc | .rlc => some .rlc
  | .inP t => some (.inP (toPort t)) | .outlP t => some (.outl (toPort t))
  | .orlP t => some (.orlP (toPort t)) | .anlP t => some (.anlP (toPort t))
  | .orlBus => some (.orlP .bus) | .anlBus => some (.anlP .bus)
  | .movdA n => some (.movdA n) | .movdP n => some (.movdP n) | .orld n => some (.orld n) | .anld n => some (.anld n)
  | .incIr r => some (.incIr r) | .incR n => some (.incR n) | .decR n => some (.decR n)
  | .xchIr r => some (.xchIr r) | .xchR n => some (.xchR n) | .xchdIr r => some (.xchd r)
  | .movIrA r => some (.movIrA r) | .movRA n => some (.movRA n) | .movIrI r => some (.movIrI r) | .movRI n => some (.movRI n)
  | .movxA r => some (.movxA r) | .movxR r => some (.movxR r) | .movp => some .movp | .movp3 => some .movp3
  | .jb b => some (.jcc (.bit b.toFin)) | .jif k => some (.jcc (toCond k)) | .jtf => some (.jcc .tf) | .jmpp => some .jmpp
  | .djnz _ => some (.djnz (code.extractLsb' 0 3).toFin) | .ret => some .ret | .retr => some .retr
  | .movAT => some .movAT | .movTA => some .movTA | .strtcnt => some .strtCnt | .strtt => some .strtT | .stoptcnt => some .stop
  | .clrC => some .clrC | .cplC => some .cplC | .clrF0 => some .clrF0 | .cplF0 => some .cplF0
  | .clrF1 => some .clrF1 | .cplF1 => some .cplF1 | .selrb b => some (.selrb b) | .selmb b => some (.selmb b)
  | .movAF => some .movAPsw | .movFA => some .movPswA
  | .missing => some (.alu .adc (.ir (code.getLsbD 0)))
  | .inv => none

theorem decode_select : ∀ code : Byte, Isa.decode code = toIns code (select code) := by decide +kernel

/-- DJNZ's codes give 7 as `code >> 5`. -/
theorem djnz_seven : ∀ code : Byte, ∀ p, select code = .djnz p → p = 7#3 := by
  intro code p
  revert code
  revert p
  decide +kernel

/-! ### Instructions without operand bytes: state and machine both after the opcode -/

theorem abs_pc (s : St) (a : Addr) : abs { s with pc := a } = { abs s with pc := a } := rfl
theorem abs_a (s : St) (v : Byte) : abs { s with a := v } = { abs s with a := v } := rfl

theorem abs_setPsw (v : Byte) (s : St) : abs (setPsw v s) =
    { abs s with c := v.getLsbD 7, ac := v.getLsbD 6, f0 := v.getLsbD 5, bs := v.getLsbD 4, sp := v.extractLsb' 0 3 } := by
  obtain ⟨h1, h2, h3, h4, h5, _⟩ := psw_all v
  unfold setPsw abs
  simp only [h1, h2, h3, h4, h5]
  rfl

theorem and_lt16 (v : Byte) : (v &&& 0xf#8).toNat = v.toNat % 16 := by
  revert v; decide +kernel

theorem add_val (a v : Byte) (c : Bool) : BitVec.ofNat 8 (a.toNat + v.toNat + c.toNat) = a + v + (BitVec.ofBool c).zeroExtend 8 := by
  apply BitVec.eq_of_toNat_eq
  cases c <;> simp [BitVec.toNat_add]

theorem add_ok (v : Byte) (c : Bool) (s : St) : abs (add v c s) = (abs s).add v (c && (abs s).c) := by
  unfold add
  have hci : (if c then (if has s.psw flagC then 1 else 0) else 0) = (c && (abs s).c).toNat := by
    rw [has7]
    show _ = (c && s.psw.getLsbD 7).toNat
    cases c <;> cases s.psw.getLsbD 7 <;> rfl
  rw [hci]
  generalize hc : (c && (abs s).c) = ci
  have h := psw_CA s.psw (decide (256 ≤ s.a.toNat + v.toNat + ci.toNat)) (decide (16 ≤ s.a.toNat % 16 + v.toNat % 16 + ci.toNat))
  simp only [decide_eq_true_eq] at h
  obtain ⟨h7, h6, h5, h4, h3, _⟩ := h
  simp only [gt_iff_lt, Nat.lt_iff_add_one_le, Nat.reduceAdd]
  rw [add_val]
  unfold Isa.Mach.add
  simp only [setPsw]
  unfold abs
  simp only [h7, h6, h5, h4, h3]
  rfl

theorem daa_ok' : ∀ (a : Byte) (c ac : Bool),
    let m1 := if (a &&& 0x0f#8).toNat > 9 ∨ ac = true then (a + 6#8, c || decide (a.toNat > 0xf9)) else (a, c)
    let m2 := if (m1.1 &&& 0xf0#8).toNat > 0x90 ∨ m1.2 = true then (m1.1 + 0x60#8, true) else m1
    let lo := decide (9 < a.toNat % 16) || ac
    let hi := decide (0x99 < a.toNat) || c
    m2 = (a + (if lo then 6 else 0) + (if hi then 0x60 else 0), hi) := by decide +kernel

theorem or_flagC : ∀ p : Byte, (p ||| flagC).getLsbD 7 = true ∧ (p ||| flagC).getLsbD 6 = p.getLsbD 6 ∧
    (p ||| flagC).getLsbD 5 = p.getLsbD 5 ∧ (p ||| flagC).getLsbD 4 = p.getLsbD 4 ∧ (p ||| flagC).extractLsb' 0 3 = p.extractLsb' 0 3 := by
  decide +kernel

/-- `p'` is `p` but for C, which is `c`. -/
def OnlyC (p' p : Byte) (c : Bool) : Prop :=
  p'.getLsbD 7 = c ∧ p'.getLsbD 6 = p.getLsbD 6 ∧ p'.getLsbD 5 = p.getLsbD 5 ∧ p'.getLsbD 4 = p.getLsbD 4 ∧
    p'.extractLsb' 0 3 = p.extractLsb' 0 3

theorem OnlyC.refl (p : Byte) : OnlyC p p (p.getLsbD 7) := ⟨rfl, rfl, rfl, rfl, rfl⟩
theorem OnlyC.set {p' p : Byte} {c : Bool} (h : OnlyC p' p c) : OnlyC (p' ||| flagC) p true := by
  obtain ⟨_, h2, h3, h4, h5⟩ := h
  obtain ⟨g1, g2, g3, g4, g5⟩ := or_flagC p'
  exact ⟨g1, g2.trans h2, g3.trans h3, g4.trans h4, g5.trans h5⟩

theorem daa_parts (s : St) : ∃ p', OnlyC p' s.psw (abs s).da.c ∧ daa s = setPsw p' { s with a := (abs s).da.a } := by
  have hd := daa_ok' s.a (s.psw.getLsbD 7) (s.psw.getLsbD 6)
  have hc : (abs s).da.c = (decide (0x99 < s.a.toNat) || s.psw.getLsbD 7) := rfl
  have ha : (abs s).da.a = s.a + (if decide (9 < s.a.toNat % 16) || s.psw.getLsbD 6 then 6 else 0) +
      (if decide (0x99 < s.a.toNat) || s.psw.getLsbD 7 then 0x60 else 0) := rfl
  rw [hc, ha]
  simp only at hd
  unfold daa
  rw [has6]
  by_cases h1 : (s.a &&& 0x0f#8).toNat > 9 ∨ s.psw.getLsbD 6 = true
  · rw [if_pos h1] at hd
    rw [if_pos h1]
    simp only [has7] at hd ⊢
    have hp : OnlyC (if s.a.toNat > 0xf9 then s.psw ||| flagC else s.psw) s.psw (s.psw.getLsbD 7 || decide (s.a.toNat > 0xf9)) := by
      by_cases h : s.a.toNat > 0xf9
      · rw [if_pos h, decide_eq_true h, Bool.or_true]; exact (OnlyC.refl _).set
      · rw [if_neg h, decide_eq_false h, Bool.or_false]; exact OnlyC.refl _
    rw [hp.1]
    by_cases h2 : ((s.a + 6#8) &&& 0xf0#8).toNat > 0x90 ∨ (s.psw.getLsbD 7 || decide (s.a.toNat > 0xf9)) = true
    · rw [if_pos h2] at hd
      rw [if_pos h2]
      rw [Prod.mk.injEq] at hd
      exact ⟨_, hd.2 ▸ hp.set, by rw [hd.1]⟩
    · rw [if_neg h2] at hd
      rw [if_neg h2]
      rw [Prod.mk.injEq] at hd
      exact ⟨_, hd.2 ▸ hp, by rw [hd.1]⟩
  · rw [if_neg h1] at hd
    rw [if_neg h1]
    simp only [has7] at hd ⊢
    by_cases h2 : (s.a &&& 0xf0#8).toNat > 0x90 ∨ s.psw.getLsbD 7 = true
    · rw [if_pos h2] at hd
      rw [if_pos h2]
      rw [Prod.mk.injEq] at hd
      exact ⟨_, hd.2 ▸ (OnlyC.refl _).set, by rw [hd.1]⟩
    · rw [if_neg h2] at hd
      rw [if_neg h2]
      rw [Prod.mk.injEq] at hd
      exact ⟨s.psw, hd.2 ▸ OnlyC.refl _, by rw [← hd.1]⟩

theorem abs_onlyC {s : St} {p' v : Byte} {c : Bool} (h : OnlyC p' s.psw c) :
    abs (setPsw p' { s with a := v }) = { abs s with a := v, c := c } := by
  obtain ⟨h1, h2, h3, h4, h5⟩ := h
  rw [abs_setPsw, h1, h2, h3, h4, h5]
  rfl

theorem daa_ok (s : St) : abs (daa s) = (abs s).da := by
  obtain ⟨p, h, e⟩ := daa_parts s
  rw [e, abs_onlyC h]
  rfl

theorem rrc_val : ∀ (a : Byte) (c : Bool), (if c then (a >>> 1) ||| 0x80#8 else a >>> 1) = BitVec.ofBool c ++ a.extractLsb' 1 7 := by
  decide +kernel
theorem rlc_val : ∀ (a : Byte) (c : Bool), (if c then (a <<< 1) ||| 1#8 else a <<< 1) = a.extractLsb' 0 7 ++ BitVec.ofBool c := by
  decide +kernel

theorem onlyC_if (p : Byte) (c : Bool) : OnlyC (if c then (p &&& ~~~flagC) ||| flagC else p &&& ~~~flagC) p c := by
  revert p c; unfold OnlyC; decide +kernel

theorem rrc_ok (s : St) : abs (rrc s) = { abs s with a := BitVec.ofBool (abs s).c ++ (abs s).a.extractLsb' 1 7, c := (abs s).a.getLsbD 0 } := by
  unfold rrc
  rw [has7, rrc_val, has_a0]
  exact abs_onlyC (onlyC_if _ _)

theorem rlc_ok (s : St) : abs (rlc s) = { abs s with a := (abs s).a.extractLsb' 0 7 ++ BitVec.ofBool (abs s).c, c := (abs s).a.getLsbD 7 } := by
  unfold rlc
  rw [has7, rlc_val, has_a7]
  exact abs_onlyC (onlyC_if _ _)

theorem rr_val : ∀ a : Byte, (a >>> 1) ||| (if has a 1#8 then 0x80#8 else 0#8) = a.rotateRight 1 := by decide +kernel
theorem rl_val : ∀ a : Byte, (a <<< 1) ||| (if has a 0x80#8 then 1#8 else 0#8) = a.rotateLeft 1 := by decide +kernel
theorem swap_val : ∀ a : Byte, (a >>> 4) ||| ((a &&& 0xf#8) <<< 4) = a.extractLsb' 0 4 ++ a.extractLsb' 4 4 := by decide +kernel
theorem nib_val : ∀ a b : Byte, (a &&& 0xf0#8) ||| (b &&& 0xf#8) = a.extractLsb' 4 4 ++ b.extractLsb' 0 4 := by
  have h1 : ∀ a : Byte, (a &&& 0xf0#8) = a.extractLsb' 4 4 ++ 0#4 := by decide +kernel
  have h2 : ∀ b : Byte, (b &&& 0xf#8) = 0#4 ++ b.extractLsb' 0 4 := by decide +kernel
  have h3 : ∀ x y : BitVec 4, (x ++ 0#4) ||| (0#4 ++ y) = x ++ y := by decide +kernel
  intro a b; rw [h1, h2]; exact h3 _ _

theorem aluOp_ok (o : Op) (v : Byte) (s : St) : abs (aluOp o v s) = (abs s).alu v (toOp o) := by
  cases o
  · show abs (add v false s) = _
    rw [add_ok]; rfl
  · show abs (add v true s) = _
    rw [add_ok, Bool.true_and]; rfl
  all_goals rfl

/-! ### Stack -/

theorem spa_next : ∀ p : Byte, (((p &&& 7#8) + 1#8) &&& 7#8).extractLsb' 0 3 = p.extractLsb' 0 3 + 1 := by decide +kernel
theorem ib_low : ∀ p : Byte, 8#8 + (p &&& 7#8) * 2#8 = Isa.stackLow (p.extractLsb' 0 3) := by decide +kernel
theorem ib_high : ∀ p : Byte, 8#8 + (p &&& 7#8) * 2#8 + 1#8 = Isa.stackHigh (p.extractLsb' 0 3) := by decide +kernel
theorem ia_low : ∀ p : Byte, 8#8 + (((p &&& 7#8) - 1#8) &&& 7#8) * 2#8 = Isa.stackLow (p.extractLsb' 0 3 - 1) := by decide +kernel
theorem ia_high : ∀ p : Byte, 8#8 + (((p &&& 7#8) - 1#8) &&& 7#8) * 2#8 + 1#8 = Isa.stackHigh (p.extractLsb' 0 3 - 1) := by decide +kernel
theorem stack_lt : ∀ sp : BitVec 3, (Isa.stackLow sp).toNat < 64 ∧ (Isa.stackHigh sp).toNat < 64 := by decide +kernel

theorem psw_sp : ∀ p : Byte,
    let q := (p &&& ~~~7#8) ||| (((p &&& 7#8) + 1#8) &&& 7#8)
    q.getLsbD 7 = p.getLsbD 7 ∧ q.getLsbD 6 = p.getLsbD 6 ∧ q.getLsbD 5 = p.getLsbD 5 ∧ q.getLsbD 4 = p.getLsbD 4 ∧
    q.extractLsb' 0 3 = p.extractLsb' 0 3 + 1 := by decide +kernel

theorem psw_sp_pop : ∀ p : Byte,
    let q := (p &&& ~~~7#8) ||| (((p &&& 7#8) - 1#8) &&& 7#8)
    q.getLsbD 7 = p.getLsbD 7 ∧ q.getLsbD 6 = p.getLsbD 6 ∧ q.getLsbD 5 = p.getLsbD 5 ∧ q.getLsbD 4 = p.getLsbD 4 ∧
    q.extractLsb' 0 3 = p.extractLsb' 0 3 - 1 := by decide +kernel

theorem psw_high : ∀ p : Byte, p &&& 0xf0#8 =
    BitVec.ofBool (p.getLsbD 7) ++ BitVec.ofBool (p.getLsbD 6) ++ BitVec.ofBool (p.getLsbD 5) ++ BitVec.ofBool (p.getLsbD 4) ++ 0#4 := by
  decide +kernel

theorem pc_high : ∀ pc : Addr, (pc >>> 8).setWidth 8 &&& 0xf#8 = 0#4 ++ pc.extractLsb' 8 4 := by decide +kernel
theorem pc_low : ∀ pc : Addr, pc.setWidth 8 = pc.extractLsb' 0 8 := by decide +kernel
theorem or_halves : ∀ x y : BitVec 4, (0#4 ++ y) ||| (x ++ 0#4) = x ++ y := by decide +kernel
theorem vh_low : ∀ v : Byte, v.setWidth 4 = v.extractLsb' 0 4 := by decide +kernel

theorem push_eq {s : St} (hw : Wf s) : push s =
    setPsw ((s.psw &&& ~~~7#8) ||| (((s.psw &&& 7#8) + 1#8) &&& 7#8)) { s with iram := (abs s).push.ram } := by
  have h64 := hw.ram
  obtain ⟨hl, hh⟩ := stack_lt (s.psw.extractLsb' 0 3)
  unfold push
  simp only
  rw [ib_high, ib_low]
  rw [ramWr_in (s := s) (p := Isa.stackLow (s.psw.extractLsb' 0 3)) (by omega)]
  rw [ramWr_in (by show ¬ s.ramSize ≤ _; omega)]
  simp only
  rw [pc_high, psw_high, or_halves, pc_low]
  rfl

theorem push_ok {s : St} (hw : Wf s) : abs (push s) = (abs s).push := by
  rw [push_eq hw, abs_setPsw]
  obtain ⟨h1, h2, h3, h4, h5⟩ := psw_sp s.psw
  rw [h1, h2, h3, h4, h5]
  rfl

theorem popf_psw : ∀ (p vh : Byte),
    let q := (p &&& 0xf#8) ||| (vh &&& 0xf0#8)
    q.getLsbD 7 = vh.getLsbD 7 ∧ q.getLsbD 6 = vh.getLsbD 6 ∧ q.getLsbD 5 = vh.getLsbD 5 ∧ q.getLsbD 4 = vh.getLsbD 4 ∧
    q.extractLsb' 0 3 = p.extractLsb' 0 3 := by
  intro p vh
  simp only [BitVec.getLsbD_or, BitVec.getLsbD_and]
  refine ⟨by simp, by simp, by simp, by simp, ?_⟩
  have h : ∀ v : Byte, (v &&& 0xf0#8).extractLsb' 0 3 = 0#3 := by decide +kernel
  have h2 : ∀ v : Byte, (v &&& 0xf#8).extractLsb' 0 3 = v.extractLsb' 0 3 := by decide +kernel
  apply BitVec.eq_of_getLsbD_eq
  intro i hi
  have e1 := congrArg (·.getLsbD i) (h vh)
  have e2 := congrArg (·.getLsbD i) (h2 p)
  simp only [BitVec.getLsbD_extractLsb'] at e1 e2 ⊢
  rw [BitVec.getLsbD_or]
  simp only [hi, decide_true, Bool.true_and] at e1 e2 ⊢
  rw [e1, e2]; simp

/-- The stack pointer part of pop. -/
theorem pop_sp (p0 p : Byte) (h : p.extractLsb' 0 3 = p0.extractLsb' 0 3) :
    ((p0 &&& 7#8) - 1#8) &&& 7#8 = ((p &&& 7#8) - 1#8) &&& 7#8 := by
  have e : ∀ q : Byte, ((q &&& 7#8) - 1#8) &&& 7#8 = (q.extractLsb' 0 3 - 1).zeroExtend 8 := by decide +kernel
  rw [e, e, h]

theorem pop_ok {s : St} (hw : Wf s) : abs (pop false s) = (abs s).pop := by
  have h64 := hw.ram
  obtain ⟨hl, hh⟩ := stack_lt (s.psw.extractLsb' 0 3 - 1)
  unfold pop
  simp only [Bool.false_eq_true, if_false]
  rw [ia_high, ia_low]
  unfold ramRd
  rw [if_pos (by omega), if_pos (by omega), abs_setPsw]
  obtain ⟨h1, h2, h3, h4, h5⟩ := psw_sp_pop s.psw
  rw [h1, h2, h3, h4, h5, vh_low]
  rfl

theorem popr_ok {s : St} (hw : Wf s) : abs (pop true { s with inIsr := false }) = (abs s).popr := by
  have h64 := hw.ram
  obtain ⟨hl, hh⟩ := stack_lt (s.psw.extractLsb' 0 3 - 1)
  unfold pop
  simp only [if_true]
  rw [ia_high, ia_low]
  unfold ramRd
  simp only
  rw [if_pos (by omega), if_pos (by omega), abs_setPsw]
  obtain ⟨g1, g2, g3, g4, g5⟩ := popf_psw s.psw (s.iram (Isa.stackHigh (s.psw.extractLsb' 0 3 - 1)))
  rw [pop_sp s.psw _ g5]
  obtain ⟨h1, h2, h3, h4, h5⟩ := psw_sp_pop ((s.psw &&& 0xf#8) ||| (s.iram (Isa.stackHigh (s.psw.extractLsb' 0 3 - 1)) &&& 0xf0#8))
  rw [h1, h2, h3, h4, h5, g1, g2, g3, g4, g5, vh_low]
  rfl

end Ucsim.I48
