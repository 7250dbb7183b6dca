import Verif.Proof.H08Exec4

namespace Ucsim.H08

/-- Forms of LDHX, STHX and CPHX that only the HCS08 has. -/
def hxOk (s08 : Bool) (code : Byte) (pre : Bool) : Bool := s08 || (!pre && code != 0x32#8 && code != 0x3e#8 && code != 0x96#8)

/-- The instruction of the manual a member function executes. -/
def insOf (s08 : Bool) (f : Fn) (code : Byte) (pre : Bool) : Isa.Ins :=
  match f with
  | .bittest => .brbit (code.toNat % 2 == 0) (code.toNat / 2 % 8)
  | .bitset => .setbit (code.toNat % 2 == 0) (code.toNat / 2 % 8)
  | .condbranch => .br (condIns code) (code.toNat % 2 == 0)
  | .rmw o => .rmw (convR o) (modeOf (code.toNat / 16) pre)
  | .cbeq => .cbeq (cbMode (code.toNat / 16) pre)
  | .dbnz => .dbnz (modeOf (code.toNat / 16) pre)
  | .ldhx => if hxOk s08 code pre then .ldhx (hxMode code pre) else .other
  | .sthx => if hxOk s08 code pre then .sthx (hxMode code pre) else .other
  | .cphx => if hxOk s08 code pre then .cphx (hxMode code pre) else .other
  | .mul => .mul
  | .div => .div
  | .nsa => .nsa
  | .daa => .daa
  | .mov => .mov (movMode code)
  | .rti => .rti
  | .rts => .rts
  | .swi => .swi
  | .transfer => transIns code
  | .pushpull => ppIns code
  | .clrh => .clrh
  | .stop => .stop
  | .wait => .wait
  | .setclear => setclrIns code
  | .rsp => .rsp
  | .nop => .nop
  | .alu o => .alu (convA o) (modeOf (code.toNat / 16) pre)
  | .sta => .sta (modeOf (code.toNat / 16) pre)
  | .stx => .stx (modeOf (code.toNat / 16) pre)
  | .jmp => .jmp (modeOf (code.toNat / 16) pre)
  | .jsr => .jsr (modeOf (code.toNat / 16) pre)
  | .bsr => .bsr
  | .ais => .ais
  | .aix => .aix
  | .pre | .inv | .halt => .other

theorem decode_ok : ∀ (s08 : Bool) (code : Byte), Isa.decode s08 code = insOf s08 (select code) code false := by decide +kernel
theorem decode9e_ok : ∀ (s08 : Bool) (code : Byte), Isa.decode9e s08 code = insOf s08 (select9e code) code true := by decide +kernel

def rowOk (f : Fn) (code : Byte) : Bool :=
  match f with
  | .alu _ => code.toNat / 16 ∈ [0, 1, 3, 6, 7, 10, 11, 12, 13, 14, 15]
  | .sta | .stx | .jmp | .jsr => code.toNat / 16 ∈ [0, 1, 3, 6, 7, 11, 12, 13, 14, 15]
  | .rmw _ | .dbnz => code.toNat / 16 ∈ [3, 4, 5, 6, 7]
  | .cbeq => code.toNat / 16 ∈ [3, 4, 5, 6, 7] ∧ code.toNat % 16 = 1
  | .bittest => code.toNat / 16 = 0
  | .bitset => code.toNat / 16 = 1
  | _ => true

theorem rowOk_sel : ∀ code : Byte, rowOk (select code) code = true ∧ rowOk (select9e code) code = true := by decide +kernel

/-- The functions called after the prefix. -/
def after9e : Fn → Bool
  | .rmw _ | .cbeq | .dbnz | .ldhx | .sthx | .cphx | .alu _ | .sta | .stx | .inv => true
  | _ => false
theorem after9e_ok : ∀ code : Byte, after9e (select9e code) = true := by decide +kernel

/-- Where a function comes from. -/
def From (f : Fn) (code : Byte) (pre : Bool) : Prop := (pre = false ∧ f = select code) ∨ (pre = true ∧ f = select9e code)

theorem From.row {f : Fn} {code : Byte} {pre : Bool} (h : From f code pre) : rowOk f code = true := by
  rcases h with ⟨_, rfl⟩ | ⟨_, rfl⟩
  · exact (rowOk_sel code).1
  · exact (rowOk_sel code).2

theorem From.main {f : Fn} {code : Byte} {pre : Bool} (h : From f code pre) (h9 : after9e f = false) : select code = f := by
  rcases h with ⟨_, rfl⟩ | ⟨_, rfl⟩
  · rfl
  · exact absurd (after9e_ok code) (by rw [h9]; decide)

theorem From.hx {f : Fn} {code : Byte} {pre : Bool} (h : From f code pre) (s08 : Bool) (hk : hxOk s08 code pre = true) (c : Byte) (hc : c = 0x32#8 ∨ c = 0x3e#8 ∨ c = 0x96#8) :
    (pre = false ∧ select code = f ∧ (code = c → s08)) ∨ (pre = true ∧ select9e code = f ∧ s08) := by
  rcases h with ⟨rfl, rfl⟩ | ⟨rfl, rfl⟩
  · refine .inl ⟨rfl, rfl, ?_⟩
    intro e
    unfold hxOk at hk
    rcases hc with rfl | rfl | rfl <;> subst e <;> simpa using hk
  · refine .inr ⟨rfl, rfl, ?_⟩
    unfold hxOk at hk
    simpa using hk

theorem exec_ok (s : St) (f : Fn) (code : Byte) (pre : Bool) (n t : Nat) (hc : CcOk s) (hf : From f code pre)
    (hd : ¬ Isa.Differs (abs s) ((abs s).pc + BitVec.ofNat 16 n) (insOf s.s08 f code pre)) :
    Refines s (exec f code pre (fr s n t)) n (insOf s.s08 f code pre) := by
  have hr := hf.row
  cases f <;> simp only [insOf] at hd ⊢
  case bittest => exact bittest_ok s code pre n t hc (by simpa [rowOk] using hr) hd
  case bitset => exact bitset_ok s code pre n t hc (by simpa [rowOk] using hr)
  case condbranch => exact br_ok s code pre n t hc (hf.main rfl) hd
  case rmw o => obtain ⟨a, b, c⟩ := rmw_ok s o code pre n t hc (by simpa only [rowOk, decide_eq_true_eq] using hr) u0 hd; exact ⟨a, ⟨u0, b⟩, c⟩
  case cbeq =>
    have := by simpa only [rowOk, decide_eq_true_eq] using hr
    exact cbeq_ok s code pre n t hc this.1 this.2 hd
  case dbnz => exact dbnz_ok s code pre n t hc (by simpa only [rowOk, decide_eq_true_eq] using hr) hd
  case ldhx =>
    by_cases hk : hxOk s.s08 code pre = true
    · rw [if_pos hk]; exact ldhx_ok s code pre n t hc (hf.hx s.s08 hk _ (.inl rfl))
    · rw [if_neg hk] at hd; exact absurd trivial hd
  case sthx =>
    by_cases hk : hxOk s.s08 code pre = true
    · rw [if_pos hk] at hd ⊢; exact sthx_ok s code pre n t hc (hf.hx s.s08 hk _ (.inr (.inr rfl))) hd
    · rw [if_neg hk] at hd; exact absurd trivial hd
  case cphx =>
    by_cases hk : hxOk s.s08 code pre = true
    · rw [if_pos hk]; exact cphx_ok s code pre n t hc (hf.hx s.s08 hk _ (.inr (.inl rfl)))
    · rw [if_neg hk] at hd; exact absurd trivial hd
  case mul => exact mul_ok s code pre n t hc
  case div => exact div_ok s code pre n t hc
  case nsa => exact nsa_ok s code pre n t hc
  case mov => exact mov_ok s code pre n t hc
  case rti => exact rti_ok s code pre n t
  case rts => exact rts_ok s code pre n t hc
  case transfer => exact transfer_ok s code pre n t hc (hf.main rfl)
  case pushpull => exact pushpull_ok s code pre n t hc (hf.main rfl)
  case clrh => exact clrh_ok s code pre n t hc
  case setclear => exact setclear_ok s code pre n t hc (hf.main rfl)
  case rsp => exact rsp_ok s code pre n t hc hd
  case nop => exact nop_ok s code pre n t hc
  case alu o => obtain ⟨a, b, c⟩ := alu_ok s o code pre n t hc (by simpa only [rowOk, decide_eq_true_eq] using hr) u0; exact ⟨a, ⟨u0, b⟩, c⟩
  case sta => obtain ⟨a, b, c⟩ := sta_ok s code pre n t hc (by simpa only [rowOk, decide_eq_true_eq] using hr) u0 hd; exact ⟨a, ⟨u0, b⟩, c⟩
  case stx => obtain ⟨a, b, c⟩ := stx_ok s code pre n t hc (by simpa only [rowOk, decide_eq_true_eq] using hr) u0 hd; exact ⟨a, ⟨u0, b⟩, c⟩
  case jmp => exact jmp_ok s code pre n t hc (by simpa only [rowOk, decide_eq_true_eq] using hr) hd
  case jsr => exact jsr_ok s code pre n t hc (by simpa only [rowOk, decide_eq_true_eq] using hr) hd
  case bsr => exact bsr_ok s code pre n t hc hd
  case ais => exact ais_ok s code pre n t hc
  case aix => exact aix_ok s code pre n t hc
  all_goals exact absurd trivial hd

/-- The machine is running: the reset vector was loaded. -/
structure Live (s : St) : Prop where
  pc : s.pc < 0x10000
  cc : CcOk s
  vec : s.vector = false

/-- Everything fetched: the function, its code, whether after the prefix, and how many bytes. -/
def fetched (s : St) : Fn × Byte × Bool × Nat :=
  if (abs s).mem (abs s).pc = 0x9e#8 then (select9e ((abs s).mem ((abs s).pc + 1)), (abs s).mem ((abs s).pc + 1), true, 2)
  else (select ((abs s).mem (abs s).pc), (abs s).mem (abs s).pc, false, 1)

theorem pre_iff : ∀ c : Byte, (select c = .pre ↔ c = 0x9e#8) := by decide +kernel

theorem execInst_fr (s : St) (h : Live s) : execInst s =
    exec (fetched s).1 (fetched s).2.1 (fetched s).2.2.1 (fr s (fetched s).2.2.2 (s.ticks + (fetched s).2.2.2)) := by
  unfold execInst
  rw [h.vec, if_neg (by decide), fetch_any s h.pc]
  simp only [tick_fr]
  unfold fetched
  by_cases hp : s.mem (abs s).pc = 0x9e#8
  · rw [if_pos ((pre_iff _).mpr hp)]
    simp only [if_pos (show (abs s).mem (abs s).pc = 0x9e#8 from hp), fetch_fr]; rfl
  · rw [if_neg (fun k => hp ((pre_iff _).mp k))]
    simp only [if_neg (show ¬ (abs s).mem (abs s).pc = 0x9e#8 from hp)]; rfl

theorem fetched_from (s : St) : From (fetched s).1 (fetched s).2.1 (fetched s).2.2.1 := by
  unfold fetched
  split
  · exact .inr ⟨rfl, rfl⟩
  · exact .inl ⟨rfl, rfl⟩

theorem fetch_eq (s : St) : (abs s).fetch s.s08 = (insOf s.s08 (fetched s).1 (fetched s).2.1 (fetched s).2.2.1, (abs s).pc + BitVec.ofNat 16 (fetched s).2.2.2) := by
  unfold Isa.Mach.fetch fetched
  split
  · rw [decode9e_ok]; rfl
  · rw [decode_ok]; rfl

/-- The instruction at PC. -/
def here (s : St) : Isa.Ins := ((abs s).fetch s.s08).1
/-- The address of its operand bytes. -/
def opnd (s : St) : Word := ((abs s).fetch s.s08).2

theorem step_ok (s : St) (h : Live s) (hd : ¬ Isa.Differs (abs s) (opnd s) (here s)) :
    (step s).1 = .go ∧ (∃ u, abs (step s).2 = Isa.step s.s08 u (abs s)) ∧ Live (step s).2 ∧ (step s).2.s08 = s.s08 := by
  unfold opnd here at hd
  rw [fetch_eq] at hd
  obtain ⟨k1, ⟨u, k2⟩, k3⟩ := exec_ok s _ _ _ _ (s.ticks + (fetched s).2.2.2) h.cc (fetched_from s) hd
  rw [← execInst_fr s h] at k1 k2 k3
  have e : (step s).2 = (execInst s).2 := by
    unfold step
    simp only [k1]
    rfl
  refine ⟨k1, ⟨u, ?_⟩, ?_, ?_⟩
  · rw [e, k2]
    unfold Isa.step
    rw [fetch_eq]; rfl
  · rw [e]; exact ⟨k3.pc, k3.cc, k3.vec.trans h.vec⟩
  · rw [e]; exact k3.s08

/-! ### Clocks -/

theorem fetch_ticks (s : St) : (fetch s).2.ticks = s.ticks := rfl
theorem fetch2_ticks (s : St) : (fetch2 s).2.ticks = s.ticks + 2 := rfl
theorem store1_ticks (s : St) (a : Nat) (v : Byte) : (store1 s a v).ticks = s.ticks := by unfold store1; split <;> rfl
theorem push1_ticks (s : St) (v : Byte) : (push1 v s).ticks = s.ticks := by unfold push1; exact store1_ticks _ _ _
theorem push2_ticks (s : St) (v : Nat) : (push2 v s).ticks = s.ticks := by unfold push2 store2; simp only [store1_ticks]
theorem tick_ticks (s : St) (n : Nat) : (tick n s).ticks = s.ticks + n := rfl
theorem addPC_ticks (s : St) (o : Byte) : (addPC o s).ticks = s.ticks := rfl
theorem jrel_ticks (s : St) (b : Bool) : (jrel b s).ticks = s.ticks + 2 := by
  unfold jrel; cases b <;> rfl
theorem incx_ticks (s : St) : (incx s).ticks = s.ticks := rfl
theorem hxP_ticks (s : St) : (hxP s).ticks = s.ticks := rfl

/-- Clocks of fetchea. -/
def eaC (nib : Nat) : Nat :=
  match nib with
  | 0x0 | 0x1 | 0x3 | 0xb | 0x7 | 0xf | 0x6 | 0xe => 1
  | 0xd | 0xc => 2
  | _ => 0
theorem fetchea_ticks (nib : Nat) (pre : Bool) (s : St) : (fetchea nib pre s).2.ticks = s.ticks + eaC nib := by
  unfold fetchea eaC
  split <;> first
    | rfl
    | (split <;> first | rfl | contradiction)

theorem rmwGet_ticks (nib : Nat) (pre : Bool) (s : St) : (rmwGet nib pre s).2.2.ticks = s.ticks + if nib = 4 ∨ nib = 5 then 0 else eaC nib + 1 := by
  unfold rmwGet
  by_cases h4 : nib = 4
  · rw [if_pos h4, if_pos (.inl h4)]; rfl
  by_cases h5 : nib = 5
  · rw [if_neg h4, if_pos h5, if_pos (.inr h5)]; rfl
  rw [if_neg h4, if_neg h5, if_neg (by omega)]
  simp only [tick_ticks, fetchea_ticks, Nat.add_assoc]

theorem rmwPut_ticks (nib c ea : Nat) (v : Byte) (s : St) : (rmwPut nib c ea v s).ticks = s.ticks + putClk nib c := by
  unfold rmwPut putClk
  by_cases h4 : nib = 4
  · rw [if_pos h4, if_pos (.inl h4)]; rfl
  by_cases h5 : nib = 5
  · rw [if_neg h4, if_pos h5, if_pos (.inr h5)]; rfl
  rw [if_neg h4, if_neg h5, if_neg (show ¬ (nib = 4 ∨ nib = 5) by omega)]
  by_cases h7 : nib % 8 ≠ 7
  · rw [if_pos h7, if_pos h7]; simp only [tick_ticks, store1_ticks, Nat.add_assoc]
  · rw [if_neg h7, if_neg h7]; simp only [tick_ticks, store1_ticks, Nat.add_zero]

/-- Clocks of a function, after the opcode was fetched. -/
def fnC (f : Fn) (code : Byte) : Nat :=
  let nib := code.toNat / 16
  let g := if nib = 4 ∨ nib = 5 then 0 else eaC nib + 1
  match f with
  | .bittest => eaC nib + 1 + 2
  | .bitset => eaC nib + 3
  | .condbranch => 2
  | .rmw .tst => g + if nib = 3 ∨ nib = 6 then 1 else 0
  | .rmw .clr | .rmw .com | .rmw .neg => g + putClk nib 0
  | .rmw _ => g + putClk nib 1
  | .cbeq => (if nib = 4 ∨ nib = 5 then 1 else eaC nib + 1) + 2
  | .dbnz => g + putClk nib 1 + 2
  | .ldhx => if code = 0x45#8 then 2 else if code = 0x32#8 ∨ code = 0xbe#8 then 6 else 3
  | .sthx => if code = 0x96#8 then 6 else 3
  | .cphx => if code = 0x65#8 then 4 else if code = 0x3e#8 then 7 else 4
  | .mul => 4
  | .div => 5
  | .mov => if code = 0x6e#8 then 3 else if code = 0x4e#8 ∨ code = 0x5e#8 then 4 else 4
  | .rti => 8
  | .rts => 5
  | .swi => 10
  | .pushpull => if code = 0x86#8 ∨ code = 0x88#8 ∨ code = 0x8a#8 then 2 else 1
  | .alu _ => (if nib = 0xa then 0 else eaC nib) + 1
  | .sta | .stx => eaC nib + 1
  | .jmp => eaC nib + 1
  | .jsr => eaC nib + 3
  | .bsr => 3
  | .aix => 1
  | _ => 0

theorem pop1_ticks (s : St) : (pop1 s).2.ticks = s.ticks := rfl
theorem pop2_ticks (s : St) : (pop2 s).2.ticks = s.ticks := rfl

theorem tickInv_ldhx (code : Byte) (pre : Bool) (s t : St) (h : ldhx code pre s = some t) : t.ticks = s.ticks + fnC .ldhx code := by
  unfold ldhx at h
  unfold fnC
  simp only at h ⊢
  split at h
  · rename_i e; subst e; cases h; rfl
  split at h
  · rename_i e; subst e; cases h; rfl
  split at h
  · rename_i e; rcases e with ⟨e, -⟩; subst e; cases h; rfl
  split at h
  · rename_i e; rcases e with ⟨-, e, -⟩; subst e; cases h; rfl
  split at h
  · rename_i e; rcases e with ⟨-, e, -⟩; subst e; cases h; rfl
  split at h
  · rename_i e; rcases e with ⟨-, e, -⟩; subst e; cases h; rfl
  split at h
  · rename_i e; rcases e with ⟨-, e, -⟩; subst e; cases h; rfl
  · cases h

theorem tickInv_sthx (code : Byte) (pre : Bool) (s t : St) (h : sthx code pre s = some t) : t.ticks = s.ticks + fnC .sthx code := by
  unfold sthx at h
  unfold fnC
  simp only at h ⊢
  split at h
  · rename_i e; subst e; cases h; simp only [hxP_ticks, tick_ticks, store1_ticks, fetch_ticks, Nat.add_assoc]; rfl
  split at h
  · rename_i e; rcases e with ⟨e, -⟩; subst e; cases h; simp only [hxP_ticks, tick_ticks, store1_ticks, fetch2_ticks, Nat.add_assoc]; rfl
  split at h
  · rename_i e; rcases e with ⟨-, e, -⟩; subst e; cases h; simp only [hxP_ticks, tick_ticks, store1_ticks, fetch_ticks, Nat.add_assoc]; rfl
  · cases h

theorem tickInv_cphx (code : Byte) (pre : Bool) (s t : St) (h : cphx code pre s = some t) : t.ticks = s.ticks + fnC .cphx code := by
  unfold cphx at h
  unfold fnC
  simp only at h ⊢
  split at h
  · rename_i e; subst e; cases h; rfl
  split at h
  · rename_i e; subst e; cases h; rfl
  split at h
  · rename_i e; rcases e with ⟨e, -⟩; subst e; cases h; rfl
  split at h
  · rename_i e; rcases e with ⟨-, e, -⟩; subst e; cases h; rfl
  · cases h

theorem mov_ticks (code : Byte) (s : St) : (mov code s).ticks = s.ticks + fnC .mov code := by
  have hm : ∀ ea v b t, (movEnd ea v b t).ticks = t.ticks + 1 := by
    intro ea v b t; unfold movEnd; cases b <;> simp [incx_ticks, tick_ticks, store1_ticks]
  unfold mov fnC
  simp only
  by_cases h1 : code = 0x4e#8
  · subst h1; rw [if_pos rfl, hm]; rfl
  by_cases h2 : code = 0x5e#8
  · subst h2; rw [if_neg (by decide), if_pos rfl, hm]; rfl
  by_cases h3 : code = 0x6e#8
  · subst h3; rw [if_neg (by decide), if_neg (by decide), if_pos rfl, hm]; rfl
  rw [if_neg h1, if_neg h2, if_neg h3, hm, if_neg h3, if_neg (by simp [h1, h2])]; rfl

theorem pushpull_ticks (code : Byte) (s t : St) (h : pushpull code s = some t) : t.ticks = s.ticks + fnC .pushpull code := by
  unfold pushpull at h
  unfold fnC
  simp only at h ⊢
  split at h
  · rename_i e; subst e; cases h; rfl
  split at h
  · rename_i e; subst e; cases h; rw [tick_ticks, push1_ticks]; rfl
  split at h
  · rename_i e; subst e; cases h; rfl
  split at h
  · rename_i e; subst e; cases h; rw [tick_ticks, push1_ticks]; rfl
  split at h
  · rename_i e; subst e; cases h; rfl
  split at h
  · rename_i e; subst e; cases h; rw [tick_ticks, push1_ticks]; rfl
  · cases h

theorem transfer_ticks (code : Byte) (s t : St) (h : transfer code s = some t) : t.ticks = s.ticks := by
  unfold transfer at h
  repeat (split at h; · cases h; rfl)
  cases h

theorem setclear_ticks (code : Byte) (s t : St) (h : setclear code s = some t) : t.ticks = s.ticks := by
  unfold setclear at h
  repeat (split at h; · cases h; rfl)
  cases h

theorem orInv_go {s : St} {o : Option St} (h : (orInv s o).1 = .go) : ∃ t, o = some t ∧ (orInv s o).2 = t := by
  cases o with
  | none => cases h
  | some t => exact ⟨t, rfl, rfl⟩
theorem orHalt_go {s : St} {o : Option St} (h : (orHalt s o).1 = .go) : ∃ t, o = some t ∧ (orHalt s o).2 = t := by
  cases o with
  | none => cases h
  | some t => exact ⟨t, rfl, rfl⟩

theorem aluOp_ticks (o : Alu) (v : Byte) (s : St) : (aluOp o v s).ticks = s.ticks := by cases o <;> rfl

theorem operand_ticks (nib : Nat) (pre : Bool) (s : St) : (operand nib pre s).2.ticks = s.ticks + if nib = 0xa then 0 else eaC nib := by
  unfold operand
  by_cases h : nib = 0xa
  · rw [if_pos h, if_pos h]; rfl
  · rw [if_neg h, if_neg h]; exact fetchea_ticks nib pre s

theorem rmwInst_ticks (o : Rmw) (code : Byte) (pre : Bool) (s : St) : (rmwInst o (code.toNat / 16) pre s).ticks = s.ticks + fnC (.rmw o) code := by
  have hg := rmwGet_ticks (code.toNat / 16) pre s
  unfold rmwInst fnC
  generalize hr : rmwGet (code.toNat / 16) pre s = r at hg ⊢
  obtain ⟨ea, v, t⟩ := r
  simp only at hg
  cases o <;> simp only [rmwPut_ticks, hg, Nat.add_assoc]
  split <;> simp only [tick_ticks, hg, Nat.add_assoc, Nat.add_zero]

theorem dbnz_ticks (code : Byte) (pre : Bool) (s : St) : (dbnz (code.toNat / 16) pre s).ticks = s.ticks + fnC .dbnz code := by
  have hg := rmwGet_ticks (code.toNat / 16) pre s
  unfold dbnz fnC
  generalize hr : rmwGet (code.toNat / 16) pre s = r at hg ⊢
  obtain ⟨ea, v, t⟩ := r
  simp only at hg
  simp only [jrel_ticks, rmwPut_ticks, hg, Nat.add_assoc]

theorem cbeq_ticks (code : Byte) (pre : Bool) (s : St) : (cbeq code pre s).ticks = s.ticks + fnC .cbeq code := by
  have hi : ∀ (b : Prop) [Decidable b] (t : St), (if b then incx t else t).ticks = t.ticks := by intro b _ t; split <;> rfl
  have ha : ∀ (b : Prop) [Decidable b] (o : Byte) (t : St), (if b then addPC o t else t).ticks = t.ticks := by intro b _ o t; split <;> rfl
  unfold cbeq fnC
  simp only [tick_ticks, hi, ha, fetch_ticks]
  by_cases h4 : code.toNat / 16 = 4
  · simp only [if_pos h4, if_pos (Or.inl h4 : code.toNat / 16 = 4 ∨ code.toNat / 16 = 5)]; rfl
  by_cases h5 : code.toNat / 16 = 5
  · simp only [if_neg h4, if_pos h5, if_pos (Or.inr h5 : code.toNat / 16 = 4 ∨ code.toNat / 16 = 5)]; rfl
  · simp only [if_neg h4, if_neg h5, if_neg (show ¬ (code.toNat / 16 = 4 ∨ code.toNat / 16 = 5) by omega), tick_ticks, fetchea_ticks, Nat.add_assoc]

theorem exec_ticks (s : St) (f : Fn) (code : Byte) (pre : Bool) :
    (exec f code pre s).1 = .go → (exec f code pre s).2.ticks = s.ticks + fnC f code := by
  intro hg
  cases f <;> unfold exec at hg ⊢ <;> simp only at hg ⊢
  case bittest => unfold bittest; simp only [jrel_ticks, tick_ticks, fetchea_ticks, Nat.add_assoc]; rfl
  case bitset => unfold bitset; simp only [store1_ticks, tick_ticks, fetchea_ticks, Nat.add_assoc]; rfl
  case condbranch =>
    obtain ⟨t, e, k⟩ := orHalt_go hg
    rw [k]
    cases ht : taken code s.p with
    | none => rw [ht] at e; cases e
    | some b => rw [ht] at e; cases e; exact jrel_ticks s b
  case rmw o => exact rmwInst_ticks o code pre s
  case cbeq => exact cbeq_ticks code pre s
  case dbnz => exact dbnz_ticks code pre s
  case ldhx => obtain ⟨t, e, k⟩ := orInv_go hg; rw [k]; exact tickInv_ldhx code pre s t e
  case sthx => obtain ⟨t, e, k⟩ := orInv_go hg; rw [k]; exact tickInv_sthx code pre s t e
  case cphx => obtain ⟨t, e, k⟩ := orInv_go hg; rw [k]; exact tickInv_cphx code pre s t e
  case mul => rfl
  case div =>
    unfold div
    simp only [tick_ticks]
    split
    · split <;> rfl
    · rfl
  case nsa => rfl
  case daa => rfl
  case mov => exact mov_ticks code s
  case rti => rfl
  case rts => rfl
  case swi => unfold swi; simp only [tick_ticks, push1_ticks, push2_ticks, Nat.add_assoc]; rfl
  case transfer => obtain ⟨t, e, k⟩ := orHalt_go hg; rw [k]; exact transfer_ticks code s t e
  case pushpull => obtain ⟨t, e, k⟩ := orHalt_go hg; rw [k]; exact pushpull_ticks code s t e
  case setclear => obtain ⟨t, e, k⟩ := orHalt_go hg; rw [k]; exact setclear_ticks code s t e
  case alu o => simp only [aluOp_ticks, tick_ticks, operand_ticks, Nat.add_assoc]; rfl
  case sta => simp only [tick_ticks, store1_ticks, fetchea_ticks, Nat.add_assoc]; rfl
  case stx => simp only [tick_ticks, store1_ticks, fetchea_ticks, Nat.add_assoc]; rfl
  case jmp => simp only [tick_ticks, fetchea_ticks, Nat.add_assoc]; rfl
  case jsr => simp only [tick_ticks, push2_ticks, fetchea_ticks, Nat.add_assoc]; rfl
  case bsr => simp only [addPC_ticks, tick_ticks, push2_ticks, fetch_ticks, Nat.add_assoc]; rfl
  case ais => rfl
  case aix => rfl
  all_goals first | rfl | cases hg

end Ucsim.H08
