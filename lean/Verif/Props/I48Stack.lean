import Verif.Props.I48
/-
C109: subroutines and interrupt routines return to where they were called from, however nested.
-/
namespace Ucsim.I48

open Isa (next inPage stackLow stackHigh)

/-- The instruction at PC. -/
def here (s : St) : Option Isa.Ins := Isa.decode (romRd s s.pc)

/-- `d` bounds how deeply calls nest in the stretch.  A stretch of execution from `s` to `t` in
which what is called returns. -/
inductive Bal : Nat → St → St → Prop
  | refl (d : Nat) (s : St) : Bal d s s
  /-- anything that leaves the stack pointer and the stack (bytes 8-23) alone -/
  | other {d : Nat} {s t u : St} : Bal d s t → Wf u → (abs u).sp = (abs t).sp →
      (∀ b : Byte, 8 ≤ b.toNat → b.toNat < 24 → u.iram b = t.iram b) → Bal d s u
  /-- CALL, a stretch, RET or RETR -/
  | call {d : Nat} {s t u : St} {p : BitVec 3} : Bal (d + 1) s t → here t = some (.call p) → Bal d (execInst t).2 u →
      (here u = some .ret ∨ here u = some .retr) → Bal (d + 1) s (execInst u).2
  /-- an interrupt, a stretch, RETR -/
  | irq {d : Nat} {s t u : St} {v : Addr} : Bal (d + 1) s t → Bal d (accept v t) u → here u = some .retr → Bal (d + 1) s (execInst u).2

/-! ### What the instructions do to the stack -/

theorem here_go {s : St} {i : Isa.Ins} (h : here s = some i) (hn : ∀ r, i ≠ .alu .adc (.ir r)) :
    execInst s = (.go, exec (select (romRd s s.pc)) (tick (cyclesOf (romRd s s.pc) * 5) (adv s))) := by
  refine execInst_go s (sel_defined h) ?_
  intro e
  obtain ⟨r, e⟩ := sel_missing h e
  exact hn r e

theorem sel_call : ∀ (p : BitVec 3) (c : Byte), Isa.decode c = some (.call p) → select c = .call p := by decide +kernel
theorem sel_ret : ∀ (c : Byte), Isa.decode c = some .ret → select c = .ret := by decide +kernel
theorem sel_retr : ∀ (c : Byte), Isa.decode c = some .retr → select c = .retr := by decide +kernel

/-- CALL: SP one higher, the frame written, nothing else in the data memory. -/
theorem call_fx {s : St} {p : BitVec 3} (hw : Wf s) (h : here s = some (.call p)) :
    (execInst s).1 = .go ∧ (abs (execInst s).2).sp = (abs s).sp + 1 ∧
    (execInst s).2.iram = ({ abs s with pc := next (next s.pc) } : Isa.Mach).push.ram := by
  rw [here_go h (by intro r; simp), sel_call p _ h]
  refine ⟨rfl, ?_, ?_⟩
  · show (abs (let (a, s) := target p _; ({ push s with pc := a } : St))).sp = _
    rw [target_eq]
    simp only
    rw [abs_pc, push_ok (adv_wf (⟨hw.one, hw.ram, hw.x⟩ : Wf (tick _ (adv s))))]
    rfl
  · show (let (a, s) := target p _; ({ push s with pc := a } : St)).iram = _
    rw [target_eq]
    show (abs (push _)).ram = _
    rw [push_ok (adv_wf (⟨hw.one, hw.ram, hw.x⟩ : Wf (tick _ (adv s))))]
    rfl

theorem accept_fx {s : St} (hw : Wf s) (v : Addr) :
    (abs (accept v s)).sp = (abs s).sp + 1 ∧ (accept v s).iram = (abs s).push.ram := by
  have hw' : Wf { s with inIsr := true } := ⟨hw.one, hw.ram, hw.x⟩
  constructor
  · show (abs { push { s with inIsr := true } with pc := v }).sp = _
    rw [abs_pc, push_ok hw']; rfl
  · show (abs (push { s with inIsr := true })).ram = _
    rw [push_ok hw']; rfl

theorem ret_fx {s : St} (hw : Wf s) (h : here s = some .ret) :
    (execInst s).1 = .go ∧ (abs (execInst s).2).sp = (abs s).sp - 1 ∧ (execInst s).2.iram = s.iram ∧
    (execInst s).2.pc = (s.iram (stackHigh ((abs s).sp - 1))).extractLsb' 0 4 ++ s.iram (stackLow ((abs s).sp - 1)) ∧
    (abs (execInst s).2).c = (abs s).c ∧ (abs (execInst s).2).ac = (abs s).ac ∧ (abs (execInst s).2).f0 = (abs s).f0 ∧
    (abs (execInst s).2).bs = (abs s).bs := by
  rw [here_go h (by intro r; simp), sel_ret _ h]
  have e : abs (exec .ret (tick (cyclesOf (romRd s s.pc) * 5) (adv s))) = (abs (tick (cyclesOf (romRd s s.pc) * 5) (adv s))).pop :=
    pop_ok (⟨hw.one, hw.ram, hw.x⟩ : Wf (tick _ (adv s)))
  refine ⟨rfl, ?_, rfl, ?_, ?_, ?_, ?_, ?_⟩
  · show (abs (exec .ret _)).sp = _; rw [e]; rfl
  · show (abs (exec .ret _)).pc = _; rw [e]; rfl
  · show (abs (exec .ret _)).c = _; rw [e]; rfl
  · show (abs (exec .ret _)).ac = _; rw [e]; rfl
  · show (abs (exec .ret _)).f0 = _; rw [e]; rfl
  · show (abs (exec .ret _)).bs = _; rw [e]; rfl

theorem retr_fx {s : St} (hw : Wf s) (h : here s = some .retr) :
    let f := s.iram (stackHigh ((abs s).sp - 1))
    (execInst s).1 = .go ∧ (abs (execInst s).2).sp = (abs s).sp - 1 ∧ (execInst s).2.iram = s.iram ∧
    (execInst s).2.pc = f.extractLsb' 0 4 ++ s.iram (stackLow ((abs s).sp - 1)) ∧
    (abs (execInst s).2).c = f.getLsbD 7 ∧ (abs (execInst s).2).ac = f.getLsbD 6 ∧ (abs (execInst s).2).f0 = f.getLsbD 5 ∧
    (abs (execInst s).2).bs = f.getLsbD 4 ∧ (execInst s).2.inIsr = false := by
  rw [here_go h (by intro r; simp), sel_retr _ h]
  have e : abs (exec .retr (tick (cyclesOf (romRd s s.pc) * 5) (adv s))) = (abs (tick (cyclesOf (romRd s s.pc) * 5) (adv s))).popr :=
    popr_ok (⟨hw.one, hw.ram, hw.x⟩ : Wf (tick _ (adv s)))
  refine ⟨rfl, ?_, rfl, ?_, ?_, ?_, ?_, ?_, rfl⟩
  · show (abs (exec .retr _)).sp = _; rw [e]; rfl
  · show (abs (exec .retr _)).pc = _; rw [e]; rfl
  · show (abs (exec .retr _)).c = _; rw [e]; rfl
  · show (abs (exec .retr _)).ac = _; rw [e]; rfl
  · show (abs (exec .retr _)).f0 = _; rw [e]; rfl
  · show (abs (exec .retr _)).bs = _; rw [e]; rfl

/-! ### Frames do not meet -/

/-- The frame number `n` is the same in both. -/
def SameFrame (n : BitVec 3) (s t : St) : Prop := t.iram (stackLow n) = s.iram (stackLow n) ∧ t.iram (stackHigh n) = s.iram (stackHigh n)

theorem frames_apart : ∀ n k : BitVec 3, n ≠ k → stackLow n ≠ stackLow k ∧ stackLow n ≠ stackHigh k ∧ stackHigh n ≠ stackLow k ∧ stackHigh n ≠ stackHigh k := by
  decide +kernel
theorem low_high : ∀ n : BitVec 3, stackLow n ≠ stackHigh n := by decide +kernel
theorem frame_in : ∀ n : BitVec 3, 8 ≤ (stackLow n).toNat ∧ (stackLow n).toNat < 24 ∧ 8 ≤ (stackHigh n).toNat ∧ (stackHigh n).toNat < 24 := by decide +kernel
theorem ring : ∀ (n : BitVec 3) (k : Nat), k < 8 → 1 ≤ k → n + BitVec.ofNat 3 k ≠ n := by
  intro n k hk h1
  have : ∀ (n : BitVec 3) (k : Fin 8), 1 ≤ k.val → n + BitVec.ofNat 3 k.val ≠ n := by decide +kernel
  exact this n ⟨k, hk⟩ h1
theorem ring7 : ∀ n : BitVec 3, n + 1 + BitVec.ofNat 3 7 = n := by decide +kernel
theorem ring_shift : ∀ (n : BitVec 3) (k : Nat), n + BitVec.ofNat 3 (k + 1) = n + 1 + BitVec.ofNat 3 k := by
  intro n k
  rw [BitVec.ofNat_add, BitVec.add_assoc, BitVec.add_comm (BitVec.ofNat 3 k)]
  rfl

theorem push_frame (m : Isa.Mach) (n : BitVec 3) (h : n ≠ m.sp) : m.push.ram (stackLow n) = m.ram (stackLow n) ∧ m.push.ram (stackHigh n) = m.ram (stackHigh n) := by
  obtain ⟨h1, h2, h3, h4⟩ := frames_apart n m.sp h
  constructor
  · show (if _ then _ else if _ then _ else _) = _
    rw [if_neg h2, if_neg h1]
  · show (if _ then _ else if _ then _ else _) = _
    rw [if_neg h4, if_neg h3]

/-- The frame written: PC, and the status bits. -/
theorem push_own (m : Isa.Mach) : (m.push.ram (stackHigh m.sp)).extractLsb' 0 4 ++ m.push.ram (stackLow m.sp) = m.pc ∧
    (m.push.ram (stackHigh m.sp)).getLsbD 7 = m.c ∧ (m.push.ram (stackHigh m.sp)).getLsbD 6 = m.ac ∧
    (m.push.ram (stackHigh m.sp)).getLsbD 5 = m.f0 ∧ (m.push.ram (stackHigh m.sp)).getLsbD 4 = m.bs := by
  have eh : m.push.ram (stackHigh m.sp) = BitVec.ofBool m.c ++ BitVec.ofBool m.ac ++ BitVec.ofBool m.f0 ++ BitVec.ofBool m.bs ++ m.pc.extractLsb' 8 4 := by
    show (if _ then _ else _) = _
    rw [if_pos rfl]
  have el : m.push.ram (stackLow m.sp) = m.pc.extractLsb' 0 8 := by
    show (if _ then _ else if _ then _ else _) = _
    rw [if_neg (low_high _), if_pos rfl]
  rw [eh, el]
  have hf : ∀ (c a f b : Bool) (h : BitVec 4),
      let v : Byte := BitVec.ofBool c ++ BitVec.ofBool a ++ BitVec.ofBool f ++ BitVec.ofBool b ++ h
      v.extractLsb' 0 4 = h ∧ v.getLsbD 7 = c ∧ v.getLsbD 6 = a ∧ v.getLsbD 5 = f ∧ v.getLsbD 4 = b := by decide +kernel
  obtain ⟨g1, g2, g3, g4, g5⟩ := hf m.c m.ac m.f0 m.bs (m.pc.extractLsb' 8 4)
  refine ⟨?_, g2, g3, g4, g5⟩
  rw [g1]
  have : ∀ pc : Addr, pc.extractLsb' 8 4 ++ pc.extractLsb' 0 8 = pc := by decide +kernel
  exact this _

/-- What a balanced stretch keeps: the stack pointer, and the frames it has no room to reach. -/
theorem bal_keeps {d : Nat} {s t : St} (h : Bal d s t) (hw : Wf s) (hd : d ≤ 8) :
    Wf t ∧ (abs t).sp = (abs s).sp ∧ ∀ k, d ≤ k → k < 8 → SameFrame ((abs s).sp + BitVec.ofNat 3 k) s t := by
  induction h with
  | refl d s => exact ⟨hw, rfl, fun k _ _ => ⟨rfl, rfl⟩⟩
  | other hb hwu hsp hst ih =>
    obtain ⟨h1, h2, h3⟩ := ih hw hd
    refine ⟨hwu, hsp.trans h2, ?_⟩
    intro k hk hk8
    obtain ⟨g1, g2⟩ := h3 k hk hk8
    obtain ⟨f1, f2, f3, f4⟩ := frame_in ((abs _).sp + BitVec.ofNat 3 k)
    exact ⟨(hst _ f1 f2).trans g1, (hst _ f3 f4).trans g2⟩
  | @call d s t u p hb hc hb2 hr ih1 ih2 =>
    obtain ⟨h1, h2, h3⟩ := ih1 hw hd
    obtain ⟨_, c1, c2⟩ := call_fx h1 hc
    obtain ⟨g1, g2, g3⟩ := ih2 (wf_execInst h1) (by omega)
    have hsp : (abs (execInst u).2).sp = (abs s).sp ∧ (execInst u).2.iram = u.iram := by
      have e : (abs u).sp - 1 = (abs s).sp := by
        rw [g2, c1, h2]
        exact BitVec.add_sub_cancel _ _
      rcases hr with hr | hr
      · obtain ⟨_, r1, r2, _⟩ := ret_fx g1 hr
        exact ⟨r1.trans e, r2⟩
      · obtain ⟨_, r1, r2, _⟩ := retr_fx g1 hr
        exact ⟨r1.trans e, r2⟩
    refine ⟨wf_execInst g1, hsp.1, ?_⟩
    intro k hk hk8
    obtain ⟨f1, f2⟩ := h3 k hk hk8
    have hk' : ∃ j, k = j + 1 := ⟨k - 1, by omega⟩
    obtain ⟨j, hj⟩ := hk'
    subst hj
    obtain ⟨e1, e2⟩ := g3 j (by omega) (by omega)
    have ej : (abs (execInst t).2).sp + BitVec.ofNat 3 j = (abs s).sp + BitVec.ofNat 3 (j + 1) := by
      rw [c1, h2, ring_shift]
    rw [ej] at e1 e2
    have hne : (abs s).sp + BitVec.ofNat 3 (j + 1) ≠ ({ abs t with pc := next (next t.pc) } : Isa.Mach).sp := by
      show _ ≠ (abs t).sp
      rw [h2]; exact ring _ _ hk8 (by omega)
    obtain ⟨p1, p2⟩ := push_frame { abs t with pc := next (next t.pc) } _ hne
    rw [c2] at e1 e2
    constructor
    · rw [hsp.2]; exact e1.trans (p1.trans f1)
    · rw [hsp.2]; exact e2.trans (p2.trans f2)
  | @irq d s t u v hb hb2 hr ih1 ih2 =>
    obtain ⟨h1, h2, h3⟩ := ih1 hw hd
    obtain ⟨c1, c2⟩ := accept_fx h1 v
    obtain ⟨g1, g2, g3⟩ := ih2 (wf_accept h1 v) (by omega)
    obtain ⟨_, r1, r2, _⟩ := retr_fx g1 hr
    have e : (abs u).sp - 1 = (abs s).sp := by
      rw [g2, c1, h2]
      exact BitVec.add_sub_cancel _ _
    refine ⟨wf_execInst g1, r1.trans e, ?_⟩
    intro k hk hk8
    obtain ⟨f1, f2⟩ := h3 k hk hk8
    have hk' : ∃ j, k = j + 1 := ⟨k - 1, by omega⟩
    obtain ⟨j, hj⟩ := hk'
    subst hj
    obtain ⟨e1, e2⟩ := g3 j (by omega) (by omega)
    have ej : (abs (accept v t)).sp + BitVec.ofNat 3 j = (abs s).sp + BitVec.ofNat 3 (j + 1) := by
      rw [c1, h2, ring_shift]
    rw [ej] at e1 e2
    have hne : (abs s).sp + BitVec.ofNat 3 (j + 1) ≠ (abs t).sp := by
      rw [h2]; exact ring _ _ hk8 (by omega)
    obtain ⟨p1, p2⟩ := push_frame (abs t) _ hne
    rw [c2] at e1 e2
    constructor
    · rw [r2]; exact e1.trans (p1.trans f1)
    · rw [r2]; exact e2.trans (p2.trans f2)

/-! ### C109 -/

/-- **C109**, RET: whatever the subroutine did, and however deeply it called (up to the eight levels
of the stack), execution goes on after the CALL; the status bits are the subroutine's. -/
theorem c109_ret (s u : St) (p : BitVec 3) (hw : Wf s) (hc : here s = some (.call p)) (hb : Bal 7 (execInst s).2 u) (hr : here u = some .ret) :
    (execInst u).1 = .go ∧ (execInst u).2.pc = next (next s.pc) ∧ (abs (execInst u).2).sp = (abs s).sp ∧
    (abs (execInst u).2).c = (abs u).c ∧ (abs (execInst u).2).ac = (abs u).ac ∧ (abs (execInst u).2).f0 = (abs u).f0 ∧
    (abs (execInst u).2).bs = (abs u).bs := by
  obtain ⟨_, c1, c2⟩ := call_fx hw hc
  obtain ⟨g1, g2, g3⟩ := bal_keeps hb (wf_execInst hw) (by omega)
  obtain ⟨f1, f2⟩ := g3 7 (by omega) (by omega)
  obtain ⟨r0, r1, _, r2, r3⟩ := ret_fx g1 hr
  have e : (abs u).sp - 1 = (abs s).sp := by rw [g2, c1]; exact BitVec.add_sub_cancel _ _
  rw [c1, ring7, c2] at f1 f2
  rw [e] at r1 r2
  refine ⟨r0, ?_, r1, r3⟩
  rw [r2, f1, f2]
  exact (push_own { abs s with pc := next (next s.pc) }).1

/-- **C109**, RETR after CALL: the status bits are those at the CALL. -/
theorem c109_retr (s u : St) (p : BitVec 3) (hw : Wf s) (hc : here s = some (.call p)) (hb : Bal 7 (execInst s).2 u) (hr : here u = some .retr) :
    (execInst u).1 = .go ∧ (execInst u).2.pc = next (next s.pc) ∧ (abs (execInst u).2).sp = (abs s).sp ∧
    (abs (execInst u).2).c = (abs s).c ∧ (abs (execInst u).2).ac = (abs s).ac ∧ (abs (execInst u).2).f0 = (abs s).f0 ∧
    (abs (execInst u).2).bs = (abs s).bs := by
  obtain ⟨_, c1, c2⟩ := call_fx hw hc
  obtain ⟨g1, g2, g3⟩ := bal_keeps hb (wf_execInst hw) (by omega)
  obtain ⟨f1, f2⟩ := g3 7 (by omega) (by omega)
  obtain ⟨r0, r1, _, r2, r3, r4, r5, r6, _⟩ := retr_fx g1 hr
  have e : (abs u).sp - 1 = (abs s).sp := by rw [g2, c1]; exact BitVec.add_sub_cancel _ _
  rw [c1, ring7, c2] at f1 f2
  rw [e] at r1 r2 r3 r4 r5 r6
  obtain ⟨o1, o2, o3, o4, o5⟩ := push_own { abs s with pc := next (next s.pc) }
  refine ⟨r0, ?_, r1, ?_, ?_, ?_, ?_⟩
  · rw [r2, f1, f2]; exact o1
  · rw [r3, f2]; exact o2
  · rw [r4, f2]; exact o3
  · rw [r5, f2]; exact o4
  · rw [r6, f2]; exact o5

/-- **C109**, an interrupt routine: RETR goes back to the instruction that would have been next, with
its status bits, and interrupts are possible again. -/
theorem c109_irq (s u : St) (v : Addr) (hw : Wf s) (hb : Bal 7 (accept v s) u) (hr : here u = some .retr) :
    (execInst u).1 = .go ∧ (execInst u).2.pc = s.pc ∧ (abs (execInst u).2).sp = (abs s).sp ∧
    (abs (execInst u).2).c = (abs s).c ∧ (abs (execInst u).2).ac = (abs s).ac ∧ (abs (execInst u).2).f0 = (abs s).f0 ∧
    (abs (execInst u).2).bs = (abs s).bs ∧ (execInst u).2.inIsr = false := by
  obtain ⟨c1, c2⟩ := accept_fx hw v
  obtain ⟨g1, g2, g3⟩ := bal_keeps hb (wf_accept hw v) (by omega)
  obtain ⟨f1, f2⟩ := g3 7 (by omega) (by omega)
  obtain ⟨r0, r1, _, r2, r3, r4, r5, r6, r7⟩ := retr_fx g1 hr
  have e : (abs u).sp - 1 = (abs s).sp := by rw [g2, c1]; exact BitVec.add_sub_cancel _ _
  rw [c1, ring7, c2] at f1 f2
  rw [e] at r1 r2 r3 r4 r5 r6
  obtain ⟨o1, o2, o3, o4, o5⟩ := push_own (abs s)
  refine ⟨r0, ?_, r1, ?_, ?_, ?_, ?_, r7⟩
  · rw [r2, f1, f2]; exact o1
  · rw [r3, f2]; exact o2
  · rw [r4, f2]; exact o3
  · rw [r5, f2]; exact o4
  · rw [r6, f2]; exact o5

/-- A whole stretch gives the stack back as it found it. -/
theorem c109_balance (d : Nat) (s t : St) (hd : d ≤ 8) (hw : Wf s) (h : Bal d s t) :
    (abs t).sp = (abs s).sp ∧ ∀ k, d ≤ k → k < 8 → SameFrame ((abs s).sp + BitVec.ofNat 3 k) s t :=
  (bal_keeps h hw hd).2

/-! A case: CALL 0x100; there CALL 0x110, RET; at 0x110 CPL C, RETR. -/

def prog2 : St := demo (bytes 0 [0x34, 0x00] (bytes 0x100 [0x34, 0x10, 0x83] (bytes 0x110 [0xa7, 0x93])))

example : here prog2 = some (.call 1) ∧ Bal 7 (execInst prog2).2 (insts 4 prog2) ∧ here (insts 4 prog2) = some .ret := by
  refine ⟨by decide +kernel, ?_, by decide +kernel⟩
  have h : Bal 7 (execInst prog2).2 (execInst (insts 3 prog2)).2 := by
    refine Bal.call (p := 1) (t := (execInst prog2).2) (Bal.refl _ _) (by decide +kernel) ?_ (.inr (by decide +kernel))
    refine Bal.other (t := insts 2 prog2) (Bal.refl _ _) ?_ (by decide +kernel) ?_
    · exact wf_execInst (wf_execInst (wf_execInst (demo_wf _).1))
    · intro b _ _; rfl
  exact h

/-- The subroutine's CPL C is undone by RETR, and the outer RET comes back to 2. -/
example : (insts 5 prog2).pc = 2#12 ∧ (abs (insts 3 prog2)).c = true ∧ (abs (insts 5 prog2)).c = false := by decide +kernel

/-- There are eight levels, as on the chip: after nine CALLs SP is 1. -/
example : (abs (insts 9 (demo (bytes 0 [0x14, 0x00])))).sp = 1 := by decide +kernel

end Ucsim.I48
