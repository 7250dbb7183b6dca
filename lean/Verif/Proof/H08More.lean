import Verif.Proof.H08Step

/-! What the simulator does in the instructions where it differs from the manual. -/
namespace Ucsim.H08

theorem insOf_swi (b : Bool) (f : Fn) (c : Byte) (p : Bool) (h : insOf b f c p = .swi) : f = .swi := by
  cases f <;> simp only [insOf] at h <;> try (first | rfl | contradiction | (split at h <;> contradiction))
  · unfold transIns at h; repeat (split at h; · cases h)
    cases h
  · unfold ppIns at h; repeat (split at h; · cases h)
    cases h
  · unfold setclrIns at h; repeat (split at h; · cases h)
    cases h
theorem insOf_stop (b : Bool) (f : Fn) (c : Byte) (p : Bool) (h : insOf b f c p = .stop) : f = .stop := by
  cases f <;> simp only [insOf] at h <;> try (first | rfl | contradiction | (split at h <;> contradiction))
  · unfold transIns at h; repeat (split at h; · cases h)
    cases h
  · unfold ppIns at h; repeat (split at h; · cases h)
    cases h
  · unfold setclrIns at h; repeat (split at h; · cases h)
    cases h
theorem insOf_wait (b : Bool) (f : Fn) (c : Byte) (p : Bool) (h : insOf b f c p = .wait) : f = .wait := by
  cases f <;> simp only [insOf] at h <;> try (first | rfl | contradiction | (split at h <;> contradiction))
  · unfold transIns at h; repeat (split at h; · cases h)
    cases h
  · unfold ppIns at h; repeat (split at h; · cases h)
    cases h
  · unfold setclrIns at h; repeat (split at h; · cases h)
    cases h
theorem insOf_rsp (b : Bool) (f : Fn) (c : Byte) (p : Bool) (h : insOf b f c p = .rsp) : f = .rsp := by
  cases f <;> simp only [insOf] at h <;> try (first | rfl | contradiction | (split at h <;> contradiction))
  · unfold transIns at h; repeat (split at h; · cases h)
    cases h
  · unfold ppIns at h; repeat (split at h; · cases h)
    cases h
  · unfold setclrIns at h; repeat (split at h; · cases h)
    cases h
theorem insOf_daa (b : Bool) (f : Fn) (c : Byte) (p : Bool) (h : insOf b f c p = .daa) : f = .daa := by
  cases f <;> simp only [insOf] at h <;> try (first | rfl | contradiction | (split at h <;> contradiction))
  · unfold transIns at h; repeat (split at h; · cases h)
    cases h
  · unfold ppIns at h; repeat (split at h; · cases h)
    cases h
  · unfold setclrIns at h; repeat (split at h; · cases h)
    cases h
theorem insOf_dbnz (b : Bool) (f : Fn) (c : Byte) (p : Bool) (k : Isa.Mode) (h : insOf b f c p = .dbnz k) : f = .dbnz ∧ k = modeOf (c.toNat / 16) p := by
  cases f <;> simp only [insOf] at h <;> try (first | contradiction | (split at h <;> contradiction))
  · injection h with h; exact ⟨rfl, h.symm⟩
  · unfold transIns at h; repeat (split at h; · cases h)
    cases h
  · unfold ppIns at h; repeat (split at h; · cases h)
    cases h
  · unfold setclrIns at h; repeat (split at h; · cases h)
    cases h
theorem insOf_other (b : Bool) (f : Fn) (c : Byte) (p : Bool) (h : insOf b f c p = .other) :
    f = .pre ∨ f = .inv ∨ f = .halt ∨ ((f = .ldhx ∨ f = .sthx ∨ f = .cphx) ∧ hxOk b c p = false) := by
  cases f <;> simp only [insOf] at h <;> try (first | contradiction | simp)
  · split at h
    · cases h
    · simp_all
  · split at h
    · cases h
    · simp_all
  · split at h
    · cases h
    · simp_all
  · unfold transIns at h; repeat (split at h; · cases h)
    cases h
  · unfold ppIns at h; repeat (split at h; · cases h)
    cases h
  · unfold setclrIns at h; repeat (split at h; · cases h)
    cases h

theorem here_eq (s : St) : here s = insOf s.s08 (fetched s).1 (fetched s).2.1 (fetched s).2.2.1 := by unfold here; rw [fetch_eq]
theorem opnd_eq (s : St) : opnd s = (abs s).pc + BitVec.ofNat 16 (fetched s).2.2.2 := by unfold opnd; rw [fetch_eq]

theorem step_go (s : St) (h : (execInst s).1 = .go) : (step s).1 = .go ∧ (step s).2 = (execInst s).2 := by
  unfold step
  simp only [h]
  exact ⟨trivial, rfl⟩

/-- Only DIV and DAA leave anything open. -/
theorem exec_u (u u' : Isa.Undef) (m : Isa.Mach) (q : Word) (i : Isa.Ins) (h1 : i ≠ .div) (h2 : i ≠ .daa) : Isa.exec u m q i = Isa.exec u' m q i := by
  cases i <;> first
    | rfl
    | exact absurd rfl h1
    | exact absurd rfl h2
    | (rename_i k; cases k <;> rfl)
    | (rename_i o k; cases o <;> rfl)

theorem isa_step (s : St) (u : Isa.Undef) : Isa.step s.s08 u (abs s) = Isa.exec u (abs s) (opnd s) (here s) := rfl

theorem swi_upto (s : St) (h : Live s) (hi : here s = .swi) (u : Isa.Undef) :
    (step s).1 = .go ∧ abs (step s).2 = { Isa.step s.s08 u (abs s) with i := false } ∧ Live (step s).2 := by
  have hf := insOf_swi _ _ _ _ ((here_eq s).symm.trans hi)
  rw [isa_step, hi, opnd_eq]
  have e := execInst_fr s h
  rw [hf] at e
  have hg : (execInst s).1 = .go := by rw [e]; rfl
  obtain ⟨g1, g2⟩ := step_go s hg
  rw [g2, e]
  refine ⟨g1, ?_, ?_⟩
  all_goals
    simp only [exec, swi]
    rw [fr_pc]
    generalize (fetched s).2.2.2 = n
    generalize s.ticks + n = t
    have hx : (fr s n t).p = s.p := rfl
    obtain ⟨a1, a2, a3, a4, a5⟩ := push2_abs (fr s n t) ((abs s).pc + BitVec.ofNat 16 n)
    have ax : (push2 ((abs s).pc + BitVec.ofNat 16 n).toNat (fr s n t)).x = s.x := congrArg Isa.Mach.x a1
    have aa : (push2 ((abs s).pc + BitVec.ofNat 16 n).toNat (fr s n t)).a = s.a := congrArg Isa.Mach.a a1
    generalize push2 ((abs s).pc + BitVec.ofNat 16 n).toNat (fr s n t) = X at a1 a2 a3 a4 a5 ax aa
    rw [show (tick 2 X).x = s.x from ax]
    obtain ⟨b1, b2, b3, b4, b5⟩ := push1_abs (tick 2 X) s.x
    have ba : (push1 s.x (tick 2 X)).a = s.a := (congrArg Isa.Mach.a b1).trans aa
    generalize push1 s.x (tick 2 X) = Y at b1 b2 b3 b4 b5 ba
    rw [show (tick 1 Y).a = s.a from ba]
    obtain ⟨c1, c2, c3, c4, c5⟩ := push1_abs (tick 1 Y) s.a
    generalize push1 s.a (tick 1 Y) = Z at c1 c2 c3 c4 c5
    have zp : Z.p = s.p := c2.trans (b2.trans a2)
    rw [show (tick 1 Z).p = s.p from zp]
    obtain ⟨d1, d2, d3, d4, d5⟩ := push1_abs (tick 1 Z) s.p
    generalize push1 s.p (tick 1 Z) = W at d1 d2 d3 d4 d5
    have wp : W.p = s.p := d2.trans zp
    rw [show (0xfffc : Nat) = (0xfffc#16 : Word).toNat from rfl, get2_eq]
  · have e1 : ∀ (V : St) (q : Byte) (w : Word), abs (tick 3 (tick 2 { V with p := q, pc := w.toNat })) = { (abs V).setCcr q with pc := BitVec.ofNat 16 w.toNat } := fun _ _ _ => rfl
    have e2 : ∀ (V : St) (q : Byte), (abs { V with p := q }).word 0xfffc#16 = (abs V).word 0xfffc#16 := fun _ _ => rfl
    have e3 : ∀ (V : St), abs (tick 1 V) = abs V := fun _ => rfl
    rw [e1]
    simp only []
    rw [e2, e3, toNat_pc, show (tick 1 W).p = W.p from rfl, ccr_I, setCcr_self, d1, e3 Z, c1, e3 Y, b1]
    have e4 : ∀ (V : St), abs (tick 2 V) = abs V := fun _ => rfl
    rw [e4, a1, abs_fr, ← abs_ccr s h.cc]
    rfl
  · refine ⟨?_, ?_, ?_⟩
    · exact (Isa.Mach.word (abs _) 0xfffc#16).isLt
    · show assign bI false W.p &&& _ = _
      rw [cc_I, wp]; exact h.cc
    · exact d4.trans (c4.trans (b4.trans (a4.trans h.vec)))

theorem stop_upto (s : St) (h : Live s) (hi : here s = .stop ∨ here s = .wait) (u : Isa.Undef) :
    (step s).1 = .go ∧ abs (step s).2 = { Isa.step s.s08 u (abs s) with waiting := false } ∧ Live (step s).2 := by
  rw [isa_step, opnd_eq]
  have e := execInst_fr s h
  have key : ∀ n t, abs { fr s n t with p := assign bI false s.p } = { abs s with i := false, pc := (abs s).pc + BitVec.ofNat 16 n } := by
    intro n t
    show (abs (fr s n t)).setCcr (assign bI false (fr s n t).p) = _
    rw [ccr_I, setCcr_self, abs_fr]
  have lv : ∀ n t, Live { fr s n t with p := assign bI false s.p } := fun n t => ⟨mod_pc s n t, (cc_I _ _).trans h.cc, h.vec⟩
  rcases hi with hi | hi
  · have hf := insOf_stop _ _ _ _ ((here_eq s).symm.trans hi)
    rw [hf] at e
    obtain ⟨g1, g2⟩ := step_go s (by rw [e]; rfl)
    rw [g2, e, hi]
    exact ⟨g1, (key _ _).trans rfl, lv _ _⟩
  · have hf := insOf_wait _ _ _ _ ((here_eq s).symm.trans hi)
    rw [hf] at e
    obtain ⟨g1, g2⟩ := step_go s (by rw [e]; rfl)
    rw [g2, e, hi]
    exact ⟨g1, (key _ _).trans rfl, lv _ _⟩

theorem rsp_upto (s : St) (h : Live s) (hi : here s = .rsp) (u : Isa.Undef) :
    (step s).1 = .go ∧ abs (step s).2 = { Isa.step s.s08 u (abs s) with sp := 0x00ff#16 } ∧ Live (step s).2 := by
  rw [isa_step, opnd_eq]
  have e := execInst_fr s h
  have hf := insOf_rsp _ _ _ _ ((here_eq s).symm.trans hi)
  rw [hf] at e
  obtain ⟨g1, g2⟩ := step_go s (by rw [e]; rfl)
  rw [g2, e, hi]
  refine ⟨g1, ?_, ⟨mod_pc s _ (s.ticks + (fetched s).2.2.2), h.cc, h.vec⟩⟩
  have k : ∀ (X : St) (w : Word), abs { X with sp := w } = { abs X with sp := w } := fun _ _ => rfl
  simp only [exec, Isa.exec]
  rw [k, abs_fr]

theorem daa_carry : ∀ (c hc : Bool) (a : Byte) (k : Byte × Bool), Isa.daaTable c hc a = some k → (c = true ∨ hc = false ∨ 16 ≤ a.toNat) →
    (let lsn := a.toNat % 16
     let msn := a.toNat / 16
     let (lsn, msn) := if hc then (lsn + 16, (msn + 15) % 16) else (lsn, msn)
     let msn := if c then msn + 16 else msn
     let msn := if lsn > 29 then msn + 3 else if lsn > 19 then msn + 2 else if lsn > 9 then msn + 1 else msn
     decide (msn > 9)) = k.2 := by
  have h : ∀ (c hc : Bool) (a : Byte), (c = true ∨ hc = false ∨ 16 ≤ a.toNat) → (Isa.daaTable c hc a).map (·.2) = none ∨ (Isa.daaTable c hc a).map (·.2) = some (
    (let lsn := a.toNat % 16
     let msn := a.toNat / 16
     let (lsn, msn) := if hc then (lsn + 16, (msn + 15) % 16) else (lsn, msn)
     let msn := if c then msn + 16 else msn
     let msn := if lsn > 29 then msn + 3 else if lsn > 19 then msn + 2 else if lsn > 9 then msn + 1 else msn
     decide (msn > 9))) := by decide +kernel
  intro c hc a k hk hu
  rcases h c hc a hu with h | h
  · rw [hk] at h; cases h
  · rw [hk] at h; injection h with h; exact h.symm

theorem flag_H (p : Byte) : flag p bH = p.getLsbD 4 := by revert p; decide +kernel
theorem flag_C (p : Byte) : flag p bC = p.getLsbD 0 := by revert p; decide +kernel

theorem daa_upto (s : St) (h : Live s) (hi : here s = .daa) (k : Byte × Bool) (hk : Isa.daaTable (abs s).c (abs s).hc (abs s).a = some k)
    (hu : (abs s).c = true ∨ (abs s).hc = false ∨ 16 ≤ (abs s).a.toNat) :
    (step s).1 = .go ∧ abs (step s).2 = { abs s with c := k.2, pc := opnd s } ∧ Live (step s).2 := by
  have e := execInst_fr s h
  have hf := insOf_daa _ _ _ _ ((here_eq s).symm.trans hi)
  rw [hf] at e
  obtain ⟨g1, g2⟩ := step_go s (by rw [e]; rfl)
  rw [g2, e, opnd_eq]
  have hc := daa_carry _ _ _ _ hk hu
  refine ⟨g1, ?_, ⟨mod_pc s _ (s.ticks + (fetched s).2.2.2), (cc_C _ _).trans h.cc, h.vec⟩⟩
  generalize (fetched s).2.2.2 = n
  generalize s.ticks + n = t
  simp only [exec]
  show (abs (fr s n t)).setCcr (assign bC _ (fr s n t).p) = _
  rw [ccr_C, setCcr_self, abs_fr]
  rw [flag_H, flag_C]
  simp only at hc ⊢
  rw [← hc]
  rfl

theorem dbnz_upto (s : St) (h : Live s) (k : Isa.Mode) (hi : here s = .dbnz k) (u : Isa.Undef)
    (h1 : ¬ (abs s).over (opnd s) k) (h2 : ¬ (abs s).leaves (opnd s + BitVec.ofNat 16 k.bytes) ((abs s).operand (opnd s) k - 1 != 0)) (h3 : ¬ (abs s).ownOffset (opnd s) k) :
    (step s).1 = .go ∧ abs (step s).2 = { Isa.step s.s08 u (abs s) with n := ((abs s).operand (opnd s) k - 1).msb, z := (abs s).operand (opnd s) k - 1 == 0, v := (abs s).operand (opnd s) k - 1 == 0x7f#8 } ∧ Live (step s).2 := by
  rw [isa_step]
  have e := execInst_fr s h
  obtain ⟨hf, hm⟩ := insOf_dbnz _ _ _ _ _ ((here_eq s).symm.trans hi)
  have hr := (fetched_from s).row
  rw [hf] at e hr
  obtain ⟨g1, g2⟩ := step_go s (by rw [e]; rfl)
  obtain ⟨d1, d2⟩ := dbnz_gen s (fetched s).2.1 (fetched s).2.2.1 (fetched s).2.2.2 (s.ticks + (fetched s).2.2.2) h.cc
    (by simpa only [rowOk, decide_eq_true_eq] using hr) (opnd s) (opnd_eq s) k hm h1 h2 h3
  rw [g2, e, hi]
  refine ⟨g1, ?_, ⟨d2.pc, d2.cc, d2.vec.trans h.vec⟩⟩
  exact d1.trans rfl

theorem no_halt : ∀ c : Byte, select c ≠ .halt ∧ select9e c ≠ .halt ∧ select9e c ≠ .pre := by decide +kernel

theorem fetched_ne (s : St) : (fetched s).1 ≠ .halt ∧ (fetched s).1 ≠ .pre := by
  unfold fetched
  split
  · exact ⟨(no_halt _).2.1, (no_halt _).2.2⟩
  · rename_i h; exact ⟨(no_halt _).1, fun k => h ((pre_iff _).mp k)⟩

theorem hx_inv (s : St) (f : Fn) (code : Byte) (pre : Bool) (n t : Nat) (hf : From f code pre) (h : f = .ldhx ∨ f = .sthx ∨ f = .cphx) (hk : hxOk s.s08 code pre = false) :
    exec f code pre (fr s n t) = (.inv, fr s n t) := by
  have hs : s.s08 = false := by
    unfold hxOk at hk
    cases hb : s.s08 <;> simp_all
  have hs' : (fr s n t).s08 = false := hs
  have c1 : ∀ c : Byte, select c = .ldhx → c = 0x45#8 ∨ c = 0x55#8 ∨ c = 0x32#8 := by decide +kernel
  have c2 : ∀ c : Byte, select9e c = .ldhx → c ≠ 0x45#8 ∧ c ≠ 0x55#8 := by decide +kernel
  have c3 : ∀ c : Byte, select c = .sthx → c = 0x35#8 ∨ c = 0x96#8 := by decide +kernel
  have c4 : ∀ c : Byte, select9e c = .sthx → c ≠ 0x35#8 := by decide +kernel
  have c5 : ∀ c : Byte, select c = .cphx → c = 0x65#8 ∨ c = 0x75#8 ∨ c = 0x3e#8 := by decide +kernel
  have c6 : ∀ c : Byte, select9e c = .cphx → c ≠ 0x65#8 ∧ c ≠ 0x75#8 := by decide +kernel
  rw [hs] at hk
  unfold hxOk at hk
  rcases hf with ⟨rfl, rfl⟩ | ⟨rfl, rfl⟩
  · rcases h with h | h | h
    · rw [h]; rcases c1 code h with rfl | rfl | rfl
      · exact absurd hk (by decide)
      · exact absurd hk (by decide)
      · unfold exec ldhx; rw [hs']; rfl
    · rw [h]; rcases c3 code h with rfl | rfl
      · exact absurd hk (by decide)
      · unfold exec sthx; rw [hs']; rfl
    · rw [h]; rcases c5 code h with rfl | rfl | rfl
      · exact absurd hk (by decide)
      · exact absurd hk (by decide)
      · unfold exec cphx; rw [hs']; rfl
  · rcases h with h | h | h
    · rw [h]; unfold exec ldhx; rw [hs']; simp [c2 code h, orInv]
    · rw [h]; unfold exec sthx; rw [hs']; simp [c4 code h, orInv]
    · rw [h]; unfold exec cphx; rw [hs']; simp [c6 code h, orInv]

theorem other_inv (s : St) (h : Live s) (hi : here s = .other) :
    (step s).1 = .inv ∧ abs (step s).2 = abs s ∧ (step s).2.pc = s.pc := by
  have e := execInst_fr s h
  have hn := fetched_ne s
  have e2 : execInst s = (.inv, fr s (fetched s).2.2.2 (s.ticks + (fetched s).2.2.2)) := by
    rw [e]
    rcases insOf_other _ _ _ _ ((here_eq s).symm.trans hi) with k | k | k | ⟨k, k2⟩
    · exact absurd k hn.2
    · rw [k]; rfl
    · exact absurd k hn.1
    · exact hx_inv s _ _ _ _ _ (fetched_from s) k k2
  unfold step
  rw [e2]
  exact ⟨rfl, rfl, rfl⟩

end Ucsim.H08
