import Verif.Proof.Z80Ok

namespace Ucsim.Z80
open Isa (Flags Differs)

theorem onlyIf_some {c : Bool} {i j : Isa.Ins} (h : onlyIf c i = some j) : c = true ∧ j = i := by
  unfold onlyIf at h
  split at h
  · rename_i hc; exact ⟨hc, (Option.some.inj h).symm⟩
  · cases h

theorem bnum_some {n : Nat} {b : BitVec 3} (h : bnum n = some b) : n < 8 ∧ b.toNat = n := by
  unfold bnum at h
  split at h
  · rename_i hn; refine ⟨hn, ?_⟩; cases h; simp; omega
  · cases h

theorem bitmask : ∀ n, n < 8 → (1#8 <<< n : Byte) = Isa.bitAt true n := by decide

/-- `f` of the state a body leaves, where only F was changed at the end. -/
theorem put_next (m : Isa.Mach) (lo : Isa.Loc) (v : Byte) (F : Flags) (n : Nat) :
    ({ m.put lo v with f := F, pc := (m.next n).pc } : Isa.Mach) = { m.put lo v with f := F }.next n := by
  unfold Isa.Mach.next
  rw [put_pc]

theorem put_f (m : Isa.Mach) (lo : Isa.Loc) (v : Byte) : (m.put lo v).f = m.f := by
  cases lo with
  | reg r => rcases bv3 r with h | h | h | h | h | h | h | h <;> subst h <;> rfl
  | ind i => rfl

theorem put_next' (m : Isa.Mach) (lo : Isa.Loc) (v : Byte) (n : Nat) :
    ({ m.put lo v with f := m.f, pc := (m.next n).pc } : Isa.Mach) = (m.put lo v).next n := by
  unfold Isa.Mach.next
  rw [put_pc, ← put_f m lo v]

theorem abs_again (w : Word) (c : Bool) (s : St) : abs (again w.toNat c s) = if c then { abs s with pc := w } else abs s := by
  unfold again; cases c
  · rfl
  · exact abs_pcc s w true

/-- The transfer of the block moves. -/
theorem abs_blkMove (dn : Bool) (s : St) : abs (blkMove dn s) =
    { ((((abs s).store (abs s).DE ((abs s).mem (abs s).HL)).setPair (.idx .hl) (Isa.Mach.step1 dn (abs s).HL)).setPair .de
        (Isa.Mach.step1 dn (abs s).DE)).setPair .bc ((abs s).BC - 1) with
      f := { (abs s).f with h := false, n := false, pv := false } } := by
  unfold blkMove
  simp only [abs_set16, hl_eq, de_eq, bc_eq, get1_eq, abs_store1, abs_f, fl_noPNA]
  cases dn <;> rfl

theorem abs_pIfBc (s : St) : abs (pIfBc s) = { abs s with f := { (abs s).f with pv := (abs s).f.pv || (abs s).BC.toNat != 0 } } := by
  unfold pIfBc
  simp only [abs_f, fl_P, bc_eq, nz_ok16]; rfl

theorem abs_ret (s : St) (h : s.sp ≠ 0xffff#16) (b : Bool) :
    abs { (pop2 s).2 with pc := (pop2 s).1.toNat, cond := b } = { (abs s).drop with pc := (abs s).top } := by
  rw [pop2_eq s h, abs_pcc]; rfl

/-- The body does what the manual says of the instruction. -/
def Good (x : Ix) (k : Nat) (off : Byte) (i : Inst) (ins : Isa.Ins) : Prop :=
  ∀ (s : St) (w : Word) (u : Isa.Und), (k = 4 → off = s.mem (w + 2)) → u.fl = (exec w.toNat x off i (adv w k s)).f →
    u.x35 = s.f → u.r = s.r → ¬ Differs (base w s) (k + ilen i) ins →
    abs (exec w.toNat x off i (adv w k s)) = Isa.exec u ins (k + ilen i) (base w s)

section
variable (x : Ix) (k : Nat) (off : Byte)

theorem g_nop : Good x k off .nop .nop := fun s w _ _ _ _ _ _ => abs_adv w k s
theorem g_halt : Good x k off .halt .halt := fun s w _ _ _ _ _ _ => abs_adv w k s
theorem g_nop_ld (r : BitVec 3) : Good x k off .nop (.ld (.reg r) (.reg r)) := by
  intro s w u _ _ _ _ _
  simp only [Isa.exec, put_get_reg]
  exact abs_adv w k s

theorem g_ldn (d : Opd) (a : Isa.Loc) (h1 : locO x k d = some a) : Good x k off (.ld d .imm) (.ldn a) := by
  intro s w u _ _ _ _ _
  obtain ⟨L, l1, l2⟩ := loc_ok x k d a w s h1
  simp only [exec, l1, src, fetch_imm]
  rw [setL_ok x (base w s) _ _ _ (abs_adv w _ s) L a l2]
  exact put_next' _ _ _ _

theorem g_ld (d o : Opd) (a b : Isa.Loc) (h1 : locO x k d = some a) (h3 : locO x (k + olen d) o = some b) :
    Good x k off (.ld d o) (.ld a b) := by
  intro s w u _ _ _ _ _
  obtain ⟨L, l1, l2⟩ := loc_ok x k d a w s h1
  simp only [exec, l1, src_ok x _ o b w s h3]
  rw [setL_ok x (base w s) _ _ _ (abs_adv w _ s) L a l2]
  rw [show k + ilen (.ld d o) = k + olen d + olen o from (Nat.add_assoc ..).symm]
  exact put_next' _ _ _ _

theorem g_ld16 (p : RP) : Good x k off (.ld16 p) (.ldnn (pairO x p)) := by
  intro s w u _ _ _ _ _
  simp only [exec, Isa.exec, fetch2_imm, abs_set16, abs_adv, nx_setPair]; rfl
theorem g_ldMA (p : RP) : Good x k off (.ldMA p) (.staP (pairO x p)) := by
  intro s w u _ _ _ _ _
  simp only [exec, Isa.exec, abs_store1, get16_eq, abs_adv, nx_pair]; rfl
theorem g_ldAM (p : RP) : Good x k off (.ldAM p) (.ldaP (pairO x p)) := by
  intro s w u _ _ _ _ _
  simp only [exec, Isa.exec, get1_eq, get16_eq, abs_adv, nx_pair]
  exact congrArg (fun m : Isa.Mach => { m with a := (base w s).mem ((base w s).pair (pairO x p)) }) (abs_adv w k s)
theorem g_stRP (p : RP) : Good x k off (.stRP p) (.stMP (pairO x p)) := by
  intro s w u _ _ _ _ hd
  have hd : (base w s).imm16 (k + 2) ≠ 0xffff#16 := hd
  simp only [exec, Isa.exec, fetch2_imm]
  rw [abs_store2 _ _ _ hd, abs_adv, get16_eq, abs_adv, nx_pair]; rfl
theorem g_ldRP (p : RP) : Good x k off (.ldRP p) (.ldPM (pairO x p)) := by
  intro s w u _ _ _ _ hd
  have hd : (base w s).imm16 (k + 2) ≠ 0xffff#16 := hd
  simp only [exec, Isa.exec, fetch2_imm]
  rw [abs_set16, get2_eq _ _ hd, abs_adv, nx_setPair]; rfl
theorem g_stA : Good x k off .stA .sta := by
  intro s w u _ _ _ _ _
  simp only [exec, Isa.exec, fetch2_imm, abs_store1, abs_adv]; rfl
theorem g_ldA : Good x k off .ldA .lda := by
  intro s w u _ _ _ _ _
  simp only [exec, Isa.exec, fetch2_imm, get1_eq, abs_adv]
  exact congrArg (fun m : Isa.Mach => { m with a := (base w s).mem ((base w s).imm16 (k + 2)) }) (abs_adv w (k + 2) s)
theorem g_ldSP (p : RP) (j : Isa.Idx) (h1 : idxO x p = some j) : Good x k off (.ldSP p) (.ldsp j) := by
  intro s w u _ _ _ _ _
  simp only [exec, Isa.exec, get16_eq, abs_adv, nx_pair, pair_idx x p j h1]
  exact congrArg (fun m : Isa.Mach => { m with sp := (base w s).idx j }) (abs_adv w k s)
theorem g_inc16 (p : RP) : Good x k off (.inc16 p) (.incP (pairO x p)) := by
  intro s w u _ _ _ _ _
  simp only [exec, Isa.exec, abs_set16, get16_eq, abs_adv, nx_pair, nx_setPair]; rfl
theorem g_dec16 (p : RP) : Good x k off (.dec16 p) (.decP (pairO x p)) := by
  intro s w u _ _ _ _ _
  simp only [exec, Isa.exec, abs_set16, get16_eq, abs_adv, nx_pair, nx_setPair]; rfl

theorem g_inc8 (o : Opd) (a : Isa.Loc) (h1 : locO x k o = some a) : Good x k off (.inc8 o) (.inc a) := by
  intro s w u _ _ _ _ _
  obtain ⟨L, l1, l2⟩ := loc_ok x k o a w s h1
  simp only [exec, l1, getL_ok x (base w s) _ _ _ (abs_adv w _ s) L a l2]
  rw [setL_ok x (base w s) _ (.ofByte (incV ((base w s).get a) s.f).2) ((base w s).next (k + olen o)).pc
    (congrArg (fun m : Isa.Mach => { m with f := .ofByte (incV ((base w s).get a) s.f).2 }) (abs_adv w (k + olen o) s)) L a l2,
    put_next, (inc_ok _ _).1, (inc_ok _ _).2]
  rfl
theorem g_dec8 (o : Opd) (a : Isa.Loc) (h1 : locO x k o = some a) : Good x k off (.dec8 o) (.dec a) := by
  intro s w u _ _ _ _ _
  obtain ⟨L, l1, l2⟩ := loc_ok x k o a w s h1
  simp only [exec, l1, getL_ok x (base w s) _ _ _ (abs_adv w _ s) L a l2]
  rw [setL_ok x (base w s) _ (.ofByte (decV ((base w s).get a) s.f).2) ((base w s).next (k + olen o)).pc
    (congrArg (fun m : Isa.Mach => { m with f := .ofByte (decV ((base w s).get a) s.f).2 }) (abs_adv w (k + olen o) s)) L a l2,
    put_next, (dec_ok _ _).1, (dec_ok _ _).2]
  rfl

theorem g_add16 (d p : RP) (j : Isa.Idx) (h1 : idxO x d = some j) : Good x k off (.add16 d p) (.addX j (pairO x p)) := by
  intro s w u _ _ _ _ _
  simp only [exec, Isa.exec, add16, abs_set16, abs_f, fl_C, fl_A, fl_noN, fl_noAC, get16_eq, abs_adv, nx_pair, and4095, ofNat_add16,
    pair_idx x d j h1, Bool.false_or]
  rw [show (base w s).pair (.idx j) = (base w s).idx j from rfl]
  unfold Isa.Mach.addX
  have e1 : ∀ a b : Nat, decide (a % 4096 + b % 4096 > 4095) = decide (4096 ≤ a % 4096 + b % 4096) := by
    intro a b; rw [decide_eq_decide]; omega
  have e2 : ∀ a b : Nat, decide (a + b > 65535) = decide (65536 ≤ a + b) := by
    intro a b; rw [decide_eq_decide]; omega
  rw [e1, e2]
  cases j <;> rfl

theorem g_adcHL (p : RP) : Good x k off (.adcHL p) (.adcHL (pairO x p)) := by
  intro s w u _ _ _ _ hd
  have hd : ¬ ((base w s).f.cy = true ∧ ((base w s).pair (pairO x p)).toNat % 4096 = 4095) := hd
  simp only [exec, Isa.exec, get16_eq, abs_adv, nx_pair]
  rw [abs_adcHL, abs_adv]
  · rfl
  · exact fun a b => hd ⟨a, b⟩
theorem g_sbcHL (p : RP) : Good x k off (.sbcHL p) (.sbcHL (pairO x p)) := by
  intro s w u _ _ _ _ hd
  have hd : ¬ ((base w s).f.cy = true ∧ ((base w s).pair (pairO x p)).toNat % 4096 = 4095) := hd
  simp only [exec, Isa.exec, get16_eq, abs_adv, nx_pair]
  rw [abs_sbcHL, abs_adv]
  · rfl
  · exact fun a b => hd ⟨a, b⟩

theorem g_alun (a : Alu) : Good x k off (.alu a .imm) (.alun (numAlu a)) := by
  intro s w u _ _ _ _ hd
  have hd : ¬ Isa.aluDiffers (base w s) (numAlu a) ((base w s).imm8 (k + 1)) := hd
  simp only [exec, Isa.exec, src, fetch_imm]
  rw [abs_alu, abs_adv, nx_alu]
  · rfl
  · exact hd
theorem g_alu (a : Alu) (o : Opd) (b : Isa.Loc) (h1 : locO x k o = some b) : Good x k off (.alu a o) (.alu (numAlu a) b) := by
  intro s w u _ _ _ _ hd
  have hd : ¬ Isa.aluDiffers (base w s) (numAlu a) ((base w s).get b) := hd
  simp only [exec, Isa.exec, src_ok x k o b w s h1]
  rw [abs_alu, abs_adv, nx_alu]
  · rfl
  · exact hd

theorem g_jr : Good x 1 off .jr .jr := by
  intro s w u _ _ _ _ hd
  simp only [exec, Isa.exec, fetch_adv]
  exact (abs_jump w s _ rfl hd).1
theorem g_jrIf (g : Byte) (v : Bool) (c : BitVec 3) (h : cc g v = some c) : Good x 1 off (.jrIf g v) (.jrc c) := by
  intro s w u _ _ _ _ hd
  simp only [exec, Isa.exec, jrIf, fetch_adv, test_ok _ _ _ _ h, abs_adv, nx_cond]
  have hd : ¬ ((base w s).cond c = true ∧ Isa.relDiffers (base w s)) := hd
  split <;> rename_i hc
  · exact (abs_jump w s _ rfl (fun e => hd ⟨hc, e⟩)).1
  · exact abs_adv w 2 s
theorem g_djnz : Good x 1 off .djnz .djnz := by
  intro s w u _ _ _ _ hd
  simp only [exec, Isa.exec, djnz, fetch_adv]
  have hd : ¬ ((s.b - 1).toNat ≠ 0 ∧ Isa.relDiffers (base w s)) := hd
  have hz : (s.b - 1 ≠ 0#8) ↔ (s.b - 1).toNat ≠ 0 := by
    exact not_congr ⟨fun e => by rw [e]; rfl, fun e => BitVec.eq_of_toNat_eq (by simpa using e)⟩
  by_cases hc : (s.b - 1).toNat ≠ 0
  · rw [if_pos (show (adv w (1 + 1) s).b - 1 ≠ 0#8 from hz.mpr hc), if_pos (show ((base w s).b - 1).toNat ≠ 0 from hc)]
    have := (abs_jump w { s with b := s.b - 1 } _ rfl (fun e => hd ⟨hc, e⟩)).1
    exact this
  · rw [if_neg (show ¬ (adv w (1 + 1) s).b - 1 ≠ 0#8 from fun e => hc (hz.mp e)), if_neg (show ¬ ((base w s).b - 1).toNat ≠ 0 from hc)]
    exact congrArg (fun m : Isa.Mach => { m with b := s.b - 1 }) (abs_adv w 2 s)

theorem g_jp : Good x k off .jp .jp := by
  intro s w u _ _ _ _ _
  simp only [exec, Isa.exec, fetch2_imm, abs_pc, abs_adv]; rfl
theorem g_jpIf (g : Byte) (v : Bool) (c : BitVec 3) (h : cc g v = some c) : Good x k off (.jpIf g v) (.jpc c) := by
  intro s w u _ _ _ _ _
  simp only [exec, Isa.exec, fetch2_imm, test_ok _ _ _ _ h, abs_adv, nx_cond]
  split
  · rw [abs_pc, abs_adv]; rfl
  · exact abs_adv w _ s
theorem g_jpRP (p : RP) (j : Isa.Idx) (h1 : idxO x p = some j) : Good x k off (.jpRP p) (.jpX j) := by
  intro s w u _ _ _ _ _
  simp only [exec, Isa.exec, get16_eq, abs_adv, nx_pair, pair_idx x p j h1, abs_pc]; rfl

theorem g_call : Good x 1 off .call .call := by
  intro s w u _ _ _ _ hd
  exact abs_call w s hd
theorem g_callIf (g : Byte) (v : Bool) (c : BitVec 3) (h : cc g v = some c) : Good x 1 off (.callIf g v) (.callc c) := by
  intro s w u _ _ _ _ hd
  have hd : ¬ ((base w s).cond c = true ∧ Isa.callDiffers (base w s)) := hd
  simp only [exec, Isa.exec, test_ok _ _ _ _ h, abs_adv, nx_cond]
  split <;> rename_i hc
  · exact abs_call w s (fun e => hd ⟨hc, e⟩)
  · rw [fetch2_imm]; exact abs_adv w _ s

theorem g_ret : Good x k off .ret .ret := by
  intro s w u _ _ _ _ hd
  simp only [exec, Isa.exec]
  refine (abs_ret (adv w k s) hd _).trans ?_
  rw [abs_adv]; rfl
theorem g_retIf (g : Byte) (v : Bool) (c : BitVec 3) (h : cc g v = some c) : Good x k off (.retIf g v) (.retc c) := by
  intro s w u _ _ _ _ hd
  have hd : ¬ ((base w s).cond c = true ∧ s.sp = 0xffff#16) := hd
  simp only [exec, Isa.exec, test_ok _ _ _ _ h, abs_adv, nx_cond]
  split <;> rename_i hc
  · refine (abs_ret (adv w k s) (fun e => hd ⟨hc, e⟩) _).trans ?_
    rw [abs_adv]; rfl
  · exact abs_adv w _ s
theorem g_rst (a : Word) (n : BitVec 3) (ha : a = BitVec.ofNat 16 (8 * n.toNat)) : Good x 1 off (.rst a) (.rst n) := by
  intro s w u _ _ _ _ hd
  subst ha
  simp only [exec, Isa.exec, abs_pc]
  rw [abs_push2 _ (adv w 1 s) hd, abs_adv]
  have : (BitVec.ofNat 16 (adv w 1 s).pc : Word) = w + 1 := ofNat_toNat16 _
  rw [this]; rfl

theorem g_push (p : RP) : Good x k off (.push p) (.push (pairO x p)) := by
  intro s w u _ _ _ _ hd
  simp only [exec, Isa.exec]
  rw [abs_push2 _ (adv w k s) hd, get16_eq, abs_adv, nx_pair]; rfl
theorem g_pushAF : Good x k off .pushAF .pushAF := by
  intro s w u _ _ hx _ _
  simp only [exec, Isa.exec]
  rw [abs_pushAF (adv w k s) u.x35 hx, abs_adv]; rfl
theorem g_pop (p : RP) : Good x k off (.pop p) (.pop (pairO x p)) := by
  intro s w u _ _ _ _ hd
  simp only [exec, Isa.exec]
  rw [pop2_eq (adv w k s) hd]
  simp only [abs_set16, abs_adv]
  rw [show abs { adv w k s with sp := (adv w k s).sp + 2 } = (base w s).drop.next k from
    congrArg (fun m : Isa.Mach => { m with sp := s.sp + 2 }) (abs_adv w k s), nx_setPair]; rfl
theorem g_popAF : Good x k off .popAF .popAF := by
  intro s w u _ _ _ _ _
  simp only [exec, Isa.exec, get1_eq]
  have e : ∀ f : Byte, f = Isa.loByte (Isa.word 0 f) := fun f => (lo_pair 0 f).symm
  unfold Isa.Mach.top Isa.Mach.load16
  rw [hi_pair, lo_pair]
  have e2 : s.sp + 1 + 1 = s.sp + 2 := by rw [BitVec.add_assoc]; rfl
  have := congrArg (fun m : Isa.Mach => { m with a := s.mem (s.sp + 1), f := .ofByte (s.mem s.sp), sp := s.sp + 1 + 1 }) (abs_adv w k s)
  refine Eq.trans this ?_
  rw [e2]; rfl
theorem g_exSP (p : RP) (j : Isa.Idx) (h1 : idxO x p = some j) : Good x k off (.exSP p) (.exsp j) := by
  intro s w u _ _ _ _ hd
  have hd : s.sp ≠ 0xffff#16 := hd
  simp only [exec, Isa.exec]
  have hs : (set16 x p (get2 (adv w k s) (adv w k s).sp) (adv w k s)).sp = s.sp := by
    cases p <;> simp only [idxO, reduceCtorEq] at h1 <;> first | rfl | (cases x <;> rfl)
  rw [hs, abs_store2 _ _ _ hd, abs_set16, get2_eq _ (adv w k s).sp hd, get16_eq, abs_adv, nx_pair, nx_setPair, pair_idx x p j h1]
  cases j <;> rfl

theorem g_exDEHL : Good x k off .exDEHL .exdehl := fun s w _ _ _ _ _ _ =>
  congrArg (fun m : Isa.Mach => { m with d := m.h, e := m.l, h := m.d, l := m.e }) (abs_adv w k s)
theorem g_exAF : Good x k off .exAF .exaf := fun s w _ _ _ _ _ _ =>
  congrArg (fun m : Isa.Mach => { m with a := m.a', f := m.f', a' := m.a, f' := m.f }) (abs_adv w k s)
theorem g_exx : Good x k off .exx .exx := fun s w _ _ _ _ _ _ =>
  congrArg (fun m : Isa.Mach => { m with b := m.b', c := m.c', d := m.d', e := m.e', h := m.h', l := m.l',
                                         b' := m.b, c' := m.c, d' := m.d, e' := m.e, h' := m.h, l' := m.l }) (abs_adv w k s)
theorem g_di : Good x k off .di .di := fun s w _ _ _ _ _ _ =>
  congrArg (fun m : Isa.Mach => { m with iff1 := false, iff2 := false }) (abs_adv w k s)
theorem g_ei : Good x k off .ei .ei := fun s w _ _ _ _ _ _ =>
  congrArg (fun m : Isa.Mach => { m with iff1 := true, iff2 := true }) (abs_adv w k s)
theorem g_inA : Good x k off .inA .inA := by
  intro s w u _ _ _ _ _
  simp only [exec, Isa.exec, fetch_imm]
  exact congrArg (fun m : Isa.Mach => { m with a := m.inp ((base w s).imm8 (k + 1)) }) (abs_adv w (k + 1) s)
theorem g_outA : Good x k off .outA .outA := by
  intro s w u _ _ _ _ _
  simp only [exec, Isa.exec, fetch_imm]
  exact congrArg (fun m : Isa.Mach => { m with out := fun q => if q = (base w s).imm8 (k + 1) then m.a else m.out q }) (abs_adv w (k + 1) s)

theorem g_rlca : Good x k off .rlca .rlca := fun s w _ _ _ _ _ _ => by simp only [exec, Isa.exec, abs_rlca, abs_adv]; rfl
theorem g_rrca : Good x k off .rrca .rrca := fun s w _ _ _ _ _ _ => by simp only [exec, Isa.exec, abs_rrca, abs_adv]; rfl
theorem g_rla : Good x k off .rla .rla := fun s w _ _ _ _ _ _ => by simp only [exec, Isa.exec, abs_rla, abs_adv]; rfl
theorem g_rra : Good x k off .rra .rra := fun s w _ _ _ _ _ _ => by simp only [exec, Isa.exec, abs_rra, abs_adv]; rfl
theorem g_daa : Good x k off .daa .daa := by
  intro s w u _ hfl _ _ hd
  simp only [exec, Isa.exec]
  rw [abs_daa _ u hfl, abs_adv]
  · unfold Isa.Mach.daa
    show (match Isa.daaTable (base w s).f.n (base w s).f.cy (base w s).f.h ((base w s).a.toNat / 16) ((base w s).a.toNat % 16) with
      | some (v, c) => _ | none => _) = _
    cases Isa.daaTable (base w s).f.n (base w s).f.cy (base w s).f.h ((base w s).a.toNat / 16) ((base w s).a.toNat % 16) <;> rfl
  · exact hd
theorem g_cpl : Good x k off .cpl .cpl := by
  intro s w u _ _ _ _ _
  have e : ∀ f : Byte, Flags.ofByte (f ||| (bitA ||| bitN)) = { Flags.ofByte f with h := true, n := true } := by decide +kernel
  simp only [exec, Isa.exec, abs_af, e, abs_adv]; rfl
theorem g_scf : Good x k off .scf .scf := by
  intro s w u _ _ _ _ _
  simp only [exec, Isa.exec, abs_f, fl_orC, fl_noAN, abs_adv]; rfl
theorem g_ccf : Good x k off .ccf .ccf := fun s w _ _ _ _ _ _ => by simp only [exec, Isa.exec, abs_ccf, abs_adv]; rfl
theorem g_neg : Good x k off .neg .neg := fun s w _ _ _ _ _ _ => by simp only [exec, Isa.exec, abs_neg, abs_adv]; rfl

end

end Ucsim.Z80
