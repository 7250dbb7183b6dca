import Verif.Proof.Z80Io
import Verif.Proof.Z80Tick

/-
Clock periods.
-/
namespace Ucsim.Z80
open Isa (Flags Differs taken)

theorem wr_cond (s : St) (a : Nat) (v : Byte) : (wr s a v).cond = s.cond := by unfold wr; split <;> rfl
theorem store1_cond (a : Word) (v : Byte) (s : St) : (store1 a v s).cond = s.cond := wr_cond ..
theorem store2_cond (a v : Word) (s : St) : (store2 a v s).cond = s.cond := by unfold store2; rw [wr_cond, wr_cond]
theorem set8_cond (x : Ix) (r : R8) (v : Byte) (s : St) : (set8 x r v s).cond = s.cond := by cases r <;> cases x <;> rfl
theorem set16_cond (x : Ix) (r : RP) (v : Word) (s : St) : (set16 x r v s).cond = s.cond := by cases r <;> cases x <;> rfl
theorem setL_cond (x : Ix) (k : Loc) (v : Byte) (s : St) : (setL x k v s).cond = s.cond := by
  cases k
  · exact set8_cond ..
  · exact store1_cond ..
theorem setOpt_cond (r : Option R8) (v : Byte) (s : St) : (setOpt r v s).cond = s.cond := by
  cases r
  · rfl
  · exact set8_cond ..
theorem loc_cond (x : Ix) (o : Opd) (s : St) : (loc x o s).2.cond = s.cond := by cases o <;> rfl
theorem src_cond (x : Ix) (o : Opd) (s : St) : (src x o s).2.cond = s.cond := by cases o <;> rfl
theorem aluOp_cond (k : Alu) (v : Byte) (s : St) : (aluOp k v s).cond = s.cond := by cases k <;> rfl
theorem push2_cond (v : Word) (s : St) : (push2 v s).cond = s.cond := store2_cond ..
theorem push1_cond (v : Byte) (s : St) : (push1 v s).cond = s.cond := store1_cond ..
theorem daa_cond (s : St) : (daa s).cond = s.cond := by unfold daa; split <;> rfl
theorem rlca_cond (s : St) : (rlca s).cond = s.cond := by unfold rlca; simp only; split <;> rfl
theorem rrca_cond (s : St) : (rrca s).cond = s.cond := by unfold rrca; simp only; split <;> rfl
theorem doCall_cond (s : St) : (doCall s).cond = s.cond := by
  show (push2 _ s).cond = _; rw [push2_cond]
theorem blkMove_cond (dn : Bool) (s : St) : (blkMove dn s).cond = s.cond := by
  unfold blkMove; simp only [set16_cond, store1_cond]
theorem again_cond (ipc : Nat) (c : Bool) (s : St) (h : s.cond = false) : (again ipc c s).cond = c := by
  unfold again; cases c
  · exact h
  · rfl
theorem blkIn_cond (dn : Bool) (s : St) : (blkIn dn s).cond = s.cond := by
  unfold blkIn; simp only [set16_cond, store1_cond]
theorem blkOut_cond (dn : Bool) (s : St) : (blkOut dn s).cond = s.cond := by
  unfold blkOut; simp only [set16_cond]

/-- Bodies that may set cond_true. -/
def mayCond : Inst → Bool
  | .jrIf _ _ | .djnz | .callIf _ _ | .retIf _ _ | .ldir | .lddr | .cpir | .cpdr | .inir | .indr | .otir | .otdr => true
  | _ => false

theorem exec_cond (ipc : Nat) (x : Ix) (off : Byte) (i : Inst) (s : St) (h : s.cond = false) (hi : mayCond i = false) :
    (exec ipc x off i s).cond = false := by
  cases i with
  | ld d o => simp only [exec, setL_cond, src_cond, loc_cond]; exact h
  | ld16 p => simp only [exec, set16_cond]; exact h
  | ldMA p => simp only [exec, store1_cond]; exact h
  | stRP p => simp only [exec, store2_cond]; exact h
  | ldRP p => simp only [exec, set16_cond]; exact h
  | stA => simp only [exec, store1_cond]; exact h
  | inc16 p => simp only [exec, set16_cond]; exact h
  | dec16 p => simp only [exec, set16_cond]; exact h
  | inc8 o => simp only [exec, setL_cond, loc_cond]; exact h
  | dec8 o => simp only [exec, setL_cond, loc_cond]; exact h
  | add16 d p => simp only [exec, add16, set16_cond]; exact h
  | alu k o => simp only [exec, aluOp_cond, src_cond]; exact h
  | jpIf g v => simp only [exec]; split <;> exact h
  | call => simp only [exec, doCall_cond]; exact h
  | rst a => simp only [exec, push2_cond]; exact h
  | push p => simp only [exec, push2_cond]; exact h
  | pushAF => simp only [exec, push1_cond]; exact h
  | pop p => simp only [exec, set16_cond]; exact h
  | exSP p => simp only [exec, store2_cond, set16_cond]; exact h
  | rlca => simp only [exec, rlca_cond]; exact h
  | rrca => simp only [exec, rrca_cond]; exact h
  | daa => simp only [exec, daa_cond]; exact h
  | rot k o => simp only [exec, setL_cond, loc_cond]; exact h
  | bit n o => simp only [exec, loc_cond]; exact h
  | res n o => simp only [exec, setL_cond, loc_cond]; exact h
  | set n o => simp only [exec, setL_cond, loc_cond]; exact h
  | xrot k r => simp only [exec, store1_cond, setOpt_cond]; exact h
  | xbit n => simp only [exec, store1_cond]; exact h
  | xres n r => simp only [exec, store1_cond, setOpt_cond]; exact h
  | xset n r => simp only [exec, store1_cond, setOpt_cond]; exact h
  | inC r => simp only [exec, set8_cond]; exact h
  | rrd => simp only [exec, store1_cond]; exact h
  | rld => simp only [exec, store1_cond]; exact h
  | ldi => simp only [exec, pIfBc, blkMove_cond]; exact h
  | ldd => simp only [exec, pIfBc, blkMove_cond]; exact h
  | cpi => simp only [exec, cpi, pIfBc, set16_cond]; exact h
  | cpd => simp only [exec, cpd, pIfBc, set16_cond]; exact h
  | ini => simp only [exec, blkIn_cond]; exact h
  | ind => simp only [exec, blkIn_cond]; exact h
  | outi => simp only [exec, blkOut_cond]; exact h
  | outd => simp only [exec, blkOut_cond]; exact h
  | jrIf g v => cases hi
  | djnz => cases hi
  | callIf g v => cases hi
  | retIf g v => cases hi
  | ldir => cases hi
  | lddr => cases hi
  | cpir => cases hi
  | cpdr => cases hi
  | inir => cases hi
  | indr => cases hi
  | otir => cases hi
  | otdr => cases hi
  | _ => exact h

/-- cond_true is set just when the manual gives the other number of clock periods. -/
def CondOk (x : Ix) (k : Nat) (off : Byte) (i : Inst) (ins : Isa.Ins) : Prop :=
  ∀ (s : St) (w : Word), s.cond = false → (exec w.toNat x off i (adv w k s)).cond = taken (base w s) ins

section
variable (x : Ix) (k : Nat) (off : Byte)

theorem blkMove_bc (dn : Bool) (s : St) (w : Word) : (bc (blkMove dn (adv w 2 s)) != 0#16) = (((base w s).BC - 1).toNat != 0) := by
  rw [nz_ok16, bc_eq, moved_ok, moved_BC]

theorem t_jrIf (g : Byte) (v : Bool) (c : BitVec 3) (h : cc g v = some c) : CondOk x k off (.jrIf g v) (.jrc c) := by
  intro s w hs
  simp only [exec, jrIf, fetch_adv, test_ok _ _ _ _ h, abs_adv, nx_cond, taken]
  split <;> rename_i hc
  · exact hc.symm
  · rw [show (adv w (k + 1) s).cond = s.cond from rfl, hs]; exact (by simpa using hc : _ = false).symm
theorem t_djnz : CondOk x k off .djnz .djnz := by
  intro s w hs
  simp only [exec, djnz, fetch_adv, taken]
  have hz : (s.b - 1 != 0#8) = ((s.b - 1).toNat != 0) := nz_ok _
  show (if s.b - 1 ≠ 0#8 then _ else _ : St).cond = ((s.b - 1).toNat != 0)
  rw [← hz]
  split <;> rename_i hc
  · simpa using hc
  · show s.cond = _
    rw [hs]; simpa using hc
theorem t_callIf (g : Byte) (v : Bool) (c : BitVec 3) (h : cc g v = some c) : CondOk x k off (.callIf g v) (.callc c) := by
  intro s w hs
  simp only [exec, test_ok _ _ _ _ h, abs_adv, nx_cond, taken]
  split <;> rename_i hc
  · exact hc.symm
  · rw [show (fetch2 (adv w k s)).2.cond = s.cond from rfl, hs]; exact (by simpa using hc : _ = false).symm
theorem t_retIf (g : Byte) (v : Bool) (c : BitVec 3) (h : cc g v = some c) : CondOk x k off (.retIf g v) (.retc c) := by
  intro s w hs
  simp only [exec, test_ok _ _ _ _ h, abs_adv, nx_cond, taken]
  split <;> rename_i hc
  · exact hc.symm
  · rw [show (adv w k s).cond = s.cond from rfl, hs]; exact (by simpa using hc : _ = false).symm
theorem t_ldir : CondOk x 2 off .ldir (.bld false true) := by
  intro s w hs
  simp only [exec, taken]
  rw [again_cond _ _ _ (by simp only [pIfBc, blkMove_cond]; exact hs), blkMove_bc]
theorem t_lddr : CondOk x 2 off .lddr (.bld true true) := by
  intro s w hs
  simp only [exec, taken]
  rw [again_cond _ _ _ (by simp only [blkMove_cond]; exact hs), blkMove_bc]
theorem t_inir : CondOk x 2 off .inir (.bin false true) := by
  intro s w hs
  simp only [exec, taken]
  rw [again_cond _ _ _ (by simp only [blkIn_cond]; exact hs), blkIn_b]
theorem t_indr : CondOk x 2 off .indr (.bin true true) := by
  intro s w hs
  simp only [exec, taken]
  rw [again_cond _ _ _ (by simp only [blkIn_cond]; exact hs), blkIn_b]
theorem t_otdr : CondOk x 2 off .otdr (.bout true true) := by
  intro s w hs
  simp only [exec, taken]
  rw [again_cond _ _ _ (by simp only [blkOut_cond]; exact hs), blkOut_b]
theorem t_otir : CondOk x 2 off .otir (.bout false true) := by
  intro s w hs
  simp only [exec, taken]
  rw [again_cond _ _ _ (by simp only [blkOut_cond]; exact hs), nz_ok]; rfl

theorem count_bc (up : Bool) (G : Byte) (w : Word) (s : St) :
    bc (set16 .ix .bc (bc (set16 .ix .hl (if up then hl { adv w 2 s with f := G } + 1 else hl { adv w 2 s with f := G } - 1) { adv w 2 s with f := G }) - 1)
      (set16 .ix .hl (if up then hl { adv w 2 s with f := G } + 1 else hl { adv w 2 s with f := G } - 1) { adv w 2 s with f := G })) = (base w s).BC - 1 := by
  rw [bc_eq, abs_set16, bc_eq, abs_set16]
  exact word_hl _

theorem t_cpdr : CondOk x 2 off .cpdr (.bcp true true) := by
  intro s w hs
  have hg : get1 (adv w 2 s) (hl (adv w 2 s)) = (base w s).mem (base w s).HL := by rw [get1_eq, hl_eq, abs_adv]; rfl
  simp only [exec, cpdr, taken, hg]
  by_cases e : (base w s).a = (base w s).mem (base w s).HL
  · rw [if_pos (show (adv w 2 s).a = _ from e)]
    show s.cond = _
    rw [hs, ← e]; simp
  · rw [if_neg (show ¬ (adv w 2 s).a = _ from e)]
    rw [again_cond _ _ _ (by simp only [set16_cond]; exact hs), nz_ok16]
    have := count_bc false ((adv w 2 s).f &&& ~~~bitAll) w s
    simp only [Bool.false_eq_true, if_false] at this
    rw [this]
    have : ((base w s).a != (base w s).mem (base w s).HL) = true := by simpa using e
    rw [this, Bool.and_true]

theorem t_cpir : CondOk x 2 off .cpir (.bcp false true) := by
  intro s w hs
  have hg : get1 (adv w 2 s) (hl (adv w 2 s)) = (base w s).mem (base w s).HL := by rw [get1_eq, hl_eq, abs_adv]; rfl
  have key : exec w.toNat x off .cpir (adv w 2 s) = cpirEnd w.toNat (cpirCount { adv w 2 s with f := cpirF s.a (get1 (adv w 2 s) (hl (adv w 2 s))) s.f }) := rfl
  rw [key, hg]
  generalize hG : cpirF s.a ((base w s).mem (base w s).HL) s.f = G
  have hb : bc (cpirCount { adv w 2 s with f := G }) = (base w s).BC - 1 := by
    have := count_bc true G w s
    simp only [if_true] at this
    exact this
  have hz : (G &&& bitZ == 0#8) = ((base w s).a != (base w s).mem (base w s).HL) := by
    rw [← hG]
    have e : ∀ f : Byte, (f &&& bitZ == 0#8) = !(Flags.ofByte f).z := by decide +kernel
    have z : ∀ a v f, (Flags.ofByte (cpirF a v f)).z = (a == v) := by
      intro a v f
      unfold cpirF
      by_cases h : a = v
      · simp only [if_pos h]
        have : (a == v) = true := by simpa using h
        rw [this]
        split <;> simp [fl_orZ, fl_orS, fl_noS]
      · simp only [if_neg h]
        have : (a == v) = false := by simpa using h
        rw [this]
        split <;> simp [fl_noZ, fl_orS, fl_noS]
    rw [e, z]; rfl
  simp only [taken]
  unfold cpirEnd
  rw [hb]
  rw [show (cpirCount { adv w 2 s with f := G }).f = G from rfl, hz]
  by_cases e : (base w s).BC - 1 = 0#16
  · rw [if_neg (fun h => h e), e]
    show s.cond = _
    rw [hs]; rfl
  · rw [if_pos e, again_cond _ _ _ (by exact hs)]
    have : ((base w s).BC - 1).toNat ≠ 0 := fun h => e (BitVec.eq_of_toNat_eq (by simpa using h))
    have : (((base w s).BC - 1).toNat != 0) = true := by simpa using this
    rw [this, Bool.true_and]

end

/-- Instructions with one number of clock periods. -/
def oneTime : Isa.Ins → Bool
  | .jrc _ | .callc _ | .retc _ | .djnz | .bld _ true | .bcp _ true | .bin _ true | .bout _ true => false
  | _ => true

theorem taken_one (m : Isa.Mach) (ins : Isa.Ins) (h : oneTime ins = true) : taken m ins = false := by
  unfold taken oneTime at *
  split at h <;> simp_all

/-- What the tables have to satisfy: cond_true is touched only where there are two numbers, and the
numbers are those of the manual (`e`: the entry). -/
def clkWrong : Isa.Ins → Bool
  | .inc (.ind .hl) | .dec (.ind .hl) | .bit _ (.ind .hl) => true
  | .outR r => r == 3
  | _ => false

def TimeOk (i : Inst) (ins : Isa.Ins) (len e : Nat) : Prop :=
  mayCond i = !oneTime ins ∧ (clkWrong ins = false → e % 256 = Isa.states false len ins ∧ (oneTime ins = true ∨ e / 256 = Isa.states true len ins))
instance (i : Inst) (ins : Isa.Ins) (len e : Nat) : Decidable (TimeOk i ins len e) := by unfold TimeOk; infer_instance

theorem time00 : ∀ op : Byte, (Isa.decode1 op).1 = .other ∨ TimeOk (at_ tab00 op) (Isa.decode1 op).1 (Isa.decode1 op).2 (ttab00.getD op.toNat 0) := by
  decide +kernel
theorem timeCB : ∀ op : Byte, (Isa.decodeCB op).1 = .other ∨ TimeOk (at_ tabCB op) (Isa.decodeCB op).1 (Isa.decodeCB op).2 (ttabCb.getD op.toNat 0) := by
  decide +kernel
theorem timeED : ∀ op : Byte, (Isa.decodeED op).1 = .other ∨ TimeOk (at_ tabED op) (Isa.decodeED op).1 (Isa.decodeED op).2 (ttabEd.getD op.toNat 0) := by
  decide +kernel
theorem timeDD : ∀ op : Byte, (Isa.decodeX .ix op).1 = .other ∨
    TimeOk (at_ tabXD op) (Isa.decodeX .ix op).1 (Isa.decodeX .ix op).2 (ttabDd.getD op.toNat 0) := by decide +kernel
theorem timeFD : ∀ op : Byte, (Isa.decodeX .iy op).1 = .other ∨
    TimeOk (at_ tabXD op) (Isa.decodeX .iy op).1 (Isa.decodeX .iy op).2 (ttabFd.getD op.toNat 0) := by decide +kernel
theorem timeDDCB : ∀ op : Byte, (Isa.decodeXCB .ix op).1 = .other ∨
    TimeOk (at_ tabXC op) (Isa.decodeXCB .ix op).1 (Isa.decodeXCB .ix op).2 (ttabDdcb.getD op.toNat 0) := by decide +kernel
theorem timeFDCB : ∀ op : Byte, (Isa.decodeXCB .iy op).1 = .other ∨
    TimeOk (at_ tabXC op) (Isa.decodeXCB .iy op).1 (Isa.decodeXCB .iy op).2 (ttabFdcb.getD op.toNat 0) := by decide +kernel

theorem cond_of (x : Ix) (k : Nat) (off : Byte) (i : Inst) (ins : Isa.Ins) (h1 : mayCond i = false) (h2 : oneTime ins = true) : CondOk x k off i ins := by
  intro s w hs
  rw [taken_one _ _ h2]
  exact exec_cond _ _ _ _ _ hs h1

theorem cond_of_conv (x : Ix) (k : Nat) (off : Byte) (i : Inst) (ins : Isa.Ins) (h : conv x k i = some ins) (hm : mayCond i = true) : CondOk x k off i ins := by
  cases i with
  | jrIf g v =>
    obtain ⟨c, h1, h2⟩ := Option.bind_eq_some_iff.mp h
    obtain ⟨hk, rfl⟩ := onlyIf_some h2; exact t_jrIf x k off g v c h1
  | djnz => obtain ⟨hk, rfl⟩ := onlyIf_some h; exact t_djnz x k off
  | callIf g v =>
    obtain ⟨c, h1, h2⟩ := Option.bind_eq_some_iff.mp h
    obtain ⟨hk, rfl⟩ := onlyIf_some h2; exact t_callIf x k off g v c h1
  | retIf g v => obtain ⟨c, h1, rfl⟩ := Option.map_eq_some_iff.mp h; exact t_retIf x k off g v c h1
  | ldir => obtain ⟨hk, rfl⟩ := onlyIf_some h; obtain rfl := beq_iff_eq.mp hk; exact t_ldir x off
  | lddr => obtain ⟨hk, rfl⟩ := onlyIf_some h; obtain rfl := beq_iff_eq.mp hk; exact t_lddr x off
  | cpir => obtain ⟨hk, rfl⟩ := onlyIf_some h; obtain rfl := beq_iff_eq.mp hk; exact t_cpir x off
  | cpdr => obtain ⟨hk, rfl⟩ := onlyIf_some h; obtain rfl := beq_iff_eq.mp hk; exact t_cpdr x off
  | inir => obtain ⟨hk, rfl⟩ := onlyIf_some h; obtain rfl := beq_iff_eq.mp hk; exact t_inir x off
  | indr => obtain ⟨hk, rfl⟩ := onlyIf_some h; obtain rfl := beq_iff_eq.mp hk; exact t_indr x off
  | otir => obtain ⟨hk, rfl⟩ := onlyIf_some h; obtain rfl := beq_iff_eq.mp hk; exact t_otir x off
  | otdr => obtain ⟨hk, rfl⟩ := onlyIf_some h; obtain rfl := beq_iff_eq.mp hk; exact t_otdr x off
  | _ => cases hm

theorem cond_of_means (x : Ix) (k : Nat) (off : Byte) (i : Inst) (ins : Isa.Ins) (h : means x k i ins = true) (hm : mayCond i = !oneTime ins) :
    CondOk x k off i ins := by
  cases e : oneTime ins with
  | true => rw [e] at hm; exact cond_of x k off i ins hm e
  | false =>
    rw [e] at hm
    unfold means at h
    rw [Bool.or_eq_true] at h
    rcases h with h | h
    · split at h
      · cases hm
      · cases hm
      · cases h
    · exact cond_of_conv x k off i ins (beq_iff_eq.mp h) hm

/-- The entry used. -/
theorem entry_ok (w : Word) (s t : St) (ho : (base w s).ins.1 ≠ .other) (hw : w.toNat + 3 < 0x10000)
    (m1 : t.mem (w + 1) = s.mem (w + 1)) (m3 : t.mem (w + 3) = s.mem (w + 3)) :
    TimeOk (find (s.mem w) (adv w 1 s)).inst (base w s).ins.1 (base w s).ins.2 (tEntry (s.mem w) w.toNat t) := by
  have hi : (base w s).ins = Isa.decode (s.mem w) (s.mem (w + 1)) (s.mem (w + 3)) := rfl
  rw [hi] at ho ⊢
  have f1 : fetch (adv w 1 s) = (s.mem (w + 1), adv w 2 s) := fetch_adv w 1 s
  have f2 : fetch (adv w 2 s) = (s.mem (w + 2), adv w 3 s) := fetch_adv w 2 s
  have f3 : fetch (adv w 3 s) = (s.mem (w + 3), adv w 4 s) := fetch_adv w 3 s
  have r1 : rd t (w.toNat + 1) = s.mem (w + 1) := by
    have : w.toNat + 1 = (w + 1).toNat := by rw [BitVec.toNat_add]; simp; omega
    rw [this, rd_word, m1]
  have r3 : rd t (w.toNat + 3) = s.mem (w + 3) := by
    have : w.toNat + 3 = (w + 3).toNat := by rw [BitVec.toNat_add]; simp; omega
    rw [this, rd_word, m3]
  unfold Isa.decode at ho ⊢
  unfold find tEntry
  rw [r1, r3]
  by_cases c1 : s.mem w = 0xcb#8
  · simp only [if_pos c1, f1] at ho ⊢
    rw [if_neg (show ¬ s.mem w = 0xdd#8 by rw [c1]; decide), if_neg (show ¬ s.mem w = 0xfd#8 by rw [c1]; decide)]
    exact (timeCB _).resolve_left ho
  · simp only [if_neg c1] at ho ⊢
    by_cases c2 : s.mem w = 0xed#8
    · simp only [if_pos c2, f1] at ho ⊢
      rw [if_neg (show ¬ s.mem w = 0xdd#8 by rw [c2]; decide), if_neg (show ¬ s.mem w = 0xfd#8 by rw [c2]; decide)]
      exact (timeED _).resolve_left ho
    · simp only [if_neg c2] at ho ⊢
      by_cases c3 : s.mem w = 0xdd#8
      · simp only [if_pos c3, f1, if_pos (Or.inl c3 : s.mem w = 0xdd#8 ∨ s.mem w = 0xfd#8)] at ho ⊢
        by_cases c5 : s.mem (w + 1) = 0xcb#8
        · simp only [if_pos c5, f2, f3] at ho ⊢
          exact (timeDDCB _).resolve_left ho
        · simp only [if_neg c5] at ho ⊢
          exact (timeDD _).resolve_left ho
      · simp only [if_neg c3] at ho ⊢
        by_cases c4 : s.mem w = 0xfd#8
        · simp only [if_pos c4, f1, if_pos (Or.inr c4 : s.mem w = 0xdd#8 ∨ s.mem w = 0xfd#8)] at ho ⊢
          by_cases c5 : s.mem (w + 1) = 0xcb#8
          · simp only [if_pos c5, f2, f3] at ho ⊢
            exact (timeFDCB _).resolve_left ho
          · simp only [if_neg c5] at ho ⊢
            exact (timeFD _).resolve_left ho
        · simp only [if_neg c4, if_neg (not_or.mpr ⟨c3, c4⟩ : ¬ (s.mem w = 0xdd#8 ∨ s.mem w = 0xfd#8))] at ho ⊢
          exact (time00 _).resolve_left ho

theorem step_mem (s : St) (h : s.pc < 0x10000) (hf : found s ≠ .inv) : (step s).2.mem = (done s).mem := by
  rw [(step_done s h hf).1]

/-- Clock periods of one instruction. -/
theorem clocks_ok (s : St) (hp : s.pc + 3 < 0x10000) (ho : (abs s).ins.1 ≠ .other) (hx : clkWrong (abs s).ins.1 = false)
    (m1 : (step s).2.mem ((abs s).pc + 1) = s.mem ((abs s).pc + 1)) (m3 : (step s).2.mem ((abs s).pc + 3) = s.mem ((abs s).pc + 3)) :
    (step s).2.ticks = s.ticks + Isa.states (taken (abs s) (abs s).ins.1) (abs s).ins.2 (abs s).ins.1 := by
  have h : s.pc < 0x10000 := by omega
  have hw : (BitVec.ofNat 16 s.pc : Word).toNat = s.pc := by rw [BitVec.toNat_ofNat, Nat.mod_eq_of_lt h]
  obtain ⟨k, k1, k2, k3, k4, -⟩ := find_ok (BitVec.ofNat 16 s.pc) (begun s) ho
  have hf : found s ≠ .inv := by
    intro e
    have k3 : means _ k (found s) _ = true := k3
    rw [e, means_inv] at k3; cases k3
  have hm := step_mem s h hf
  rw [hm] at m1 m3
  have T := entry_ok (BitVec.ofNat 16 s.pc) (begun s) (done s) ho (by rw [hw]; exact hp) m1 m3
  have hc : (done s).cond = taken (abs s) (abs s).ins.1 := by
    have := cond_of_means _ k (find (s.mem (BitVec.ofNat 16 s.pc)) (adv (BitVec.ofNat 16 s.pc) 1 (begun s))).off _ _ k3 T.1
      (begun s) (BitVec.ofNat 16 s.pc) rfl
    have ed : done s = exec (BitVec.ofNat 16 s.pc : Word).toNat (find (s.mem (BitVec.ofNat 16 s.pc)) (adv (BitVec.ofNat 16 s.pc) 1 (begun s))).x
        (find (s.mem (BitVec.ofNat 16 s.pc)) (adv (BitVec.ofNat 16 s.pc) 1 (begun s))).off (found s) (adv (BitVec.ofNat 16 s.pc) k (begun s)) := by
      unfold done
      rw [hw]
      exact congrArg _ k1
    rw [ed]; exact this
  obtain ⟨t1, t2⟩ := T.2 hx
  rw [hw] at t1 t2
  rw [(step_done s h hf).1]
  show (done s).ticks + ((clocks s : Int) - 1) = _
  rw [done_ticks]
  have e : clocks s = Isa.states (taken (abs s) (abs s).ins.1) (abs s).ins.2 (abs s).ins.1 := by
    unfold clocks
    rw [hc]
    cases c : taken (abs s) (abs s).ins.1 with
    | false => exact t1
    | true =>
      rcases t2 with t2 | t2
      · have := taken_one (abs s) (abs s).ins.1 t2
        rw [this] at c; cases c
      · exact t2
  rw [e]; omega

end Ucsim.Z80
