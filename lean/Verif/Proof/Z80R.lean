import Verif.Proof.Z80Tick

/-
The bodies of the instructions do not touch R, but for LD R,A.
-/
namespace Ucsim.Z80

theorem wr_r (s : St) (a : Nat) (v : Byte) : (wr s a v).r = s.r := by unfold wr; split <;> rfl
theorem store1_r (a : Word) (v : Byte) (s : St) : (store1 a v s).r = s.r := wr_r ..
theorem store2_r (a v : Word) (s : St) : (store2 a v s).r = s.r := by unfold store2; rw [wr_r, wr_r]
theorem set8_r (x : Ix) (r : R8) (v : Byte) (s : St) : (set8 x r v s).r = s.r := by cases r <;> cases x <;> rfl
theorem set16_r (x : Ix) (r : RP) (v : Word) (s : St) : (set16 x r v s).r = s.r := by cases r <;> cases x <;> rfl
theorem setL_r (x : Ix) (k : Loc) (v : Byte) (s : St) : (setL x k v s).r = s.r := by
  cases k
  · exact set8_r ..
  · exact store1_r ..
theorem setOpt_r (r : Option R8) (v : Byte) (s : St) : (setOpt r v s).r = s.r := by
  cases r
  · rfl
  · exact set8_r ..
theorem loc_r (x : Ix) (o : Opd) (s : St) : (loc x o s).2.r = s.r := by cases o <;> rfl
theorem src_r (x : Ix) (o : Opd) (s : St) : (src x o s).2.r = s.r := by cases o <;> rfl
theorem aluOp_r (k : Alu) (v : Byte) (s : St) : (aluOp k v s).r = s.r := by cases k <;> rfl
theorem push2_r (v : Word) (s : St) : (push2 v s).r = s.r := store2_r ..
theorem push1_r (v : Byte) (s : St) : (push1 v s).r = s.r := store1_r ..
theorem daa_r (s : St) : (daa s).r = s.r := by unfold daa; split <;> rfl
theorem rlca_r (s : St) : (rlca s).r = s.r := by unfold rlca; simp only; split <;> rfl
theorem rrca_r (s : St) : (rrca s).r = s.r := by unfold rrca; simp only; split <;> rfl
theorem doCall_r (s : St) : (doCall s).r = s.r := by
  show (push2 _ s).r = _; rw [push2_r]
theorem blkMove_r (dn : Bool) (s : St) : (blkMove dn s).r = s.r := by
  unfold blkMove; simp only [set16_r, store1_r]
theorem again_r (ipc : Nat) (c : Bool) (s : St) : (again ipc c s).r = s.r := by
  unfold again; cases c <;> rfl
theorem blkIn_r (dn : Bool) (s : St) : (blkIn dn s).r = s.r := by
  unfold blkIn; simp only [set16_r, store1_r]
theorem blkOut_r (dn : Bool) (s : St) : (blkOut dn s).r = s.r := by
  unfold blkOut; simp only [set16_r]

theorem exec_r (ipc : Nat) (x : Ix) (off : Byte) (i : Inst) (s : St) (hi : i ≠ .ldRA) :
    (exec ipc x off i s).r = s.r := by
  cases i with
  | ld d o => simp only [exec, setL_r, src_r, loc_r]
  | ld16 p => simp only [exec, set16_r]; rfl
  | ldMA p => simp only [exec, store1_r]
  | stRP p => simp only [exec, store2_r]; rfl
  | ldRP p => simp only [exec, set16_r]; rfl
  | stA => simp only [exec, store1_r]; rfl
  | inc16 p => simp only [exec, set16_r]
  | dec16 p => simp only [exec, set16_r]
  | inc8 o => simp only [exec, setL_r, loc_r]
  | dec8 o => simp only [exec, setL_r, loc_r]
  | add16 d p => simp only [exec, add16, set16_r]
  | alu k o => simp only [exec, aluOp_r, src_r]
  | jpIf g v => simp only [exec]; split <;> rfl
  | call => simp only [exec, doCall_r]
  | rst a => simp only [exec, push2_r]
  | push p => simp only [exec, push2_r]
  | pushAF => simp only [exec, push1_r]
  | pop p => simp only [exec, set16_r]; rfl
  | exSP p => simp only [exec, store2_r, set16_r]
  | rlca => simp only [exec, rlca_r]
  | rrca => simp only [exec, rrca_r]
  | daa => simp only [exec, daa_r]
  | rot k o => simp only [exec, setL_r, loc_r]
  | bit n o => simp only [exec, loc_r]
  | res n o => simp only [exec, setL_r, loc_r]
  | set n o => simp only [exec, setL_r, loc_r]
  | xrot k r => simp only [exec, store1_r, setOpt_r]
  | xbit n => simp only [exec, store1_r]
  | xres n r => simp only [exec, store1_r, setOpt_r]
  | xset n r => simp only [exec, store1_r, setOpt_r]
  | inC r => simp only [exec, set8_r]
  | rrd => simp only [exec, store1_r]
  | rld => simp only [exec, store1_r]
  | ldi => simp only [exec, pIfBc, blkMove_r]
  | ldd => simp only [exec, pIfBc, blkMove_r]
  | cpi => simp only [exec, cpi, pIfBc, set16_r]; rfl
  | cpd => simp only [exec, cpd, pIfBc, set16_r]
  | ini => simp only [exec, blkIn_r]
  | ind => simp only [exec, blkIn_r]
  | outi => simp only [exec, blkOut_r]
  | outd => simp only [exec, blkOut_r]
  | jrIf g v => simp only [exec, jrIf]; split <;> rfl
  | djnz => simp only [exec, djnz]; split <;> rfl
  | callIf g v =>
    simp only [exec]
    split
    · rw [doCall_r]
    · rfl
  | retIf g v => simp only [exec]; split <;> rfl
  | ldir => simp only [exec, again_r, pIfBc, blkMove_r]
  | lddr => simp only [exec, again_r, blkMove_r]
  | cpir =>
    have e : ∀ t : St, t.r = s.r →
        (if bc t ≠ 0#16 then again ipc (t.f &&& bitZ == 0#8) { t with f := t.f ||| bitP } else t).r = s.r := by
      intro t ht
      split
      · rw [again_r]; exact ht
      · exact ht
    exact e _ (by simp only [set16_r])
  | cpdr =>
    simp only [exec, cpdr]
    split
    · rfl
    · rw [again_r]; simp only [set16_r]
  | inir => simp only [exec, again_r, blkIn_r]
  | indr => simp only [exec, again_r, blkIn_r]
  | otir => simp only [exec, again_r, blkOut_r]
  | otdr => simp only [exec, again_r, blkOut_r]
  | ldRA => exact absurd rfl hi
  | _ => rfl

theorem find_r (c : Byte) (s : St) : (find c s).st.r = s.r := by
  unfold find
  by_cases c1 : c = 0xcb#8
  · rw [if_pos c1]; rfl
  rw [if_neg c1]
  by_cases c2 : c = 0xed#8
  · rw [if_pos c2]; rfl
  rw [if_neg c2]
  by_cases c3 : c = 0xdd#8 ∨ c = 0xfd#8
  · rw [if_pos c3]
    by_cases c4 : (fetch s).1 = 0xcb#8
    · simp only [if_pos c4]; rfl
    · simp only [if_neg c4]; rfl
  · rw [if_neg c3]


/-- Any instruction but LD R,A. -/
theorem step_r (s : St) (h : (find (fetch s).1 { (fetch s).2 with ticks := (fetch s).2.ticks + 1, r := incR (fetch s).2.r, cond := false }).inst ≠ .ldRA) :
    (step s).2.r = incR s.r := by
  have k := exec_r s.pc (find (fetch s).1 { (fetch s).2 with ticks := (fetch s).2.ticks + 1, r := incR (fetch s).2.r, cond := false }).x
    (find (fetch s).1 { (fetch s).2 with ticks := (fetch s).2.ticks + 1, r := incR (fetch s).2.r, cond := false }).off _
    (find (fetch s).1 { (fetch s).2 with ticks := (fetch s).2.ticks + 1, r := incR (fetch s).2.r, cond := false }).st h
  rw [find_r] at k
  show (finish s.pc (fetch s).1 _).2.r = _
  unfold finish
  dsimp only
  split <;> exact k

end Ucsim.Z80
