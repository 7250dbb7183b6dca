import Verif.Proof.Z80Main

/-
The bodies of the instructions do not touch the counter of clocks.
-/
namespace Ucsim.Z80

theorem wr_ticks (s : St) (a : Nat) (v : Byte) : (wr s a v).ticks = s.ticks := by unfold wr; split <;> rfl
theorem store1_ticks (a : Word) (v : Byte) (s : St) : (store1 a v s).ticks = s.ticks := wr_ticks ..
theorem store2_ticks (a v : Word) (s : St) : (store2 a v s).ticks = s.ticks := by unfold store2; rw [wr_ticks, wr_ticks]
theorem set8_ticks (x : Ix) (r : R8) (v : Byte) (s : St) : (set8 x r v s).ticks = s.ticks := by cases r <;> cases x <;> rfl
theorem set16_ticks (x : Ix) (r : RP) (v : Word) (s : St) : (set16 x r v s).ticks = s.ticks := by cases r <;> cases x <;> rfl
theorem setL_ticks (x : Ix) (k : Loc) (v : Byte) (s : St) : (setL x k v s).ticks = s.ticks := by
  cases k
  · exact set8_ticks ..
  · exact store1_ticks ..
theorem setOpt_ticks (r : Option R8) (v : Byte) (s : St) : (setOpt r v s).ticks = s.ticks := by
  cases r
  · rfl
  · exact set8_ticks ..
theorem loc_ticks (x : Ix) (o : Opd) (s : St) : (loc x o s).2.ticks = s.ticks := by cases o <;> rfl
theorem src_ticks (x : Ix) (o : Opd) (s : St) : (src x o s).2.ticks = s.ticks := by cases o <;> rfl
theorem aluOp_ticks (k : Alu) (v : Byte) (s : St) : (aluOp k v s).ticks = s.ticks := by cases k <;> rfl
theorem push2_ticks (v : Word) (s : St) : (push2 v s).ticks = s.ticks := store2_ticks ..
theorem push1_ticks (v : Byte) (s : St) : (push1 v s).ticks = s.ticks := store1_ticks ..
theorem daa_ticks (s : St) : (daa s).ticks = s.ticks := by unfold daa; split <;> rfl
theorem rlca_ticks (s : St) : (rlca s).ticks = s.ticks := by unfold rlca; simp only; split <;> rfl
theorem rrca_ticks (s : St) : (rrca s).ticks = s.ticks := by unfold rrca; simp only; split <;> rfl
theorem doCall_ticks (s : St) : (doCall s).ticks = s.ticks := by
  show (push2 _ s).ticks = _; rw [push2_ticks]
theorem blkMove_ticks (dn : Bool) (s : St) : (blkMove dn s).ticks = s.ticks := by
  unfold blkMove; simp only [set16_ticks, store1_ticks]
theorem again_ticks (ipc : Nat) (c : Bool) (s : St) : (again ipc c s).ticks = s.ticks := by
  unfold again; cases c <;> rfl
theorem blkIn_ticks (dn : Bool) (s : St) : (blkIn dn s).ticks = s.ticks := by
  unfold blkIn; simp only [set16_ticks, store1_ticks]
theorem blkOut_ticks (dn : Bool) (s : St) : (blkOut dn s).ticks = s.ticks := by
  unfold blkOut; simp only [set16_ticks]

theorem exec_ticks (ipc : Nat) (x : Ix) (off : Byte) (i : Inst) (s : St) :
    (exec ipc x off i s).ticks = s.ticks := by
  cases i with
  | ld d o => simp only [exec, setL_ticks, src_ticks, loc_ticks]
  | ld16 p => simp only [exec, set16_ticks]; rfl
  | ldMA p => simp only [exec, store1_ticks]
  | stRP p => simp only [exec, store2_ticks]; rfl
  | ldRP p => simp only [exec, set16_ticks]; rfl
  | stA => simp only [exec, store1_ticks]; rfl
  | inc16 p => simp only [exec, set16_ticks]
  | dec16 p => simp only [exec, set16_ticks]
  | inc8 o => simp only [exec, setL_ticks, loc_ticks]
  | dec8 o => simp only [exec, setL_ticks, loc_ticks]
  | add16 d p => simp only [exec, add16, set16_ticks]
  | alu k o => simp only [exec, aluOp_ticks, src_ticks]
  | jpIf g v => simp only [exec]; split <;> rfl
  | call => simp only [exec, doCall_ticks]
  | rst a => simp only [exec, push2_ticks]
  | push p => simp only [exec, push2_ticks]
  | pushAF => simp only [exec, push1_ticks]
  | pop p => simp only [exec, set16_ticks]; rfl
  | exSP p => simp only [exec, store2_ticks, set16_ticks]
  | rlca => simp only [exec, rlca_ticks]
  | rrca => simp only [exec, rrca_ticks]
  | daa => simp only [exec, daa_ticks]
  | rot k o => simp only [exec, setL_ticks, loc_ticks]
  | bit n o => simp only [exec, loc_ticks]
  | res n o => simp only [exec, setL_ticks, loc_ticks]
  | set n o => simp only [exec, setL_ticks, loc_ticks]
  | xrot k r => simp only [exec, store1_ticks, setOpt_ticks]
  | xbit n => simp only [exec, store1_ticks]
  | xres n r => simp only [exec, store1_ticks, setOpt_ticks]
  | xset n r => simp only [exec, store1_ticks, setOpt_ticks]
  | inC r => simp only [exec, set8_ticks]
  | rrd => simp only [exec, store1_ticks]
  | rld => simp only [exec, store1_ticks]
  | ldi => simp only [exec, pIfBc, blkMove_ticks]
  | ldd => simp only [exec, pIfBc, blkMove_ticks]
  | cpi => simp only [exec, cpi, pIfBc, set16_ticks]; rfl
  | cpd => simp only [exec, cpd, pIfBc, set16_ticks]
  | ini => simp only [exec, blkIn_ticks]
  | ind => simp only [exec, blkIn_ticks]
  | outi => simp only [exec, blkOut_ticks]
  | outd => simp only [exec, blkOut_ticks]
  | jrIf g v => simp only [exec, jrIf]; split <;> rfl
  | djnz => simp only [exec, djnz]; split <;> rfl
  | callIf g v =>
    simp only [exec]
    split
    · rw [doCall_ticks]
    · rfl
  | retIf g v => simp only [exec]; split <;> rfl
  | ldir => simp only [exec, again_ticks, pIfBc, blkMove_ticks]
  | lddr => simp only [exec, again_ticks, blkMove_ticks]
  | cpir =>
    have e : ∀ t : St, t.ticks = s.ticks →
        (if bc t ≠ 0#16 then again ipc (t.f &&& bitZ == 0#8) { t with f := t.f ||| bitP } else t).ticks = s.ticks := by
      intro t ht
      split
      · rw [again_ticks]; exact ht
      · exact ht
    exact e _ (by simp only [set16_ticks])
  | cpdr =>
    simp only [exec, cpdr]
    split
    · rfl
    · rw [again_ticks]; simp only [set16_ticks]
  | inir => simp only [exec, again_ticks, blkIn_ticks]
  | indr => simp only [exec, again_ticks, blkIn_ticks]
  | otir => simp only [exec, again_ticks, blkOut_ticks]
  | otdr => simp only [exec, again_ticks, blkOut_ticks]
  | _ => rfl

theorem find_ticks (c : Byte) (s : St) : (find c s).st.ticks = s.ticks := by
  unfold find
  by_cases c1 : c = 0xcb#8
  · rw [if_pos c1]; rfl
  rw [if_neg c1]
  by_cases c2 : c = 0xed#8
  · rw [if_pos c2]; rfl
  rw [if_neg c2]
  by_cases c3 : c = 0xdd#8 ∨ c = 0xfd#8
  · rw [if_pos c3]
    by_cases c4 : (fetch s).1 = 0xcb#8
    · simp only [if_pos c4]; rfl
    · simp only [if_neg c4]; rfl
  · rw [if_neg c3]

theorem done_ticks (s : St) : (done s).ticks = s.ticks + 1 := by
  unfold done
  rw [exec_ticks, find_ticks]; rfl

end Ucsim.Z80
