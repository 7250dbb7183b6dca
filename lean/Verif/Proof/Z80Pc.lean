import Verif.Z80.Step

/-
PC stays within 0..0xffff, relative jumps apart.
-/
namespace Ucsim.Z80

theorem wr_pc (s : St) (a : Nat) (v : Byte) : (wr s a v).pc = s.pc := by unfold wr; split <;> rfl
theorem store1_pc (a : Word) (v : Byte) (s : St) : (store1 a v s).pc = s.pc := wr_pc ..
theorem store2_pc (a v : Word) (s : St) : (store2 a v s).pc = s.pc := by unfold store2; rw [wr_pc, wr_pc]
theorem set8_pc (x : Ix) (r : R8) (v : Byte) (s : St) : (set8 x r v s).pc = s.pc := by cases r <;> cases x <;> rfl
theorem set16_pc (x : Ix) (r : RP) (v : Word) (s : St) : (set16 x r v s).pc = s.pc := by cases r <;> cases x <;> rfl
theorem setL_pc (x : Ix) (k : Loc) (v : Byte) (s : St) : (setL x k v s).pc = s.pc := by
  cases k
  · exact set8_pc ..
  · exact store1_pc ..
theorem setOpt_pc (r : Option R8) (v : Byte) (s : St) : (setOpt r v s).pc = s.pc := by
  cases r
  · rfl
  · exact set8_pc ..
theorem fetch_pc (s : St) : (fetch s).2.pc < 0x10000 := Nat.mod_lt _ (by decide)
theorem fetch2_pc (s : St) : (fetch2 s).2.pc < 0x10000 := fetch_pc _
theorem loc_pc (x : Ix) (o : Opd) (s : St) (h : s.pc < 0x10000) : (loc x o s).2.pc < 0x10000 := by
  cases o
  · exact h
  · exact h
  · exact fetch_pc s
  · exact h
theorem src_pc (x : Ix) (o : Opd) (s : St) (h : s.pc < 0x10000) : (src x o s).2.pc < 0x10000 := by
  cases o
  · exact h
  · exact h
  · exact fetch_pc s
  · exact fetch_pc s
theorem addA_pc (c : Nat) (v : Byte) (s : St) : (addA c v s).pc = s.pc := rfl
theorem aluOp_pc (k : Alu) (v : Byte) (s : St) : (aluOp k v s).pc = s.pc := by cases k <;> rfl
theorem push2_pc (v : Word) (s : St) : (push2 v s).pc = s.pc := store2_pc ..
theorem push1_pc (v : Byte) (s : St) : (push1 v s).pc = s.pc := store1_pc ..
theorem daa_pc (s : St) : (daa s).pc = s.pc := by unfold daa; split <;> rfl
theorem rlca_pc (s : St) : (rlca s).pc = s.pc := by unfold rlca; simp only; split <;> rfl
theorem rrca_pc (s : St) : (rrca s).pc = s.pc := by unfold rrca; simp only; split <;> rfl
theorem doCall_pc (s : St) : (doCall s).pc < 0x10000 := BitVec.isLt _
theorem blkMove_pc (dn : Bool) (s : St) : (blkMove dn s).pc = s.pc := by
  unfold blkMove; simp only [set16_pc, store1_pc]
theorem again_pc (ipc : Nat) (c : Bool) (s : St) (h : s.pc < 0x10000) (hi : ipc < 0x10000) : (again ipc c s).pc < 0x10000 := by
  unfold again; split
  · exact hi
  · exact h
theorem blkIn_pc (dn : Bool) (s : St) : (blkIn dn s).pc = s.pc := by
  unfold blkIn; simp only [set16_pc, store1_pc]
theorem blkOut_pc (dn : Bool) (s : St) : (blkOut dn s).pc = s.pc := by
  unfold blkOut; simp only [set16_pc]

theorem exec_pc (ipc : Nat) (x : Ix) (off : Byte) (i : Inst) (s : St) (h : s.pc < 0x10000) (hi : ipc < 0x10000)
    (h1 : i ≠ .jr) (h2 : ∀ g v, i ≠ .jrIf g v) (h3 : i ≠ .djnz) : (exec ipc x off i s).pc < 0x10000 := by
  cases i with
  | jr => exact absurd rfl h1
  | jrIf g v => exact absurd rfl (h2 g v)
  | djnz => exact absurd rfl h3
  | ld d o => simp only [exec, setL_pc]; exact src_pc _ _ _ (loc_pc _ _ _ h)
  | ld16 p => simp only [exec, set16_pc]; exact fetch2_pc s
  | ldMA p => simp only [exec, store1_pc]; exact h
  | stRP p => simp only [exec, store2_pc]; exact fetch2_pc s
  | ldRP p => simp only [exec, set16_pc]; exact fetch2_pc s
  | stA => simp only [exec, store1_pc]; exact fetch2_pc s
  | ldA => exact fetch2_pc s
  | inc16 p => simp only [exec, set16_pc]; exact h
  | dec16 p => simp only [exec, set16_pc]; exact h
  | inc8 o => simp only [exec, setL_pc]; exact loc_pc _ _ _ h
  | dec8 o => simp only [exec, setL_pc]; exact loc_pc _ _ _ h
  | add16 d p => simp only [exec, add16, set16_pc]; exact h
  | alu k o => simp only [exec, aluOp_pc]; exact src_pc _ _ _ h
  | jp => exact BitVec.isLt _
  | jpIf g v => simp only [exec]; split
                · exact BitVec.isLt _
                · exact fetch2_pc s
  | jpRP p => exact BitVec.isLt _
  | call => exact doCall_pc s
  | callIf g v => simp only [exec]; split
                  · exact doCall_pc s
                  · exact fetch2_pc s
  | ret => exact BitVec.isLt _
  | retIf g v => simp only [exec]; split
                 · exact BitVec.isLt _
                 · exact h
  | rst a => exact BitVec.isLt _
  | push p => simp only [exec, push2_pc]; exact h
  | pushAF => simp only [exec, push1_pc]; exact h
  | pop p => simp only [exec, set16_pc]; exact h
  | exSP p => simp only [exec, store2_pc, set16_pc]; exact h
  | inA => exact fetch_pc s
  | outA => exact fetch_pc s
  | rlca => simp only [exec, rlca_pc]; exact h
  | rrca => simp only [exec, rrca_pc]; exact h
  | daa => simp only [exec, daa_pc]; exact h
  | rot k o => simp only [exec, setL_pc]; exact loc_pc _ _ _ h
  | bit n o => exact loc_pc _ _ _ h
  | res n o => simp only [exec, setL_pc]; exact loc_pc _ _ _ h
  | set n o => simp only [exec, setL_pc]; exact loc_pc _ _ _ h
  | xrot k r => simp only [exec, store1_pc, setOpt_pc]; exact h
  | xbit n => simp only [exec, store1_pc]; exact h
  | xres n r => simp only [exec, store1_pc, setOpt_pc]; exact h
  | xset n r => simp only [exec, store1_pc, setOpt_pc]; exact h
  | inC r => simp only [exec, set8_pc]; exact h
  | retN => exact BitVec.isLt _
  | rrd => simp only [exec, store1_pc]; exact h
  | rld => simp only [exec, store1_pc]; exact h
  | ldi => simp only [exec, pIfBc, blkMove_pc]; exact h
  | ldd => simp only [exec, pIfBc, blkMove_pc]; exact h
  | ldir => exact again_pc _ _ _ (by simp only [pIfBc, blkMove_pc]; exact h) hi
  | lddr => exact again_pc _ _ _ (by simp only [blkMove_pc]; exact h) hi
  | cpi => simp only [exec, cpi, pIfBc, set16_pc]; exact h
  | cpd => simp only [exec, cpd, pIfBc, set16_pc]; exact h
  | cpir =>
    have e : ∀ t : St, t.pc = s.pc →
        (if bc t ≠ 0#16 then again ipc (t.f &&& bitZ == 0#8) { t with f := t.f ||| bitP } else t).pc < 0x10000 := by
      intro t ht
      split
      · exact again_pc _ _ _ (by rw [← ht] at h; exact h) hi
      · rw [ht]; exact h
    exact e _ (by simp only [set16_pc])
  | cpdr =>
    simp only [exec, cpdr]
    split
    · exact h
    · exact again_pc _ _ _ (by simp only [set16_pc]; exact h) hi
  | ini => simp only [exec, blkIn_pc]; exact h
  | ind => simp only [exec, blkIn_pc]; exact h
  | inir => exact again_pc _ _ _ (by simp only [blkIn_pc]; exact h) hi
  | indr => exact again_pc _ _ _ (by simp only [blkIn_pc]; exact h) hi
  | outi => simp only [exec, blkOut_pc]; exact h
  | outd => simp only [exec, blkOut_pc]; exact h
  | otir => exact again_pc _ _ _ (by simp only [blkOut_pc]; exact h) hi
  | otdr => exact again_pc _ _ _ (by simp only [blkOut_pc]; exact h) hi
  | _ => exact h

end Ucsim.Z80
