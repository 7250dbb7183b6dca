import Verif.Proof.S51Stack
import Verif.S51.Demo

/- 8051 parity flag: C38. -/
namespace Ucsim.S51
open Spec

variable {H : Type} (P : Hw H)

/-- The parity flag is that of the accumulator. -/
def ParOk (s : St H) : Prop := Pf s = oddOnes (A s)

theorem ParOk.same {s s' : St H} (h : ParOk s) (ha : s'.sfr ACC = s.sfr ACC)
    (hp : (s'.sfr PSW).getLsbD 0 = (s.sfr PSW).getLsbD 0) : ParOk s' := by
  show (s'.sfr PSW).getLsbD 0 = oddOnes (s'.sfr ACC)
  rw [ha, hp]; exact h

theorem tick_pr (n : Nat) : Pres (ParOk (H := H)) (tick n) := fun _ h => h
theorem getPC_pr : Pres (ParOk (H := H)) getPC := fun _ h => h
theorem setPC_pr (a : Nat) : Pres (ParOk (H := H)) (setPC a) := fun _ h => h
theorem romRead_pr (a : Nat) : Pres (ParOk (H := H)) (romRead P a) := fun _ h => h
theorem fetch_pr : Pres (ParOk (H := H)) (fetch P) := fun _ h => h
theorem sfrGet_pr (a : Nat) : Pres (ParOk (H := H)) (sfrGet a) := fun _ h => h
theorem accRead_pr : Pres (ParOk (H := H)) accRead := fun _ h => h
theorem orgC_pr : Pres (ParOk (H := H)) orgC := fun s h => by rw [orgC_pc]; exact h
theorem sfrRead_pr (a : Nat) (l : Bool) : Pres (ParOk (H := H)) (sfrRead P a l) := by
  intro s h; unfold sfrRead; split <;> exact h

theorem parBit : ∀ (p : Byte) (o : Bool), ((p &&& ~~~(1#8)) ||| (if o then 1#8 else 0#8)).getLsbD 0 = o := by
  decide +kernel

/-- Writing ACC makes the parity right. -/
theorem acc_par (v : Byte) (s : St H) : ParOk (sfrWrite P ACC v s).2 := by
  show ((sfrWrite P ACC v s).2.sfr PSW).getLsbD 0 = oddOnes ((sfrWrite P ACC v s).2.sfr ACC)
  have e1 : (sfrWrite P ACC v s).2.sfr PSW = (s.sfr PSW &&& ~~~(1#8)) ||| parityMask v := by
    simp [sfrWrite, accWrite, upd, ACC, PSW]
  have e2 : (sfrWrite P ACC v s).2.sfr ACC = v := by simp [sfrWrite, accWrite, upd, ACC]
  rw [e1, e2, parity_ok]; exact parBit _ _

theorem acc_pr (v : Byte) : Pres (ParOk (H := H)) (sfrWrite P ACC v) := fun s _ => acc_par P v s

theorem sfrWrite_pr (a : Nat) (ha : a ≠ PSW) (v : Byte) : Pres (ParOk (H := H)) (sfrWrite P a v) := by
  intro s h
  by_cases h1 : a = ACC
  · subst h1; exact acc_par P v s
  · unfold sfrWrite
    rw [if_neg h1, if_neg ha]
    split
    · exact h.same (by simp [upd, Ne.symm h1]) (by simp [upd, Ne.symm ha])
    · refine h.same ?_ ?_
      · simp only [upd, if_neg (Ne.symm h1), protect, show isCore ACC = true by decide, if_true]
      · simp only [upd, if_neg (Ne.symm ha), protect, show isCore PSW = true by decide, if_true]

theorem iramRead_pr (a : Nat) : Pres (ParOk (H := H)) (iramRead P a) := fun _ h => h
theorem iramWrite_pr (a : Nat) (v : Byte) : Pres (ParOk (H := H)) (iramWrite P a v) := by
  intro s h; unfold iramWrite; split <;> exact h
theorem dirRead_pr (a : Byte) (l : Bool) : Pres (ParOk (H := H)) (dirRead P a l) := by
  unfold dirRead; exact Pres.ite (iramRead_pr _ _) (sfrRead_pr _ _ _)

theorem ne_psw (a : Byte) (h : a ≠ 0xd0#8) : a.toNat ≠ PSW := by
  intro e; apply h; apply BitVec.eq_of_toNat_eq; rw [e]; decide

theorem dirWrite_pr (a v : Byte) (ha : a ≠ 0xd0#8) : Pres (ParOk (H := H)) (dirWrite P a v) := by
  unfold dirWrite
  exact Pres.ite (iramWrite_pr _ _ _) (Pres.bind (sfrWrite_pr P _ (ne_psw a ha) _) (fun _ => Pres.pure _))
theorem regRead_pr (n : Nat) : Pres (ParOk (H := H)) (regRead n) := fun _ h => h
theorem regWrite_pr (n : Nat) (v : Byte) : Pres (ParOk (H := H)) (regWrite n v) := fun _ h => h
theorem riAddr_pr (c : Byte) : Pres (ParOk (H := H)) (riAddr c) := fun _ h => h
theorem xramRead_pr (a : Nat) : Pres (ParOk (H := H)) (xramRead a) := fun _ h => h
theorem xramWrite_pr (a : Nat) (v : Byte) : Pres (ParOk (H := H)) (xramWrite a v) := fun _ h => h
theorem bitGet_pr (b : Byte) : Pres (ParOk (H := H)) (bitGet b) := by
  intro s h; rw [bitGet_pc]; exact h
theorem bitRead_pr (b : Byte) : Pres (ParOk (H := H)) (bitRead P b) := by
  unfold bitRead
  exact Pres.ite (bitGet_pr b) (Pres.bind (sfrRead_pr _ _ _) (fun _ => Pres.pure _))

theorem put0 : ∀ (p : Byte) (c : Bool) (i : Fin 7), (putBits p (2#8 <<< i.val) c).getLsbD 0 = p.getLsbD 0 := by
  decide +kernel

theorem setCY_pr (v : Bool) : Pres (ParOk (H := H)) (bitSet CYbit v) := by
  intro s h
  have e : (bitSet CYbit v s).2 = { s with sfr := upd s.sfr PSW (putBits (s.sfr PSW) 0x80#8 v) } := by
    simp only [bitSet, if_neg CYge, maskCY, bitMaskCY]
  rw [e]
  refine h.same ?_ ?_
  · simp [upd, ACC, PSW]
  · simp only [upd, if_true]; exact put0 _ _ 6

theorem sfrSetBit_pr (c : Bool) (m : Byte) (hm : m = 0x40#8 ∨ m = 0x04#8 ∨ m = 0x80#8) :
    Pres (ParOk (H := H)) (sfrSetBit c PSW m) := by
  intro s h
  have e : (sfrSetBit c PSW m s).2 = { s with sfr := upd s.sfr PSW (putBits (s.sfr PSW) m c) } := rfl
  rw [e]
  refine h.same (by simp [upd, ACC, PSW]) ?_
  simp only [upd, if_true]
  rcases hm with rfl | rfl | rfl
  · exact put0 _ _ 5
  · exact put0 _ _ 1
  · exact put0 _ _ 6

theorem maskNot0 : ∀ b : Byte, b ≠ 0xd0#8 → b.toNat / 8 * 8 = PSW → ∃ i : Fin 7, bitMask b = 2#8 <<< i.val := by
  decide +kernel

theorem bitWrite_pr (b : Byte) (hb0 : b ≠ 0xd0#8) (v : Bool) : Pres (ParOk (H := H)) (bitWrite P b v) := by
  intro s h
  unfold bitWrite
  split
  · rename_i hb
    simp only [bitSet, hb, if_true]; exact h
  · rename_i hb
    have hk : ∀ u : St H, ParOk u → ParOk (bitHook P b v u).2 := fun u hu =>
      hu.same (bitHook_core P b v u ACC (by decide)) (by rw [bitHook_core P b v u PSW (by decide)])
    simp only [bind_def, sfrGet, bitBase]
    have e : ∀ u : St H, (bitSet b v u).2 = { u with sfr := (upd u.sfr (b.toNat / 8 * 8)
        (putBits (u.sfr (b.toNat / 8 * 8)) (bitMask b) v)) } := by
      intro u; simp only [bitSet, if_neg hb, bitBase]
    rw [e]
    by_cases ha : b.toNat / 8 * 8 = PSW
    · obtain ⟨i, hi⟩ := maskNot0 b hb0 ha
      rw [ha, hi]
      have c1 := bitHook_core P b v (sfrWrite P PSW (putBits (s.sfr PSW) (2#8 <<< i.val) v) s).2 PSW (by decide)
      have c2 := bitHook_core P b v (sfrWrite P PSW (putBits (s.sfr PSW) (2#8 <<< i.val) v) s).2 ACC (by decide)
      refine h.same ?_ ?_
      · simp only [upd, if_neg (show ¬ ACC = PSW by decide)]
        rw [c2]
        simp only [sfrWrite, show PSW ≠ ACC by decide, if_true, if_false, pswWrite, upd, if_neg (show ¬ ACC = PSW by decide)]
      · simp only [upd, if_true]
        rw [c1]
        simp only [sfrWrite, show PSW ≠ ACC by decide, if_true, if_false, pswWrite, upd]
        rw [putIdem, put0]
    · have h2 := hk _ (sfrWrite_pr P (b.toNat / 8 * 8) ha (putBits (s.sfr (b.toNat / 8 * 8)) (bitMask b) v) s h)
      refine h2.same ?_ ?_
      · show upd _ _ _ ACC = _
        by_cases hA : b.toNat / 8 * 8 = ACC
        · rw [hA]
          have e2 : ∀ v, (sfrWrite P ACC v s).2.sfr ACC = v := by intro v; simp [sfrWrite, accWrite, upd, ACC]
          simp only [upd, if_true]
          rw [bitHook_core P b v _ ACC (by decide), e2]; exact putIdem _ _ _
        · simp only [upd, if_neg (Ne.symm hA)]
      · show (upd _ _ _ PSW).getLsbD 0 = _
        simp only [upd, if_neg (Ne.symm ha)]

theorem dptrRead_pr : Pres (ParOk (H := H)) dptrRead := fun _ h => h
theorem dptrWrite_pr (v : Nat) : Pres (ParOk (H := H)) (dptrWrite v) := by
  intro s h
  exact h.same (by simp [dptrWrite, bind_def, sfrSet, upd, ACC, DPH, DPL])
    (by simp [dptrWrite, bind_def, sfrSet, upd, PSW, DPH, DPL])
theorem relJump_pr (d : Byte) : Pres (ParOk (H := H)) (relJump d) := fun _ h => h
theorem branchIf_pr (b : Bool) (d : Byte) : Pres (ParOk (H := H)) (branchIf b d) := by
  unfold branchIf; exact Pres.ite (relJump_pr _) (Pres.pure _)
theorem addBody_pr (a d : Byte) (c : Nat) : Pres (ParOk (H := H)) (addBody P a d c) := by
  unfold addBody
  exact Pres.bind (acc_pr _ _) fun _ => Pres.bind (setCY_pr _) fun _ =>
    Pres.bind (sfrSetBit_pr _ _ (by simp)) fun _ => sfrSetBit_pr _ _ (by simp)
theorem subbBody_pr (v : Bool) (d : Byte) : Pres (ParOk (H := H)) (subbBody P v d) := by
  intro s _
  cases v
  · exact acc_par P _ _
  · exact acc_par P _ _
theorem divAB_pr : Pres (ParOk (H := H)) (divAB P) := by
  intro s _
  simp only [divAB, bind_def]
  split
  · simp only [bind_def]; exact tick_pr 3 _ (acc_par P _ _)
  · simp only [bind_def]; exact tick_pr 3 _ (acc_par P _ _)
theorem mulAB_pr : Pres (ParOk (H := H)) (mulAB P) := by
  unfold mulAB
  exact Pres.bind accRead_pr fun _ => Pres.bind (sfrGet_pr _) fun _ => Pres.bind (acc_pr _ _) fun _ =>
    Pres.bind (sfrWrite_pr P SFRB (by decide) _) fun _ => Pres.bind (sfrSetBit_pr _ _ (by simp)) fun _ =>
    Pres.bind (sfrSetBit_pr _ _ (by simp)) fun _ => tick_pr _
theorem pushByte_pr (v : Byte) : Pres (ParOk (H := H)) (pushByte P v) := by
  unfold pushByte
  exact Pres.bind (sfrRead_pr _ _ _) fun _ => Pres.bind (sfrWrite_pr P SP (by decide) _) fun _ => iramWrite_pr _ _ _
theorem popByte_pr : Pres (ParOk (H := H)) (popByte P) := by
  unfold popByte
  exact Pres.bind (sfrRead_pr _ _ _) fun _ => Pres.bind (iramRead_pr _ _) fun _ =>
    Pres.bind (sfrWrite_pr P SP (by decide) _) fun _ => Pres.pure _
theorem popLevel_pr : Pres (ParOk (H := H)) popLevel := by
  intro s h; unfold popLevel; split
  · split <;> exact h
  · exact h
theorem setReti_pr : Pres (ParOk (H := H)) setReti := fun _ h => h
theorem retBody_pr : Pres (ParOk (H := H)) (retBody P) := by
  unfold retBody
  exact Pres.bind (popByte_pr P) fun _ => Pres.bind (tick_pr _) fun _ => Pres.bind (popByte_pr P) fun _ => setPC_pr _
theorem cjneBody_pr (x d j : Byte) : Pres (ParOk (H := H)) (cjneBody x d j) := by
  unfold cjneBody; exact Pres.bind (setCY_pr _) fun _ => branchIf_pr _ _
theorem undefBody_pr : Pres (ParOk (H := H)) (undefBody P) := fun _ h => h
theorem lcallTo_pr (a : Nat) : Pres (ParOk (H := H)) (lcallTo P a) := by
  unfold lcallTo
  exact Pres.bind getPC_pr fun _ => Pres.bind (pushByte_pr P _) fun _ => Pres.bind (pushByte_pr P _) fun _ => setPC_pr _
theorem CY_ne : CYbit ≠ 0xd0#8 := by decide

/-- Destination address in the first operand byte. -/
def Op.dest : Op → Bool
  | .incDir | .decDir | .orlDirA | .orlDirImm | .anlDirA | .anlDirImm | .xrlDirA | .xrlDirImm | .movDirImm | .movDirRi
  | .movDirRn | .xchDir | .pop | .djnzDir | .movDirA | .jbc | .movBitC | .cplBit | .clrBit | .setbBit => true
  | _ => false

macro "pr" : tactic => `(tactic| repeat (first
  | with_reducible exact tick_pr _ | with_reducible exact getPC_pr | with_reducible exact setPC_pr _
  | with_reducible exact romRead_pr _ _ | with_reducible exact fetch_pr _ | with_reducible exact sfrGet_pr _
  | with_reducible exact accRead_pr | with_reducible exact orgC_pr | with_reducible exact sfrRead_pr _ _ _
  | with_reducible exact acc_pr _ _ | with_reducible exact iramRead_pr _ _
  | with_reducible exact iramWrite_pr _ _ _ | with_reducible exact dirRead_pr _ _ _
  | with_reducible exact dirWrite_pr _ _ _ (by assumption) | with_reducible exact regRead_pr _
  | with_reducible exact regWrite_pr _ _ | with_reducible exact riAddr_pr _ | with_reducible exact xramRead_pr _
  | with_reducible exact xramWrite_pr _ _ | with_reducible exact bitGet_pr _
  | with_reducible exact bitRead_pr _ _ | with_reducible exact setCY_pr _
  | with_reducible exact bitWrite_pr _ _ (by assumption) _
  | with_reducible exact bitWrite_pr _ _ CY_ne _
  | with_reducible exact sfrWrite_pr _ _ (ne_psw _ (by assumption)) _
  | with_reducible exact dptrRead_pr | with_reducible exact dptrWrite_pr _
  | with_reducible exact relJump_pr _ | with_reducible exact branchIf_pr _ _ | with_reducible exact addBody_pr _ _ _ _
  | with_reducible exact subbBody_pr _ _ _
  | with_reducible exact divAB_pr _ | with_reducible exact mulAB_pr _ | with_reducible exact pushByte_pr _ _
  | with_reducible exact popByte_pr _ | with_reducible exact popLevel_pr
  | with_reducible exact setReti_pr | with_reducible exact retBody_pr _ | with_reducible exact cjneBody_pr _ _ _
  | with_reducible exact undefBody_pr _ | with_reducible exact Pres.pure _
  | (with_reducible refine Pres.bind ?_ (fun _ => ?_)) | (with_reducible refine Pres.ite ?_ ?_)))

/-- The rest of an instruction that begins with the fetch of a destination address. -/
theorem fetch_then {K : Byte → M H Unit} {t : St H} (ht : ParOk t) (hp : t.pc < 0x10000) (hd : t.rom t.pc ≠ 0xd0#8)
    (hK : ∀ a, a ≠ 0xd0#8 → Pres ParOk (K a)) : ParOk ((fetch P >>= K) t).2 := by
  rw [bind_def, fetch_eq P t hp]
  exact hK _ hd _ ht

theorem exec_pr (o : Op) (c : Byte) (t : St H) (ht : ParOk t) (hp : t.pc < 0x10000)
    (h1 : o.dest = true → t.rom t.pc ≠ 0xd0#8)
    (h2 : o = .movDirDir → t.rom ((t.pc + 1) % 0x10000) ≠ 0xd0#8) : ParOk (exec P o c t).2 := by
  by_cases hdd : o = .movDirDir
  · have h3 := h2 hdd
    subst hdd
    simp only [exec]
    rw [bind_def, fetch_eq P t hp]
    refine fetch_then P (K := fun d => _) ?_ (Nat.mod_lt _ (by decide)) h3 ?_
    · exact ht
    · intro a ha; pr
  · by_cases hda : o = .da
    · subst hda
      simp only [exec, bind_def, pure_def]
      exact acc_par P _ _
    · cases hd : o.dest with
      | true =>
        have h4 := h1 hd
        cases o <;> first
          | exact absurd hd (by decide)
          | (simp only [exec]; refine fetch_then P ht hp h4 ?_; intro a ha; pr; done)
      | false =>
        have key : Pres (ParOk (H := H)) (exec P o c) := by
          cases o <;> first
            | exact absurd hd (by decide)
            | exact absurd rfl hdd
            | exact absurd rfl hda
            | (simp only [exec]; pr; done)
        exact key t ht

theorem dest_names : ∀ c : Byte, (decode c).dest = true →
    (c.toNat == 0x05 || c.toNat == 0x15 || c.toNat == 0x42 || c.toNat == 0x43 || c.toNat == 0x52 || c.toNat == 0x53 ||
    c.toNat == 0x62 || c.toNat == 0x63 ||
    c.toNat == 0x75 || (0x86 ≤ c.toNat && c.toNat ≤ 0x8f) || c.toNat == 0xc5 || c.toNat == 0xd0 || c.toNat == 0xd5 ||
    c.toNat == 0xf5 ||
    c.toNat == 0x10 || c.toNat == 0x92 || c.toNat == 0xb2 || c.toNat == 0xc2 || c.toNat == 0xd2) = true := by
  decide +kernel
theorem dd_names : ∀ c : Byte, decode c = .movDirDir → (c.toNat == 0x85) = true := by decide +kernel

theorem execInst_pr (s : St H) (hp : s.pc < 0x10000) (h : ParOk s) (hn : namesPsw s = false) : ParOk (execInst P s).2 := by
  rw [execInst_after P s hp]
  unfold namesPsw at hn
  simp only [Bool.or_eq_false_iff] at hn
  refine exec_pr P _ _ _ h (Nat.mod_lt _ (by decide)) ?_ ?_
  · intro hd he
    have e : code s 1 = 0xd0#8 := he
    have := hn.1
    simp only [dest_names _ hd, e] at this
    exact absurd this (by decide)
  · intro hd he
    have e : code s 2 = 0xd0#8 := by
      rw [← he]; unfold code; show _ = s.rom (((s.pc + 1) % 0x10000 + 1) % 0x10000); congr 1; omega
    have := hn.2
    simp only [dd_names _ hd, e] at this
    exact absurd this (by decide)

theorem tickHw_pr (n : Nat) : Pres (ParOk (H := H)) (tickHw P n) := by
  induction n with
  | zero => exact fun _ h => h
  | succ n ih =>
    intro s h
    exact ih _ (h.same (by simp [protect, isCore, ACC]) (by simp [protect, isCore, PSW]))

theorem clear_pr (i : ItSrc) (hi : i.srcAddr ≠ PSW) : Pres (ParOk (H := H)) (i.clear P) := by
  unfold ItSrc.clear
  exact Pres.ite (Pres.bind (sfrGet_pr _) fun _ => Pres.bind (sfrWrite_pr P _ hi _) fun _ => Pres.pure _) (Pres.pure _)

theorem wake_pr : Pres (ParOk (H := H)) wake := fun _ h =>
  h.same (by simp [wake, upd, PCON, ACC]) (by simp [wake, upd, PCON, PSW])

theorem doInst_pr (hi : ∀ h, ∀ i ∈ P.sources h, i.srcAddr ≠ PSW) (s : St H) (hp : s.pc < 0x10000) (h : ParOk s)
    (hn : namesPsw s = false) : ParOk (doInst P s).2 := by
  have h1 : ParOk (runPart P s).2 := by
    unfold runPart
    split
    · exact tickHw_pr P _ _ (execInst_pr P _ hp h hn)
    · exact h
  generalize hs1 : (runPart P s).2 = s1 at h1
  have h2 : ParOk (doInterrupt P s1).2 := by
    unfold doInterrupt
    split
    · exact h1
    · split
      · exact h1
      · split
        · exact h1
        · rename_i i hf
          unfold takeIt
          split
          · exact wake_pr _ h1
          · have hc := clear_pr P i (hi _ i (List.mem_of_find?_eq_some hf)) s1 h1
            exact (Pres.bind wake_pr fun _ => Pres.bind (fun _ h => h) fun _ => Pres.bind (tick_pr 1) fun _ =>
              lcallTo_pr P _ : Pres ParOk (acceptIt P _)) _ hc
  simp only [doInst, hs1]
  split
  · exact h1
  · split
    · unfold idlePd; split <;> exact h2
    · exact h2

/-- C38: as long as the program does not name the PSW (or P) as the destination of an
instruction, the parity flag is that of ACC after every instruction. -/
theorem c38_parity_partial (hi : ∀ h, ∀ i ∈ P.sources h, i.srcAddr ≠ 0xd0) (s : St H) (h : Pf s = oddOnes (A s)) (n : Nat)
    (hn : ∀ k, k < n → (steps P k s).pc < 0x10000 ∧ namesPsw (steps P k s) = false) :
    Pf (steps P n s) = oddOnes (A (steps P n s)) := by
  suffices ∀ m, m ≤ n → ParOk (steps P m s) from this n (Nat.le_refl n)
  intro m hm
  induction m with
  | zero => exact h
  | succ m ih =>
    have := hn m (by omega)
    exact doInst_pr P hi _ this.1 (ih (by omega)) this.2

/-- C38 is false otherwise: MOV PSW,#1 with ACC = 0 sets P. -/
theorem c38_false : let s := Demo.st [0x75#8, 0xd0#8, 0x01#8] 0#8 0#8 0#8 7#8
    Pf s = oddOnes (A s) ∧ Pf (steps Demo.hw 1 s) ≠ oddOnes (A (steps Demo.hw 1 s)) := by decide

/-- INC A; CLR C; RRC A; XCH A,0x30: four instructions that change A. -/
example : let s := Demo.st [0x04#8, 0xc3#8, 0x13#8, 0xc5#8, 0x30#8] 6#8 0#8 0#8 7#8
    (∀ h, ∀ i ∈ Demo.hw.sources h, i.srcAddr ≠ 0xd0) ∧ Pf s = oddOnes (A s) ∧
    ∀ k, k < 4 → (steps Demo.hw k s).pc < 0x10000 ∧ namesPsw (steps Demo.hw k s) = false := by
  refine ⟨fun _ i hi => ?_, by decide, by decide⟩
  simp only [Demo.hw, List.mem_cons, List.not_mem_nil, or_false] at hi
  rcases hi with rfl | rfl <;> decide

end Ucsim.S51
