import Verif.Proof.S51Ld

/- Invariants of the CPU: Pres. -/
namespace Ucsim.S51
open Spec

variable {H : Type} (P : Hw H)

/-- An action keeps a property of the machine. -/
def Pres {α : Type} (I : St H → Prop) (m : M H α) : Prop := ∀ s, I s → I (m s).2

theorem Pres.bind {α β : Type} {I : St H → Prop} {m : M H α} {f : α → M H β} (h1 : Pres I m) (h2 : ∀ a, Pres I (f a)) :
    Pres I (m >>= f) := fun s h => h2 _ _ (h1 s h)

theorem Pres.pure {α : Type} {I : St H → Prop} (a : α) : Pres I (Pure.pure a : M H α) := fun _ h => h

theorem Pres.ite {α : Type} {I : St H → Prop} {c : Prop} [Decidable c] {m n : M H α} (h1 : Pres I m) (h2 : Pres I n) :
    Pres I (if c then m else n) := by split <;> assumption

/-- The bank in use is the one the PSW selects. -/
def BankOk (s : St H) : Prop := s.bank = rs s

theorem BankOk.of_sfr {s s' : St H} (h : BankOk s) (hb : s'.bank = s.bank)
    (h3 : (s'.sfr PSW).getLsbD 3 = (s.sfr PSW).getLsbD 3) (h4 : (s'.sfr PSW).getLsbD 4 = (s.sfr PSW).getLsbD 4) :
    BankOk s' := by
  unfold BankOk at *
  rw [hb, h]
  show 2 * ((s.sfr PSW).getLsbD 4).toNat + ((s.sfr PSW).getLsbD 3).toNat =
    2 * ((s'.sfr PSW).getLsbD 4).toNat + ((s'.sfr PSW).getLsbD 3).toNat
  rw [h3, h4]

theorem BankOk.same {s s' : St H} (h : BankOk s) (hb : s'.bank = s.bank) (hp : s'.sfr PSW = s.sfr PSW) : BankOk s' :=
  h.of_sfr hb (by rw [hp]) (by rw [hp])

theorem tick_bk (n : Nat) : Pres (BankOk (H := H)) (tick n) := fun _ h => h
theorem getPC_bk : Pres (BankOk (H := H)) getPC := fun _ h => h
theorem setPC_bk (a : Nat) : Pres (BankOk (H := H)) (setPC a) := fun _ h => h
theorem romRead_bk (a : Nat) : Pres (BankOk (H := H)) (romRead P a) := fun _ h => h
theorem fetch_bk : Pres (BankOk (H := H)) (fetch P) := fun _ h => h
theorem sfrGet_bk (a : Nat) : Pres (BankOk (H := H)) (sfrGet a) := fun _ h => h
theorem accRead_bk : Pres (BankOk (H := H)) accRead := fun _ h => h
theorem orgC_bk : Pres (BankOk (H := H)) orgC := fun s h => by rw [orgC_pc]; exact h
theorem sfrRead_bk (a : Nat) (l : Bool) : Pres (BankOk (H := H)) (sfrRead P a l) := by
  intro s h; unfold sfrRead; split <;> exact h
theorem pswWrite_bk (v : Byte) (s : St H) : BankOk (pswWrite v s).2 := by
  show ((v &&& 0x18#8) >>> 3).toNat = rs (pswWrite v s).2
  rw [rsBits]; simp [rs, RS1, RS0, psw, pswWrite, upd, PSW]
theorem keepRs : ∀ (p : Byte) (o : Bool), let q := (p &&& ~~~(1#8)) ||| (if o then 1#8 else 0#8)
    q.getLsbD 3 = p.getLsbD 3 ∧ q.getLsbD 4 = p.getLsbD 4 := by decide +kernel
theorem accWrite_bk (v : Byte) : Pres (BankOk (H := H)) (accWrite v) := by
  intro s h
  have e : (accWrite v s).2.sfr PSW = (s.sfr PSW &&& ~~~(1#8)) ||| parityMask v := rfl
  refine h.of_sfr rfl ?_ ?_
  · rw [e, parity_ok]; exact (keepRs _ _).1
  · rw [e, parity_ok]; exact (keepRs _ _).2
theorem sfrWrite_bk (a : Nat) (v : Byte) : Pres (BankOk (H := H)) (sfrWrite P a v) := by
  intro s h
  unfold sfrWrite
  split
  · exact accWrite_bk v s h
  · split
    · exact pswWrite_bk v s
    · rename_i h1 h2
      split
      · exact h.same rfl (by simp [upd, Ne.symm h2])
      · exact h.same rfl (by
          have e : isCore PSW = true := by decide
          simp only [upd, if_neg (Ne.symm h2), protect, e, if_true])
theorem iramRead_bk (a : Nat) : Pres (BankOk (H := H)) (iramRead P a) := fun _ h => h
theorem iramWrite_bk (a : Nat) (v : Byte) : Pres (BankOk (H := H)) (iramWrite P a v) := by
  intro s h; unfold iramWrite; split <;> exact h
theorem dirRead_bk (a : Byte) (l : Bool) : Pres (BankOk (H := H)) (dirRead P a l) := by
  unfold dirRead; exact Pres.ite (iramRead_bk _ _) (sfrRead_bk _ _ _)
theorem dirWrite_bk (a v : Byte) : Pres (BankOk (H := H)) (dirWrite P a v) := by
  unfold dirWrite; exact Pres.ite (iramWrite_bk _ _ _) (Pres.bind (sfrWrite_bk _ _ _) (fun _ => Pres.pure _))
theorem regRead_bk (n : Nat) : Pres (BankOk (H := H)) (regRead n) := fun _ h => h
theorem regWrite_bk (n : Nat) (v : Byte) : Pres (BankOk (H := H)) (regWrite n v) := fun _ h => h
theorem riAddr_bk (c : Byte) : Pres (BankOk (H := H)) (riAddr c) := fun _ h => h
theorem xramRead_bk (a : Nat) : Pres (BankOk (H := H)) (xramRead a) := fun _ h => h
theorem xramWrite_bk (a : Nat) (v : Byte) : Pres (BankOk (H := H)) (xramWrite a v) := fun _ h => h
theorem bitGet_bk (b : Byte) : Pres (BankOk (H := H)) (bitGet b) := by
  intro s h; rw [bitGet_pc]; exact h
theorem bitRead_bk (b : Byte) : Pres (BankOk (H := H)) (bitRead P b) := by
  unfold bitRead
  exact Pres.ite (bitGet_bk b) (Pres.bind (sfrRead_bk _ _ _) (fun _ => Pres.pure _))

theorem putRs : ∀ (p : Byte) (c : Bool) (i : Fin 3), let m := [0x80#8, 0x40#8, 0x04#8].getD i.val 0#8
    (putBits p m c).getLsbD 3 = p.getLsbD 3 ∧ (putBits p m c).getLsbD 4 = p.getLsbD 4 := by decide +kernel

theorem setCY_bk (v : Bool) : Pres (BankOk (H := H)) (bitSet CYbit v) := by
  intro s h
  have e : (bitSet CYbit v s).2 = { s with sfr := upd s.sfr PSW (putBits (s.sfr PSW) 0x80#8 v) } := by
    simp only [bitSet, if_neg CYge, maskCY, bitMaskCY]
  rw [e]
  refine h.of_sfr rfl ?_ ?_
  · simp only [upd, if_true]; exact (putRs _ _ 0).1
  · simp only [upd, if_true]; exact (putRs _ _ 0).2

theorem sfrSetBit_bk (c : Bool) (m : Byte) (hm : m = 0x40#8 ∨ m = 0x04#8 ∨ m = 0x80#8) :
    Pres (BankOk (H := H)) (sfrSetBit c PSW m) := by
  intro s h
  have e : (sfrSetBit c PSW m s).2 = { s with sfr := upd s.sfr PSW (putBits (s.sfr PSW) m c) } := rfl
  rw [e]
  rcases hm with rfl | rfl | rfl
  · exact h.of_sfr rfl (by simp only [upd, if_true]; exact (putRs _ _ 1).1) (by simp only [upd, if_true]; exact (putRs _ _ 1).2)
  · exact h.of_sfr rfl (by simp only [upd, if_true]; exact (putRs _ _ 2).1) (by simp only [upd, if_true]; exact (putRs _ _ 2).2)
  · exact h.of_sfr rfl (by simp only [upd, if_true]; exact (putRs _ _ 0).1) (by simp only [upd, if_true]; exact (putRs _ _ 0).2)

theorem putIdem : ∀ (p m : Byte) (v : Bool), putBits (putBits p m v) m v = putBits p m v := by
  intro p m v; cases v
  · simp only [putBits, Bool.false_eq_true, if_false]; rw [BitVec.and_assoc, BitVec.and_self]
  · simp only [putBits, if_true]; rw [BitVec.or_assoc, BitVec.or_self]

theorem bitHook_core (b : Byte) (v : Bool) (s : St H) (a : Nat) (h : isCore a = true) :
    (bitHook P b v s).2.sfr a = s.sfr a := by
  show protect s.sfr _ a = _
  simp only [protect, h, if_true]

theorem bitHook_bk (b : Byte) (v : Bool) : Pres (BankOk (H := H)) (bitHook P b v) :=
  fun s h => h.same rfl (bitHook_core P b v s PSW (by decide))

/-- What is stored in PSW is what was written. -/
theorem bitWrite_bk (b : Byte) (v : Bool) : Pres (BankOk (H := H)) (bitWrite P b v) := by
  intro s h
  unfold bitWrite
  split
  · rename_i hb
    simp only [bitSet, hb, if_true]; exact h
  · rename_i hb
    simp only [bind_def]
    rw [show (sfrGet (b &&& 0xf8#8).toNat s).2 = s from rfl, show (sfrGet (b &&& 0xf8#8).toNat s).1 = s.sfr (b &&& 0xf8#8).toNat from rfl]
    have h2 := bitHook_bk P b v _ (sfrWrite_bk P (b &&& 0xf8#8).toNat (putBits (s.sfr (b &&& 0xf8#8).toNat) (bitMask b) v) s h)
    by_cases ha : (b &&& 0xf8#8).toNat = PSW
    · have e : ∀ u : St H, (bitSet b v u).2 = { u with sfr := upd u.sfr PSW (putBits (u.sfr PSW) (bitMask b) v) } := by
        intro u; simp only [bitSet, if_neg hb, ha]
      rw [e]
      refine h2.same rfl ?_
      simp only [upd, if_true]
      rw [bitHook_core P b v _ PSW (by decide), ha]
      simp only [sfrWrite, show PSW ≠ ACC by decide, if_true, if_false, pswWrite, upd]
      exact putIdem _ _ _
    · refine BankOk.same h2 ?_ ?_
      · unfold bitSet; rw [if_neg hb]
      · unfold bitSet; rw [if_neg hb]; simp only [upd, if_neg (Ne.symm ha)]

theorem dptrRead_bk : Pres (BankOk (H := H)) dptrRead := fun _ h => h
theorem dptrWrite_bk (v : Nat) : Pres (BankOk (H := H)) (dptrWrite v) := by
  intro s h; exact h.same rfl (by simp [dptrWrite, bind_def, sfrSet, upd, PSW, DPH, DPL])
theorem relJump_bk (d : Byte) : Pres (BankOk (H := H)) (relJump d) := fun _ h => h
theorem branchIf_bk (b : Bool) (d : Byte) : Pres (BankOk (H := H)) (branchIf b d) := by
  unfold branchIf; exact Pres.ite (relJump_bk _) (Pres.pure _)
theorem addBody_bk (a d : Byte) (c : Nat) : Pres (BankOk (H := H)) (addBody P a d c) := by
  unfold addBody
  exact Pres.bind (sfrWrite_bk _ _ _) fun _ => Pres.bind (setCY_bk _) fun _ =>
    Pres.bind (sfrSetBit_bk _ _ (by simp)) fun _ => sfrSetBit_bk _ _ (by simp)
theorem subbBody_bk (v : Bool) (d : Byte) : Pres (BankOk (H := H)) (subbBody P v d) := by
  intro s h
  rw [subbBody_eq]
  obtain ⟨-, -, -, b4, b3, -⟩ := addPsw_bits (psw s) (byte ((A s).toNat + 512 - d.toNat - (CY s).toNat))
            (decide ((A s).toNat < d.toNat + (CY s).toNat))
            (overflow ((A s).toInt - d.toInt - (CY s).toNat))
            (decide ((A s).toNat % 16 < d.toNat % 16 + (CY s).toNat))
  refine h.of_sfr ?_ ?_ ?_
  · show (if v = true then rs s else s.bank) = s.bank
    rw [show s.bank = rs s from h]; split <;> rfl
  · simp only [show PSW ≠ ACC by decide, ↓reduceIte]; exact b3
  · simp only [show PSW ≠ ACC by decide, ↓reduceIte]; exact b4
theorem divAB_bk : Pres (BankOk (H := H)) (divAB P) := by
  unfold divAB
  exact Pres.bind (sfrGet_bk _) fun _ => Pres.bind accRead_bk fun _ => Pres.bind (sfrGet_bk _) fun _ => Pres.ite
    (Pres.bind (sfrWrite_bk _ _ _) fun _ => Pres.bind (sfrWrite_bk _ _ _) fun _ => tick_bk _)
    (Pres.bind (sfrWrite_bk _ _ _) fun _ => Pres.bind (sfrWrite_bk _ _ _) fun _ =>
      Pres.bind (sfrWrite_bk _ _ _) fun _ => tick_bk _)
theorem mulAB_bk : Pres (BankOk (H := H)) (mulAB P) := by
  unfold mulAB
  exact Pres.bind accRead_bk fun _ => Pres.bind (sfrGet_bk _) fun _ => Pres.bind (sfrWrite_bk _ _ _) fun _ =>
    Pres.bind (sfrWrite_bk _ _ _) fun _ => Pres.bind (sfrSetBit_bk _ _ (by simp)) fun _ =>
    Pres.bind (sfrSetBit_bk _ _ (by simp)) fun _ => tick_bk _
theorem pushByte_bk (v : Byte) : Pres (BankOk (H := H)) (pushByte P v) := by
  unfold pushByte
  exact Pres.bind (sfrRead_bk _ _ _) fun _ => Pres.bind (sfrWrite_bk _ _ _) fun _ => iramWrite_bk _ _ _
theorem popByte_bk : Pres (BankOk (H := H)) (popByte P) := by
  unfold popByte
  exact Pres.bind (sfrRead_bk _ _ _) fun _ => Pres.bind (iramRead_bk _ _) fun _ => Pres.bind (sfrWrite_bk _ _ _) fun _ =>
    Pres.pure _
theorem popLevel_bk : Pres (BankOk (H := H)) popLevel := by
  intro s h; unfold popLevel; split
  · split <;> exact h
  · exact h
theorem setReti_bk : Pres (BankOk (H := H)) setReti := fun _ h => h
theorem retBody_bk : Pres (BankOk (H := H)) (retBody P) := by
  unfold retBody
  exact Pres.bind (popByte_bk P) fun _ => Pres.bind (tick_bk _) fun _ => Pres.bind (popByte_bk P) fun _ => setPC_bk _
theorem cjneBody_bk (x d j : Byte) : Pres (BankOk (H := H)) (cjneBody x d j) := by
  unfold cjneBody; exact Pres.bind (setCY_bk _) fun _ => branchIf_bk _ _
theorem undefBody_bk : Pres (BankOk (H := H)) (undefBody P) := fun _ h => h
theorem lcallTo_bk (a : Nat) : Pres (BankOk (H := H)) (lcallTo P a) := by
  unfold lcallTo
  exact Pres.bind getPC_bk fun _ => Pres.bind (pushByte_bk P _) fun _ => Pres.bind (pushByte_bk P _) fun _ => setPC_bk _

/-- One rule after the other. -/
macro "bk" : tactic => `(tactic| repeat (first
  | with_reducible exact tick_bk _ | with_reducible exact getPC_bk | with_reducible exact setPC_bk _ | with_reducible exact romRead_bk _ _ | with_reducible exact fetch_bk _ | with_reducible exact sfrGet_bk _
  | with_reducible exact accRead_bk | with_reducible exact orgC_bk | with_reducible exact sfrRead_bk _ _ _ | with_reducible exact sfrWrite_bk _ _ _ | with_reducible exact iramRead_bk _ _
  | with_reducible exact iramWrite_bk _ _ _ | with_reducible exact dirRead_bk _ _ _ | with_reducible exact dirWrite_bk _ _ _ | with_reducible exact regRead_bk _
  | with_reducible exact regWrite_bk _ _ | with_reducible exact riAddr_bk _ | with_reducible exact xramRead_bk _ | with_reducible exact xramWrite_bk _ _ | with_reducible exact bitGet_bk _
  | with_reducible exact bitRead_bk _ _ | with_reducible exact setCY_bk _ | with_reducible exact bitWrite_bk _ _ _ | with_reducible exact dptrRead_bk | with_reducible exact dptrWrite_bk _
  | with_reducible exact relJump_bk _ | with_reducible exact branchIf_bk _ _ | with_reducible exact addBody_bk _ _ _ _ | with_reducible exact subbBody_bk _ _ _
  | with_reducible exact divAB_bk _ | with_reducible exact mulAB_bk _ | with_reducible exact pushByte_bk _ _ | with_reducible exact popByte_bk _ | with_reducible exact popLevel_bk
  | with_reducible exact setReti_bk | with_reducible exact retBody_bk _ | with_reducible exact cjneBody_bk _ _ _ | with_reducible exact undefBody_bk _ | with_reducible exact Pres.pure _
  | (with_reducible refine Pres.bind ?_ (fun _ => ?_)) | (with_reducible refine Pres.ite ?_ ?_)))

theorem exec_bk (o : Op) (c : Byte) : Pres (BankOk (H := H)) (exec P o c) := by
  cases o <;> simp only [exec] <;> bk

theorem execInst_bk : Pres (BankOk (H := H)) (execInst P) := by
  unfold execInst
  exact Pres.bind (fetch_bk P) fun c => Pres.bind (tick_bk 1) fun _ => exec_bk P _ _

theorem tickHw_bk (n : Nat) : Pres (BankOk (H := H)) (tickHw P n) := by
  induction n with
  | zero => exact fun _ h => h
  | succ n ih =>
    intro s h
    exact ih _ (h.same rfl (by simp [protect, isCore, PSW]))

theorem clear_bk (i : ItSrc) : Pres (BankOk (H := H)) (i.clear P) := by
  unfold ItSrc.clear; bk

theorem wake_bk : Pres (BankOk (H := H)) wake := fun _ h => h.same rfl (by simp [wake, upd, PCON, PSW])

theorem acceptIt_bk (l : ItLevel) : Pres (BankOk (H := H)) (acceptIt P l) := by
  unfold acceptIt
  exact Pres.bind wake_bk fun _ => Pres.bind (fun _ h => h) fun _ => Pres.bind (tick_bk 1) fun _ => lcallTo_bk P _

theorem doInterrupt_bk : Pres (BankOk (H := H)) (doInterrupt P) := by
  intro s h
  unfold doInterrupt
  split
  · exact h
  · split
    · exact h
    · split
      · exact h
      · unfold takeIt
        split
        · exact wake_bk _ h
        · exact acceptIt_bk P _ _ (clear_bk P _ _ h)

theorem runPart_bk : Pres (BankOk (H := H)) (runPart P) := by
  intro s h
  unfold runPart
  split
  · exact tickHw_bk P _ _ (execInst_bk P _ h)
  · exact h

theorem idlePd_bk : Pres (BankOk (H := H)) (idlePd P) := by
  intro s h; unfold idlePd; split <;> exact h

theorem doInst_bk : Pres (BankOk (H := H)) (doInst P) := by
  intro s h
  have h1 := runPart_bk P s h
  have h2 := doInterrupt_bk P _ h1
  simp only [doInst]
  split
  · exact h1
  · split
    · exact idlePd_bk P _ h2
    · exact h2

end Ucsim.S51
