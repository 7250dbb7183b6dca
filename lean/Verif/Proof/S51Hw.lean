import Verif.Proof.S51Stack
import Verif.Props.S51Par

/- Invariants of peripherals: what a device keeps through every access and machine cycle
it keeps through every history of the machine. -/
namespace Ucsim.S51
open Spec

variable {H : Type} (P : Hw H)

/-- A relation between the hardware and the SFRs that survives everything that can
happen to either. -/
structure HwInv (I : H → (Nat → Byte) → Prop) : Prop where
  core : ∀ h f a v, isCore a = true → I h f → I h (upd f a v)
  pcon : ∀ h f v, I h f → I h (upd f PCON v)
  rd : ∀ h f a l, I h f → I (P.sfrRdEff h f a l) f
  dummy : ∀ h f, I h f → I (P.dummyWr h) f
  wr : ∀ h f a v, isCore a = false → I h f →
    I (P.sfrWr h f a v).2.1 (upd (protect f (P.sfrWr h f a v).2.2) a (P.sfrWr h f a v).1)
  /-- A bit of a CPU register: its hook. -/
  hook : ∀ h f (b : Byte) v, isCore (b.toNat / 8 * 8) = true → I h f → I (P.bitWr h f b.toNat v).1 (protect f (P.bitWr h f b.toNat v).2)
  /-- Any other bit: write of the SFR, hook, store. -/
  bit : ∀ h f (b : Byte) v, 0x80 ≤ b.toNat → isCore (b.toNat / 8 * 8) = false → I h f →
    let a := b.toNat / 8 * 8
    let w := P.sfrWr h f a (putBits (f a) (bitMask b) v)
    let f1 := upd (protect f w.2.2) a w.1
    let k := P.bitWr w.2.1 f1 b.toNat v
    let f2 := protect f1 k.2
    I k.1 (upd f2 a (putBits (f2 a) (bitMask b) v))
  tick : ∀ h f, I h f → I (P.tick h f).1 (protect f (P.tick h f).2)

variable {I : H → (Nat → Byte) → Prop}

def OnHw (I : H → (Nat → Byte) → Prop) (s : St H) : Prop := I s.hw s.sfr

variable {P} (K : HwInv P I)

section
include K
theorem sfrRead_hw (a : Nat) (l : Bool) : Pres (OnHw I) (sfrRead P a l) := by
  intro s h; unfold sfrRead; split
  · exact h
  · exact K.rd _ _ _ _ h
theorem accWrite_hw (v : Byte) : Pres (OnHw I) (accWrite v) := by
  intro s h; exact K.core _ _ _ _ (by decide) (K.core _ _ _ _ (by decide) h)
theorem pswWrite_hw (v : Byte) : Pres (OnHw I) (pswWrite v) := by
  intro s h; exact K.core _ _ _ _ (by decide) h
theorem sfrWrite_hw (a : Nat) (v : Byte) : Pres (OnHw I) (sfrWrite P a v) := by
  intro s h
  unfold sfrWrite
  split
  · exact accWrite_hw K v s h
  · split
    · exact pswWrite_hw K v s h
    · split
      · exact K.core _ _ _ _ (by assumption) h
      · exact K.wr _ _ _ _ (by simpa using ‹¬ isCore a = true›) h
theorem sfrSet_hw (a : Nat) (ha : isCore a = true) (v : Byte) : Pres (OnHw I) (sfrSet a v) := by
  intro s h; exact K.core _ _ _ _ ha h
theorem sfrSetBit_hw (c : Bool) (m : Byte) : Pres (OnHw I) (sfrSetBit c PSW m) := by
  intro s h; exact K.core _ _ _ _ (by decide) h
theorem iramWrite_hw (a : Nat) (v : Byte) : Pres (OnHw I) (iramWrite P a v) := by
  intro s h; unfold iramWrite; split
  · exact h
  · exact K.dummy _ _ h
theorem setCY_hw (v : Bool) : Pres (OnHw I) (bitSet CYbit v) := by
  intro s h
  have e : (bitSet CYbit v s).2 = { s with sfr := upd s.sfr PSW (putBits (s.sfr PSW) 0x80#8 v) } := by
    simp only [bitSet, if_neg CYge, maskCY, bitMaskCY]
  rw [e]; exact K.core _ _ _ _ (by decide) h
theorem dirWrite_hw (a v : Byte) : Pres (OnHw I) (dirWrite P a v) := by
  unfold dirWrite; exact Pres.ite (iramWrite_hw K _ _) (Pres.bind (sfrWrite_hw K _ _) (fun _ => Pres.pure _))
theorem bitWrite_hw (b : Byte) (v : Bool) : Pres (OnHw I) (bitWrite P b v) := by
  intro s h
  unfold bitWrite
  split
  · rename_i hb
    simp only [bitSet, hb, if_true]; exact h
  · rename_i hb
    simp only [bind_def, sfrGet, bitBase]
    have e : ∀ u : St H, (bitSet b v u).2 = { u with sfr := (upd u.sfr (b.toNat / 8 * 8)
        (putBits (u.sfr (b.toNat / 8 * 8)) (bitMask b) v)) } := by
      intro u; simp only [bitSet, if_neg hb, bitBase]
    rw [e]
    cases hc : isCore (b.toNat / 8 * 8) with
    | true =>
      refine K.core _ _ _ _ hc ?_
      exact K.hook _ _ _ _ hc (sfrWrite_hw K _ _ s h)
    | false =>
      have n1 : ¬ b.toNat / 8 * 8 = ACC := by intro x; rw [x] at hc; revert hc; decide
      have n2 : ¬ b.toNat / 8 * 8 = PSW := by intro x; rw [x] at hc; revert hc; decide
      simp only [sfrWrite, if_neg n1, if_neg n2, hc, Bool.false_eq_true, if_false]
      exact K.bit _ _ b v (by omega) hc h
end

theorem tick_hw (n : Nat) : Pres (OnHw I) (tick n) := fun _ h => h
theorem getPC_hw : Pres (OnHw I) getPC := fun _ h => h
theorem setPC_hw (a : Nat) : Pres (OnHw I) (setPC a) := fun _ h => h
variable (P) in
theorem romRead_hw (a : Nat) : Pres (OnHw I) (romRead P a) := fun _ h => h
variable (P) in
theorem fetch_hw : Pres (OnHw I) (fetch P) := fun _ h => h
theorem sfrGet_hw (a : Nat) : Pres (OnHw I) (sfrGet a) := fun _ h => h
theorem accRead_hw : Pres (OnHw I) accRead := fun _ h => h
theorem orgC_hw : Pres (OnHw I) orgC := fun s h => by rw [orgC_pc]; exact h
variable (P) in
theorem iramRead_hw (a : Nat) : Pres (OnHw I) (iramRead P a) := fun _ h => h
theorem regRead_hw (n : Nat) : Pres (OnHw I) (regRead n) := fun _ h => h
theorem regWrite_hw (n : Nat) (v : Byte) : Pres (OnHw I) (regWrite n v) := fun _ h => h
theorem riAddr_hw (c : Byte) : Pres (OnHw I) (riAddr c) := fun _ h => h
theorem xramRead_hw (a : Nat) : Pres (OnHw I) (xramRead a) := fun _ h => h
theorem xramWrite_hw (a : Nat) (v : Byte) : Pres (OnHw I) (xramWrite a v) := fun _ h => h
theorem bitGet_hw (b : Byte) : Pres (OnHw I) (bitGet b) := by intro s h; rw [bitGet_pc]; exact h
theorem relJump_hw (d : Byte) : Pres (OnHw I) (relJump d) := fun _ h => h
theorem branchIf_hw (b : Bool) (d : Byte) : Pres (OnHw I) (branchIf b d) := by
  unfold branchIf; exact Pres.ite (relJump_hw _) (Pres.pure _)
theorem dptrRead_hw : Pres (OnHw I) dptrRead := fun _ h => h
theorem popLevel_hw : Pres (OnHw I) popLevel := by
  intro s h; unfold popLevel; split
  · split <;> exact h
  · exact h
theorem setReti_hw : Pres (OnHw I) setReti := fun _ h => h
variable (P) in
theorem undefBody_hw : Pres (OnHw I) (undefBody P) := fun _ h => h

section
include K
theorem dirRead_hw (a : Byte) (l : Bool) : Pres (OnHw I) (dirRead P a l) := by
  unfold dirRead; exact Pres.ite (iramRead_hw P _) (sfrRead_hw K _ _)
theorem bitRead_hw (b : Byte) : Pres (OnHw I) (bitRead P b) := by
  unfold bitRead; exact Pres.ite (bitGet_hw b) (Pres.bind (sfrRead_hw K _ _) (fun _ => Pres.pure _))
theorem dptrWrite_hw (v : Nat) : Pres (OnHw I) (dptrWrite v) := by
  unfold dptrWrite
  exact Pres.bind (sfrSet_hw K _ (by decide) _) fun _ => sfrSet_hw K _ (by decide) _
theorem addBody_hw (a d : Byte) (c : Nat) : Pres (OnHw I) (addBody P a d c) := by
  unfold addBody
  exact Pres.bind (sfrWrite_hw K _ _) fun _ => Pres.bind (setCY_hw K _) fun _ =>
    Pres.bind (sfrSetBit_hw K _ _) fun _ => sfrSetBit_hw K _ _
theorem subbBody_hw (v : Bool) (d : Byte) : Pres (OnHw I) (subbBody P v d) := by
  cases v <;>
  · unfold subbBody
    repeat (first
      | with_reducible exact tick_hw _ | with_reducible exact sfrGet_hw _ | with_reducible exact accRead_hw
      | with_reducible exact orgC_hw | with_reducible exact sfrWrite_hw K _ _ | with_reducible exact setCY_hw K _
      | with_reducible exact sfrSet_hw K PSW (by decide) _
      | exact Pres.bind (sfrWrite_hw K _ _) fun _ => Pres.pure _
      | with_reducible exact sfrSetBit_hw K _ _ | with_reducible exact bitGet_hw _ | with_reducible exact bitWrite_hw K _ _
      | with_reducible exact Pres.pure _
      | (with_reducible refine Pres.bind ?_ (fun _ => ?_)) | (with_reducible refine Pres.ite ?_ ?_))
theorem divAB_hw : Pres (OnHw I) (divAB P) := by
  unfold divAB
  exact Pres.bind (sfrGet_hw _) fun _ => Pres.bind accRead_hw fun _ => Pres.bind (sfrGet_hw _) fun _ => Pres.ite
    (Pres.bind (sfrWrite_hw K _ _) fun _ => Pres.bind (sfrWrite_hw K _ _) fun _ => tick_hw _)
    (Pres.bind (sfrWrite_hw K _ _) fun _ => Pres.bind (sfrWrite_hw K _ _) fun _ =>
      Pres.bind (sfrWrite_hw K _ _) fun _ => tick_hw _)
theorem mulAB_hw : Pres (OnHw I) (mulAB P) := by
  unfold mulAB
  exact Pres.bind accRead_hw fun _ => Pres.bind (sfrGet_hw _) fun _ => Pres.bind (sfrWrite_hw K _ _) fun _ =>
    Pres.bind (sfrWrite_hw K _ _) fun _ => Pres.bind (sfrSetBit_hw K _ _) fun _ =>
    Pres.bind (sfrSetBit_hw K _ _) fun _ => tick_hw _
theorem pushByte_hw (v : Byte) : Pres (OnHw I) (pushByte P v) := by
  unfold pushByte
  exact Pres.bind (sfrRead_hw K _ _) fun _ => Pres.bind (sfrWrite_hw K _ _) fun _ => iramWrite_hw K _ _
theorem popByte_hw : Pres (OnHw I) (popByte P) := by
  unfold popByte
  exact Pres.bind (sfrRead_hw K _ _) fun _ => Pres.bind (iramRead_hw P _) fun _ => Pres.bind (sfrWrite_hw K _ _) fun _ =>
    Pres.pure _
theorem retBody_hw : Pres (OnHw I) (retBody P) := by
  unfold retBody
  exact Pres.bind (popByte_hw K) fun _ => Pres.bind (tick_hw _) fun _ => Pres.bind (popByte_hw K) fun _ => setPC_hw _
theorem cjneBody_hw (x d j : Byte) : Pres (OnHw I) (cjneBody x d j) := by
  unfold cjneBody; exact Pres.bind (setCY_hw K _) fun _ => branchIf_hw _ _
theorem lcallTo_hw (a : Nat) : Pres (OnHw I) (lcallTo P a) := by
  unfold lcallTo
  exact Pres.bind getPC_hw fun _ => Pres.bind (pushByte_hw K _) fun _ => Pres.bind (pushByte_hw K _) fun _ => setPC_hw _
end

/-- One rule after the other. -/
macro "hwp" K:ident : tactic => `(tactic| repeat (first
  | with_reducible exact tick_hw _ | with_reducible exact getPC_hw | with_reducible exact setPC_hw _ | with_reducible exact romRead_hw _ _ | with_reducible exact fetch_hw _ | with_reducible exact sfrGet_hw _
  | with_reducible exact accRead_hw | with_reducible exact orgC_hw | with_reducible exact sfrRead_hw $K _ _ | with_reducible exact sfrWrite_hw $K _ _ | with_reducible exact iramRead_hw _ _
  | with_reducible exact iramWrite_hw $K _ _ | with_reducible exact dirRead_hw $K _ _ | with_reducible exact dirWrite_hw $K _ _ | with_reducible exact regRead_hw _
  | with_reducible exact regWrite_hw _ _ | with_reducible exact riAddr_hw _ | with_reducible exact xramRead_hw _ | with_reducible exact xramWrite_hw _ _ | with_reducible exact bitGet_hw _
  | with_reducible exact bitRead_hw $K _ | with_reducible exact setCY_hw $K _ | with_reducible exact bitWrite_hw $K _ _ | with_reducible exact dptrRead_hw | with_reducible exact dptrWrite_hw $K _
  | with_reducible exact relJump_hw _ | with_reducible exact branchIf_hw _ _ | with_reducible exact addBody_hw $K _ _ _ | with_reducible exact subbBody_hw $K _ _
  | with_reducible exact divAB_hw $K | with_reducible exact mulAB_hw $K | with_reducible exact pushByte_hw $K _ | with_reducible exact popByte_hw $K | with_reducible exact popLevel_hw
  | with_reducible exact setReti_hw | with_reducible exact retBody_hw $K | with_reducible exact cjneBody_hw $K _ _ _ | with_reducible exact undefBody_hw _ | with_reducible exact Pres.pure _
  | (with_reducible refine Pres.bind ?_ (fun _ => ?_)) | (with_reducible refine Pres.ite ?_ ?_)))

section
include K
theorem exec_hw (o : Op) (c : Byte) : Pres (OnHw I) (exec P o c) := by
  cases o <;> simp only [exec] <;> hwp K

theorem execInst_hw : Pres (OnHw I) (execInst P) := by
  unfold execInst
  exact Pres.bind (fetch_hw P) fun c => Pres.bind (tick_hw 1) fun _ => exec_hw K _ _

theorem tickHw_hw (n : Nat) : Pres (OnHw I) (tickHw P n) := by
  induction n with
  | zero => exact fun _ h => h
  | succ n ih => intro s h; exact ih _ (K.tick _ _ h)

theorem clear_hw (i : ItSrc) : Pres (OnHw I) (i.clear P) := by
  unfold ItSrc.clear; hwp K

theorem acceptIt_hw (l : ItLevel) : Pres (OnHw I) (acceptIt P l) := by
  unfold acceptIt
  exact Pres.bind (fun _ h => K.pcon _ _ _ h) fun _ => Pres.bind (fun _ h => h) fun _ =>
    Pres.bind (tick_hw 1) fun _ => lcallTo_hw K _

theorem doInterrupt_hw : Pres (OnHw I) (doInterrupt P) := by
  intro s h
  unfold doInterrupt
  split
  · exact h
  · split
    · exact h
    · split
      · exact h
      · unfold takeIt
        split
        · exact K.pcon _ _ _ h
        · exact acceptIt_hw K _ _ (clear_hw K _ _ h)

theorem runPart_hw : Pres (OnHw I) (runPart P) := by
  intro s h
  unfold runPart
  split
  · exact tickHw_hw K _ _ (execInst_hw K _ h)
  · exact h

theorem doInst_hw : Pres (OnHw I) (doInst P) := by
  intro s h
  have h1 := runPart_hw K s h
  have h2 := doInterrupt_hw K _ h1
  simp only [doInst]
  split
  · exact h1
  · split
    · unfold idlePd; split <;> exact h2
    · exact h2

theorem act_hw (a : Act) (s : St H) (h : OnHw I s) : OnHw I (act P s a) := by
  cases a with
  | step => exact doInst_hw K s h
  | sfr a v => exact sfrWrite_hw K a v s h
  | bit b v => exact bitWrite_hw K b v s h
  | iram a v => exact iramWrite_hw K a v s h

/-- Peripheral invariants hold after every history. -/
theorem play_hw (l : List Act) (s : St H) (h : OnHw I s) : OnHw I (play P s l) := by
  unfold play
  induction l generalizing s with
  | nil => exact h
  | cons a l ih => exact ih _ (act_hw K a s h)
end

end Ucsim.S51
