import Verif.Proof.S51Stack

/- What instructions leave alone: interrupt levels, the power state, code memory. -/
namespace Ucsim.S51
open Spec

variable {H : Type} (P : Hw H)

/-- What only the interrupt logic (and RETI) changes. -/
def ctl (s : St H) : List ItLevel × CpuState × Nat × (Nat → Byte) := (s.levels, s.state, s.instPC, s.rom)

def Keep {α : Type} (m : M H α) : Prop := ∀ s, ctl (m s).2 = ctl s

theorem Keep.bind {α β : Type} {m : M H α} {f : α → M H β} (h1 : Keep m) (h2 : ∀ a, Keep (f a)) : Keep (m >>= f) :=
  fun s => (h2 _ _).trans (h1 s)
theorem Keep.pure {α : Type} (a : α) : Keep (Pure.pure a : M H α) := fun _ => rfl
theorem Keep.ite {α : Type} {c : Prop} [Decidable c] {m n : M H α} (h1 : Keep m) (h2 : Keep n) :
    Keep (if c then m else n) := by split <;> assumption

theorem tick_kp (n : Nat) : Keep (H := H) (tick n) := fun _ => rfl
theorem getPC_kp  : Keep (H := H) (getPC) := fun _ => rfl
theorem setPC_kp (a : Nat) : Keep (H := H) (setPC a) := fun _ => rfl
theorem romRead_kp (a : Nat) : Keep (H := H) (romRead P a) := fun _ => rfl
theorem fetch_kp  : Keep (H := H) (fetch P) := fun _ => rfl
theorem sfrGet_kp (a : Nat) : Keep (H := H) (sfrGet a) := fun _ => rfl
theorem accRead_kp  : Keep (H := H) (accRead) := fun _ => rfl
theorem regRead_kp (n : Nat) : Keep (H := H) (regRead n) := fun _ => rfl
theorem regWrite_kp (n : Nat) (v : Byte) : Keep (H := H) (regWrite n v) := fun _ => rfl
theorem riAddr_kp (c : Byte) : Keep (H := H) (riAddr c) := fun _ => rfl
theorem xramRead_kp (a : Nat) : Keep (H := H) (xramRead a) := fun _ => rfl
theorem xramWrite_kp (a : Nat) (v : Byte) : Keep (H := H) (xramWrite a v) := fun _ => rfl
theorem iramRead_kp (a : Nat) : Keep (H := H) (iramRead P a) := fun _ => rfl
theorem sfrSet_kp (a : Nat) (v : Byte) : Keep (H := H) (sfrSet a v) := fun _ => rfl
theorem sfrSetBit_kp (c : Bool) (a : Nat) (m : Byte) : Keep (H := H) (sfrSetBit c a m) := fun _ => rfl
theorem dptrRead_kp  : Keep (H := H) (dptrRead) := fun _ => rfl
theorem dptrWrite_kp (v : Nat) : Keep (H := H) (dptrWrite v) := fun _ => rfl
theorem relJump_kp (d : Byte) : Keep (H := H) (relJump d) := fun _ => rfl
theorem setReti_kp  : Keep (H := H) (setReti) := fun _ => rfl
theorem undefBody_kp  : Keep (H := H) (undefBody P) := fun _ => rfl
theorem sfrRead_kp (a : Nat) (l : Bool) : Keep (sfrRead P a l) := by
  intro s; unfold sfrRead; split <;> rfl
theorem sfrWrite_kp (a : Nat) (v : Byte) : Keep (sfrWrite P a v) := by
  intro s; unfold sfrWrite; repeat (first | rfl | split)
theorem iramWrite_kp (a : Nat) (v : Byte) : Keep (iramWrite P a v) := by
  intro s; unfold iramWrite; split <;> rfl
theorem dirRead_kp (a : Byte) (l : Bool) : Keep (dirRead P a l) := by
  unfold dirRead; exact Keep.ite (iramRead_kp _ _) (sfrRead_kp _ _ _)
theorem dirWrite_kp (a v : Byte) : Keep (dirWrite P a v) := by
  unfold dirWrite; exact Keep.ite (iramWrite_kp _ _ _) (Keep.bind (sfrWrite_kp _ _ _) (fun _ => Keep.pure _))
theorem bitGet_kp (b : Byte) : Keep (H := H) (bitGet b) := by intro s; rw [bitGet_pc]
theorem orgC_kp : Keep (H := H) orgC := by intro s; rw [orgC_pc]
theorem bitSet_kp (b : Byte) (v : Bool) : Keep (H := H) (bitSet b v) := by
  intro s; unfold bitSet; split <;> rfl
theorem bitRead_kp (b : Byte) : Keep (bitRead P b) := by
  unfold bitRead; exact Keep.ite (bitGet_kp b) (Keep.bind (sfrRead_kp _ _ _) (fun _ => Keep.pure _))
theorem bitHook_kp (b : Byte) (v : Bool) : Keep (bitHook P b v) := fun _ => rfl

macro "kp" : tactic => `(tactic| repeat (first
  | with_reducible exact tick_kp _
  | with_reducible exact getPC_kp
  | with_reducible exact setPC_kp _
  | with_reducible exact romRead_kp _ _
  | with_reducible exact fetch_kp _
  | with_reducible exact sfrGet_kp _
  | with_reducible exact accRead_kp
  | with_reducible exact regRead_kp _
  | with_reducible exact regWrite_kp _ _
  | with_reducible exact riAddr_kp _
  | with_reducible exact xramRead_kp _
  | with_reducible exact xramWrite_kp _ _
  | with_reducible exact iramRead_kp _ _
  | with_reducible exact sfrSet_kp _ _
  | with_reducible exact sfrSetBit_kp _ _ _
  | with_reducible exact dptrRead_kp
  | with_reducible exact dptrWrite_kp _
  | with_reducible exact relJump_kp _
  | with_reducible exact setReti_kp
  | with_reducible exact undefBody_kp _
  | with_reducible exact sfrRead_kp _ _ _
  | with_reducible exact sfrWrite_kp _ _ _
  | with_reducible exact iramWrite_kp _ _ _
  | with_reducible exact dirRead_kp _ _ _
  | with_reducible exact dirWrite_kp _ _ _
  | with_reducible exact bitGet_kp _
  | with_reducible exact orgC_kp
  | with_reducible exact bitSet_kp _ _
  | with_reducible exact bitRead_kp _ _
  | with_reducible exact bitHook_kp _ _ _
  | with_reducible exact Keep.pure _
  | (with_reducible refine Keep.bind ?_ (fun _ => ?_)) | (with_reducible refine Keep.ite ?_ ?_)))

theorem bitWrite_kp (b : Byte) (v : Bool) : Keep (bitWrite P b v) := by unfold bitWrite; kp
theorem branchIf_kp (b : Bool) (d : Byte) : Keep (H := H) (branchIf b d) := by unfold branchIf; kp
theorem addBody_kp (a d : Byte) (c : Nat) : Keep (addBody P a d c) := by unfold addBody; kp
theorem subbBody_kp (v : Bool) (d : Byte) : Keep (subbBody P v d) := by cases v <;> (unfold subbBody; kp)
theorem divAB_kp : Keep (divAB P) := by unfold divAB; kp
theorem mulAB_kp : Keep (mulAB P) := by unfold mulAB; kp
theorem pushByte_kp (v : Byte) : Keep (pushByte P v) := by unfold pushByte; kp
theorem popByte_kp : Keep (popByte P) := by unfold popByte; kp
theorem retBody_kp : Keep (retBody P) := by
  unfold retBody
  exact Keep.bind (popByte_kp P) fun _ => Keep.bind (tick_kp 1) fun _ => Keep.bind (popByte_kp P) fun _ => setPC_kp _
theorem cjneBody_kp (x d j : Byte) : Keep (H := H) (cjneBody x d j) := by
  unfold cjneBody; exact Keep.bind (bitSet_kp _ _) fun _ => branchIf_kp _ _
theorem lcallTo_kp (a : Nat) : Keep (lcallTo P a) := by
  unfold lcallTo
  exact Keep.bind getPC_kp fun _ => Keep.bind (pushByte_kp P _) fun _ => Keep.bind (pushByte_kp P _) fun _ => setPC_kp _

macro "kp2" : tactic => `(tactic| repeat (first
  | with_reducible exact bitWrite_kp _ _ _ | with_reducible exact branchIf_kp _ _ | with_reducible exact addBody_kp _ _ _ _
  | with_reducible exact subbBody_kp _ _ _ | with_reducible exact divAB_kp _ | with_reducible exact mulAB_kp _
  | with_reducible exact pushByte_kp _ _ | with_reducible exact popByte_kp _ | with_reducible exact retBody_kp _
  | with_reducible exact cjneBody_kp _ _ _
  | with_reducible exact tick_kp _
  | with_reducible exact getPC_kp
  | with_reducible exact setPC_kp _
  | with_reducible exact romRead_kp _ _
  | with_reducible exact fetch_kp _
  | with_reducible exact sfrGet_kp _
  | with_reducible exact accRead_kp
  | with_reducible exact regRead_kp _
  | with_reducible exact regWrite_kp _ _
  | with_reducible exact riAddr_kp _
  | with_reducible exact xramRead_kp _
  | with_reducible exact xramWrite_kp _ _
  | with_reducible exact iramRead_kp _ _
  | with_reducible exact sfrSet_kp _ _
  | with_reducible exact sfrSetBit_kp _ _ _
  | with_reducible exact dptrRead_kp
  | with_reducible exact dptrWrite_kp _
  | with_reducible exact relJump_kp _
  | with_reducible exact setReti_kp
  | with_reducible exact undefBody_kp _
  | with_reducible exact sfrRead_kp _ _ _
  | with_reducible exact sfrWrite_kp _ _ _
  | with_reducible exact iramWrite_kp _ _ _
  | with_reducible exact dirRead_kp _ _ _
  | with_reducible exact dirWrite_kp _ _ _
  | with_reducible exact bitGet_kp _
  | with_reducible exact orgC_kp
  | with_reducible exact bitSet_kp _ _
  | with_reducible exact bitRead_kp _ _
  | with_reducible exact bitHook_kp _ _ _
  | with_reducible exact Keep.pure _
  | (with_reducible refine Keep.bind ?_ (fun _ => ?_)) | (with_reducible refine Keep.ite ?_ ?_)))

theorem exec_kp (o : Op) (c : Byte) (h : o ≠ .reti) : Keep (exec P o c) := by
  cases o <;> first
    | exact absurd rfl h
    | (simp only [exec]; kp2; done)

theorem tickHw_kp (n : Nat) : Keep (tickHw P n) := by
  induction n with
  | zero => exact fun _ => rfl
  | succ n ih => intro s; exact (ih _).trans rfl

theorem clear_kp (i : ItSrc) : Keep (i.clear P) := by unfold ItSrc.clear; kp

end Ucsim.S51
