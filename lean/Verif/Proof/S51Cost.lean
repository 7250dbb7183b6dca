import Verif.Proof.S51Stack

/- How many machine cycles are counted. -/
namespace Ucsim.S51
open Spec

variable {H : Type} (P : Hw H)

/-- The action counts `k` machine cycles. -/
def Cost (k : Nat) {α : Type} (m : M H α) : Prop := ∀ s, (m s).2.cyc = s.cyc + k ∧ (m s).2.total = s.total + k

theorem Cost.bind0 {k : Nat} {α β : Type} {m : M H α} {f : α → M H β} (h1 : Cost 0 m) (h2 : ∀ a, Cost k (f a)) : Cost k (m >>= f) := by
  intro s
  have a := h1 s; have b := h2 (m s).1 (m s).2
  simp only [bind_def]; omega
theorem Cost.bind1 {k : Nat} {α β : Type} {m : M H α} {f : α → M H β} (h1 : Cost k m) (h2 : ∀ a, Cost 0 (f a)) : Cost k (m >>= f) := by
  intro s
  have a := h1 s; have b := h2 (m s).1 (m s).2
  simp only [bind_def]; omega
theorem Cost.pure {α : Type} (a : α) : Cost 0 (Pure.pure a : M H α) := fun _ => ⟨rfl, rfl⟩
theorem Cost.ite {k : Nat} {α : Type} {c : Prop} [Decidable c] {m n : M H α} (h1 : Cost k m) (h2 : Cost k n) :
    Cost k (if c then m else n) := by split <;> assumption

theorem tick_co (n : Nat) : Cost (H := H) n (tick n) := fun _ => ⟨rfl, rfl⟩
theorem getPC_co  : Cost (H := H) 0 (getPC) := fun _ => ⟨rfl, rfl⟩
theorem setPC_co (a : Nat) : Cost (H := H) 0 (setPC a) := fun _ => ⟨rfl, rfl⟩
theorem romRead_co (a : Nat) : Cost (H := H) 0 (romRead P a) := fun _ => ⟨rfl, rfl⟩
theorem fetch_co  : Cost (H := H) 0 (fetch P) := fun _ => ⟨rfl, rfl⟩
theorem sfrGet_co (a : Nat) : Cost (H := H) 0 (sfrGet a) := fun _ => ⟨rfl, rfl⟩
theorem accRead_co  : Cost (H := H) 0 (accRead) := fun _ => ⟨rfl, rfl⟩
theorem regRead_co (n : Nat) : Cost (H := H) 0 (regRead n) := fun _ => ⟨rfl, rfl⟩
theorem regWrite_co (n : Nat) (v : Byte) : Cost (H := H) 0 (regWrite n v) := fun _ => ⟨rfl, rfl⟩
theorem riAddr_co (c : Byte) : Cost (H := H) 0 (riAddr c) := fun _ => ⟨rfl, rfl⟩
theorem xramRead_co (a : Nat) : Cost (H := H) 0 (xramRead a) := fun _ => ⟨rfl, rfl⟩
theorem xramWrite_co (a : Nat) (v : Byte) : Cost (H := H) 0 (xramWrite a v) := fun _ => ⟨rfl, rfl⟩
theorem iramRead_co (a : Nat) : Cost (H := H) 0 (iramRead P a) := fun _ => ⟨rfl, rfl⟩
theorem sfrSet_co (a : Nat) (v : Byte) : Cost (H := H) 0 (sfrSet a v) := fun _ => ⟨rfl, rfl⟩
theorem sfrSetBit_co (c : Bool) (a : Nat) (m : Byte) : Cost (H := H) 0 (sfrSetBit c a m) := fun _ => ⟨rfl, rfl⟩
theorem dptrRead_co  : Cost (H := H) 0 (dptrRead) := fun _ => ⟨rfl, rfl⟩
theorem dptrWrite_co (v : Nat) : Cost (H := H) 0 (dptrWrite v) := fun _ => ⟨rfl, rfl⟩
theorem relJump_co (d : Byte) : Cost (H := H) 0 (relJump d) := fun _ => ⟨rfl, rfl⟩
theorem setReti_co  : Cost (H := H) 0 (setReti) := fun _ => ⟨rfl, rfl⟩
theorem undefBody_co  : Cost (H := H) 0 (undefBody P) := fun _ => ⟨rfl, rfl⟩
theorem sfrRead_co (a : Nat) (l : Bool) : Cost 0 (sfrRead P a l) := by
  intro s; unfold sfrRead; split <;> exact ⟨rfl, rfl⟩
theorem sfrWrite_co (a : Nat) (v : Byte) : Cost 0 (sfrWrite P a v) := by
  intro s; unfold sfrWrite; repeat (first | exact ⟨rfl, rfl⟩ | split)
theorem iramWrite_co (a : Nat) (v : Byte) : Cost 0 (iramWrite P a v) := by
  intro s; unfold iramWrite; split <;> exact ⟨rfl, rfl⟩
theorem dirRead_co (a : Byte) (l : Bool) : Cost 0 (dirRead P a l) := by
  unfold dirRead; exact Cost.ite (iramRead_co _ _) (sfrRead_co _ _ _)
theorem dirWrite_co (a v : Byte) : Cost 0 (dirWrite P a v) := by
  unfold dirWrite; exact Cost.ite (iramWrite_co _ _ _) (Cost.bind0 (sfrWrite_co _ _ _) (fun _ => Cost.pure _))
theorem bitGet_co (b : Byte) : Cost (H := H) 0 (bitGet b) := by intro s; rw [bitGet_pc]; exact ⟨rfl, rfl⟩
theorem orgC_co : Cost (H := H) 0 orgC := by intro s; rw [orgC_pc]; exact ⟨rfl, rfl⟩
theorem bitSet_co (b : Byte) (v : Bool) : Cost (H := H) 0 (bitSet b v) := by
  intro s; unfold bitSet; split <;> exact ⟨rfl, rfl⟩
theorem bitRead_co (b : Byte) : Cost 0 (bitRead P b) := by
  unfold bitRead; exact Cost.ite (bitGet_co b) (Cost.bind0 (sfrRead_co _ _ _) (fun _ => Cost.pure _))
theorem bitHook_co (b : Byte) (v : Bool) : Cost 0 (bitHook P b v) := fun _ => ⟨rfl, rfl⟩
theorem popLevel_co : Cost (H := H) 0 popLevel := by
  intro s; unfold popLevel; split
  · split <;> exact ⟨rfl, rfl⟩
  · exact ⟨rfl, rfl⟩

macro "co" : tactic => `(tactic| repeat (first
  | with_reducible exact tick_co _
  | with_reducible exact getPC_co
  | with_reducible exact setPC_co _
  | with_reducible exact romRead_co _ _
  | with_reducible exact fetch_co _
  | with_reducible exact sfrGet_co _
  | with_reducible exact accRead_co
  | with_reducible exact regRead_co _
  | with_reducible exact regWrite_co _ _
  | with_reducible exact riAddr_co _
  | with_reducible exact xramRead_co _
  | with_reducible exact xramWrite_co _ _
  | with_reducible exact iramRead_co _ _
  | with_reducible exact sfrSet_co _ _
  | with_reducible exact sfrSetBit_co _ _ _
  | with_reducible exact dptrRead_co
  | with_reducible exact dptrWrite_co _
  | with_reducible exact relJump_co _
  | with_reducible exact setReti_co
  | with_reducible exact undefBody_co _
  | with_reducible exact sfrRead_co _ _ _
  | with_reducible exact sfrWrite_co _ _ _
  | with_reducible exact iramWrite_co _ _ _
  | with_reducible exact dirRead_co _ _ _
  | with_reducible exact dirWrite_co _ _ _
  | with_reducible exact bitGet_co _
  | with_reducible exact orgC_co
  | with_reducible exact bitSet_co _ _
  | with_reducible exact bitRead_co _ _
  | with_reducible exact bitHook_co _ _ _
  | with_reducible exact popLevel_co
  | with_reducible exact Cost.pure _
  | (with_reducible refine Cost.bind1 (tick_co _) (fun _ => ?_))
  | (with_reducible refine Cost.bind0 ?_ (fun _ => ?_)) | (with_reducible refine Cost.ite ?_ ?_)))

theorem bitWrite_co (b : Byte) (v : Bool) : Cost 0 (bitWrite P b v) := by unfold bitWrite; co
theorem branchIf_co (b : Bool) (d : Byte) : Cost (H := H) 0 (branchIf b d) := by unfold branchIf; co
theorem addBody_co (a d : Byte) (c : Nat) : Cost 0 (addBody P a d c) := by unfold addBody; co
theorem subbBody_co (v : Bool) (d : Byte) : Cost 0 (subbBody P v d) := by cases v <;> (unfold subbBody; co)
theorem divAB_co : Cost 3 (divAB P) := by unfold divAB; co
theorem mulAB_co : Cost 3 (mulAB P) := by unfold mulAB; co
theorem pushByte_co (v : Byte) : Cost 0 (pushByte P v) := by unfold pushByte; co
theorem popByte_co : Cost 0 (popByte P) := by unfold popByte; co
theorem retBody_co : Cost 1 (retBody P) := by
  unfold retBody
  exact Cost.bind0 (popByte_co P) fun _ => Cost.bind1 (tick_co 1) fun _ => Cost.bind0 (popByte_co P) fun _ => setPC_co _
theorem cjneBody_co (x d j : Byte) : Cost (H := H) 0 (cjneBody x d j) := by
  unfold cjneBody; exact Cost.bind0 (bitSet_co _ _) fun _ => branchIf_co _ _
theorem lcallTo_co (a : Nat) : Cost 0 (lcallTo P a) := by
  unfold lcallTo
  exact Cost.bind0 getPC_co fun _ => Cost.bind0 (pushByte_co P _) fun _ => Cost.bind0 (pushByte_co P _) fun _ => setPC_co _

macro "co2" : tactic => `(tactic| repeat (first
  | with_reducible exact tick_co _
  | with_reducible exact getPC_co
  | with_reducible exact setPC_co _
  | with_reducible exact romRead_co _ _
  | with_reducible exact fetch_co _
  | with_reducible exact sfrGet_co _
  | with_reducible exact accRead_co
  | with_reducible exact regRead_co _
  | with_reducible exact regWrite_co _ _
  | with_reducible exact riAddr_co _
  | with_reducible exact xramRead_co _
  | with_reducible exact xramWrite_co _ _
  | with_reducible exact iramRead_co _ _
  | with_reducible exact sfrSet_co _ _
  | with_reducible exact sfrSetBit_co _ _ _
  | with_reducible exact dptrRead_co
  | with_reducible exact dptrWrite_co _
  | with_reducible exact relJump_co _
  | with_reducible exact setReti_co
  | with_reducible exact undefBody_co _
  | with_reducible exact sfrRead_co _ _ _
  | with_reducible exact sfrWrite_co _ _ _
  | with_reducible exact iramWrite_co _ _ _
  | with_reducible exact dirRead_co _ _ _
  | with_reducible exact dirWrite_co _ _ _
  | with_reducible exact bitGet_co _
  | with_reducible exact orgC_co
  | with_reducible exact bitSet_co _ _
  | with_reducible exact bitRead_co _ _
  | with_reducible exact bitHook_co _ _ _
  | with_reducible exact popLevel_co
  | with_reducible exact bitWrite_co _ _ _
  | with_reducible exact branchIf_co _ _
  | with_reducible exact addBody_co _ _ _ _
  | with_reducible exact subbBody_co _ _ _
  | with_reducible exact pushByte_co _ _
  | with_reducible exact popByte_co _
  | with_reducible exact cjneBody_co _ _ _
  | with_reducible exact lcallTo_co _ _
  | with_reducible exact divAB_co _
  | with_reducible exact mulAB_co _
  | with_reducible exact retBody_co _
  | with_reducible exact Cost.pure _
  | (with_reducible refine Cost.bind1 (tick_co _) (fun _ => ?_))
  | (with_reducible refine Cost.bind1 (divAB_co _) (fun _ => ?_))
  | (with_reducible refine Cost.bind1 (mulAB_co _) (fun _ => ?_))
  | (with_reducible refine Cost.bind1 (retBody_co _) (fun _ => ?_))
  | (with_reducible refine Cost.bind0 ?_ (fun _ => ?_)) | (with_reducible refine Cost.ite ?_ ?_)))

/-- Cycles beyond the first. -/
def extra : Op → Nat
  | .mul | .div => 3
  | .incDptr | .ajmp | .jbc | .ljmp | .acall | .lcall | .jb | .ret | .jnb | .reti | .jc | .jnc | .jz | .jnz | .jmpADptr | .sjmp | .cjneAImm | .cjneADir | .cjneRi | .cjneRn | .djnzDir | .djnzRn | .orlC | .anlC | .orlCN | .anlCN | .movBitC | .orlDirImm | .anlDirImm | .xrlDirImm | .movDirImm | .movcPC | .movDirDir | .movDirRi | .movDirRn | .movDptr | .movcDptr | .movRiDir | .movRnDir | .push | .pop | .movxADptr | .movxARi | .movxDptrA | .movxRiA => 1
  | _ => 0

theorem exec_co (o : Op) (c : Byte) : Cost (extra o) (exec P o c) := by
  cases o <;> simp only [exec, extra] <;> co2

theorem execInst_cyc (s : St H) : (execInst P s).2.cyc = s.cyc + 1 + extra (decode (fetch P s).1) ∧
    (execInst P s).2.total = s.total + 1 + extra (decode (fetch P s).1) := by
  have h := exec_co P (decode (fetch P s).1) (fetch P s).1 (tick 1 (fetch P s).2).2
  exact h

end Ucsim.S51
