import Verif.S51.Dis

/- The program counter under the actions of the CPU. -/
namespace Ucsim.S51

variable {H : Type} (P : Hw H)

@[simp] theorem tick_pc (n : Nat) (s : St H) : (tick n s).2.pc = s.pc := rfl
@[simp] theorem getPC_pc (s : St H) : (getPC s).2 = s := rfl
@[simp] theorem getPC_val (s : St H) : (getPC s).1 = s.pc := rfl
@[simp] theorem setPC_pc (a : Nat) (s : St H) : (setPC a s).2.pc = a := rfl
@[simp] theorem romRead_pc (a : Nat) (s : St H) : (romRead P a s).2 = s := rfl
@[simp] theorem fetch_pc (s : St H) : (fetch P s).2.pc = (s.pc + 1) % 0x10000 := rfl
@[simp] theorem sfrGet_pc (a : Nat) (s : St H) : (sfrGet a s).2 = s := rfl
@[simp] theorem accRead_pc (s : St H) : (accRead s).2 = s := rfl
@[simp] theorem sfrSet_pc (a : Nat) (v : Byte) (s : St H) : (sfrSet a v s).2.pc = s.pc := rfl
@[simp] theorem sfrRead_pc (a : Nat) (l : Bool) (s : St H) : (sfrRead P a l s).2.pc = s.pc := by
  unfold sfrRead; split <;> rfl
@[simp] theorem sfrWrite_pc (a : Nat) (v : Byte) (s : St H) : (sfrWrite P a v s).2.pc = s.pc := by
  unfold sfrWrite; repeat (first | rfl | split)
@[simp] theorem iramRead_pc (a : Nat) (s : St H) : (iramRead P a s).2 = s := rfl
@[simp] theorem iramWrite_pc (a : Nat) (v : Byte) (s : St H) : (iramWrite P a v s).2.pc = s.pc := by
  unfold iramWrite; split <;> rfl
@[simp] theorem dirRead_pc (a : Byte) (l : Bool) (s : St H) : (dirRead P a l s).2.pc = s.pc := by
  unfold dirRead; split <;> simp
@[simp] theorem dirWrite_pc (a v : Byte) (s : St H) : (dirWrite P a v s).2.pc = s.pc := by
  unfold dirWrite; split <;> simp [bind_def, pure_def]
@[simp] theorem regRead_pc (n : Nat) (s : St H) : (regRead n s).2 = s := rfl
@[simp] theorem regWrite_pc (n : Nat) (v : Byte) (s : St H) : (regWrite n v s).2.pc = s.pc := rfl
@[simp] theorem riAddr_pc (c : Byte) (s : St H) : (riAddr c s).2 = s := rfl
@[simp] theorem xramRead_pc (a : Nat) (s : St H) : (xramRead a s).2 = s := rfl
@[simp] theorem xramWrite_pc (a : Nat) (v : Byte) (s : St H) : (xramWrite a v s).2.pc = s.pc := rfl
@[simp] theorem bitGet_pc (b : Byte) (s : St H) : (bitGet b s).2 = s := by unfold bitGet; split <;> rfl
@[simp] theorem bitSet_pc (b : Byte) (v : Bool) (s : St H) : (bitSet b v s).2.pc = s.pc := by
  unfold bitSet; split <;> rfl
@[simp] theorem bitRead_pc (b : Byte) (s : St H) : (bitRead P b s).2.pc = s.pc := by
  unfold bitRead; split <;> simp [bind_def, pure_def]
@[simp] theorem bitWrite_pc (b : Byte) (v : Bool) (s : St H) : (bitWrite P b v s).2.pc = s.pc := by
  unfold bitWrite; split <;> simp [bind_def, bitHook]
@[simp] theorem sfrSetBit_pc (c : Bool) (a : Nat) (m : Byte) (s : St H) : (sfrSetBit c a m s).2.pc = s.pc := rfl
@[simp] theorem dptrRead_pc (s : St H) : (dptrRead s).2 = s := rfl
@[simp] theorem dptrWrite_pc (v : Nat) (s : St H) : (dptrWrite v s).2.pc = s.pc := rfl
@[simp] theorem addBody_pc (a d : Byte) (c : Nat) (s : St H) : (addBody P a d c s).2.pc = s.pc := by
  simp [addBody, bind_def, pure_def]
@[simp] theorem orgC_pc (s : St H) : (orgC s).2 = s := by simp [orgC, bind_def, pure_def]
@[simp] theorem subbBody_pc (b : Bool) (d : Byte) (s : St H) : (subbBody P b d s).2.pc = s.pc := by
  unfold subbBody; cases b <;> simp [bind_def, pure_def]
@[simp] theorem pushByte_pc (v : Byte) (s : St H) : (pushByte P v s).2.pc = s.pc := by
  simp [pushByte, bind_def]
@[simp] theorem popByte_pc (s : St H) : (popByte P s).2.pc = s.pc := by
  simp [popByte, bind_def, pure_def]
@[simp] theorem divAB_pc (s : St H) : (divAB P s).2.pc = s.pc := by
  simp only [divAB, bind_def]; split <;> simp [bind_def]
@[simp] theorem mulAB_pc (s : St H) : (mulAB P s).2.pc = s.pc := by
  simp [mulAB, bind_def]

/-- The instructions that may continue elsewhere than at the next instruction. -/
def Op.jumps : Op → Bool
  | .ajmp | .jbc | .ljmp | .acall | .lcall | .jb | .ret | .jnb | .reti | .jc | .jnc | .jz | .jnz | .jmpADptr
  | .sjmp | .cjneAImm | .cjneADir | .cjneRi | .cjneRn | .djnzDir | .djnzRn | .undef => true
  | _ => false

/-- Number of bytes after the opcode. -/
def Op.extra : Op → Nat
  | .ajmp | .acall | .incDir | .decDir | .addImm | .addDir | .addcImm | .addcDir | .jc | .jnc | .jz | .jnz
  | .orlDirA | .orlImm | .orlDir | .anlDirA | .anlImm | .anlDir | .xrlDirA | .xrlImm | .xrlDir | .orlC
  | .movAImm | .movRiImm | .movRnImm | .sjmp | .anlC | .movDirRi | .movDirRn | .movBitC | .subbImm | .subbDir
  | .orlCN | .movCBit | .movRiDir | .movRnDir | .anlCN | .cplBit | .push | .clrBit | .xchDir | .pop | .setbBit
  | .djnzRn | .movADir | .movDirA => 1
  | .jbc | .ljmp | .lcall | .jb | .jnb | .orlDirImm | .anlDirImm | .xrlDirImm | .movDirImm | .movDirDir | .movDptr
  | .cjneAImm | .cjneADir | .cjneRi | .cjneRn | .djnzDir => 2
  | _ => 0

theorem extra_disLen : ∀ c : Byte, disLen c = 1 + (decode c).extra := by decide +kernel

theorem exec_pc (o : Op) (c : Byte) (s : St H) (hp : s.pc < 0x10000) (h : o.jumps = false) :
    (exec P o c s).2.pc = (s.pc + o.extra) % 0x10000 := by
  have e : s.pc % 65536 = s.pc := Nat.mod_eq_of_lt hp
  cases o <;> simp only [Op.jumps, Bool.true_eq_false, reduceCtorEq] at h
  all_goals first
    | (simp [exec, bind_def, pure_def, Op.extra, Nat.add_assoc, e]; done)
    | (simp only [exec, bind_def, pure_def, Op.extra]; split <;> simp [bind_def, pure_def, e])

end Ucsim.S51
