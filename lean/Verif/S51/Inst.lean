import Verif.S51.State

/-
The instructions of the 8051: /repo/src/sims/s51.src/{arith,bit,inc,jmp,logic,mov}.cc
and uc51.cc 1941-1972, and the opcode table uc_itab set up by cl_itab (itab.cc 36-)
and cl_51core::init (uc51.cc 556-734).
-/
namespace Ucsim.S51

/-- The instruction functions (named after the comments in uc51cl.h 165-290). -/
inductive Op
  | nop | ajmp | ljmp | rr | incA | incDir | incRi | incRn | jbc | acall | lcall | rrc | decA | decDir 
  | decRi | decRn | jb | ret | rl | addImm | addDir | addRi | addRn | jnb | reti | rlc | addcImm | addcDir 
  | addcRi | addcRn | jc | orlDirA | orlDirImm | orlImm | orlDir | orlRi | orlRn | jnc | anlDirA | anlDirImm 
  | anlImm | anlDir | anlRi | anlRn | jz | xrlDirA | xrlDirImm | xrlImm | xrlDir | xrlRi | xrlRn | jnz 
  | orlC | jmpADptr | movAImm | movDirImm | movRiImm | movRnImm | sjmp | anlC | movcPC | div | movDirDir 
  | movDirRi | movDirRn | movDptr | movBitC | movcDptr | subbImm | subbDir | subbRi | subbRn | orlCN 
  | movCBit | incDptr | mul | undef | movRiDir | movRnDir | anlCN | cplBit | cplC | cjneAImm | cjneADir 
  | cjneRi | cjneRn | push | clrBit | clrC | swap | xchDir | xchRi | xchRn | pop | setbBit | setbC | da 
  | djnzDir | xchd | djnzRn | movxADptr | movxARi | clrA | movADir | movARi | movARn | movxDptrA | movxRiA 
  | cplA | movDirA | movRiA | movRnA 
deriving DecidableEq

/-! uc_itab, row by row. -/
def oprow0 : List Op := [.nop, .ajmp, .ljmp, .rr, .incA, .incDir, .incRi, .incRi, .incRn, .incRn, .incRn, .incRn, .incRn, .incRn, .incRn, .incRn]
def oprow1 : List Op := [.jbc, .acall, .lcall, .rrc, .decA, .decDir, .decRi, .decRi, .decRn, .decRn, .decRn, .decRn, .decRn, .decRn, .decRn, .decRn]
def oprow2 : List Op := [.jb, .ajmp, .ret, .rl, .addImm, .addDir, .addRi, .addRi, .addRn, .addRn, .addRn, .addRn, .addRn, .addRn, .addRn, .addRn]
def oprow3 : List Op := [.jnb, .acall, .reti, .rlc, .addcImm, .addcDir, .addcRi, .addcRi, .addcRn, .addcRn, .addcRn, .addcRn, .addcRn, .addcRn, .addcRn, .addcRn]
def oprow4 : List Op := [.jc, .ajmp, .orlDirA, .orlDirImm, .orlImm, .orlDir, .orlRi, .orlRi, .orlRn, .orlRn, .orlRn, .orlRn, .orlRn, .orlRn, .orlRn, .orlRn]
def oprow5 : List Op := [.jnc, .acall, .anlDirA, .anlDirImm, .anlImm, .anlDir, .anlRi, .anlRi, .anlRn, .anlRn, .anlRn, .anlRn, .anlRn, .anlRn, .anlRn, .anlRn]
def oprow6 : List Op := [.jz, .ajmp, .xrlDirA, .xrlDirImm, .xrlImm, .xrlDir, .xrlRi, .xrlRi, .xrlRn, .xrlRn, .xrlRn, .xrlRn, .xrlRn, .xrlRn, .xrlRn, .xrlRn]
def oprow7 : List Op := [.jnz, .acall, .orlC, .jmpADptr, .movAImm, .movDirImm, .movRiImm, .movRiImm, .movRnImm, .movRnImm, .movRnImm, .movRnImm, .movRnImm, .movRnImm, .movRnImm, .movRnImm]
def oprow8 : List Op := [.sjmp, .ajmp, .anlC, .movcPC, .div, .movDirDir, .movDirRi, .movDirRi, .movDirRn, .movDirRn, .movDirRn, .movDirRn, .movDirRn, .movDirRn, .movDirRn, .movDirRn]
def oprow9 : List Op := [.movDptr, .acall, .movBitC, .movcDptr, .subbImm, .subbDir, .subbRi, .subbRi, .subbRn, .subbRn, .subbRn, .subbRn, .subbRn, .subbRn, .subbRn, .subbRn]
def oprowa : List Op := [.orlCN, .ajmp, .movCBit, .incDptr, .mul, .undef, .movRiDir, .movRiDir, .movRnDir, .movRnDir, .movRnDir, .movRnDir, .movRnDir, .movRnDir, .movRnDir, .movRnDir]
def oprowb : List Op := [.anlCN, .acall, .cplBit, .cplC, .cjneAImm, .cjneADir, .cjneRi, .cjneRi, .cjneRn, .cjneRn, .cjneRn, .cjneRn, .cjneRn, .cjneRn, .cjneRn, .cjneRn]
def oprowc : List Op := [.push, .ajmp, .clrBit, .clrC, .swap, .xchDir, .xchRi, .xchRi, .xchRn, .xchRn, .xchRn, .xchRn, .xchRn, .xchRn, .xchRn, .xchRn]
def oprowd : List Op := [.pop, .acall, .setbBit, .setbC, .da, .djnzDir, .xchd, .xchd, .djnzRn, .djnzRn, .djnzRn, .djnzRn, .djnzRn, .djnzRn, .djnzRn, .djnzRn]
def oprowe : List Op := [.movxADptr, .ajmp, .movxARi, .movxARi, .clrA, .movADir, .movARi, .movARi, .movARn, .movARn, .movARn, .movARn, .movARn, .movARn, .movARn, .movARn]
def oprowf : List Op := [.movxDptrA, .acall, .movxRiA, .movxRiA, .cplA, .movDirA, .movRiA, .movRiA, .movRnA, .movRnA, .movRnA, .movRnA, .movRnA, .movRnA, .movRnA, .movRnA]

/-- uc_itab[code]. -/
def optab : List Op :=
  oprow0 ++ oprow1 ++ oprow2 ++ oprow3 ++ oprow4 ++ oprow5 ++ oprow6 ++ oprow7 ++ oprow8 ++ oprow9 ++ oprowa ++ oprowb ++ oprowc ++ oprowd ++ oprowe ++ oprowf

def decode (c : Byte) : Op := optab.getD c.toNat .undef

section
variable {H : Type} (P : Hw H)

/-- uchar arithmetic. -/
def byte (n : Nat) : Byte := BitVec.ofNat 8 n

def CYbit : Byte := 0xd7#8

/-- R[code & 7], R[code & 1]. -/
def rn (c : Byte) : Nat := c.toNat % 8
def ri (c : Byte) : Nat := c.toNat % 2

/-- iram->get_cell(R[code & 1]->read()): the address. -/
def riAddr (c : Byte) : M H Nat := do
  let r ← regRead (ri c)
  pure r.toNat

/-! ### arith.cc -/

/-- newC, newA, c6, `acc->write(ac + data + c)`, setting of C, OV, AC: arith.cc
119-127 (24), 148-156 (25), 178-186 (26), 205-213 (28), 256-264 (34), 285-293 (35),
315-323 (36), 342-350 (38). -/
def addBody (ac data : Byte) (c : Nat) : M H Unit := do
  let newC := if ac.toNat + data.toNat + c > 255 then 0x80 else 0
  let newA := ((ac.toNat &&& 0x0f) + (data.toNat &&& 0x0f) + c) &&& 0xf0
  let c6 := ((ac.toNat &&& 0x7f) + (data.toNat &&& 0x7f) + c) &&& 0x80
  let _ ← sfrWrite P ACC (byte (ac.toNat + data.toNat + c))
  bitSet CYbit (newC != 0)
  sfrSetBit (newC ^^^ c6 != 0) PSW 0x04#8
  sfrSetBit (newA != 0) PSW 0x40#8

/-- `orgC= bits->get(0xd7)` as 0 or 1. -/
def orgC : M H Nat := do
  let c ← bitGet CYbit
  pure (if c then 1 else 0)

/-- The new PSW of SUBB, arith.cc 404-413. -/
def subbPsw (pw ac data result : Byte) (c : Nat) : Byte :=
  (pw &&& ~~~(0xc4#8)) |||
  (if ac.toNat < data.toNat + c then 0x80#8 else 0#8) |||
  (if (ac.toNat < 0x80 ∧ data.toNat > 0x7f ∧ result.toNat > 0x7f) ∨
      (ac.toNat > 0x7f ∧ data.toNat < 0x80 ∧ result.toNat < 0x80) then 0x04#8 else 0#8) |||
  (if (ac.toNat &&& 0x0f) < ((data.toNat + c) &&& 0x0f) ∨ (c ≠ 0 ∧ (data.toNat &&& 0x0f) = 0x0f)
    then 0x40#8 else 0#8)

/-- `(pw & bmCY)?1:0`, arith.cc 405. -/
def cyOf (pw : Byte) : Nat := if pw &&& 0x80#8 != 0#8 then 1 else 0

/-- SUBB with an operand, arith.cc 401-414 (94), 432-446 (95), 464-477 (96), 494-507
(98): `viaWrite` tells whether the PSW is written (96, 98) or set (94, 95). -/
def subbBody (viaWrite : Bool) (data : Byte) : M H Unit := do
  let ac ← accRead
  let pw ← sfrGet PSW
  let c := cyOf pw
  let result := byte (ac.toNat + 512 - data.toNat - c)
  let n := subbPsw pw ac data result c
  if viaWrite then do let _ ← sfrWrite P PSW n else sfrSet PSW n
  let _ ← sfrWrite P ACC result

/-- DA A, arith.cc 549-566: accumulator and PSW after the first correction. -/
def daLow (ac pw : Byte) : Byte × Byte :=
  if (ac.toNat &&& 0x0f) > 9 ∨ pw &&& 0x40#8 != 0#8 then
    (ac + 6#8, if ac.toNat + 6 > 255 then pw ||| 0x80#8 else pw)
  else (ac, pw)

/-- ... and after the second, arith.cc 560-566. -/
def daHigh (ac pw : Byte) : Byte × Byte :=
  if (ac.toNat &&& 0xf0) > 0x90 ∨ pw &&& 0x80#8 != 0#8 then
    (ac + 0x60#8, if ac.toNat + 0x60 > 255 then pw ||| 0x80#8 else pw)
  else (ac, pw)

/-- 84 DIV AB, arith.cc 363-385. -/
def divAB : M H Unit := do
  let pw0 ← sfrGet PSW
  let pw := pw0 &&& ~~~(0x80#8)
  let ac ← accRead
  let b ← sfrGet SFRB
  if b = 0#8 then do
    let _ ← sfrWrite P PSW (pw ||| 0x04#8)
    let _ ← sfrWrite P ACC ac
    tick 3
  else do
    let _ ← sfrWrite P SFRB (byte (ac.toNat % b.toNat))
    let _ ← sfrWrite P PSW (pw &&& ~~~(0x04#8))
    let _ ← sfrWrite P ACC (byte (ac.toNat / b.toNat))
    tick 3

/-- a4 MUL AB, arith.cc 519-535. -/
def mulAB : M H Unit := do
  let ac ← accRead
  let b ← sfrGet SFRB
  let temp := ac.toNat * b.toNat
  let _ ← sfrWrite P ACC (byte temp)
  let x ← sfrWrite P SFRB (byte (temp / 256))
  sfrSetBit (x != 0#8) PSW 0x04#8
  sfrSetBit false PSW 0x80#8
  tick 3

/-! ### jmp.cc -/

/-- `sp= sfr->write(SP, sfr->read(SP) + 1); iram->get_cell(sp)->write(v)`: jmp.cc
127-129, 169-171, mov.cc 292-293. -/
def pushByte (v : Byte) : M H Unit := do
  let sp ← sfrRead P SP
  let sp ← sfrWrite P SP (sp + 1#8)
  iramWrite P sp.toNat v

/-- One byte taken from the stack in RET and RETI, jmp.cc 234-236, 238-240. -/
def popByte : M H Byte := do
  let sp ← sfrRead P SP
  let v ← iramRead P sp.toNat
  let _ ← sfrWrite P SP (sp - 1#8)
  pure v

/-- 01 AJMP, 11 ACALL: `PC= (PC & 0xf800) | (h*256 + l)`, jmp.cc 59, 138. -/
def addr11 (pc : Nat) (code l : Byte) : Nat :=
  (pc &&& 0xf800) ||| (((code.toNat >>> 5) &&& 7) * 256 + l.toNat)

/-- inst_lcall with an address, jmp.cc 160-190 (interrupts): no fetch, no tick. -/
def lcallTo (addr : Nat) : M H Unit := do
  let pc ← getPC
  pushByte P (byte pc)
  pushByte P (byte (pc / 256))
  setPC addr

/-- RETI: top of the level stack, jmp.cc 301-309. -/
def popLevel : M H Unit := fun s =>
  match s.levels with
  | l :: r => if l.level ≥ 0 then ((), { s with levels := r }) else ((), s)
  | [] => ((), s)

def setReti : M H Unit := fun s => ((), { s with wasReti := true })

/-- 22 RET, jmp.cc 227-250. -/
def retBody : M H Unit := do
  let h ← popByte P
  tick 1
  let l ← popByte P
  setPC (h.toNat * 256 + l.toNat)

/-- Condition and jump at the end of branches. -/
def branchIf (b : Bool) (d : Byte) : M H Unit := if b then relJump d else pure ()

/-- CJNE: compare, set C, jump: jmp.cc 444-447, 468-471, 494-497, 519-522. -/
def cjneBody (x data d : Byte) : M H Unit := do
  bitSet CYbit (x.toNat < data.toNat)
  branchIf (x != data) d

/-- PC= instPC: what exec_inst_uctab does for an instruction that is not done, uc.cc
3367-3371, then cl_51core::exec_inst (uc51.cc 1651-1655) fetches again and reports
an error. -/
def undefBody : M H Unit := do
  (fun s => ((), { s with pc := s.instPC }) : M H Unit)
  let _ ← fetch P

/-- The body of the instruction function for opcode byte `c`. -/
def exec : Op → Byte → M H Unit
  -- uc51.cc 1941-1944, 1952-1957, 1964-1972
  | .nop, _ => pure ()
  | .clrA, _ => do let _ ← sfrWrite P ACC 0#8
  | .swap, _ => do
    let a ← accRead
    let _ ← sfrWrite P ACC (byte (a.toNat * 16 + a.toNat / 16))
  -- arith.cc 45-56, 67-81, 91-102, 226-240
  | .rr, _ => do
    let a ← accRead
    let _ ← sfrWrite P ACC (if a &&& 1#8 != 0#8 then (a >>> 1) ||| 0x80#8 else a >>> 1)
  | .rrc, _ => do
    let cy ← bitGet CYbit
    let a ← accRead
    bitSet CYbit (a &&& 1#8 != 0#8)
    let _ ← sfrWrite P ACC (if cy then (a >>> 1) ||| 0x80#8 else a >>> 1)
  | .rl, _ => do
    let a ← accRead
    let _ ← sfrWrite P ACC (if a &&& 0x80#8 != 0#8 then (a <<< 1) ||| 1#8 else a <<< 1)
  | .rlc, _ => do
    let cy ← bitGet CYbit
    let a ← accRead
    bitSet CYbit (a &&& 0x80#8 != 0#8)
    let _ ← sfrWrite P ACC (if cy then (a <<< 1) ||| 1#8 else a <<< 1)
  -- arith.cc 113-128
  | .addImm, _ => do
    let d ← fetch P
    let a ← accRead
    addBody P a d 0
  -- arith.cc 140-158
  | .addDir, _ => do
    let ad ← fetch P
    let d ← dirRead P ad
    let a ← accRead
    addBody P a d 0
  -- arith.cc 170-188
  | .addRi, c => do
    let x ← riAddr c
    let a ← accRead
    let d ← iramRead P x
    addBody P a d 0
  -- arith.cc 199-215
  | .addRn, c => do
    let d ← regRead (rn c)
    let a ← accRead
    addBody P a d 0
  -- arith.cc 250-266
  | .addcImm, _ => do
    let d ← fetch P
    let a ← accRead
    let o ← orgC
    addBody P a d o
  -- arith.cc 277-295
  | .addcDir, _ => do
    let ad ← fetch P
    let d ← dirRead P ad
    let a ← accRead
    let o ← orgC
    addBody P a d o
  -- arith.cc 307-325
  | .addcRi, c => do
    let x ← riAddr c
    let a ← accRead
    let d ← iramRead P x
    let o ← orgC
    addBody P a d o
  -- arith.cc 336-352
  | .addcRn, c => do
    let d ← regRead (rn c)
    let a ← accRead
    let o ← orgC
    addBody P a d o
  -- arith.cc 363-385, 519-535
  | .div, _ => divAB P
  | .mul, _ => mulAB P
  -- arith.cc 395-417, 425-450, 457-480, 489-511
  | .subbImm, _ => do
    let d ← fetch P
    subbBody P false d
  | .subbDir, _ => do
    let ad ← fetch P
    let d ← dirRead P ad
    subbBody P false d
  | .subbRi, c => do
    let x ← riAddr c
    let d ← iramRead P x
    subbBody P true d
  | .subbRn, c => do
    let d ← regRead (rn c)
    subbBody P true d
  -- arith.cc 544-572
  | .da, _ => do
    let ac ← accRead
    let pw ← sfrGet PSW
    let r := daLow ac pw
    let r := daHigh r.1 r.2
    let _ ← sfrWrite P PSW r.2
    let _ ← sfrWrite P ACC r.1
  -- inc.cc 42-48, 58-68, 77-87, 96-105
  | .incA, _ => do
    let a ← accRead
    let _ ← sfrWrite P ACC (a + 1#8)
  | .incDir, _ => do
    let ad ← fetch P
    let d ← dirRead P ad true
    dirWrite P ad (d + 1#8)
  | .incRi, c => do
    let x ← riAddr c
    let d ← iramRead P x
    iramWrite P x (d + 1#8)
  | .incRn, c => do
    let d ← regRead (rn c)
    regWrite (rn c) (d + 1#8)
  -- inc.cc 114-120, 130-141, 150-160, 169-178, 187-199
  | .decA, _ => do
    let a ← accRead
    let _ ← sfrWrite P ACC (a - 1#8)
  | .decDir, _ => do
    let ad ← fetch P
    let d ← dirRead P ad true
    dirWrite P ad (d - 1#8)
  | .decRi, c => do
    let x ← riAddr c
    let d ← iramRead P x
    iramWrite P x (d - 1#8)
  | .decRn, c => do
    let d ← regRead (rn c)
    regWrite (rn c) (d - 1#8)
  | .incDptr, _ => do
    let d ← dptrRead
    dptrWrite (d + 1)
    tick 1
  -- jmp.cc 51-61
  | .ajmp, c => do
    let l ← fetch P
    tick 1
    let pc ← getPC
    setPC (addr11 pc c l)
  -- jmp.cc 70-96
  | .jbc, _ => do
    let b ← fetch P
    let j ← fetch P
    let v ← bitGet b
    if v then do
      bitWrite P b false
      relJump j
    else pure ()
    tick 1
  -- jmp.cc 103-109
  | .ljmp, _ => do
    let h ← fetch P
    let l ← fetch P
    setPC (h.toNat * 256 + l.toNat)
    tick 1
  -- jmp.cc 117-146
  | .acall, c => do
    let l ← fetch P
    let pc ← getPC
    pushByte P (byte pc)
    tick 1
    pushByte P (byte (pc / 256))
    setPC (addr11 pc c l)
  -- jmp.cc 155-193 (addr 0)
  | .lcall, _ => do
    let h ← fetch P
    let l ← fetch P
    let pc ← getPC
    pushByte P (byte pc)
    tick 1
    pushByte P (byte (pc / 256))
    setPC (h.toNat * 256 + l.toNat)
  -- jmp.cc 200-220
  | .jb, _ => do
    let b ← fetch P
    tick 1
    let j ← fetch P
    let v ← bitRead P b
    branchIf v j
  | .ret, _ => retBody P
  -- jmp.cc 258-278
  | .jnb, _ => do
    tick 1
    let b ← fetch P
    let j ← fetch P
    let v ← bitRead P b
    branchIf (!v) j
  -- jmp.cc 285-318
  | .reti, _ => do
    retBody P
    setReti
    popLevel
  -- jmp.cc 326-337, 345-356, 364-375, 383-394
  | .jc, _ => do
    let j ← fetch P
    tick 1
    let v ← bitGet CYbit
    branchIf v j
  | .jnc, _ => do
    let j ← fetch P
    tick 1
    let v ← bitGet CYbit
    branchIf (!v) j
  | .jz, _ => do
    let j ← fetch P
    tick 1
    let a ← accRead
    branchIf (a == 0#8) j
  | .jnz, _ => do
    let j ← fetch P
    tick 1
    let a ← accRead
    branchIf (a != 0#8) j
  -- jmp.cc 402-412
  | .jmpADptr, _ => do
    let d ← dptrRead
    let a ← accRead
    setPC (validate ((d + a.toNat : Nat) : Int))
    tick 1
  -- jmp.cc 420-428
  | .sjmp, _ => do
    let j ← fetch P
    relJump j
    tick 1
  -- jmp.cc 437-451, 459-476, 484-501, 509-525
  | .cjneAImm, _ => do
    let d ← fetch P
    let j ← fetch P
    tick 1
    let a ← accRead
    cjneBody a d j
  | .cjneADir, _ => do
    let ad ← fetch P
    let j ← fetch P
    tick 1
    let d ← dirRead P ad
    let a ← accRead
    cjneBody a d j
  | .cjneRi, c => do
    let x ← riAddr c
    let d ← fetch P
    let j ← fetch P
    tick 1
    let a ← iramRead P x
    cjneBody a d j
  | .cjneRn, c => do
    let d ← fetch P
    let j ← fetch P
    tick 1
    let a ← regRead (rn c)
    cjneBody a d j
  -- jmp.cc 534-552: the condition is the value the cell returns from the write
  | .djnzDir, _ => do
    let ad ← fetch P
    let j ← fetch P
    tick 1
    let d ← dirRead P ad true
    let r ← (if ad.toNat < 0x80 then do
        iramWrite P ad.toNat (d - 1#8)
        pure (d - 1#8)
      else sfrWrite P ad.toNat (d - 1#8) : M H Byte)
    branchIf (r != 0#8) j
  -- jmp.cc 559-574
  | .djnzRn, c => do
    let j ← fetch P
    tick 1
    let d ← regRead (rn c)
    regWrite (rn c) (d - 1#8)
    branchIf (d - 1#8 != 0#8) j
  -- bit.cc 43-59, 67-81, 141-156, 164-179
  | .orlC, _ => do
    let b ← fetch P
    let c ← bitGet CYbit
    let v ← (if c then pure true else bitRead P b : M H Bool)
    bitSet CYbit v
    tick 1
  | .anlC, _ => do
    let b ← fetch P
    let c ← bitGet CYbit
    let v ← (if c then bitRead P b else pure false : M H Bool)
    bitSet CYbit v
    tick 1
  | .orlCN, _ => do
    let b ← fetch P
    let c ← bitGet CYbit
    let v ← (if c then pure false else bitRead P b : M H Bool)
    bitSet CYbit (!v)
    tick 1
  | .anlCN, _ => do
    let b ← fetch P
    let c ← bitGet CYbit
    let v ← (if c then bitRead P b else pure true : M H Bool)
    bitSet CYbit (!v)
    tick 1
  -- bit.cc 90-110, 118-131, 187-203
  | .movBitC, _ => do
    let b ← fetch P
    let c ← bitGet CYbit
    bitWrite P b c
    tick 1
  | .movCBit, _ => do
    let b ← fetch P
    let v ← bitRead P b
    bitSet CYbit v
  | .cplBit, _ => do
    let b ← fetch P
    let v ← bitGet b
    bitWrite P b (!v)
  -- bit.cc 212-218, 229-245, 254-260, 269-284, 293-299
  | .cplC, _ => do
    let v ← bitRead P CYbit
    bitWrite P CYbit (!v)
  | .clrBit, _ => do
    let b ← fetch P
    bitWrite P b false
  | .clrC, _ => bitWrite P CYbit false
  | .setbBit, _ => do
    let b ← fetch P
    bitWrite P b true
  | .setbC, _ => bitWrite P CYbit true
  -- logic.cc 45-156
  | .orlDirA, _ => do
    let ad ← fetch P
    let d ← dirRead P ad true
    let a ← accRead
    dirWrite P ad (d ||| a)
  | .orlDirImm, _ => do
    let ad ← fetch P
    let i ← fetch P
    let d ← dirRead P ad true
    dirWrite P ad (d ||| i)
    tick 1
  | .orlImm, _ => do
    let a ← accRead
    let i ← fetch P
    let _ ← sfrWrite P ACC (a ||| i)
  | .orlDir, _ => do
    let ad ← fetch P
    let a ← accRead
    let d ← dirRead P ad
    let _ ← sfrWrite P ACC (a ||| d)
  | .orlRi, c => do
    let x ← riAddr c
    let a ← accRead
    let d ← iramRead P x
    let _ ← sfrWrite P ACC (a ||| d)
  | .orlRn, c => do
    let a ← accRead
    let d ← regRead (rn c)
    let _ ← sfrWrite P ACC (a ||| d)
  -- logic.cc 166-277
  | .anlDirA, _ => do
    let ad ← fetch P
    let d ← dirRead P ad true
    let a ← accRead
    dirWrite P ad (d &&& a)
  | .anlDirImm, _ => do
    let ad ← fetch P
    let i ← fetch P
    let d ← dirRead P ad true
    dirWrite P ad (d &&& i)
    tick 1
  | .anlImm, _ => do
    let a ← accRead
    let i ← fetch P
    let _ ← sfrWrite P ACC (a &&& i)
  | .anlDir, _ => do
    let ad ← fetch P
    let a ← accRead
    let d ← dirRead P ad
    let _ ← sfrWrite P ACC (a &&& d)
  | .anlRi, c => do
    let x ← riAddr c
    let a ← accRead
    let d ← iramRead P x
    let _ ← sfrWrite P ACC (a &&& d)
  | .anlRn, c => do
    let a ← accRead
    let d ← regRead (rn c)
    let _ ← sfrWrite P ACC (a &&& d)
  -- logic.cc 287-396
  | .xrlDirA, _ => do
    let ad ← fetch P
    let d ← dirRead P ad true
    let a ← accRead
    dirWrite P ad (d ^^^ a)
  | .xrlDirImm, _ => do
    let ad ← fetch P
    let i ← fetch P
    let d ← dirRead P ad true
    dirWrite P ad (d ^^^ i)
    tick 1
  | .xrlImm, _ => do
    let a ← accRead
    let i ← fetch P
    let _ ← sfrWrite P ACC (a ^^^ i)
  | .xrlDir, _ => do
    let ad ← fetch P
    let a ← accRead
    let d ← dirRead P ad
    let _ ← sfrWrite P ACC (a ^^^ d)
  | .xrlRi, c => do
    let x ← riAddr c
    let a ← accRead
    let d ← iramRead P x
    let _ ← sfrWrite P ACC (a ^^^ d)
  | .xrlRn, c => do
    let a ← accRead
    let d ← regRead (rn c)
    let _ ← sfrWrite P ACC (a ^^^ d)
  -- logic.cc 406-412
  | .cplA, _ => do
    let a ← accRead
    let _ ← sfrWrite P ACC (~~~a)
  -- mov.cc 52-116
  | .movAImm, _ => do
    let d ← fetch P
    let _ ← sfrWrite P ACC d
  | .movDirImm, _ => do
    let ad ← fetch P
    let d ← fetch P
    dirWrite P ad d
    tick 1
  | .movRiImm, c => do
    let x ← riAddr c
    let d ← fetch P
    iramWrite P x d
  | .movRnImm, c => do
    let d ← fetch P
    regWrite (rn c) d
  -- mov.cc 124-131
  | .movcPC, _ => do
    let pc ← getPC
    let a ← accRead
    let d ← romRead P (pc + a.toNat)
    let _ ← sfrWrite P ACC d
    tick 1
  -- mov.cc 141-155, 163-177, 184-196
  | .movDirDir, _ => do
    let s ← fetch P
    let d ← fetch P
    let v ← dirRead P s
    dirWrite P d v
    tick 1
  | .movDirRi, c => do
    let d ← fetch P
    let x ← riAddr c
    let v ← iramRead P x
    dirWrite P d v
    tick 1
  | .movDirRn, c => do
    let d ← fetch P
    let v ← regRead (rn c)
    dirWrite P d v
    tick 1
  -- mov.cc 204-213, 221-231
  | .movDptr, _ => do
    let h ← fetch P
    let l ← fetch P
    dptrWrite (h.toNat * 256 + l.toNat)
    tick 1
  | .movcDptr, _ => do
    let d ← dptrRead
    let a ← accRead
    let v ← romRead P (d + a.toNat)
    let _ ← sfrWrite P ACC v
    tick 1
  -- mov.cc 240-254, 261-274
  | .movRiDir, c => do
    let x ← riAddr c
    let s ← fetch P
    let v ← dirRead P s
    iramWrite P x v
    tick 1
  | .movRnDir, c => do
    let s ← fetch P
    let v ← dirRead P s
    regWrite (rn c) v
    tick 1
  -- mov.cc 282-303
  | .push, _ => do
    let ad ← fetch P
    let v ← dirRead P ad
    pushByte P v
    tick 1
  -- mov.cc 311-325, 333-348, 355-368
  | .xchDir, _ => do
    let ad ← fetch P
    let t ← accRead
    let v ← dirRead P ad
    let _ ← sfrWrite P ACC v
    dirWrite P ad t
  | .xchRi, c => do
    let x ← riAddr c
    let t ← accRead
    let v ← iramRead P x
    let _ ← sfrWrite P ACC v
    iramWrite P x t
  | .xchRn, c => do
    let t ← accRead
    let v ← regRead (rn c)
    let _ ← sfrWrite P ACC v
    regWrite (rn c) t
  -- mov.cc 377-400
  | .pop, _ => do
    let ad ← fetch P
    let v ← popByte P
    dirWrite P ad v
    tick 1
  -- mov.cc 408-421
  | .xchd, c => do
    let x ← riAddr c
    let d ← iramRead P x
    let a ← accRead
    iramWrite P x ((d &&& 0xf0#8) ||| (a &&& 0x0f#8))
    let _ ← sfrWrite P ACC ((a &&& 0xf0#8) ||| (d &&& 0x0f#8))
  -- mov.cc 430-440, 449-461, 536-547, 555-572; high_movxri: uc51.cc 1662-1690
  | .movxADptr, _ => do
    let d ← dptrRead
    let v ← xramRead d
    let _ ← sfrWrite P ACC v
    tick 1
  | .movxARi, c => do
    let h ← sfrRead P P2
    let l ← regRead (ri c)
    let v ← xramRead (h.toNat * 256 + l.toNat)
    let _ ← sfrWrite P ACC v
    tick 1
  | .movxDptrA, _ => do
    let d ← dptrRead
    let a ← accRead
    xramWrite d a
    tick 1
  | .movxRiA, c => do
    let l ← regRead (ri c)
    let h ← sfrRead P P2
    let a ← accRead
    xramWrite (h.toNat * 256 + l.toNat) a
    tick 1
  -- mov.cc 470-493: MOV A,ACC is reported as unknown and does nothing
  | .movADir, _ => do
    let ad ← fetch P
    if ad.toNat = ACC then pure ()
    else do
      let v ← dirRead P ad
      let _ ← sfrWrite P ACC v
  -- mov.cc 501-512, 520-526, 580-590, 599-609, 618-626
  | .movARi, c => do
    let x ← riAddr c
    let v ← iramRead P x
    let _ ← sfrWrite P ACC v
  | .movARn, c => do
    let v ← regRead (rn c)
    let _ ← sfrWrite P ACC v
  | .movDirA, _ => do
    let ad ← fetch P
    let a ← accRead
    dirWrite P ad a
  | .movRiA, c => do
    let x ← riAddr c
    let a ← accRead
    iramWrite P x a
  | .movRnA, c => do
    let a ← accRead
    regWrite (rn c) a
  | .undef, _ => undefBody P

/-- cl_uc::exec_inst_uctab, uc.cc 3352-3374, and cl_51core::exec_inst, uc51.cc
1645-1658; no breakpoint at the PC.  tick_tab is NULL: one cycle, uc.cc 3084-3093. -/
def execInst : M H Unit := do
  let c ← fetch P
  tick 1
  exec P (decode c) c

end
end Ucsim.S51
