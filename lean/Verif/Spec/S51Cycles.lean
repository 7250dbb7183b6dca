import Verif.Spec.S51

/-
How long instructions take, in machine cycles (instruction set table of the MCS-51
user's manual).
-/
namespace Ucsim.S51.Spec
open Ucsim.S51

/-- Instructions of two machine cycles, by opcode. -/
def twoCycles (c : Nat) : Bool :=
  c % 32 == 0x01 ||                                  -- AJMP
  c % 32 == 0x11 ||                                  -- ACALL
  [0x02, 0x12, 0x22, 0x32,                           -- LJMP, LCALL, RET, RETI
   0x10, 0x20, 0x30, 0x40, 0x50, 0x60, 0x70, 0x80,   -- JBC, JB, JNB, JC, JNC, JZ, JNZ, SJMP
   0x73, 0x83, 0x93,                                 -- JMP @A+DPTR, MOVC
   0x43, 0x53, 0x63, 0x75,                           -- ORL, ANL, XRL, MOV dir,#data
   0x72, 0x82, 0xa0, 0xb0, 0x92,                     -- ORL C, ANL C, ORL C,/ ANL C,/ MOV bit,C
   0x85, 0x86, 0x87, 0x90, 0xa3, 0xa6, 0xa7,         -- MOV dir,dir; dir,@Ri; DPTR,#; INC DPTR; MOV @Ri,dir
   0xc0, 0xd0, 0xd5,                                 -- PUSH, POP, DJNZ dir
   0xe0, 0xe2, 0xe3, 0xf0, 0xf2, 0xf3].contains c || -- MOVX
  (0x88 ≤ c && c < 0x90) ||                          -- MOV dir,Rn
  (0xa8 ≤ c && c < 0xb0) ||                          -- MOV Rn,dir
  (0xb4 ≤ c && c < 0xc0) ||                          -- CJNE
  (0xd8 ≤ c && c < 0xe0)                             -- DJNZ Rn

/-- MUL and DIV take four cycles; everything else one (0xa5 is not an instruction). -/
def manualCycles (c : Byte) : Nat :=
  if c.toNat = 0xa4 ∨ c.toNat = 0x84 then 4 else if twoCycles c.toNat then 2 else 1

end Ucsim.S51.Spec
