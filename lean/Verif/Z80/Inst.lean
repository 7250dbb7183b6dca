/-
Model of the Z80 simulator (the plain Z80: type CPU_Z80): /repo/src/sims/z80.src.

Not modelled: the counters of reads and writes (vc), the records of stack operations and
the stack limit, breakpoints (C19-C23), iblock and repeating (nothing of the modelled part
reads them).  Memory and the two port spaces are the plain 64K chips of make_memories
(z80.cc 170-208); rom and ram are the same address space.
-/
namespace Ucsim.Z80

abbrev Byte := BitVec 8
abbrev Word := BitVec 16

/-- t_regs, regsz80.h 53-107 (the unions as their bytes; IX, IY and SP as words), IFF1, IFF2,
imode, cond_true of cl_z80 (z80cl.h), and PC.  PC is a t_addr (32 bits): a relative jump may
take it out of 0..0xffff.  `dummy`, `rnd`: contents of the address space's dummy cell and
the random values the following writes to it will leave there (mem.cc 1523-1531).
`ticks`: the counter of clocks. -/
structure St where
  a : Byte
  f : Byte
  b : Byte
  c : Byte
  d : Byte
  e : Byte
  h : Byte
  l : Byte
  ix : Word
  iy : Word
  sp : Word
  a2 : Byte
  f2 : Byte
  b2 : Byte
  c2 : Byte
  d2 : Byte
  e2 : Byte
  h2 : Byte
  l2 : Byte
  iv : Byte
  r : Byte
  iff1 : Bool
  iff2 : Bool
  imode : Nat
  pc : Nat
  mem : Word → Byte
  dummy : Byte
  rnd : Nat → Byte
  inp : Byte → Byte
  out : Byte → Byte
  ticks : Int
  cond : Bool

/-! z80.cc 68-74 -/
def bitC : Byte := 0x01#8
def bitN : Byte := 0x02#8
def bitP : Byte := 0x04#8
def bitA : Byte := 0x10#8
def bitZ : Byte := 0x40#8
def bitS : Byte := 0x80#8
def bitAll : Byte := bitC ||| bitN ||| bitP ||| bitA ||| bitZ ||| bitS

/-- Byte registers; xh, xl: halves of IX or IY (regs_iX_h, regs_iX_l). -/
inductive R8 | a | b | c | d | e | h | l | xh | xl deriving DecidableEq, Repr
/-- Word registers; xx: regs_IX_OR_IY. -/
inductive RP | bc | de | hl | sp | xx deriving DecidableEq, Repr
/-- Operand: a register, memory at HL, memory at IX+d or IY+d, a byte of the instruction. -/
inductive Opd | r (r : R8) | m | xd | imm deriving DecidableEq, Repr
inductive Alu | add | adc | sub | sbc | and | xor | or | cp deriving DecidableEq, Repr
inductive Rot | rlc | rrc | rl | rr | sla | sra | slia | srl deriving DecidableEq, Repr
/-- Which index register the prefix chose: inst_dd.cc, inst_fd.cc. -/
inductive Ix | ix | iy deriving DecidableEq, Repr

/-- Bodies of the instructions: the cases of inst.cc, inst_cb.cc, inst_xd.cc, inst_xxcb.cc,
inst_ed.cc.  `inv`: return resINV_INST. -/
inductive Inst
  | nop | halt | inv | prefix
  | ld (d s : Opd) | ld16 (p : RP) | ldMA (p : RP) | ldAM (p : RP) | stRP (p : RP) | ldRP (p : RP) | stA | ldA | ldSP (p : RP)
  | inc16 (p : RP) | dec16 (p : RP) | inc8 (o : Opd) | dec8 (o : Opd) | add16 (d s : RP) | adcHL (p : RP) | sbcHL (p : RP)
  | alu (k : Alu) (o : Opd)
  | jr | jrIf (flag : Byte) (v : Bool) | djnz | jp | jpIf (flag : Byte) (v : Bool) | jpRP (p : RP)
  | call | callIf (flag : Byte) (v : Bool) | ret | retIf (flag : Byte) (v : Bool) | rst (a : Word)
  | push (p : RP) | pushAF | pop (p : RP) | popAF | exSP (p : RP) | exDEHL | exAF | exx | di | ei | inA | outA
  | rlca | rrca | rla | rra | daa | cpl | scf | ccf
  | rot (k : Rot) (o : Opd) | bit (n : Nat) (o : Opd) | res (n : Nat) (o : Opd) | set (n : Nat) (o : Opd)
  | xrot (k : Rot) (r : Option R8) | xbit (n : Nat) | xres (n : Nat) (r : Option R8) | xset (n : Nat) (r : Option R8)
  | inC (r : R8) | inF | outC (r : R8) | out0 | im (n : Nat) | ldIA | ldRA | ldAI | ldAR | retN | neg | rrd | rld
  | ldi | cpi | ini | outi | ldd | cpd | ind | outd | ldir | cpir | inir | otir | lddr | cpdr | indr | otdr
  deriving DecidableEq, Repr

end Ucsim.Z80
