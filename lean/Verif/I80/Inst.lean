/-
Model of the 8080/8085 simulator: /repo/src/sims/i8085.src.

Not modelled: the counters of reads and writes (vc), error objects (address outside of
memory, stack limit), breakpoints (C19-C23).  Memory is the plain 64K chip of
make_memories (i8080.cc 140-160); cells without operators behave as in C01-C05.
-/
namespace Ucsim.I80

abbrev Byte := BitVec 8
abbrev Word := BitVec 16

/-- i8080cl.h 104-109: the register pairs are unions of two bytes and a word; here the
bytes.  `dummy`, `rnd`: contents of the address space's dummy cell and the random values
the following writes to it will leave there (mem.cc 1523-1531).  `ticks`: the counter of
clocks. -/
structure St where
  a : Byte
  f : Byte
  b : Byte
  c : Byte
  d : Byte
  e : Byte
  h : Byte
  l : Byte
  sp : Word
  pc : Word
  mem : Word → Byte
  dummy : Byte
  rnd : Nat → Byte
  ticks : Int
  /-- tick_shift, i8080cl.h 110 -/
  shift : Bool

/-- Which processor: simi8085.cc 38-55. -/
inductive Cpu | i8080 | i8085 deriving DecidableEq, Repr

/-! i8080cl.h 78-92 -/
def flagC : Byte := 0x01#8
def flagP : Byte := 0x04#8
def flagA : Byte := 0x10#8
def flagZ : Byte := 0x40#8
def flagS : Byte := 0x80#8
def flagK : Byte := 0x20#8
def flagV : Byte := 0x02#8
def fAll : Byte := flagC ||| flagP ||| flagA ||| flagZ ||| flagS ||| flagK ||| flagV
def fAll_C : Byte := flagP ||| flagA ||| flagZ ||| flagS ||| flagK ||| flagV
def fAll_A : Byte := flagC ||| flagP ||| flagZ ||| flagS ||| flagK ||| flagV

/-- A byte register, or memory at HL. -/
inductive R8 | a | b | c | d | e | h | l | m deriving DecidableEq, Repr
inductive RP | bc | de | hl | sp deriving DecidableEq, Repr
/-- Operand of an arithmetic instruction: a register (rM included) or fetch(). -/
inductive Src | reg (r : R8) | imm deriving DecidableEq, Repr

/-- Bodies of the instructions in i8080cl.h 151-362. -/
inductive Inst
  | nop | hlt | ei | di
  | mov (d s : R8) | mvi (d : R8) | lxi (p : RP) | lda | sta | lhld | shld | ldax (p : RP) | stax (p : RP)
  | xchg | inp | out | push (p : RP) | pushPsw | pop (p : RP) | popPsw | xthl | sphl
  | add8 (s : Src) (add_c : Bool) | sub8 (s : Src) (sub_c cmp : Bool) | dad (p : RP)
  | inr (r : R8) | dcr (r : R8) | inx (p : RP) | dcx (p : RP)
  | ana (s : Src) | ora (s : Src) | xra (s : Src)
  | rlc | rrc | ral | rar | daa | cma | cmc | stc
  | jmp | jmpIf (flag : Byte) (v : Bool) | call | callIf (flag : Byte) (v : Bool) | ret | retIf (flag : Byte) (v : Bool)
  | rst | pchl
  | rim | sim | arhl | rdel | dsub | jnx5 | jx5 | rstv | ldhi | ldsi | lhlx | shlx
  deriving DecidableEq, Repr

end Ucsim.I80
