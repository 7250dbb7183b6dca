import Verif.Spec.Pb
/-
The tables of /repo/src/sims/pblaze.src/glob.cc, written down by a script.
-/
namespace Ucsim.Pb

/-- the names of instructions, glob.h 36-91 -/
inductive Op | ADD | ADDCY | AND | CALL | CALL_C | CALL_NC | CALL_NZ | CALL_Z | COMPARE | DISABLE_INTERRUPT | ENABLE_INTERRUPT | FETCH | IINPUT | JUMP | JUMP_C | JUMP_NC | JUMP_NZ | JUMP_Z | LOAD | OR | OUTPUT | RETURN | RETURN_C | RETURN_NC | RETURN_NZ | RETURN_Z | RETURNI_DISABLE | RETURNI_ENABLE | RL | RR | SL0 | SL1 | SLA | SLX | SR0 | SR1 | SRA | SRX | STORE | SUB | SUBCY | TEST | XOR | CALL_AT | COMPARECY | HWBUILD | JUMP_AT | OUTPUTK | REGBANK_A | REGBANK_B | LOAD_RETURN | STAR | TESTCY
  deriving DecidableEq

/-- the kinds of operands, glob.h 93-103 -/
inductive Opr | REG_CONSTANT | REG_REG | ADDRESS10 | NO_OPERAND | REG_ADDRESS6 | REG_PORT | REG | ADDRESS12 | REG_ADDRESS8 | CONSTANT_PORT
  deriving DecidableEq

/-- struct dis_entry_pblaze (branch and length are the same for all) -/
structure Ent where
  code : BitVec 18
  mask : BitVec 18
  text : String
  op : Op
  opr : Opr
  deriving DecidableEq

/-- disass_pblaze3, glob.cc 46-119 -/
def t3 : List Ent := [
  ⟨0x18000, 0x3f000, "ADD %r,%k", .ADD, .REG_CONSTANT⟩,
  ⟨0x19000, 0x3f00f, "ADD %r,%s", .ADD, .REG_REG⟩,
  ⟨0x1a000, 0x3f000, "ADDCY %r,%k", .ADDCY, .REG_CONSTANT⟩,
  ⟨0x1b000, 0x3f00f, "ADDCY %r,%s", .ADDCY, .REG_REG⟩,
  ⟨0x0a000, 0x3f000, "AND %r,%k", .AND, .REG_CONSTANT⟩,
  ⟨0x0b000, 0x3f00f, "AND %r,%s", .AND, .REG_REG⟩,
  ⟨0x30000, 0x3fc00, "CALL %a", .CALL, .ADDRESS10⟩,
  ⟨0x31800, 0x3fc00, "CALL C %a", .CALL_C, .ADDRESS10⟩,
  ⟨0x31c00, 0x3fc00, "CALL NC %a", .CALL_NC, .ADDRESS10⟩,
  ⟨0x31400, 0x3fc00, "CALL NZ %a", .CALL_NZ, .ADDRESS10⟩,
  ⟨0x31000, 0x3fc00, "CALL Z %a", .CALL_Z, .ADDRESS10⟩,
  ⟨0x14000, 0x3f000, "COMPARE %r,%k", .COMPARE, .REG_CONSTANT⟩,
  ⟨0x15000, 0x3f00f, "COMPARE %r,%s", .COMPARE, .REG_REG⟩,
  ⟨0x3c000, 0x3ffff, "DISABLE INTERRUPT", .DISABLE_INTERRUPT, .NO_OPERAND⟩,
  ⟨0x3c001, 0x3ffff, "ENABLE INTERRUPT", .ENABLE_INTERRUPT, .NO_OPERAND⟩,
  ⟨0x06000, 0x3f0c0, "FETCH %r, %m", .FETCH, .REG_ADDRESS6⟩,
  ⟨0x07000, 0x3f00f, "FETCH %r,(%s)", .FETCH, .REG_REG⟩,
  ⟨0x05000, 0x3f00f, "INPUT %r,(%s)", .IINPUT, .REG_REG⟩,
  ⟨0x04000, 0x3f000, "INPUT %r,%p", .IINPUT, .REG_PORT⟩,
  ⟨0x34000, 0x3fc00, "JUMP %a", .JUMP, .ADDRESS10⟩,
  ⟨0x35800, 0x3fc00, "JUMP C %a", .JUMP_C, .ADDRESS10⟩,
  ⟨0x35c00, 0x3fc00, "JUMP NC %a", .JUMP_NC, .ADDRESS10⟩,
  ⟨0x35400, 0x3fc00, "JUMP NZ %a", .JUMP_NZ, .ADDRESS10⟩,
  ⟨0x35000, 0x3fc00, "JUMP Z %a", .JUMP_Z, .ADDRESS10⟩,
  ⟨0x00000, 0x3f000, "LOAD %r,%k", .LOAD, .REG_CONSTANT⟩,
  ⟨0x01000, 0x3f00f, "LOAD %r,%s", .LOAD, .REG_REG⟩,
  ⟨0x0c000, 0x3f000, "OR %r,%k", .OR, .REG_CONSTANT⟩,
  ⟨0x0d000, 0x3f00f, "OR %r,%s", .OR, .REG_REG⟩,
  ⟨0x2d000, 0x3f00f, "OUTPUT %r,(%s)", .OUTPUT, .REG_REG⟩,
  ⟨0x2c000, 0x3f000, "OUTPUT %r,%p", .OUTPUT, .REG_PORT⟩,
  ⟨0x2a000, 0x3ffff, "RETURN", .RETURN, .NO_OPERAND⟩,
  ⟨0x2b800, 0x3ffff, "RETURN C", .RETURN_C, .NO_OPERAND⟩,
  ⟨0x2bc00, 0x3ffff, "RETURN NC", .RETURN_NC, .NO_OPERAND⟩,
  ⟨0x2b400, 0x3ffff, "RETURN NZ", .RETURN_NZ, .NO_OPERAND⟩,
  ⟨0x2b000, 0x3ffff, "RETURN Z", .RETURN_Z, .NO_OPERAND⟩,
  ⟨0x38000, 0x3ffff, "RETURNI DISABLE", .RETURNI_DISABLE, .NO_OPERAND⟩,
  ⟨0x38001, 0x3ffff, "RETURNI ENABLE", .RETURNI_ENABLE, .NO_OPERAND⟩,
  ⟨0x20002, 0x3f0ff, "RL %r", .RL, .REG⟩,
  ⟨0x2000c, 0x3f0ff, "RR %r", .RR, .REG⟩,
  ⟨0x20006, 0x3f0ff, "SL0 %r", .SL0, .REG⟩,
  ⟨0x20007, 0x3f0ff, "SL1 %r", .SL1, .REG⟩,
  ⟨0x20000, 0x3f0ff, "SLA %r", .SLA, .REG⟩,
  ⟨0x20004, 0x3f0ff, "SLX %r", .SLX, .REG⟩,
  ⟨0x2000e, 0x3f0ff, "SR0 %r", .SR0, .REG⟩,
  ⟨0x2000f, 0x3f0ff, "SR1 %r", .SR1, .REG⟩,
  ⟨0x20008, 0x3f0ff, "SRA %r", .SRA, .REG⟩,
  ⟨0x2000a, 0x3f0ff, "SRX %r", .SRX, .REG⟩,
  ⟨0x2e000, 0x3f0c0, "STORE %r,%m", .STORE, .REG_ADDRESS6⟩,
  ⟨0x2f000, 0x3f00f, "STORE %r,(%s)", .STORE, .REG_REG⟩,
  ⟨0x1c000, 0x3f000, "SUB %r,%k", .SUB, .REG_CONSTANT⟩,
  ⟨0x1d000, 0x3f00f, "SUB %r,%s", .SUB, .REG_REG⟩,
  ⟨0x1e000, 0x3f000, "SUBCY %r,%k", .SUBCY, .REG_CONSTANT⟩,
  ⟨0x1f000, 0x3f00f, "SUBCY %r,%s", .SUBCY, .REG_REG⟩,
  ⟨0x12000, 0x3f000, "TEST %r,%k", .TEST, .REG_CONSTANT⟩,
  ⟨0x13000, 0x3f00f, "TEST %r,%s", .TEST, .REG_REG⟩,
  ⟨0x0e000, 0x3f000, "XOR %r,%k", .XOR, .REG_CONSTANT⟩,
  ⟨0x0f000, 0x3f00f, "XOR %r,%s", .XOR, .REG_REG⟩]

/-- disass_pblaze6, glob.cc 124-219 -/
def t6 : List Ent := [
  ⟨0x10000, 0x3f00f, "ADD %r,%s", .ADD, .REG_REG⟩,
  ⟨0x11000, 0x3f000, "ADD %r,%k", .ADD, .REG_CONSTANT⟩,
  ⟨0x12000, 0x3f00f, "ADDCY %r,%s", .ADDCY, .REG_REG⟩,
  ⟨0x13000, 0x3f000, "ADDCY %r,%k", .ADDCY, .REG_CONSTANT⟩,
  ⟨0x02000, 0x3f00f, "AND %r,%s", .AND, .REG_REG⟩,
  ⟨0x03000, 0x3f000, "AND %r,%k", .AND, .REG_CONSTANT⟩,
  ⟨0x20000, 0x3f000, "CALL %A", .CALL, .ADDRESS12⟩,
  ⟨0x30000, 0x3f000, "CALL C %A", .CALL_Z, .ADDRESS12⟩,
  ⟨0x34000, 0x3f000, "CALL NZ %A", .CALL_NZ, .ADDRESS12⟩,
  ⟨0x38000, 0x3f000, "CALL Z %A", .CALL_C, .ADDRESS12⟩,
  ⟨0x3c000, 0x3f000, "CALL NC %A", .CALL_NC, .ADDRESS12⟩,
  ⟨0x24000, 0x3f00f, "CALL@ (%r, %s)", .CALL_AT, .REG_REG⟩,
  ⟨0x1c000, 0x3f00f, "COMPARE %r,%s", .COMPARE, .REG_REG⟩,
  ⟨0x1d000, 0x3f000, "COMPARE %r,%k", .COMPARE, .REG_CONSTANT⟩,
  ⟨0x1e000, 0x3f00f, "COMPARECY %r,%s", .COMPARECY, .REG_REG⟩,
  ⟨0x1f000, 0x3f000, "COMPARECY %r,%k", .COMPARECY, .REG_CONSTANT⟩,
  ⟨0x28000, 0x3ffff, "DISABLE INTERRUPT", .DISABLE_INTERRUPT, .NO_OPERAND⟩,
  ⟨0x28001, 0x3ffff, "ENABLE INTERRUPT", .ENABLE_INTERRUPT, .NO_OPERAND⟩,
  ⟨0x0a000, 0x3f00f, "FETCH %r,(%s)", .FETCH, .REG_REG⟩,
  ⟨0x0b000, 0x3f000, "FETCH %r, %M", .FETCH, .REG_ADDRESS8⟩,
  ⟨0x14080, 0x3f0ff, "HWBUILD %r", .HWBUILD, .REG⟩,
  ⟨0x08000, 0x3f00f, "INPUT %r,(%s)", .IINPUT, .REG_REG⟩,
  ⟨0x09000, 0x3f000, "INPUT %r,%p", .IINPUT, .REG_PORT⟩,
  ⟨0x22000, 0x3f000, "JUMP %A", .JUMP, .ADDRESS12⟩,
  ⟨0x32000, 0x3f000, "JUMP Z %A", .JUMP_Z, .ADDRESS12⟩,
  ⟨0x36000, 0x3f000, "JUMP NZ %A", .JUMP_NZ, .ADDRESS12⟩,
  ⟨0x3a000, 0x3f000, "JUMP C %A", .JUMP_C, .ADDRESS12⟩,
  ⟨0x3e000, 0x3f000, "JUMP NC %A", .JUMP_NC, .ADDRESS12⟩,
  ⟨0x26000, 0x3f00f, "JUMP@ (%r, %s)", .JUMP_AT, .REG_REG⟩,
  ⟨0x00000, 0x3f00f, "LOAD %r,%s", .LOAD, .REG_REG⟩,
  ⟨0x01000, 0x3f000, "LOAD %r,%k", .LOAD, .REG_CONSTANT⟩,
  ⟨0x04000, 0x3f00f, "OR %r,%s", .OR, .REG_REG⟩,
  ⟨0x05000, 0x3f000, "OR %r,%k", .OR, .REG_CONSTANT⟩,
  ⟨0x2c000, 0x3f00f, "OUTPUT %r,(%s)", .OUTPUT, .REG_REG⟩,
  ⟨0x2d000, 0x3f000, "OUTPUT %r,%p", .OUTPUT, .REG_PORT⟩,
  ⟨0x2b000, 0x3f000, "OUTPUTK %K,%P", .OUTPUTK, .CONSTANT_PORT⟩,
  ⟨0x37000, 0x3ffff, "REGBANK A", .REGBANK_A, .NO_OPERAND⟩,
  ⟨0x37001, 0x3ffff, "REGBANK B", .REGBANK_B, .NO_OPERAND⟩,
  ⟨0x25000, 0x3ffff, "RETURN", .RETURN, .NO_OPERAND⟩,
  ⟨0x31000, 0x3ffff, "RETURN Z", .RETURN_Z, .NO_OPERAND⟩,
  ⟨0x35000, 0x3ffff, "RETURN NZ", .RETURN_NZ, .NO_OPERAND⟩,
  ⟨0x39000, 0x3ffff, "RETURN C", .RETURN_C, .NO_OPERAND⟩,
  ⟨0x3d000, 0x3ffff, "RETURN NC", .RETURN_NC, .NO_OPERAND⟩,
  ⟨0x21000, 0x3f000, "LOAD&RETURN %r,%k", .LOAD_RETURN, .REG_CONSTANT⟩,
  ⟨0x29000, 0x3ffff, "RETURNI DISABLE", .RETURNI_DISABLE, .NO_OPERAND⟩,
  ⟨0x29001, 0x3ffff, "RETURNI ENABLE", .RETURNI_ENABLE, .NO_OPERAND⟩,
  ⟨0x14002, 0x3f0ff, "RL %r", .RL, .REG⟩,
  ⟨0x1400c, 0x3f0ff, "RR %r", .RR, .REG⟩,
  ⟨0x14006, 0x3f0ff, "SL0 %r", .SL0, .REG⟩,
  ⟨0x14007, 0x3f0ff, "SL1 %r", .SL1, .REG⟩,
  ⟨0x14004, 0x3f0ff, "SLX %r", .SLX, .REG⟩,
  ⟨0x14000, 0x3f0ff, "SLA %r", .SLA, .REG⟩,
  ⟨0x1400e, 0x3f0ff, "SR0 %r", .SR0, .REG⟩,
  ⟨0x1400f, 0x3f0ff, "SR1 %r", .SR1, .REG⟩,
  ⟨0x1400a, 0x3f0ff, "SRX %r", .SRX, .REG⟩,
  ⟨0x14008, 0x3f0ff, "SRA %r", .SRA, .REG⟩,
  ⟨0x16000, 0x3f00f, "STAR %r,%s", .STAR, .REG_REG⟩,
  ⟨0x2e000, 0x3f00f, "STORE %r,(%s)", .STORE, .REG_REG⟩,
  ⟨0x2f000, 0x3f000, "STORE %r,%M", .STORE, .REG_ADDRESS8⟩,
  ⟨0x18000, 0x3f00f, "SUB %r,%s", .SUB, .REG_REG⟩,
  ⟨0x19000, 0x3f000, "SUB %r,%k", .SUB, .REG_CONSTANT⟩,
  ⟨0x1a000, 0x3f00f, "SUBCY %r,%s", .SUBCY, .REG_REG⟩,
  ⟨0x1b000, 0x3f000, "SUBCY %r,%k", .SUBCY, .REG_CONSTANT⟩,
  ⟨0x0c000, 0x3f00f, "TEST %r,%s", .TEST, .REG_REG⟩,
  ⟨0x0d000, 0x3f000, "TEST %r,%k", .TEST, .REG_CONSTANT⟩,
  ⟨0x0e000, 0x3f00f, "TESTCY %r,%s", .TESTCY, .REG_REG⟩,
  ⟨0x0f000, 0x3f000, "TESTCY %r,%k", .TESTCY, .REG_CONSTANT⟩,
  ⟨0x06000, 0x3f00f, "XOR %r,%s", .XOR, .REG_REG⟩,
  ⟨0x07000, 0x3f000, "XOR %r,%k", .XOR, .REG_CONSTANT⟩]

/-- the loop at the beginning of cl_pblaze::exec_inst, pblaze.cc 774-780; none is the last entry, BAD_OPCODE -/
def find (t : List Ent) (w : BitVec 18) : Option Ent := t.find? fun e => w &&& e.mask == e.code

end Ucsim.Pb
