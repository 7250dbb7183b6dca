/-
Written by tools/mkz80.py: the disassembler's tables of /repo/src/sims/z80.src/glob.cc.
-/
namespace Ucsim.Z80

/-- struct dis_entry, stypes.h: the mask is 0xff everywhere -/
structure DisEntry where
  code : BitVec 8
  branch : Char
  length : Nat
  mnemonic : String
  isCall : Bool

/-- disass_z80[], glob.cc -/
def dis00 : List DisEntry := [
  ⟨0x00#8, ' ', 1, "NOP", false⟩,
  ⟨0x01#8, ' ', 3, "LD BC,%w", false⟩,
  ⟨0x02#8, ' ', 1, "LD (BC),A", false⟩,
  ⟨0x03#8, ' ', 1, "INC BC", false⟩,
  ⟨0x04#8, ' ', 1, "INC B", false⟩,
  ⟨0x05#8, ' ', 1, "DEC B", false⟩,
  ⟨0x06#8, ' ', 2, "LD b,%b", false⟩,
  ⟨0x07#8, ' ', 1, "RLCA", false⟩,
  ⟨0x08#8, ' ', 1, "EX AF,AF'", false⟩,
  ⟨0x09#8, ' ', 1, "ADD HL,BC", false⟩,
  ⟨0x0a#8, ' ', 1, "LD A,(BC)", false⟩,
  ⟨0x0b#8, ' ', 1, "DEC BC", false⟩,
  ⟨0x0c#8, ' ', 1, "INC C", false⟩,
  ⟨0x0d#8, ' ', 1, "DEC C", false⟩,
  ⟨0x0e#8, ' ', 2, "LD C,%b", false⟩,
  ⟨0x0f#8, ' ', 1, "RRCA", false⟩,
  ⟨0x10#8, 'R', 2, "DJNZ %d", false⟩,
  ⟨0x11#8, ' ', 3, "LD DE,%w", false⟩,
  ⟨0x12#8, ' ', 1, "LD (DE),A", false⟩,
  ⟨0x13#8, ' ', 1, "INC DE", false⟩,
  ⟨0x14#8, ' ', 1, "INC D", false⟩,
  ⟨0x15#8, ' ', 1, "DEC D", false⟩,
  ⟨0x16#8, ' ', 2, "LD D,%b", false⟩,
  ⟨0x17#8, ' ', 1, "RLA", false⟩,
  ⟨0x18#8, 'R', 2, "JR %d", false⟩,
  ⟨0x19#8, ' ', 3, "ADD HL,DE", false⟩,
  ⟨0x1a#8, ' ', 1, "LD A,(DE)", false⟩,
  ⟨0x1b#8, ' ', 1, "DEC DE", false⟩,
  ⟨0x1c#8, ' ', 1, "INC E", false⟩,
  ⟨0x1d#8, ' ', 1, "DEC E", false⟩,
  ⟨0x1e#8, ' ', 2, "LD E,%b", false⟩,
  ⟨0x1f#8, ' ', 1, "RRA", false⟩,
  ⟨0x20#8, 'R', 2, "JR NZ,%d", false⟩,
  ⟨0x21#8, ' ', 3, "LD HL,%w", false⟩,
  ⟨0x22#8, ' ', 3, "LD (%w),HL", false⟩,
  ⟨0x23#8, ' ', 1, "INC HL", false⟩,
  ⟨0x24#8, ' ', 1, "INC H", false⟩,
  ⟨0x25#8, ' ', 1, "DEC H", false⟩,
  ⟨0x26#8, ' ', 2, "LD H,%b", false⟩,
  ⟨0x27#8, ' ', 1, "DAA", false⟩,
  ⟨0x28#8, 'R', 2, "JR Z,%d", false⟩,
  ⟨0x29#8, ' ', 1, "ADD HL,HL", false⟩,
  ⟨0x2a#8, ' ', 3, "LD HL,(%w)", false⟩,
  ⟨0x2b#8, ' ', 1, "DEC HL", false⟩,
  ⟨0x2c#8, ' ', 1, "INC L", false⟩,
  ⟨0x2d#8, ' ', 1, "DEC L", false⟩,
  ⟨0x2e#8, ' ', 2, "LD L, %b", false⟩,
  ⟨0x2f#8, ' ', 1, "CPL", false⟩,
  ⟨0x30#8, 'R', 2, "JR NC,%d", false⟩,
  ⟨0x31#8, ' ', 3, "LD SP,%w", false⟩,
  ⟨0x32#8, ' ', 3, "LD (%w),A", false⟩,
  ⟨0x33#8, ' ', 1, "INC SP", false⟩,
  ⟨0x34#8, ' ', 1, "INC (HL)", false⟩,
  ⟨0x35#8, ' ', 1, "DEC (HL)", false⟩,
  ⟨0x36#8, ' ', 2, "LD (HL),%b", false⟩,
  ⟨0x37#8, ' ', 1, "SCF", false⟩,
  ⟨0x38#8, 'R', 2, "JR C,%d", false⟩,
  ⟨0x39#8, ' ', 1, "ADD HL,SP", false⟩,
  ⟨0x3a#8, ' ', 3, "LD A,(%w)", false⟩,
  ⟨0x3b#8, ' ', 1, "DEC SP", false⟩,
  ⟨0x3c#8, ' ', 1, "INC A", false⟩,
  ⟨0x3d#8, ' ', 1, "DEC A", false⟩,
  ⟨0x3e#8, ' ', 2, "LD A,%b", false⟩,
  ⟨0x3f#8, ' ', 1, "CCF", false⟩,
  ⟨0x40#8, ' ', 1, "LD B,B", false⟩,
  ⟨0x41#8, ' ', 1, "LD B,C", false⟩,
  ⟨0x42#8, ' ', 1, "LD B,D", false⟩,
  ⟨0x43#8, ' ', 1, "LD B,E", false⟩,
  ⟨0x44#8, ' ', 1, "LD B,H", false⟩,
  ⟨0x45#8, ' ', 1, "LD B,L", false⟩,
  ⟨0x46#8, ' ', 1, "LD B,(HL)", false⟩,
  ⟨0x47#8, ' ', 1, "LD B,a", false⟩,
  ⟨0x48#8, ' ', 1, "LD C,B", false⟩,
  ⟨0x49#8, ' ', 1, "LD C,C", false⟩,
  ⟨0x4a#8, ' ', 1, "LD C,D", false⟩,
  ⟨0x4b#8, ' ', 1, "LD C,E", false⟩,
  ⟨0x4c#8, ' ', 1, "LD C,H", false⟩,
  ⟨0x4d#8, ' ', 1, "LD C,L", false⟩,
  ⟨0x4e#8, ' ', 1, "LD C,(HL)", false⟩,
  ⟨0x4f#8, ' ', 1, "LD C,A", false⟩,
  ⟨0x50#8, ' ', 1, "LD D,B", false⟩,
  ⟨0x51#8, ' ', 1, "LD D,C", false⟩,
  ⟨0x52#8, ' ', 1, "LD D,D", false⟩,
  ⟨0x53#8, ' ', 1, "LD D,E", false⟩,
  ⟨0x54#8, ' ', 1, "LD D,H", false⟩,
  ⟨0x55#8, ' ', 1, "LD D,L", false⟩,
  ⟨0x56#8, ' ', 1, "LD D,(HL)", false⟩,
  ⟨0x57#8, ' ', 1, "LD D,A", false⟩,
  ⟨0x58#8, ' ', 1, "LD E,B", false⟩,
  ⟨0x59#8, ' ', 1, "LD E,C", false⟩,
  ⟨0x5a#8, ' ', 1, "LD E,D", false⟩,
  ⟨0x5b#8, ' ', 1, "LD E,E", false⟩,
  ⟨0x5c#8, ' ', 1, "LD E,H", false⟩,
  ⟨0x5d#8, ' ', 1, "LD E,L", false⟩,
  ⟨0x5e#8, ' ', 1, "LD E,(HL)", false⟩,
  ⟨0x5f#8, ' ', 1, "LD E,A", false⟩,
  ⟨0x60#8, ' ', 1, "LD H,B", false⟩,
  ⟨0x61#8, ' ', 1, "LD H,C", false⟩,
  ⟨0x62#8, ' ', 1, "LD H,D", false⟩,
  ⟨0x63#8, ' ', 1, "LD H,E", false⟩,
  ⟨0x64#8, ' ', 1, "LD H,H", false⟩,
  ⟨0x65#8, ' ', 1, "LD H,L", false⟩,
  ⟨0x66#8, ' ', 1, "LD H,(HL)", false⟩,
  ⟨0x67#8, ' ', 1, "LD H,A", false⟩,
  ⟨0x68#8, ' ', 1, "LD L,B", false⟩,
  ⟨0x69#8, ' ', 1, "LD L,C", false⟩,
  ⟨0x6a#8, ' ', 1, "LD L,D", false⟩,
  ⟨0x6b#8, ' ', 1, "LD L,E", false⟩,
  ⟨0x6c#8, ' ', 1, "LD L,H", false⟩,
  ⟨0x6d#8, ' ', 1, "LD L,L", false⟩,
  ⟨0x6e#8, ' ', 1, "LD L,(HL)", false⟩,
  ⟨0x6f#8, ' ', 1, "LD L,A", false⟩,
  ⟨0x70#8, ' ', 1, "LD (HL),B", false⟩,
  ⟨0x71#8, ' ', 1, "LD (HL),C", false⟩,
  ⟨0x72#8, ' ', 1, "LD (HL),D", false⟩,
  ⟨0x73#8, ' ', 1, "LD (HL),E", false⟩,
  ⟨0x74#8, ' ', 1, "LD (HL),H", false⟩,
  ⟨0x75#8, ' ', 1, "LD (HL),L", false⟩,
  ⟨0x76#8, ' ', 1, "HALT", false⟩,
  ⟨0x77#8, ' ', 1, "LD (HL),A", false⟩,
  ⟨0x78#8, ' ', 1, "LD A,B", false⟩,
  ⟨0x79#8, ' ', 1, "LD A,C", false⟩,
  ⟨0x7a#8, ' ', 1, "LD A,D", false⟩,
  ⟨0x7b#8, ' ', 1, "LD A,E", false⟩,
  ⟨0x7c#8, ' ', 1, "LD A,H", false⟩,
  ⟨0x7d#8, ' ', 1, "LD A,L", false⟩,
  ⟨0x7e#8, ' ', 1, "LD A,(HL)", false⟩,
  ⟨0x7f#8, ' ', 1, "LD A,A", false⟩,
  ⟨0x80#8, ' ', 1, "ADD A,B", false⟩,
  ⟨0x81#8, ' ', 1, "ADD A,C", false⟩,
  ⟨0x82#8, ' ', 1, "ADD A,D", false⟩,
  ⟨0x83#8, ' ', 1, "ADD A,E", false⟩,
  ⟨0x84#8, ' ', 1, "ADD A,H", false⟩,
  ⟨0x85#8, ' ', 1, "ADD A,L", false⟩,
  ⟨0x86#8, ' ', 1, "ADD A,(HL)", false⟩,
  ⟨0x87#8, ' ', 1, "ADD A,A", false⟩,
  ⟨0x88#8, ' ', 1, "ADC A,B", false⟩,
  ⟨0x89#8, ' ', 1, "ADC A,C", false⟩,
  ⟨0x8a#8, ' ', 1, "ADC A,D", false⟩,
  ⟨0x8b#8, ' ', 1, "ADC A,E", false⟩,
  ⟨0x8c#8, ' ', 1, "ADC A,H", false⟩,
  ⟨0x8d#8, ' ', 1, "ADC A,L", false⟩,
  ⟨0x8e#8, ' ', 1, "ADC A,(HL)", false⟩,
  ⟨0x8f#8, ' ', 1, "ADC A,A", false⟩,
  ⟨0x90#8, ' ', 1, "SUB A,B", false⟩,
  ⟨0x91#8, ' ', 1, "SUB A,C", false⟩,
  ⟨0x92#8, ' ', 1, "SUB A,D", false⟩,
  ⟨0x93#8, ' ', 1, "SUB A,E", false⟩,
  ⟨0x94#8, ' ', 1, "SUB A,H", false⟩,
  ⟨0x95#8, ' ', 1, "SUB A,L", false⟩,
  ⟨0x96#8, ' ', 1, "SUB A,(HL)", false⟩,
  ⟨0x97#8, ' ', 1, "SUB A,A", false⟩,
  ⟨0x98#8, ' ', 1, "SBC A,B", false⟩,
  ⟨0x99#8, ' ', 1, "SBC A,C", false⟩,
  ⟨0x9a#8, ' ', 1, "SBC A,D", false⟩,
  ⟨0x9b#8, ' ', 1, "SBC A,E", false⟩,
  ⟨0x9c#8, ' ', 1, "SBC A,H", false⟩,
  ⟨0x9d#8, ' ', 1, "SBC A,L", false⟩,
  ⟨0x9e#8, ' ', 1, "SBC A,(HL)", false⟩,
  ⟨0x9f#8, ' ', 1, "SBC A,A", false⟩,
  ⟨0xa0#8, ' ', 1, "AND B", false⟩,
  ⟨0xa1#8, ' ', 1, "AND C", false⟩,
  ⟨0xa2#8, ' ', 1, "AND D", false⟩,
  ⟨0xa3#8, ' ', 1, "AND E", false⟩,
  ⟨0xa4#8, ' ', 1, "AND H", false⟩,
  ⟨0xa5#8, ' ', 1, "AND L", false⟩,
  ⟨0xa6#8, ' ', 1, "AND (HL)", false⟩,
  ⟨0xa7#8, ' ', 1, "AND A", false⟩,
  ⟨0xa8#8, ' ', 1, "XOR B", false⟩,
  ⟨0xa9#8, ' ', 1, "XOR C", false⟩,
  ⟨0xaa#8, ' ', 1, "XOR D", false⟩,
  ⟨0xab#8, ' ', 1, "XOR E", false⟩,
  ⟨0xac#8, ' ', 1, "XOR H", false⟩,
  ⟨0xad#8, ' ', 1, "XOR L", false⟩,
  ⟨0xae#8, ' ', 1, "XOR (HL)", false⟩,
  ⟨0xaf#8, ' ', 1, "XOR A", false⟩,
  ⟨0xb0#8, ' ', 1, "OR B", false⟩,
  ⟨0xb1#8, ' ', 1, "OR C", false⟩,
  ⟨0xb2#8, ' ', 1, "OR D", false⟩,
  ⟨0xb3#8, ' ', 1, "OR E", false⟩,
  ⟨0xb4#8, ' ', 1, "OR H", false⟩,
  ⟨0xb5#8, ' ', 1, "OR L", false⟩,
  ⟨0xb6#8, ' ', 1, "OR (HL)", false⟩,
  ⟨0xb7#8, ' ', 1, "OR A", false⟩,
  ⟨0xb8#8, ' ', 1, "CP B", false⟩,
  ⟨0xb9#8, ' ', 1, "CP C", false⟩,
  ⟨0xba#8, ' ', 1, "CP D", false⟩,
  ⟨0xbb#8, ' ', 1, "CP E", false⟩,
  ⟨0xbc#8, ' ', 1, "CP H", false⟩,
  ⟨0xbd#8, ' ', 1, "CP L", false⟩,
  ⟨0xbe#8, ' ', 1, "CP (HL)", false⟩,
  ⟨0xbf#8, ' ', 1, "CP A", false⟩,
  ⟨0xc0#8, ' ', 1, "RET NZ", false⟩,
  ⟨0xc1#8, ' ', 1, "POP BC", false⟩,
  ⟨0xc2#8, 'A', 3, "JP NZ, %w", false⟩,
  ⟨0xc3#8, 'A', 3, "JP %w", false⟩,
  ⟨0xc4#8, 'l', 3, "CALL NZ,%w", true⟩,
  ⟨0xc5#8, ' ', 1, "PUSH BC", false⟩,
  ⟨0xc6#8, ' ', 2, "ADD A,%b", false⟩,
  ⟨0xc7#8, ' ', 1, "RST 0", true⟩,
  ⟨0xc8#8, ' ', 1, "RET Z", false⟩,
  ⟨0xc9#8, ' ', 1, "RET", false⟩,
  ⟨0xca#8, 'A', 3, "JP Z,%w", false⟩,
  ⟨0xcb#8, ' ', 2, "?cb?", false⟩,
  ⟨0xcc#8, 'l', 3, "CALL Z,%w", true⟩,
  ⟨0xcd#8, 'l', 3, "CALL %w", true⟩,
  ⟨0xce#8, ' ', 2, "ADC A,%b", false⟩,
  ⟨0xcf#8, ' ', 1, "RST 8", true⟩,
  ⟨0xd0#8, ' ', 1, "RET NC", false⟩,
  ⟨0xd1#8, ' ', 1, "POP DE", false⟩,
  ⟨0xd2#8, 'A', 3, "JP NC,%w", false⟩,
  ⟨0xd3#8, ' ', 2, "OUT (%b),A", false⟩,
  ⟨0xd4#8, 'l', 3, "CALL NC,%w", true⟩,
  ⟨0xd5#8, ' ', 1, "PUSH DE", false⟩,
  ⟨0xd6#8, ' ', 2, "sub %b", false⟩,
  ⟨0xd7#8, ' ', 1, "RST 10H", true⟩,
  ⟨0xd8#8, ' ', 1, "RET C", false⟩,
  ⟨0xd9#8, ' ', 1, "EXX", false⟩,
  ⟨0xda#8, 'A', 3, "JP C,%w", false⟩,
  ⟨0xdb#8, ' ', 2, "IN A,(%b)", false⟩,
  ⟨0xdc#8, 'l', 3, "CALL C,%w", true⟩,
  ⟨0xdd#8, ' ', 2, "?dd?", false⟩,
  ⟨0xde#8, ' ', 2, "SBC A,%b", false⟩,
  ⟨0xdf#8, ' ', 1, "RST 18H", true⟩,
  ⟨0xe0#8, ' ', 1, "RET PO", false⟩,
  ⟨0xe1#8, ' ', 1, "POP HL", false⟩,
  ⟨0xe2#8, 'A', 3, "JP PO,%w", false⟩,
  ⟨0xe3#8, ' ', 1, "EX (SP),HL", false⟩,
  ⟨0xe4#8, 'l', 3, "CALL PO,%w", true⟩,
  ⟨0xe5#8, ' ', 1, "PUSH HL", false⟩,
  ⟨0xe6#8, ' ', 2, "AND %b", false⟩,
  ⟨0xe7#8, ' ', 1, "RST 20H", true⟩,
  ⟨0xe8#8, ' ', 1, "RET PE", false⟩,
  ⟨0xe9#8, 'A', 1, "JP (HL)", false⟩,
  ⟨0xea#8, 'A', 3, "JP PE,%w", false⟩,
  ⟨0xeb#8, ' ', 1, "EX DE,HL", false⟩,
  ⟨0xec#8, 'l', 3, "CALL PE, %w", true⟩,
  ⟨0xed#8, ' ', 2, "?ed?", false⟩,
  ⟨0xee#8, ' ', 2, "XOR %b", false⟩,
  ⟨0xef#8, ' ', 1, "RST 28H", true⟩,
  ⟨0xf0#8, ' ', 1, "RET P", false⟩,
  ⟨0xf1#8, ' ', 1, "POP AF", false⟩,
  ⟨0xf2#8, 'A', 3, "JP P,%w", false⟩,
  ⟨0xf3#8, ' ', 1, "DI", false⟩,
  ⟨0xf4#8, 'l', 3, "CALL P,%w", true⟩,
  ⟨0xf5#8, ' ', 1, "PUSH AF", false⟩,
  ⟨0xf6#8, ' ', 2, "OR %b", false⟩,
  ⟨0xf7#8, ' ', 1, "RST 30H", true⟩,
  ⟨0xf8#8, ' ', 1, "RET M", false⟩,
  ⟨0xf9#8, ' ', 1, "LD SP,HL", false⟩,
  ⟨0xfa#8, ' ', 3, "JP M,%w", false⟩,
  ⟨0xfb#8, ' ', 1, "EI", false⟩,
  ⟨0xfc#8, 'l', 3, "CALL M,%w", true⟩,
  ⟨0xfd#8, ' ', 1, "?fd?", false⟩,
  ⟨0xfe#8, ' ', 2, "CP %b", false⟩,
  ⟨0xff#8, ' ', 1, "RST 38H", true⟩]

/-- disass_z80_cb[], glob.cc -/
def disCb : List DisEntry := [
  ⟨0x00#8, ' ', 1, "RLC B", false⟩,
  ⟨0x01#8, ' ', 1, "RLC C", false⟩,
  ⟨0x02#8, ' ', 1, "RLC D", false⟩,
  ⟨0x03#8, ' ', 1, "RLC E", false⟩,
  ⟨0x04#8, ' ', 1, "RLC H", false⟩,
  ⟨0x05#8, ' ', 1, "RLC L", false⟩,
  ⟨0x06#8, ' ', 1, "RLC (HL)", false⟩,
  ⟨0x07#8, ' ', 1, "RLC A", false⟩,
  ⟨0x08#8, ' ', 1, "RRC B", false⟩,
  ⟨0x09#8, ' ', 1, "RRC C", false⟩,
  ⟨0x0a#8, ' ', 1, "RRC D", false⟩,
  ⟨0x0b#8, ' ', 1, "RRC E", false⟩,
  ⟨0x0c#8, ' ', 1, "RRC H", false⟩,
  ⟨0x0d#8, ' ', 1, "RRC L", false⟩,
  ⟨0x0e#8, ' ', 1, "RRC (HL)", false⟩,
  ⟨0x0f#8, ' ', 1, "RRC A", false⟩,
  ⟨0x10#8, ' ', 1, "RL B", false⟩,
  ⟨0x11#8, ' ', 1, "RL C", false⟩,
  ⟨0x12#8, ' ', 1, "RL D", false⟩,
  ⟨0x13#8, ' ', 1, "RL E", false⟩,
  ⟨0x14#8, ' ', 1, "RL H", false⟩,
  ⟨0x15#8, ' ', 1, "RL L", false⟩,
  ⟨0x16#8, ' ', 1, "RL (HL)", false⟩,
  ⟨0x17#8, ' ', 1, "RL A", false⟩,
  ⟨0x18#8, ' ', 1, "RR B", false⟩,
  ⟨0x19#8, ' ', 1, "RR C", false⟩,
  ⟨0x1a#8, ' ', 1, "RR D", false⟩,
  ⟨0x1b#8, ' ', 1, "RR E", false⟩,
  ⟨0x1c#8, ' ', 1, "RR H", false⟩,
  ⟨0x1d#8, ' ', 1, "RR L", false⟩,
  ⟨0x1e#8, ' ', 1, "RR (HL)", false⟩,
  ⟨0x1f#8, ' ', 1, "RR A", false⟩,
  ⟨0x20#8, ' ', 1, "SLA B", false⟩,
  ⟨0x21#8, ' ', 1, "SLA C", false⟩,
  ⟨0x22#8, ' ', 1, "SLA D", false⟩,
  ⟨0x23#8, ' ', 1, "SLA E", false⟩,
  ⟨0x24#8, ' ', 1, "SLA H", false⟩,
  ⟨0x25#8, ' ', 1, "SLA L", false⟩,
  ⟨0x26#8, ' ', 1, "SLA (HL)", false⟩,
  ⟨0x27#8, ' ', 1, "SLA A", false⟩,
  ⟨0x28#8, ' ', 1, "SRA B", false⟩,
  ⟨0x29#8, ' ', 1, "SRA C", false⟩,
  ⟨0x2a#8, ' ', 1, "SRA D", false⟩,
  ⟨0x2b#8, ' ', 1, "SRA E", false⟩,
  ⟨0x2c#8, ' ', 1, "SRA H", false⟩,
  ⟨0x2d#8, ' ', 1, "SRA L", false⟩,
  ⟨0x2e#8, ' ', 1, "SRA (HL)", false⟩,
  ⟨0x2f#8, ' ', 1, "SRA A", false⟩,
  ⟨0x30#8, ' ', 1, "SLIA B", false⟩,
  ⟨0x31#8, ' ', 1, "SLIA C", false⟩,
  ⟨0x32#8, ' ', 1, "SLIA D", false⟩,
  ⟨0x33#8, ' ', 1, "SLIA E", false⟩,
  ⟨0x34#8, ' ', 1, "SLIA H", false⟩,
  ⟨0x35#8, ' ', 1, "SLIA L", false⟩,
  ⟨0x36#8, ' ', 1, "SLIA (HL)", false⟩,
  ⟨0x37#8, ' ', 1, "SLIA A", false⟩,
  ⟨0x38#8, ' ', 1, "SRL B", false⟩,
  ⟨0x39#8, ' ', 1, "SRL C", false⟩,
  ⟨0x3a#8, ' ', 1, "SRL D", false⟩,
  ⟨0x3b#8, ' ', 1, "SRL E", false⟩,
  ⟨0x3c#8, ' ', 1, "SRL H", false⟩,
  ⟨0x3d#8, ' ', 1, "SRL L", false⟩,
  ⟨0x3e#8, ' ', 1, "SRL (HL)", false⟩,
  ⟨0x3f#8, ' ', 1, "SRL A", false⟩,
  ⟨0x40#8, ' ', 1, "BIT 0,B", false⟩,
  ⟨0x41#8, ' ', 1, "BIT 0,C", false⟩,
  ⟨0x42#8, ' ', 1, "BIT 0,D", false⟩,
  ⟨0x43#8, ' ', 1, "BIT 0,E", false⟩,
  ⟨0x44#8, ' ', 1, "BIT 0,H", false⟩,
  ⟨0x45#8, ' ', 1, "BIT 0,L", false⟩,
  ⟨0x46#8, ' ', 1, "BIT 0,(HL)", false⟩,
  ⟨0x47#8, ' ', 1, "BIT 0,A", false⟩,
  ⟨0x48#8, ' ', 1, "BIT 1,B", false⟩,
  ⟨0x49#8, ' ', 1, "BIT 1,C", false⟩,
  ⟨0x4a#8, ' ', 1, "BIT 1,D", false⟩,
  ⟨0x4b#8, ' ', 1, "BIT 1,E", false⟩,
  ⟨0x4c#8, ' ', 1, "BIT 1,H", false⟩,
  ⟨0x4d#8, ' ', 1, "BIT 1,L", false⟩,
  ⟨0x4e#8, ' ', 1, "BIT 1,(HL)", false⟩,
  ⟨0x4f#8, ' ', 1, "BIT 1,A", false⟩,
  ⟨0x50#8, ' ', 1, "BIT 2,B", false⟩,
  ⟨0x51#8, ' ', 1, "BIT 2,C", false⟩,
  ⟨0x52#8, ' ', 1, "BIT 2,D", false⟩,
  ⟨0x53#8, ' ', 1, "BIT 2,E", false⟩,
  ⟨0x54#8, ' ', 1, "BIT 2,H", false⟩,
  ⟨0x55#8, ' ', 1, "BIT 2,L", false⟩,
  ⟨0x56#8, ' ', 1, "BIT 2,(HL)", false⟩,
  ⟨0x57#8, ' ', 1, "BIT 2,A", false⟩,
  ⟨0x58#8, ' ', 1, "BIT 3,B", false⟩,
  ⟨0x59#8, ' ', 1, "BIT 3,C", false⟩,
  ⟨0x5a#8, ' ', 1, "BIT 3,D", false⟩,
  ⟨0x5b#8, ' ', 1, "BIT 3,E", false⟩,
  ⟨0x5c#8, ' ', 1, "BIT 3,H", false⟩,
  ⟨0x5d#8, ' ', 1, "BIT 3,L", false⟩,
  ⟨0x5e#8, ' ', 1, "BIT 3,(HL)", false⟩,
  ⟨0x5f#8, ' ', 1, "BIT 3,A", false⟩,
  ⟨0x60#8, ' ', 1, "BIT 4,B", false⟩,
  ⟨0x61#8, ' ', 1, "BIT 4,C", false⟩,
  ⟨0x62#8, ' ', 1, "BIT 4,D", false⟩,
  ⟨0x63#8, ' ', 1, "BIT 4,E", false⟩,
  ⟨0x64#8, ' ', 1, "BIT 4,H", false⟩,
  ⟨0x65#8, ' ', 1, "BIT 4,L", false⟩,
  ⟨0x66#8, ' ', 1, "BIT 4,(HL)", false⟩,
  ⟨0x67#8, ' ', 1, "BIT 4,A", false⟩,
  ⟨0x68#8, ' ', 1, "BIT 5,B", false⟩,
  ⟨0x69#8, ' ', 1, "BIT 5,C", false⟩,
  ⟨0x6a#8, ' ', 1, "BIT 5,D", false⟩,
  ⟨0x6b#8, ' ', 1, "BIT 5,E", false⟩,
  ⟨0x6c#8, ' ', 1, "BIT 5,H", false⟩,
  ⟨0x6d#8, ' ', 1, "BIT 5,L", false⟩,
  ⟨0x6e#8, ' ', 1, "BIT 5,(HL)", false⟩,
  ⟨0x6f#8, ' ', 1, "BIT 5,A", false⟩,
  ⟨0x70#8, ' ', 1, "BIT 6,B", false⟩,
  ⟨0x71#8, ' ', 1, "BIT 6,C", false⟩,
  ⟨0x72#8, ' ', 1, "BIT 6,D", false⟩,
  ⟨0x73#8, ' ', 1, "BIT 6,E", false⟩,
  ⟨0x74#8, ' ', 1, "BIT 6,H", false⟩,
  ⟨0x75#8, ' ', 1, "BIT 6,L", false⟩,
  ⟨0x76#8, ' ', 1, "BIT 6,(HL)", false⟩,
  ⟨0x77#8, ' ', 1, "BIT 6,A", false⟩,
  ⟨0x78#8, ' ', 1, "BIT 7,B", false⟩,
  ⟨0x79#8, ' ', 1, "BIT 7,C", false⟩,
  ⟨0x7a#8, ' ', 1, "BIT 7,D", false⟩,
  ⟨0x7b#8, ' ', 1, "BIT 7,E", false⟩,
  ⟨0x7c#8, ' ', 1, "BIT 7,H", false⟩,
  ⟨0x7d#8, ' ', 1, "BIT 7,L", false⟩,
  ⟨0x7e#8, ' ', 1, "BIT 7,(HL)", false⟩,
  ⟨0x7f#8, ' ', 1, "BIT 7,A", false⟩,
  ⟨0x80#8, ' ', 1, "RES 0,B", false⟩,
  ⟨0x81#8, ' ', 1, "RES 0,C", false⟩,
  ⟨0x82#8, ' ', 1, "RES 0,D", false⟩,
  ⟨0x83#8, ' ', 1, "RES 0,E", false⟩,
  ⟨0x84#8, ' ', 1, "RES 0,H", false⟩,
  ⟨0x85#8, ' ', 1, "RES 0,L", false⟩,
  ⟨0x86#8, ' ', 1, "RES 0,(HL)", false⟩,
  ⟨0x87#8, ' ', 1, "RES 0,A", false⟩,
  ⟨0x88#8, ' ', 1, "RES 1,B", false⟩,
  ⟨0x89#8, ' ', 1, "RES 1,C", false⟩,
  ⟨0x8a#8, ' ', 1, "RES 1,D", false⟩,
  ⟨0x8b#8, ' ', 1, "RES 1,E", false⟩,
  ⟨0x8c#8, ' ', 1, "RES 1,H", false⟩,
  ⟨0x8d#8, ' ', 1, "RES 1,L", false⟩,
  ⟨0x8e#8, ' ', 1, "RES 1,(HL)", false⟩,
  ⟨0x8f#8, ' ', 1, "RES 1,A", false⟩,
  ⟨0x90#8, ' ', 1, "RES 2,B", false⟩,
  ⟨0x91#8, ' ', 1, "RES 2,C", false⟩,
  ⟨0x92#8, ' ', 1, "RES 2,D", false⟩,
  ⟨0x93#8, ' ', 1, "RES 2,E", false⟩,
  ⟨0x94#8, ' ', 1, "RES 2,H", false⟩,
  ⟨0x95#8, ' ', 1, "RES 2,L", false⟩,
  ⟨0x96#8, ' ', 1, "RES 2,(HL)", false⟩,
  ⟨0x97#8, ' ', 1, "RES 2,A", false⟩,
  ⟨0x98#8, ' ', 1, "RES 3,B", false⟩,
  ⟨0x99#8, ' ', 1, "RES 3,C", false⟩,
  ⟨0x9a#8, ' ', 1, "RES 3,D", false⟩,
  ⟨0x9b#8, ' ', 1, "RES 3,E", false⟩,
  ⟨0x9c#8, ' ', 1, "RES 3,H", false⟩,
  ⟨0x9d#8, ' ', 1, "RES 3,L", false⟩,
  ⟨0x9e#8, ' ', 1, "RES 3,(HL)", false⟩,
  ⟨0x9f#8, ' ', 1, "RES 3,A", false⟩,
  ⟨0xa0#8, ' ', 1, "RES 4,B", false⟩,
  ⟨0xa1#8, ' ', 1, "RES 4,C", false⟩,
  ⟨0xa2#8, ' ', 1, "RES 4,D", false⟩,
  ⟨0xa3#8, ' ', 1, "RES 4,E", false⟩,
  ⟨0xa4#8, ' ', 1, "RES 4,H", false⟩,
  ⟨0xa5#8, ' ', 1, "RES 4,L", false⟩,
  ⟨0xa6#8, ' ', 1, "RES 4,(HL)", false⟩,
  ⟨0xa7#8, ' ', 1, "RES 4,A", false⟩,
  ⟨0xa8#8, ' ', 1, "RES 5,B", false⟩,
  ⟨0xa9#8, ' ', 1, "RES 5,C", false⟩,
  ⟨0xaa#8, ' ', 1, "RES 5,D", false⟩,
  ⟨0xab#8, ' ', 1, "RES 5,E", false⟩,
  ⟨0xac#8, ' ', 1, "RES 5,H", false⟩,
  ⟨0xad#8, ' ', 1, "RES 5,L", false⟩,
  ⟨0xae#8, ' ', 1, "RES 5,(HL)", false⟩,
  ⟨0xaf#8, ' ', 1, "RES 5,A", false⟩,
  ⟨0xb0#8, ' ', 1, "RES 6,B", false⟩,
  ⟨0xb1#8, ' ', 1, "RES 6,C", false⟩,
  ⟨0xb2#8, ' ', 1, "RES 6,D", false⟩,
  ⟨0xb3#8, ' ', 1, "RES 6,E", false⟩,
  ⟨0xb4#8, ' ', 1, "RES 6,H", false⟩,
  ⟨0xb5#8, ' ', 1, "RES 6,L", false⟩,
  ⟨0xb6#8, ' ', 1, "RES 6,(HL)", false⟩,
  ⟨0xb7#8, ' ', 1, "RES 6,A", false⟩,
  ⟨0xb8#8, ' ', 1, "RES 7,B", false⟩,
  ⟨0xb9#8, ' ', 1, "RES 7,C", false⟩,
  ⟨0xba#8, ' ', 1, "RES 7,D", false⟩,
  ⟨0xbb#8, ' ', 1, "RES 7,E", false⟩,
  ⟨0xbc#8, ' ', 1, "RES 7,H", false⟩,
  ⟨0xbd#8, ' ', 1, "RES 7,L", false⟩,
  ⟨0xbe#8, ' ', 1, "RES 7,(HL)", false⟩,
  ⟨0xbf#8, ' ', 1, "RES 7,A", false⟩,
  ⟨0xc0#8, ' ', 1, "SET 0,B", false⟩,
  ⟨0xc1#8, ' ', 1, "SET 0,C", false⟩,
  ⟨0xc2#8, ' ', 1, "SET 0,D", false⟩,
  ⟨0xc3#8, ' ', 1, "SET 0,E", false⟩,
  ⟨0xc4#8, ' ', 1, "SET 0,H", false⟩,
  ⟨0xc5#8, ' ', 1, "SET 0,L", false⟩,
  ⟨0xc6#8, ' ', 1, "SET 0,(HL)", false⟩,
  ⟨0xc7#8, ' ', 1, "SET 0,A", false⟩,
  ⟨0xc8#8, ' ', 1, "SET 1,B", false⟩,
  ⟨0xc9#8, ' ', 1, "SET 1,C", false⟩,
  ⟨0xca#8, ' ', 1, "SET 1,D", false⟩,
  ⟨0xcb#8, ' ', 1, "SET 1,E", false⟩,
  ⟨0xcc#8, ' ', 1, "SET 1,H", false⟩,
  ⟨0xcd#8, ' ', 1, "SET 1,L", false⟩,
  ⟨0xce#8, ' ', 1, "SET 1,(HL)", false⟩,
  ⟨0xcf#8, ' ', 1, "SET 1,A", false⟩,
  ⟨0xd0#8, ' ', 1, "SET 2,B", false⟩,
  ⟨0xd1#8, ' ', 1, "SET 2,C", false⟩,
  ⟨0xd2#8, ' ', 1, "SET 2,D", false⟩,
  ⟨0xd3#8, ' ', 1, "SET 2,E", false⟩,
  ⟨0xd4#8, ' ', 1, "SET 2,H", false⟩,
  ⟨0xd5#8, ' ', 1, "SET 2,L", false⟩,
  ⟨0xd6#8, ' ', 1, "SET 2,(HL)", false⟩,
  ⟨0xd7#8, ' ', 1, "SET 2,A", false⟩,
  ⟨0xd8#8, ' ', 1, "SET 3,B", false⟩,
  ⟨0xd9#8, ' ', 1, "SET 3,C", false⟩,
  ⟨0xda#8, ' ', 1, "SET 3,D", false⟩,
  ⟨0xdb#8, ' ', 1, "SET 3,E", false⟩,
  ⟨0xdc#8, ' ', 1, "SET 3,H", false⟩,
  ⟨0xdd#8, ' ', 1, "SET 3,L", false⟩,
  ⟨0xde#8, ' ', 1, "SET 3,(HL)", false⟩,
  ⟨0xdf#8, ' ', 1, "SET 3,A", false⟩,
  ⟨0xe0#8, ' ', 1, "SET 4,B", false⟩,
  ⟨0xe1#8, ' ', 1, "SET 4,C", false⟩,
  ⟨0xe2#8, ' ', 1, "SET 4,D", false⟩,
  ⟨0xe3#8, ' ', 1, "SET 4,E", false⟩,
  ⟨0xe4#8, ' ', 1, "SET 4,H", false⟩,
  ⟨0xe5#8, ' ', 1, "SET 4,L", false⟩,
  ⟨0xe6#8, ' ', 1, "SET 4,(HL)", false⟩,
  ⟨0xe7#8, ' ', 1, "SET 4,A", false⟩,
  ⟨0xe8#8, ' ', 1, "SET 5,B", false⟩,
  ⟨0xe9#8, ' ', 1, "SET 5,C", false⟩,
  ⟨0xea#8, ' ', 1, "SET 5,D", false⟩,
  ⟨0xeb#8, ' ', 1, "SET 5,E", false⟩,
  ⟨0xec#8, ' ', 1, "SET 5,H", false⟩,
  ⟨0xed#8, ' ', 1, "SET 5,L", false⟩,
  ⟨0xee#8, ' ', 1, "SET 5,(HL)", false⟩,
  ⟨0xef#8, ' ', 1, "SET 5,A", false⟩,
  ⟨0xf0#8, ' ', 1, "SET 6,B", false⟩,
  ⟨0xf1#8, ' ', 1, "SET 6,C", false⟩,
  ⟨0xf2#8, ' ', 1, "SET 6,D", false⟩,
  ⟨0xf3#8, ' ', 1, "SET 6,E", false⟩,
  ⟨0xf4#8, ' ', 1, "SET 6,H", false⟩,
  ⟨0xf5#8, ' ', 1, "SET 6,L", false⟩,
  ⟨0xf6#8, ' ', 1, "SET 6,(HL)", false⟩,
  ⟨0xf7#8, ' ', 1, "SET 6,A", false⟩,
  ⟨0xf8#8, ' ', 1, "SET 7,B", false⟩,
  ⟨0xf9#8, ' ', 1, "SET 7,C", false⟩,
  ⟨0xfa#8, ' ', 1, "SET 7,D", false⟩,
  ⟨0xfb#8, ' ', 1, "SET 7,E", false⟩,
  ⟨0xfc#8, ' ', 1, "SET 7,H", false⟩,
  ⟨0xfd#8, ' ', 1, "SET 7,L", false⟩,
  ⟨0xfe#8, ' ', 1, "SET 7,(HL)", false⟩,
  ⟨0xff#8, ' ', 1, "SET 7,A", false⟩]

/-- disass_z80_ed[], glob.cc -/
def disEd : List DisEntry := [
  ⟨0x00#8, ' ', 1, "RLC B", false⟩,
  ⟨0x40#8, ' ', 1, "IN B,(C)", false⟩,
  ⟨0x41#8, ' ', 1, "OUT (C),B", false⟩,
  ⟨0x42#8, ' ', 1, "SBC HL,BC", false⟩,
  ⟨0x43#8, ' ', 1, "LD (nnnn),BC", false⟩,
  ⟨0x44#8, ' ', 1, "NEG", false⟩,
  ⟨0x45#8, ' ', 1, "RETN", false⟩,
  ⟨0x46#8, ' ', 1, "IM 0", false⟩,
  ⟨0x47#8, ' ', 1, "LD IV,A", false⟩,
  ⟨0x48#8, ' ', 1, "IN C,(C)", false⟩,
  ⟨0x49#8, ' ', 1, "OUT (C),C", false⟩,
  ⟨0x4a#8, ' ', 1, "ADC HL,BC", false⟩,
  ⟨0x4b#8, ' ', 1, "LD BC,(nnnn)", false⟩,
  ⟨0x4d#8, ' ', 1, "RETI", false⟩,
  ⟨0x4f#8, ' ', 1, "LD R,A", false⟩,
  ⟨0x50#8, ' ', 1, "IN D,(C)", false⟩,
  ⟨0x51#8, ' ', 1, "OUT (C),D", false⟩,
  ⟨0x52#8, ' ', 1, "SBC HL,DE", false⟩,
  ⟨0x53#8, ' ', 1, "LD (nnnn),DE", false⟩,
  ⟨0x56#8, ' ', 1, "IM 1", false⟩,
  ⟨0x57#8, ' ', 1, "LD A,IV", false⟩,
  ⟨0x58#8, ' ', 1, "IN E,(C)", false⟩,
  ⟨0x59#8, ' ', 1, "OUT (C),E", false⟩,
  ⟨0x5a#8, ' ', 1, "ADC HL,DE", false⟩,
  ⟨0x5b#8, ' ', 1, "LD DE,(nnnn)", false⟩,
  ⟨0x5e#8, ' ', 1, "IM 2", false⟩,
  ⟨0x5f#8, ' ', 1, "LD A,R", false⟩,
  ⟨0x60#8, ' ', 1, "IN H,(C)", false⟩,
  ⟨0x61#8, ' ', 1, "OUT (C),H", false⟩,
  ⟨0x62#8, ' ', 1, "SBC HL,HL", false⟩,
  ⟨0x63#8, ' ', 1, "LD (nnnn),HL", false⟩,
  ⟨0x67#8, ' ', 1, "RRD", false⟩,
  ⟨0x68#8, ' ', 1, "IN L,(C)", false⟩,
  ⟨0x69#8, ' ', 1, "OUT (C),L", false⟩,
  ⟨0x6a#8, ' ', 1, "ADC HL,HL", false⟩,
  ⟨0x6b#8, ' ', 1, "LD HL,(nnnn)", false⟩,
  ⟨0x6f#8, ' ', 1, "RLD", false⟩,
  ⟨0x70#8, ' ', 1, "IN (C)", false⟩,
  ⟨0x71#8, ' ', 1, "OUT (C),0", false⟩,
  ⟨0x72#8, ' ', 1, "SBC HL,SP", false⟩,
  ⟨0x73#8, ' ', 1, "LD (nnnn),SP", false⟩,
  ⟨0x78#8, ' ', 1, "IN A,(C)", false⟩,
  ⟨0x79#8, ' ', 1, "OUT (C),A", false⟩,
  ⟨0x7a#8, ' ', 1, "ADC HL,SP", false⟩,
  ⟨0x7b#8, ' ', 1, "LD SP,(nnnn)", false⟩,
  ⟨0xa0#8, ' ', 1, "LDI", false⟩,
  ⟨0xa1#8, ' ', 1, "CPI", false⟩,
  ⟨0xa2#8, ' ', 1, "INI", false⟩,
  ⟨0xa3#8, ' ', 1, "OUTI", false⟩,
  ⟨0xa8#8, ' ', 1, "LDD", false⟩,
  ⟨0xa9#8, ' ', 1, "CPD", false⟩,
  ⟨0xaa#8, ' ', 1, "IND", false⟩,
  ⟨0xab#8, ' ', 1, "OUTD", false⟩,
  ⟨0xb0#8, ' ', 1, "LDIR", false⟩,
  ⟨0xb1#8, ' ', 1, "CPIR", false⟩,
  ⟨0xb2#8, ' ', 1, "INIR", false⟩,
  ⟨0xb3#8, ' ', 1, "OTIR", false⟩,
  ⟨0xb8#8, ' ', 1, "LDDR", false⟩,
  ⟨0xb9#8, ' ', 1, "CPDR", false⟩,
  ⟨0xba#8, ' ', 1, "INDR", false⟩,
  ⟨0xbb#8, ' ', 1, "OTDR", false⟩]

/-- disass_z80_dd[], glob.cc -/
def disDd : List DisEntry := [
  ⟨0x21#8, ' ', 3, "LD IX,%w", false⟩,
  ⟨0x22#8, ' ', 3, "LD (%w),IX", false⟩,
  ⟨0x26#8, ' ', 2, "LD HX,%b", false⟩,
  ⟨0x2a#8, ' ', 3, "LD IX,(%w)", false⟩,
  ⟨0x2e#8, ' ', 2, "LD LX,%b", false⟩,
  ⟨0x36#8, ' ', 3, "LD (IX+%d),%b", false⟩,
  ⟨0x44#8, ' ', 1, "LD B,HX", false⟩,
  ⟨0x45#8, ' ', 1, "LD B,LX", false⟩,
  ⟨0x46#8, ' ', 2, "LD B,(IX+%d)", false⟩,
  ⟨0x4c#8, ' ', 1, "LD C,HX", false⟩,
  ⟨0x4d#8, ' ', 1, "LD C,LX", false⟩,
  ⟨0x4e#8, ' ', 2, "LD C,(IX+%d)", false⟩,
  ⟨0x54#8, ' ', 1, "LD D,HX", false⟩,
  ⟨0x55#8, ' ', 1, "LD D,LX", false⟩,
  ⟨0x56#8, ' ', 2, "LD D,(IX+%d)", false⟩,
  ⟨0x5c#8, ' ', 1, "LD E,HX", false⟩,
  ⟨0x5d#8, ' ', 1, "LD E,LX", false⟩,
  ⟨0x5e#8, ' ', 2, "LD E,(IX+%d)", false⟩,
  ⟨0x60#8, ' ', 1, "LD HX,B", false⟩,
  ⟨0x61#8, ' ', 1, "LD HX,C", false⟩,
  ⟨0x62#8, ' ', 1, "LD HX,D", false⟩,
  ⟨0x63#8, ' ', 1, "LD HX,E", false⟩,
  ⟨0x64#8, ' ', 1, "LD HX,HX", false⟩,
  ⟨0x65#8, ' ', 1, "LD HX,LX", false⟩,
  ⟨0x66#8, ' ', 2, "LD H,(IX+%d)", false⟩,
  ⟨0x67#8, ' ', 1, "LD HX,A", false⟩,
  ⟨0x68#8, ' ', 1, "LD LX,B", false⟩,
  ⟨0x69#8, ' ', 1, "LD LX,C", false⟩,
  ⟨0x6a#8, ' ', 1, "LD LX,D", false⟩,
  ⟨0x6b#8, ' ', 1, "LD LX,E", false⟩,
  ⟨0x6c#8, ' ', 1, "LD LX,HX", false⟩,
  ⟨0x6d#8, ' ', 1, "LD LX,LX", false⟩,
  ⟨0x6e#8, ' ', 2, "LD L,(IX+%d)", false⟩,
  ⟨0x6f#8, ' ', 1, "LD LX,A", false⟩,
  ⟨0x70#8, ' ', 2, "LD (IX+%d),B", false⟩,
  ⟨0x71#8, ' ', 2, "LD (IX+%d),C", false⟩,
  ⟨0x72#8, ' ', 2, "LD (IX+%d),D", false⟩,
  ⟨0x73#8, ' ', 2, "LD (IX+%d),E", false⟩,
  ⟨0x74#8, ' ', 2, "LD (IX+%d),H", false⟩,
  ⟨0x75#8, ' ', 2, "LD (IX+%d),L", false⟩,
  ⟨0x77#8, ' ', 2, "LD (IX+%d),A", false⟩,
  ⟨0x7c#8, ' ', 1, "LD A,HX", false⟩,
  ⟨0x7d#8, ' ', 1, "LD A,LX", false⟩,
  ⟨0x7e#8, ' ', 2, "LD A,(IX+%d)", false⟩,
  ⟨0xf9#8, ' ', 1, "LD SP,IX", false⟩,
  ⟨0x23#8, ' ', 1, "INC IX", false⟩,
  ⟨0x24#8, ' ', 1, "INC HX", false⟩,
  ⟨0x2c#8, ' ', 1, "INC LX", false⟩,
  ⟨0x34#8, ' ', 2, "INC (IX+%d)", false⟩,
  ⟨0x09#8, ' ', 1, "ADD IX,BC", false⟩,
  ⟨0x19#8, ' ', 1, "ADD IX,DE", false⟩,
  ⟨0x29#8, ' ', 1, "ADD IX,IX", false⟩,
  ⟨0x39#8, ' ', 1, "ADD IX,SP", false⟩,
  ⟨0x84#8, ' ', 1, "ADD A,HX", false⟩,
  ⟨0x85#8, ' ', 1, "ADD A,LX", false⟩,
  ⟨0x86#8, ' ', 2, "ADD A,(IX+%d)", false⟩,
  ⟨0x25#8, ' ', 1, "DEC HX", false⟩,
  ⟨0x2b#8, ' ', 1, "DEC IX", false⟩,
  ⟨0x2d#8, ' ', 1, "DEC LX", false⟩,
  ⟨0x35#8, ' ', 2, "DEC (IX+%d)", false⟩,
  ⟨0x8c#8, ' ', 1, "ADC A,HX", false⟩,
  ⟨0x8d#8, ' ', 1, "ADC A,LX", false⟩,
  ⟨0x8e#8, ' ', 2, "ADC A,(IX+%d)", false⟩,
  ⟨0x94#8, ' ', 1, "SUB HX", false⟩,
  ⟨0x95#8, ' ', 1, "SUB LX", false⟩,
  ⟨0x96#8, ' ', 2, "SUB (IX+%d)", false⟩,
  ⟨0x9c#8, ' ', 1, "SBC A,HX", false⟩,
  ⟨0x9d#8, ' ', 1, "SBC A,LX", false⟩,
  ⟨0x9e#8, ' ', 2, "SBC A,(IX+%d)", false⟩,
  ⟨0xa4#8, ' ', 1, "AND HX", false⟩,
  ⟨0xa5#8, ' ', 1, "AND LX", false⟩,
  ⟨0xa6#8, ' ', 2, "AND (IX+%d)", false⟩,
  ⟨0xac#8, ' ', 1, "XOR HX", false⟩,
  ⟨0xad#8, ' ', 1, "XOR LX", false⟩,
  ⟨0xae#8, ' ', 2, "XOR (IX+%d)", false⟩,
  ⟨0xb4#8, ' ', 1, "OR HX", false⟩,
  ⟨0xb5#8, ' ', 1, "OR LX", false⟩,
  ⟨0xb6#8, ' ', 2, "OR (IX+%d)", false⟩,
  ⟨0xbc#8, ' ', 1, "CP HX", false⟩,
  ⟨0xbd#8, ' ', 1, "CP LX", false⟩,
  ⟨0xbe#8, ' ', 2, "CP (IX+%d)", false⟩,
  ⟨0xcb#8, ' ', 1, "?cb?", false⟩,
  ⟨0xe1#8, ' ', 1, "POP IX", false⟩,
  ⟨0xe3#8, ' ', 1, "EX (SP),IX", false⟩,
  ⟨0xe5#8, ' ', 1, "PUSH IX", false⟩,
  ⟨0xe9#8, ' ', 1, "JP (IX)", false⟩]

/-- disass_z80_fd[], glob.cc -/
def disFd : List DisEntry := [
  ⟨0x21#8, ' ', 3, "LD IY,%w", false⟩,
  ⟨0x22#8, ' ', 3, "LD (%w),IY", false⟩,
  ⟨0x26#8, ' ', 2, "LD HY,%b", false⟩,
  ⟨0x2a#8, ' ', 3, "LD IY,(%w)", false⟩,
  ⟨0x2e#8, ' ', 2, "LD LY,%b", false⟩,
  ⟨0x36#8, ' ', 3, "LD (IY+%d),%b", false⟩,
  ⟨0x44#8, ' ', 1, "LD B,HY", false⟩,
  ⟨0x45#8, ' ', 1, "LD B,LY", false⟩,
  ⟨0x46#8, ' ', 2, "LD B,(IY+%d)", false⟩,
  ⟨0x4c#8, ' ', 1, "LD C,HY", false⟩,
  ⟨0x4d#8, ' ', 1, "LD C,LY", false⟩,
  ⟨0x4e#8, ' ', 2, "LD C,(IY+%d)", false⟩,
  ⟨0x54#8, ' ', 1, "LD D,HY", false⟩,
  ⟨0x55#8, ' ', 1, "LD D,LY", false⟩,
  ⟨0x56#8, ' ', 2, "LD D,(IY+%d)", false⟩,
  ⟨0x5c#8, ' ', 1, "LD E,HY", false⟩,
  ⟨0x5d#8, ' ', 1, "LD E,LY", false⟩,
  ⟨0x5e#8, ' ', 2, "LD E,(IY+%d)", false⟩,
  ⟨0x60#8, ' ', 1, "LD HY,B", false⟩,
  ⟨0x61#8, ' ', 1, "LD HY,C", false⟩,
  ⟨0x62#8, ' ', 1, "LD HY,D", false⟩,
  ⟨0x63#8, ' ', 1, "LD HY,E", false⟩,
  ⟨0x64#8, ' ', 1, "LD HY,HY", false⟩,
  ⟨0x65#8, ' ', 1, "LD HY,LY", false⟩,
  ⟨0x66#8, ' ', 2, "LD H,(IY+%d)", false⟩,
  ⟨0x67#8, ' ', 1, "LD HY,A", false⟩,
  ⟨0x68#8, ' ', 1, "LD LY,B", false⟩,
  ⟨0x69#8, ' ', 1, "LD LY,C", false⟩,
  ⟨0x6a#8, ' ', 1, "LD LY,D", false⟩,
  ⟨0x6b#8, ' ', 1, "LD LY,E", false⟩,
  ⟨0x6c#8, ' ', 1, "LD LY,HY", false⟩,
  ⟨0x6d#8, ' ', 1, "LD LY,LY", false⟩,
  ⟨0x6e#8, ' ', 2, "LD L,(IY+%d)", false⟩,
  ⟨0x6f#8, ' ', 1, "LD LY,A", false⟩,
  ⟨0x70#8, ' ', 2, "LD (IY+%d),B", false⟩,
  ⟨0x71#8, ' ', 2, "LD (IY+%d),C", false⟩,
  ⟨0x72#8, ' ', 2, "LD (IY+%d),D", false⟩,
  ⟨0x73#8, ' ', 2, "LD (IY+%d),E", false⟩,
  ⟨0x74#8, ' ', 2, "LD (IY+%d),H", false⟩,
  ⟨0x75#8, ' ', 2, "LD (IY+%d),L", false⟩,
  ⟨0x77#8, ' ', 2, "LD (IY+%d),A", false⟩,
  ⟨0x7c#8, ' ', 1, "LD A,HY", false⟩,
  ⟨0x7d#8, ' ', 1, "LD A,LY", false⟩,
  ⟨0x7e#8, ' ', 2, "LD A,(IY+%d)", false⟩,
  ⟨0xf9#8, ' ', 1, "LD SP,IY", false⟩,
  ⟨0x23#8, ' ', 1, "INC IY", false⟩,
  ⟨0x24#8, ' ', 1, "INC HY", false⟩,
  ⟨0x2c#8, ' ', 1, "INC LY", false⟩,
  ⟨0x34#8, ' ', 2, "INC (IY+%d)", false⟩,
  ⟨0x09#8, ' ', 1, "ADD IY,BC", false⟩,
  ⟨0x19#8, ' ', 1, "ADD IY,DE", false⟩,
  ⟨0x29#8, ' ', 1, "ADD IY,IY", false⟩,
  ⟨0x39#8, ' ', 1, "ADD IY,SP", false⟩,
  ⟨0x84#8, ' ', 1, "ADD A,HY", false⟩,
  ⟨0x85#8, ' ', 1, "ADD A,LY", false⟩,
  ⟨0x86#8, ' ', 2, "ADD A,(IY+%d)", false⟩,
  ⟨0x25#8, ' ', 1, "DEC HY", false⟩,
  ⟨0x2b#8, ' ', 1, "DEC IY", false⟩,
  ⟨0x2d#8, ' ', 1, "DEC LY", false⟩,
  ⟨0x35#8, ' ', 2, "DEC (IY+%d)", false⟩,
  ⟨0x8c#8, ' ', 1, "ADC A,HY", false⟩,
  ⟨0x8d#8, ' ', 1, "ADC A,LY", false⟩,
  ⟨0x8e#8, ' ', 2, "ADC A,(IY+%d)", false⟩,
  ⟨0x94#8, ' ', 1, "SUB HY", false⟩,
  ⟨0x95#8, ' ', 1, "SUB LY", false⟩,
  ⟨0x96#8, ' ', 2, "SUB (IY+%d)", false⟩,
  ⟨0x9c#8, ' ', 1, "SBC A,HY", false⟩,
  ⟨0x9d#8, ' ', 1, "SBC A,LY", false⟩,
  ⟨0x9e#8, ' ', 2, "SBC A,(IY+%d)", false⟩,
  ⟨0xa4#8, ' ', 1, "AND HY", false⟩,
  ⟨0xa5#8, ' ', 1, "AND LY", false⟩,
  ⟨0xa6#8, ' ', 2, "AND (IY+%d)", false⟩,
  ⟨0xac#8, ' ', 1, "XOR HY", false⟩,
  ⟨0xad#8, ' ', 1, "XOR LY", false⟩,
  ⟨0xae#8, ' ', 2, "XOR (IY+%d)", false⟩,
  ⟨0xb4#8, ' ', 1, "OR HY", false⟩,
  ⟨0xb5#8, ' ', 1, "OR LY", false⟩,
  ⟨0xb6#8, ' ', 2, "OR (IY+%d)", false⟩,
  ⟨0xbc#8, ' ', 1, "CP HY", false⟩,
  ⟨0xbd#8, ' ', 1, "CP LY", false⟩,
  ⟨0xbe#8, ' ', 2, "CP (IY+%d)", false⟩,
  ⟨0xcb#8, ' ', 1, "escape", false⟩,
  ⟨0xe1#8, ' ', 1, "POP IY", false⟩,
  ⟨0xe3#8, ' ', 1, "EX (SP),IY", false⟩,
  ⟨0xe5#8, ' ', 1, "PUSH IY", false⟩,
  ⟨0xe9#8, ' ', 1, "JP (IY)", false⟩]

/-- disass_z80_ddcb[], glob.cc -/
def disDdcb : List DisEntry := [
  ⟨0x00#8, ' ', 2, "RLC (IX+%d)->B", false⟩,
  ⟨0x01#8, ' ', 2, "RLC (IX+%d)->C", false⟩,
  ⟨0x02#8, ' ', 2, "RLC (IX+%d)->D", false⟩,
  ⟨0x03#8, ' ', 2, "RLC (IX+%d)->E", false⟩,
  ⟨0x04#8, ' ', 2, "RLC (IX+%d)->H", false⟩,
  ⟨0x05#8, ' ', 2, "RLC (IX+%d)->L", false⟩,
  ⟨0x06#8, ' ', 2, "RLC (IX+%d)", false⟩,
  ⟨0x07#8, ' ', 2, "RLC (IX+%d)->A", false⟩,
  ⟨0x08#8, ' ', 2, "RRC (IX+%d)->B", false⟩,
  ⟨0x09#8, ' ', 2, "RRC (IX+%d)->C", false⟩,
  ⟨0x0a#8, ' ', 2, "RRC (IX+%d)->D", false⟩,
  ⟨0x0b#8, ' ', 2, "RRC (IX+%d)->E", false⟩,
  ⟨0x0c#8, ' ', 2, "RRC (IX+%d)->H", false⟩,
  ⟨0x0d#8, ' ', 2, "RRC (IX+%d)->L", false⟩,
  ⟨0x0e#8, ' ', 2, "RRC (IX+%d)", false⟩,
  ⟨0x0f#8, ' ', 2, "RRC (IX+%d)->A", false⟩,
  ⟨0x10#8, ' ', 2, "RL (IX+%d)->B", false⟩,
  ⟨0x11#8, ' ', 2, "RL (IX+%d)->C", false⟩,
  ⟨0x12#8, ' ', 2, "RL (IX+%d)->D", false⟩,
  ⟨0x13#8, ' ', 2, "RL (IX+%d)->E", false⟩,
  ⟨0x14#8, ' ', 2, "RL (IX+%d)->H", false⟩,
  ⟨0x15#8, ' ', 2, "RL (IX+%d)->L", false⟩,
  ⟨0x16#8, ' ', 2, "RL (IX+%d)", false⟩,
  ⟨0x17#8, ' ', 2, "RL (IX+%d)->A", false⟩,
  ⟨0x18#8, ' ', 2, "RR (IX+%d)->B", false⟩,
  ⟨0x19#8, ' ', 2, "RR (IX+%d)->C", false⟩,
  ⟨0x1a#8, ' ', 2, "RR (IX+%d)->D", false⟩,
  ⟨0x1b#8, ' ', 2, "RR (IX+%d)->E", false⟩,
  ⟨0x1c#8, ' ', 2, "RR (IX+%d)->H", false⟩,
  ⟨0x1d#8, ' ', 2, "RR (IX+%d)->L", false⟩,
  ⟨0x1e#8, ' ', 2, "RR (IX+%d)", false⟩,
  ⟨0x1f#8, ' ', 2, "RR (IX+%d)->A", false⟩,
  ⟨0x20#8, ' ', 2, "SLA (IX+%d)->B", false⟩,
  ⟨0x21#8, ' ', 2, "SLA (IX+%d)->C", false⟩,
  ⟨0x22#8, ' ', 2, "SLA (IX+%d)->D", false⟩,
  ⟨0x23#8, ' ', 2, "SLA (IX+%d)->E", false⟩,
  ⟨0x24#8, ' ', 2, "SLA (IX+%d)->H", false⟩,
  ⟨0x25#8, ' ', 2, "SLA (IX+%d)->L", false⟩,
  ⟨0x26#8, ' ', 2, "SLA (IX+%d)", false⟩,
  ⟨0x27#8, ' ', 2, "SLA (IX+%d)->A", false⟩,
  ⟨0x28#8, ' ', 2, "SRA (IX+%d)->B", false⟩,
  ⟨0x29#8, ' ', 2, "SRA (IX+%d)->C", false⟩,
  ⟨0x2a#8, ' ', 2, "SRA (IX+%d)->D", false⟩,
  ⟨0x2b#8, ' ', 2, "SRA (IX+%d)->E", false⟩,
  ⟨0x2c#8, ' ', 2, "SRA (IX+%d)->H", false⟩,
  ⟨0x2d#8, ' ', 2, "SRA (IX+%d)->L", false⟩,
  ⟨0x2e#8, ' ', 2, "SRA (IX+%d)", false⟩,
  ⟨0x2f#8, ' ', 2, "SRA (IX+%d)->A", false⟩,
  ⟨0x30#8, ' ', 2, "SLIA (IX+%d)->B", false⟩,
  ⟨0x31#8, ' ', 2, "SLIA (IX+%d)->C", false⟩,
  ⟨0x32#8, ' ', 2, "SLIA (IX+%d)->D", false⟩,
  ⟨0x33#8, ' ', 2, "SLIA (IX+%d)->E", false⟩,
  ⟨0x34#8, ' ', 2, "SLIA (IX+%d)->H", false⟩,
  ⟨0x35#8, ' ', 2, "SLIA (IX+%d)->L", false⟩,
  ⟨0x36#8, ' ', 2, "SLIA (IX+%d)", false⟩,
  ⟨0x37#8, ' ', 2, "SLIA (IX+%d)->A", false⟩,
  ⟨0x38#8, ' ', 2, "SRL (IX+%d)->B", false⟩,
  ⟨0x39#8, ' ', 2, "SRL (IX+%d)->C", false⟩,
  ⟨0x3a#8, ' ', 2, "SRL (IX+%d)->D", false⟩,
  ⟨0x3b#8, ' ', 2, "SRL (IX+%d)->E", false⟩,
  ⟨0x3c#8, ' ', 2, "SRL (IX+%d)->H", false⟩,
  ⟨0x3d#8, ' ', 2, "SRL (IX+%d)->L", false⟩,
  ⟨0x3e#8, ' ', 2, "SRL (IX+%d)", false⟩,
  ⟨0x3f#8, ' ', 2, "SRL A", false⟩,
  ⟨0x40#8, ' ', 2, "BIT (IX+%d)->0,B", false⟩,
  ⟨0x41#8, ' ', 2, "BIT (IX+%d)->0,C", false⟩,
  ⟨0x42#8, ' ', 2, "BIT (IX+%d)->0,D", false⟩,
  ⟨0x43#8, ' ', 2, "BIT (IX+%d)->0,E", false⟩,
  ⟨0x44#8, ' ', 2, "BIT (IX+%d)->0,H", false⟩,
  ⟨0x45#8, ' ', 2, "BIT (IX+%d)->0,L", false⟩,
  ⟨0x46#8, ' ', 2, "BIT 0,(IX+%d)", false⟩,
  ⟨0x4e#8, ' ', 2, "BIT 1,(IX+%d)", false⟩,
  ⟨0x56#8, ' ', 2, "BIT 2,(IX+%d)", false⟩,
  ⟨0x5e#8, ' ', 2, "BIT 3,(IX+%d)", false⟩,
  ⟨0x66#8, ' ', 2, "BIT 4,(IX+%d)", false⟩,
  ⟨0x6e#8, ' ', 2, "BIT 5,(IX+%d)", false⟩,
  ⟨0x76#8, ' ', 2, "BIT 6,(IX+%d)", false⟩,
  ⟨0x7e#8, ' ', 2, "BIT 7,(IX+%d)", false⟩,
  ⟨0x80#8, ' ', 2, "RES 0,(IX+%d)->B", false⟩,
  ⟨0x81#8, ' ', 2, "RES 0,(IX+%d)->C", false⟩,
  ⟨0x82#8, ' ', 2, "RES 0,(IX+%d)->D", false⟩,
  ⟨0x83#8, ' ', 2, "RES 0,(IX+%d)->E", false⟩,
  ⟨0x84#8, ' ', 2, "RES 0,(IX+%d)->H", false⟩,
  ⟨0x85#8, ' ', 2, "RES 0,(IX+%d)->L", false⟩,
  ⟨0x86#8, ' ', 2, "RES 0,(IX+%d)", false⟩,
  ⟨0x87#8, ' ', 2, "RES 0,(IX+%d)->A", false⟩,
  ⟨0x88#8, ' ', 2, "RES 1,(IX+%d)->B", false⟩,
  ⟨0x89#8, ' ', 2, "RES 1,(IX+%d)->C", false⟩,
  ⟨0x8a#8, ' ', 2, "RES 1,(IX+%d)->D", false⟩,
  ⟨0x8b#8, ' ', 2, "RES 1,(IX+%d)->E", false⟩,
  ⟨0x8c#8, ' ', 2, "RES 1,(IX+%d)->H", false⟩,
  ⟨0x8d#8, ' ', 2, "RES 1,(IX+%d)->L", false⟩,
  ⟨0x8e#8, ' ', 2, "RES 1,(IX+%d)", false⟩,
  ⟨0x8f#8, ' ', 2, "RES 1,(IX+%d)->A", false⟩,
  ⟨0x90#8, ' ', 2, "RES 2,(IX+%d)->B", false⟩,
  ⟨0x91#8, ' ', 2, "RES 2,(IX+%d)->C", false⟩,
  ⟨0x92#8, ' ', 2, "RES 2,(IX+%d)->D", false⟩,
  ⟨0x93#8, ' ', 2, "RES 2,(IX+%d)->E", false⟩,
  ⟨0x94#8, ' ', 2, "RES 2,(IX+%d)->H", false⟩,
  ⟨0x95#8, ' ', 2, "RES 2,(IX+%d)->L", false⟩,
  ⟨0x96#8, ' ', 2, "RES 2,(IX+%d)", false⟩,
  ⟨0x97#8, ' ', 2, "RES 2,(IX+%d)->A", false⟩,
  ⟨0x98#8, ' ', 2, "RES 3,(IX+%d)->B", false⟩,
  ⟨0x99#8, ' ', 2, "RES 3,(IX+%d)->C", false⟩,
  ⟨0x9a#8, ' ', 2, "RES 3,(IX+%d)->D", false⟩,
  ⟨0x9b#8, ' ', 2, "RES 3,(IX+%d)->E", false⟩,
  ⟨0x9c#8, ' ', 2, "RES 3,(IX+%d)->H", false⟩,
  ⟨0x9d#8, ' ', 2, "RES 3,(IX+%d)->L", false⟩,
  ⟨0x9e#8, ' ', 2, "RES 3,(IX+%d)", false⟩,
  ⟨0x9f#8, ' ', 2, "RES 3,(IX+%d)->A", false⟩,
  ⟨0xa0#8, ' ', 2, "RES 4,(IX+%d)->B", false⟩,
  ⟨0xa1#8, ' ', 2, "RES 4,(IX+%d)->C", false⟩,
  ⟨0xa2#8, ' ', 2, "RES 4,(IX+%d)->D", false⟩,
  ⟨0xa3#8, ' ', 2, "RES 4,(IX+%d)->E", false⟩,
  ⟨0xa4#8, ' ', 2, "RES 4,(IX+%d)->H", false⟩,
  ⟨0xa5#8, ' ', 2, "RES 4,(IX+%d)->L", false⟩,
  ⟨0xa6#8, ' ', 2, "RES 4,(IX+%d)", false⟩,
  ⟨0xa7#8, ' ', 2, "RES 4,(IX+%d)->A", false⟩,
  ⟨0xa8#8, ' ', 2, "RES 5,(IX+%d)->B", false⟩,
  ⟨0xa9#8, ' ', 2, "RES 5,(IX+%d)->C", false⟩,
  ⟨0xaa#8, ' ', 2, "RES 5,(IX+%d)->D", false⟩,
  ⟨0xab#8, ' ', 2, "RES 5,(IX+%d)->E", false⟩,
  ⟨0xac#8, ' ', 2, "RES 5,(IX+%d)->H", false⟩,
  ⟨0xad#8, ' ', 2, "RES 5,(IX+%d)->L", false⟩,
  ⟨0xae#8, ' ', 2, "RES 5,(IX+%d)", false⟩,
  ⟨0xaf#8, ' ', 2, "RES 5,(IX+%d)->A", false⟩,
  ⟨0xb0#8, ' ', 2, "RES 6,(IX+%d)->B", false⟩,
  ⟨0xb1#8, ' ', 2, "RES 6,(IX+%d)->C", false⟩,
  ⟨0xb2#8, ' ', 2, "RES 6,(IX+%d)->D", false⟩,
  ⟨0xb3#8, ' ', 2, "RES 6,(IX+%d)->E", false⟩,
  ⟨0xb4#8, ' ', 2, "RES 6,(IX+%d)->H", false⟩,
  ⟨0xb5#8, ' ', 2, "RES 6,(IX+%d)->L", false⟩,
  ⟨0xb6#8, ' ', 2, "RES 6,(IX+%d)", false⟩,
  ⟨0xb7#8, ' ', 2, "RES 6,(IX+%d)->A", false⟩,
  ⟨0xb8#8, ' ', 2, "RES 7,(IX+%d)->B", false⟩,
  ⟨0xb9#8, ' ', 2, "RES 7,(IX+%d)->C", false⟩,
  ⟨0xba#8, ' ', 2, "RES 7,(IX+%d)->D", false⟩,
  ⟨0xbb#8, ' ', 2, "RES 7,(IX+%d)->E", false⟩,
  ⟨0xbc#8, ' ', 2, "RES 7,(IX+%d)->H", false⟩,
  ⟨0xbd#8, ' ', 2, "RES 7,(IX+%d)->L", false⟩,
  ⟨0xbe#8, ' ', 2, "RES 7,(IX+%d)", false⟩,
  ⟨0xbf#8, ' ', 2, "RES 7,(IX+%d)->A", false⟩,
  ⟨0xc0#8, ' ', 2, "SET 0,(IX+%d)->B", false⟩,
  ⟨0xc1#8, ' ', 2, "SET 0,(IX+%d)->C", false⟩,
  ⟨0xc2#8, ' ', 2, "SET 0,(IX+%d)->D", false⟩,
  ⟨0xc3#8, ' ', 2, "SET 0,(IX+%d)->E", false⟩,
  ⟨0xc4#8, ' ', 2, "SET 0,(IX+%d)->H", false⟩,
  ⟨0xc5#8, ' ', 2, "SET 0,(IX+%d)->L", false⟩,
  ⟨0xc6#8, ' ', 2, "SET 0,(IX+%d)", false⟩,
  ⟨0xc7#8, ' ', 2, "SET 0,(IX+%d)->A", false⟩,
  ⟨0xc8#8, ' ', 2, "SET 1,(IX+%d)->B", false⟩,
  ⟨0xc9#8, ' ', 2, "SET 1,(IX+%d)->C", false⟩,
  ⟨0xca#8, ' ', 2, "SET 1,(IX+%d)->D", false⟩,
  ⟨0xcb#8, ' ', 2, "SET 1,(IX+%d)->E", false⟩,
  ⟨0xcc#8, ' ', 2, "SET 1,(IX+%d)->H", false⟩,
  ⟨0xcd#8, ' ', 2, "SET 1,(IX+%d)->L", false⟩,
  ⟨0xce#8, ' ', 2, "SET 1,(IX+%d)", false⟩,
  ⟨0xcf#8, ' ', 2, "SET 1,(IX+%d)->A", false⟩,
  ⟨0xd0#8, ' ', 2, "SET 2,(IX+%d)->B", false⟩,
  ⟨0xd1#8, ' ', 2, "SET 2,(IX+%d)->C", false⟩,
  ⟨0xd2#8, ' ', 2, "SET 2,(IX+%d)->D", false⟩,
  ⟨0xd3#8, ' ', 2, "SET 2,(IX+%d)->E", false⟩,
  ⟨0xd4#8, ' ', 2, "SET 2,(IX+%d)->H", false⟩,
  ⟨0xd5#8, ' ', 2, "SET 2,(IX+%d)->L", false⟩,
  ⟨0xd6#8, ' ', 2, "SET 2,(IX+%d)", false⟩,
  ⟨0xd7#8, ' ', 2, "SET 2,(IX+%d)->A", false⟩,
  ⟨0xd8#8, ' ', 2, "SET 3,(IX+%d)->B", false⟩,
  ⟨0xd9#8, ' ', 2, "SET 3,(IX+%d)->C", false⟩,
  ⟨0xda#8, ' ', 2, "SET 3,(IX+%d)->D", false⟩,
  ⟨0xdb#8, ' ', 2, "SET 3,(IX+%d)->E", false⟩,
  ⟨0xdc#8, ' ', 2, "SET 3,(IX+%d)->H", false⟩,
  ⟨0xdd#8, ' ', 2, "SET 3,(IX+%d)->L", false⟩,
  ⟨0xde#8, ' ', 2, "SET 3,(IX+%d)", false⟩,
  ⟨0xdf#8, ' ', 2, "SET 3,(IX+%d)->A", false⟩,
  ⟨0xe0#8, ' ', 2, "SET 4,(IX+%d)->B", false⟩,
  ⟨0xe1#8, ' ', 2, "SET 4,(IX+%d)->C", false⟩,
  ⟨0xe2#8, ' ', 2, "SET 4,(IX+%d)->D", false⟩,
  ⟨0xe3#8, ' ', 2, "SET 4,(IX+%d)->E", false⟩,
  ⟨0xe4#8, ' ', 2, "SET 4,(IX+%d)->H", false⟩,
  ⟨0xe5#8, ' ', 2, "SET 4,(IX+%d)->L", false⟩,
  ⟨0xe6#8, ' ', 2, "SET 4,(IX+%d)", false⟩,
  ⟨0xe7#8, ' ', 2, "SET 4,(IX+%d)->A", false⟩,
  ⟨0xe8#8, ' ', 2, "SET 5,(IX+%d)->B", false⟩,
  ⟨0xe9#8, ' ', 2, "SET 5,(IX+%d)->C", false⟩,
  ⟨0xea#8, ' ', 2, "SET 5,(IX+%d)->D", false⟩,
  ⟨0xeb#8, ' ', 2, "SET 5,(IX+%d)->E", false⟩,
  ⟨0xec#8, ' ', 2, "SET 5,(IX+%d)->H", false⟩,
  ⟨0xed#8, ' ', 2, "SET 5,(IX+%d)->L", false⟩,
  ⟨0xee#8, ' ', 2, "SET 5,(IX+%d)", false⟩,
  ⟨0xef#8, ' ', 2, "SET 5,(IX+%d)->A", false⟩,
  ⟨0xf0#8, ' ', 2, "SET 6,(IX+%d)->B", false⟩,
  ⟨0xf1#8, ' ', 2, "SET 6,(IX+%d)->C", false⟩,
  ⟨0xf2#8, ' ', 2, "SET 6,(IX+%d)->D", false⟩,
  ⟨0xf3#8, ' ', 2, "SET 6,(IX+%d)->E", false⟩,
  ⟨0xf4#8, ' ', 2, "SET 6,(IX+%d)->H", false⟩,
  ⟨0xf5#8, ' ', 2, "SET 6,(IX+%d)->L", false⟩,
  ⟨0xf6#8, ' ', 2, "SET 6,(IX+%d)", false⟩,
  ⟨0xf7#8, ' ', 2, "SET 6,(IX+%d)->A", false⟩,
  ⟨0xf8#8, ' ', 2, "SET 7,(IX+%d)->B", false⟩,
  ⟨0xf9#8, ' ', 2, "SET 7,(IX+%d)->C", false⟩,
  ⟨0xfa#8, ' ', 2, "SET 7,(IX+%d)->D", false⟩,
  ⟨0xfb#8, ' ', 2, "SET 7,(IX+%d)->E", false⟩,
  ⟨0xfc#8, ' ', 2, "SET 7,(IX+%d)->H", false⟩,
  ⟨0xfd#8, ' ', 2, "SET 7,(IX+%d)->L", false⟩,
  ⟨0xfe#8, ' ', 2, "SET 7,(IX+%d)", false⟩,
  ⟨0xff#8, ' ', 2, "SET 7,(IX+%d)->A", false⟩]

/-- disass_z80_fdcb[], glob.cc -/
def disFdcb : List DisEntry := [
  ⟨0x00#8, ' ', 2, "RLC (IY+%d)->B", false⟩,
  ⟨0x01#8, ' ', 2, "RLC (IY+%d)->C", false⟩,
  ⟨0x02#8, ' ', 2, "RLC (IY+%d)->D", false⟩,
  ⟨0x03#8, ' ', 2, "RLC (IY+%d)->E", false⟩,
  ⟨0x04#8, ' ', 2, "RLC (IY+%d)->H", false⟩,
  ⟨0x05#8, ' ', 2, "RLC (IY+%d)->L", false⟩,
  ⟨0x06#8, ' ', 2, "RLC (IY+%d)", false⟩,
  ⟨0x07#8, ' ', 2, "RLC (IY+%d)->A", false⟩,
  ⟨0x08#8, ' ', 2, "RRC (IY+%d)->B", false⟩,
  ⟨0x09#8, ' ', 2, "RRC (IY+%d)->C", false⟩,
  ⟨0x0a#8, ' ', 2, "RRC (IY+%d)->D", false⟩,
  ⟨0x0b#8, ' ', 2, "RRC (IY+%d)->E", false⟩,
  ⟨0x0c#8, ' ', 2, "RRC (IY+%d)->H", false⟩,
  ⟨0x0d#8, ' ', 2, "RRC (IY+%d)->L", false⟩,
  ⟨0x0e#8, ' ', 2, "RRC (IY+%d)", false⟩,
  ⟨0x0f#8, ' ', 2, "RRC (IY+%d)->A", false⟩,
  ⟨0x10#8, ' ', 2, "RL (IY+%d)->B", false⟩,
  ⟨0x11#8, ' ', 2, "RL (IY+%d)->C", false⟩,
  ⟨0x12#8, ' ', 2, "RL (IY+%d)->D", false⟩,
  ⟨0x13#8, ' ', 2, "RL (IY+%d)->E", false⟩,
  ⟨0x14#8, ' ', 2, "RL (IY+%d)->H", false⟩,
  ⟨0x15#8, ' ', 2, "RL (IY+%d)->L", false⟩,
  ⟨0x16#8, ' ', 2, "RL (IY+%d)", false⟩,
  ⟨0x17#8, ' ', 2, "RL (IY+%d)->A", false⟩,
  ⟨0x18#8, ' ', 2, "RR (IY+%d)->B", false⟩,
  ⟨0x19#8, ' ', 2, "RR (IY+%d)->C", false⟩,
  ⟨0x1a#8, ' ', 2, "RR (IY+%d)->D", false⟩,
  ⟨0x1b#8, ' ', 2, "RR (IY+%d)->E", false⟩,
  ⟨0x1c#8, ' ', 2, "RR (IY+%d)->H", false⟩,
  ⟨0x1d#8, ' ', 2, "RR (IY+%d)->L", false⟩,
  ⟨0x1e#8, ' ', 2, "RR (IY+%d)", false⟩,
  ⟨0x1f#8, ' ', 2, "RR (IY+%d)->A", false⟩,
  ⟨0x20#8, ' ', 2, "SLA (IY+%d)->B", false⟩,
  ⟨0x21#8, ' ', 2, "SLA (IY+%d)->C", false⟩,
  ⟨0x22#8, ' ', 2, "SLA (IY+%d)->D", false⟩,
  ⟨0x23#8, ' ', 2, "SLA (IY+%d)->E", false⟩,
  ⟨0x24#8, ' ', 2, "SLA (IY+%d)->H", false⟩,
  ⟨0x25#8, ' ', 2, "SLA (IY+%d)->L", false⟩,
  ⟨0x26#8, ' ', 2, "SLA (IY+%d)", false⟩,
  ⟨0x27#8, ' ', 2, "SLA (IY+%d)->A", false⟩,
  ⟨0x28#8, ' ', 2, "SRA (IY+%d)->B", false⟩,
  ⟨0x29#8, ' ', 2, "SRA (IY+%d)->C", false⟩,
  ⟨0x2a#8, ' ', 2, "SRA (IY+%d)->D", false⟩,
  ⟨0x2b#8, ' ', 2, "SRA (IY+%d)->E", false⟩,
  ⟨0x2c#8, ' ', 2, "SRA (IY+%d)->H", false⟩,
  ⟨0x2d#8, ' ', 2, "SRA (IY+%d)->L", false⟩,
  ⟨0x2e#8, ' ', 2, "SRA (IY+%d)", false⟩,
  ⟨0x2f#8, ' ', 2, "SRA (IY+%d)->A", false⟩,
  ⟨0x30#8, ' ', 2, "SLIA (IY+%d)->B", false⟩,
  ⟨0x31#8, ' ', 2, "SLIA (IY+%d)->C", false⟩,
  ⟨0x32#8, ' ', 2, "SLIA (IY+%d)->D", false⟩,
  ⟨0x33#8, ' ', 2, "SLIA (IY+%d)->E", false⟩,
  ⟨0x34#8, ' ', 2, "SLIA (IY+%d)->H", false⟩,
  ⟨0x35#8, ' ', 2, "SLIA (IY+%d)->L", false⟩,
  ⟨0x36#8, ' ', 2, "SLIA (IY+%d)", false⟩,
  ⟨0x37#8, ' ', 2, "SLIA (IY+%d)->A", false⟩,
  ⟨0x38#8, ' ', 2, "SRL (IY+%d)->B", false⟩,
  ⟨0x39#8, ' ', 2, "SRL (IY+%d)->C", false⟩,
  ⟨0x3a#8, ' ', 2, "SRL (IY+%d)->D", false⟩,
  ⟨0x3b#8, ' ', 2, "SRL (IY+%d)->E", false⟩,
  ⟨0x3c#8, ' ', 2, "SRL (IY+%d)->H", false⟩,
  ⟨0x3d#8, ' ', 2, "SRL (IY+%d)->L", false⟩,
  ⟨0x3e#8, ' ', 2, "SRL (IY+%d)", false⟩,
  ⟨0x3f#8, ' ', 2, "SRL A", false⟩,
  ⟨0x40#8, ' ', 2, "BIT (IY+%d)->0,B", false⟩,
  ⟨0x41#8, ' ', 2, "BIT (IY+%d)->0,C", false⟩,
  ⟨0x42#8, ' ', 2, "BIT (IY+%d)->0,D", false⟩,
  ⟨0x43#8, ' ', 2, "BIT (IY+%d)->0,E", false⟩,
  ⟨0x44#8, ' ', 2, "BIT (IY+%d)->0,H", false⟩,
  ⟨0x45#8, ' ', 2, "BIT (IY+%d)->0,L", false⟩,
  ⟨0x46#8, ' ', 2, "BIT 0,(IY+%d)", false⟩,
  ⟨0x4e#8, ' ', 2, "BIT 1,(IY+%d)", false⟩,
  ⟨0x56#8, ' ', 2, "BIT 2,(IY+%d)", false⟩,
  ⟨0x5e#8, ' ', 2, "BIT 3,(IY+%d)", false⟩,
  ⟨0x66#8, ' ', 2, "BIT 4,(IY+%d)", false⟩,
  ⟨0x6e#8, ' ', 2, "BIT 5,(IY+%d)", false⟩,
  ⟨0x76#8, ' ', 2, "BIT 6,(IY+%d)", false⟩,
  ⟨0x7e#8, ' ', 2, "BIT 7,(IY+%d)", false⟩,
  ⟨0x80#8, ' ', 2, "RES 0,(IY+%d)->B", false⟩,
  ⟨0x81#8, ' ', 2, "RES 0,(IY+%d)->C", false⟩,
  ⟨0x82#8, ' ', 2, "RES 0,(IY+%d)->D", false⟩,
  ⟨0x83#8, ' ', 2, "RES 0,(IY+%d)->E", false⟩,
  ⟨0x84#8, ' ', 2, "RES 0,(IY+%d)->H", false⟩,
  ⟨0x85#8, ' ', 2, "RES 0,(IY+%d)->L", false⟩,
  ⟨0x86#8, ' ', 2, "RES 0,(IY+%d)", false⟩,
  ⟨0x87#8, ' ', 2, "RES 0,(IY+%d)->A", false⟩,
  ⟨0x88#8, ' ', 2, "RES 1,(IY+%d)->B", false⟩,
  ⟨0x89#8, ' ', 2, "RES 1,(IY+%d)->C", false⟩,
  ⟨0x8a#8, ' ', 2, "RES 1,(IY+%d)->D", false⟩,
  ⟨0x8b#8, ' ', 2, "RES 1,(IY+%d)->E", false⟩,
  ⟨0x8c#8, ' ', 2, "RES 1,(IY+%d)->H", false⟩,
  ⟨0x8d#8, ' ', 2, "RES 1,(IY+%d)->L", false⟩,
  ⟨0x8e#8, ' ', 2, "RES 1,(IY+%d)", false⟩,
  ⟨0x8f#8, ' ', 2, "RES 1,(IY+%d)->A", false⟩,
  ⟨0x90#8, ' ', 2, "RES 2,(IY+%d)->B", false⟩,
  ⟨0x91#8, ' ', 2, "RES 2,(IY+%d)->C", false⟩,
  ⟨0x92#8, ' ', 2, "RES 2,(IY+%d)->D", false⟩,
  ⟨0x93#8, ' ', 2, "RES 2,(IY+%d)->E", false⟩,
  ⟨0x94#8, ' ', 2, "RES 2,(IY+%d)->H", false⟩,
  ⟨0x95#8, ' ', 2, "RES 2,(IY+%d)->L", false⟩,
  ⟨0x96#8, ' ', 2, "RES 2,(IY+%d)", false⟩,
  ⟨0x97#8, ' ', 2, "RES 2,(IY+%d)->A", false⟩,
  ⟨0x98#8, ' ', 2, "RES 3,(IY+%d)->B", false⟩,
  ⟨0x99#8, ' ', 2, "RES 3,(IY+%d)->C", false⟩,
  ⟨0x9a#8, ' ', 2, "RES 3,(IY+%d)->D", false⟩,
  ⟨0x9b#8, ' ', 2, "RES 3,(IY+%d)->E", false⟩,
  ⟨0x9c#8, ' ', 2, "RES 3,(IY+%d)->H", false⟩,
  ⟨0x9d#8, ' ', 2, "RES 3,(IY+%d)->L", false⟩,
  ⟨0x9e#8, ' ', 2, "RES 3,(IY+%d)", false⟩,
  ⟨0x9f#8, ' ', 2, "RES 3,(IY+%d)->A", false⟩,
  ⟨0xa0#8, ' ', 2, "RES 4,(IY+%d)->B", false⟩,
  ⟨0xa1#8, ' ', 2, "RES 4,(IY+%d)->C", false⟩,
  ⟨0xa2#8, ' ', 2, "RES 4,(IY+%d)->D", false⟩,
  ⟨0xa3#8, ' ', 2, "RES 4,(IY+%d)->E", false⟩,
  ⟨0xa4#8, ' ', 2, "RES 4,(IY+%d)->H", false⟩,
  ⟨0xa5#8, ' ', 2, "RES 4,(IY+%d)->L", false⟩,
  ⟨0xa6#8, ' ', 2, "RES 4,(IY+%d)", false⟩,
  ⟨0xa7#8, ' ', 2, "RES 4,(IY+%d)->A", false⟩,
  ⟨0xa8#8, ' ', 2, "RES 5,(IY+%d)->B", false⟩,
  ⟨0xa9#8, ' ', 2, "RES 5,(IY+%d)->C", false⟩,
  ⟨0xaa#8, ' ', 2, "RES 5,(IY+%d)->D", false⟩,
  ⟨0xab#8, ' ', 2, "RES 5,(IY+%d)->E", false⟩,
  ⟨0xac#8, ' ', 2, "RES 5,(IY+%d)->H", false⟩,
  ⟨0xad#8, ' ', 2, "RES 5,(IY+%d)->L", false⟩,
  ⟨0xae#8, ' ', 2, "RES 5,(IY+%d)", false⟩,
  ⟨0xaf#8, ' ', 2, "RES 5,(IY+%d)->A", false⟩,
  ⟨0xb0#8, ' ', 2, "RES 6,(IY+%d)->B", false⟩,
  ⟨0xb1#8, ' ', 2, "RES 6,(IY+%d)->C", false⟩,
  ⟨0xb2#8, ' ', 2, "RES 6,(IY+%d)->D", false⟩,
  ⟨0xb3#8, ' ', 2, "RES 6,(IY+%d)->E", false⟩,
  ⟨0xb4#8, ' ', 2, "RES 6,(IY+%d)->H", false⟩,
  ⟨0xb5#8, ' ', 2, "RES 6,(IY+%d)->L", false⟩,
  ⟨0xb6#8, ' ', 2, "RES 6,(IY+%d)", false⟩,
  ⟨0xb7#8, ' ', 2, "RES 6,(IY+%d)->A", false⟩,
  ⟨0xb8#8, ' ', 2, "RES 7,(IY+%d)->B", false⟩,
  ⟨0xb9#8, ' ', 2, "RES 7,(IY+%d)->C", false⟩,
  ⟨0xba#8, ' ', 2, "RES 7,(IY+%d)->D", false⟩,
  ⟨0xbb#8, ' ', 2, "RES 7,(IY+%d)->E", false⟩,
  ⟨0xbc#8, ' ', 2, "RES 7,(IY+%d)->H", false⟩,
  ⟨0xbd#8, ' ', 2, "RES 7,(IY+%d)->L", false⟩,
  ⟨0xbe#8, ' ', 2, "RES 7,(IY+%d)", false⟩,
  ⟨0xbf#8, ' ', 2, "RES 7,(IY+%d)->A", false⟩,
  ⟨0xc0#8, ' ', 2, "SET 0,(IY+%d)->B", false⟩,
  ⟨0xc1#8, ' ', 2, "SET 0,(IY+%d)->C", false⟩,
  ⟨0xc2#8, ' ', 2, "SET 0,(IY+%d)->D", false⟩,
  ⟨0xc3#8, ' ', 2, "SET 0,(IY+%d)->E", false⟩,
  ⟨0xc4#8, ' ', 2, "SET 0,(IY+%d)->H", false⟩,
  ⟨0xc5#8, ' ', 2, "SET 0,(IY+%d)->L", false⟩,
  ⟨0xc6#8, ' ', 2, "SET 0,(IY+%d)", false⟩,
  ⟨0xc7#8, ' ', 2, "SET 0,(IY+%d)->A", false⟩,
  ⟨0xc8#8, ' ', 2, "SET 1,(IY+%d)->B", false⟩,
  ⟨0xc9#8, ' ', 2, "SET 1,(IY+%d)->C", false⟩,
  ⟨0xca#8, ' ', 2, "SET 1,(IY+%d)->D", false⟩,
  ⟨0xcb#8, ' ', 2, "SET 1,(IY+%d)->E", false⟩,
  ⟨0xcc#8, ' ', 2, "SET 1,(IY+%d)->H", false⟩,
  ⟨0xcd#8, ' ', 2, "SET 1,(IY+%d)->L", false⟩,
  ⟨0xce#8, ' ', 2, "SET 1,(IY+%d)", false⟩,
  ⟨0xcf#8, ' ', 2, "SET 1,(IY+%d)->A", false⟩,
  ⟨0xd0#8, ' ', 2, "SET 2,(IY+%d)->B", false⟩,
  ⟨0xd1#8, ' ', 2, "SET 2,(IY+%d)->C", false⟩,
  ⟨0xd2#8, ' ', 2, "SET 2,(IY+%d)->D", false⟩,
  ⟨0xd3#8, ' ', 2, "SET 2,(IY+%d)->E", false⟩,
  ⟨0xd4#8, ' ', 2, "SET 2,(IY+%d)->H", false⟩,
  ⟨0xd5#8, ' ', 2, "SET 2,(IY+%d)->L", false⟩,
  ⟨0xd6#8, ' ', 2, "SET 2,(IY+%d)", false⟩,
  ⟨0xd7#8, ' ', 2, "SET 2,(IY+%d)->A", false⟩,
  ⟨0xd8#8, ' ', 2, "SET 3,(IY+%d)->B", false⟩,
  ⟨0xd9#8, ' ', 2, "SET 3,(IY+%d)->C", false⟩,
  ⟨0xda#8, ' ', 2, "SET 3,(IY+%d)->D", false⟩,
  ⟨0xdb#8, ' ', 2, "SET 3,(IY+%d)->E", false⟩,
  ⟨0xdc#8, ' ', 2, "SET 3,(IY+%d)->H", false⟩,
  ⟨0xdd#8, ' ', 2, "SET 3,(IY+%d)->L", false⟩,
  ⟨0xde#8, ' ', 2, "SET 3,(IY+%d)", false⟩,
  ⟨0xdf#8, ' ', 2, "SET 3,(IY+%d)->A", false⟩,
  ⟨0xe0#8, ' ', 2, "SET 4,(IY+%d)->B", false⟩,
  ⟨0xe1#8, ' ', 2, "SET 4,(IY+%d)->C", false⟩,
  ⟨0xe2#8, ' ', 2, "SET 4,(IY+%d)->D", false⟩,
  ⟨0xe3#8, ' ', 2, "SET 4,(IY+%d)->E", false⟩,
  ⟨0xe4#8, ' ', 2, "SET 4,(IY+%d)->H", false⟩,
  ⟨0xe5#8, ' ', 2, "SET 4,(IY+%d)->L", false⟩,
  ⟨0xe6#8, ' ', 2, "SET 4,(IY+%d)", false⟩,
  ⟨0xe7#8, ' ', 2, "SET 4,(IY+%d)->A", false⟩,
  ⟨0xe8#8, ' ', 2, "SET 5,(IY+%d)->B", false⟩,
  ⟨0xe9#8, ' ', 2, "SET 5,(IY+%d)->C", false⟩,
  ⟨0xea#8, ' ', 2, "SET 5,(IY+%d)->D", false⟩,
  ⟨0xeb#8, ' ', 2, "SET 5,(IY+%d)->E", false⟩,
  ⟨0xec#8, ' ', 2, "SET 5,(IY+%d)->H", false⟩,
  ⟨0xed#8, ' ', 2, "SET 5,(IY+%d)->L", false⟩,
  ⟨0xee#8, ' ', 2, "SET 5,(IY+%d)", false⟩,
  ⟨0xef#8, ' ', 2, "SET 5,(IY+%d)->A", false⟩,
  ⟨0xf0#8, ' ', 2, "SET 6,(IY+%d)->B", false⟩,
  ⟨0xf1#8, ' ', 2, "SET 6,(IY+%d)->C", false⟩,
  ⟨0xf2#8, ' ', 2, "SET 6,(IY+%d)->D", false⟩,
  ⟨0xf3#8, ' ', 2, "SET 6,(IY+%d)->E", false⟩,
  ⟨0xf4#8, ' ', 2, "SET 6,(IY+%d)->H", false⟩,
  ⟨0xf5#8, ' ', 2, "SET 6,(IY+%d)->L", false⟩,
  ⟨0xf6#8, ' ', 2, "SET 6,(IY+%d)", false⟩,
  ⟨0xf7#8, ' ', 2, "SET 6,(IY+%d)->A", false⟩,
  ⟨0xf8#8, ' ', 2, "SET 7,(IY+%d)->B", false⟩,
  ⟨0xf9#8, ' ', 2, "SET 7,(IY+%d)->C", false⟩,
  ⟨0xfa#8, ' ', 2, "SET 7,(IY+%d)->D", false⟩,
  ⟨0xfb#8, ' ', 2, "SET 7,(IY+%d)->E", false⟩,
  ⟨0xfc#8, ' ', 2, "SET 7,(IY+%d)->H", false⟩,
  ⟨0xfd#8, ' ', 2, "SET 7,(IY+%d)->L", false⟩,
  ⟨0xfe#8, ' ', 2, "SET 7,(IY+%d)", false⟩,
  ⟨0xff#8, ' ', 2, "SET 7,(IY+%d)->A", false⟩]

end Ucsim.Z80
