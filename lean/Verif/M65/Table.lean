import Verif.M65.Inst

/-
Opcode tables of the 6502 simulator.  Written by tools/gen/m65.py from
/repo/src/sims/mos6502.src: decode.h 31-201, mos6502cl.h 202-380, glob.cc 56-232.
-/
namespace Ucsim.M65

/-- decode.h names the opcode, mos6502cl.h says what the name does.  `none`: the default of
cl_uc, which returns resNOT_DONE. -/
def table : List (Option Inst) := [
  /- 00 -/ some (.brk),
  /- 01 -/ some (.ora .indX),
  /- 02 -/ none,
  /- 03 -/ none,
  /- 04 -/ none,
  /- 05 -/ some (.ora .zpg),
  /- 06 -/ some (.rmw .asl .zpg),
  /- 07 -/ none,
  /- 08 -/ some (.php),
  /- 09 -/ some (.ora .imm),
  /- 0a -/ some (.rmwA .asl),
  /- 0b -/ none,
  /- 0c -/ none,
  /- 0d -/ some (.ora .abs),
  /- 0e -/ some (.rmw .asl .abs),
  /- 0f -/ none,
  /- 10 -/ some (.branch flagN false),
  /- 11 -/ some (.ora .indY),
  /- 12 -/ none,
  /- 13 -/ none,
  /- 14 -/ none,
  /- 15 -/ some (.ora .zpgX),
  /- 16 -/ some (.rmw .asl .zpgX),
  /- 17 -/ none,
  /- 18 -/ some (.clc),
  /- 19 -/ some (.ora .absY),
  /- 1a -/ none,
  /- 1b -/ none,
  /- 1c -/ none,
  /- 1d -/ some (.ora .absX),
  /- 1e -/ some (.rmw .asl .absX),
  /- 1f -/ none,
  /- 20 -/ some (.jsr),
  /- 21 -/ some (.and .indX),
  /- 22 -/ none,
  /- 23 -/ none,
  /- 24 -/ some (.bit .zpg),
  /- 25 -/ some (.and .zpg),
  /- 26 -/ some (.rmw .rol .zpg),
  /- 27 -/ none,
  /- 28 -/ some (.plp),
  /- 29 -/ some (.and .imm),
  /- 2a -/ some (.rmwA .rol),
  /- 2b -/ none,
  /- 2c -/ some (.bit .abs),
  /- 2d -/ some (.and .abs),
  /- 2e -/ some (.rmw .rol .abs),
  /- 2f -/ none,
  /- 30 -/ some (.branch flagN true),
  /- 31 -/ some (.and .indY),
  /- 32 -/ none,
  /- 33 -/ none,
  /- 34 -/ none,
  /- 35 -/ some (.and .zpgX),
  /- 36 -/ some (.rmw .rol .zpgX),
  /- 37 -/ none,
  /- 38 -/ some (.sec),
  /- 39 -/ some (.and .absY),
  /- 3a -/ none,
  /- 3b -/ none,
  /- 3c -/ none,
  /- 3d -/ some (.and .absX),
  /- 3e -/ some (.rmw .rol .absX),
  /- 3f -/ none,
  /- 40 -/ some (.rti),
  /- 41 -/ some (.eor .indX),
  /- 42 -/ none,
  /- 43 -/ none,
  /- 44 -/ none,
  /- 45 -/ some (.eor .zpg),
  /- 46 -/ some (.rmw .lsr .zpg),
  /- 47 -/ none,
  /- 48 -/ some (.pha),
  /- 49 -/ some (.eor .imm),
  /- 4a -/ some (.rmwA .lsr),
  /- 4b -/ none,
  /- 4c -/ some (.jmpA),
  /- 4d -/ some (.eor .abs),
  /- 4e -/ some (.rmw .lsr .abs),
  /- 4f -/ none,
  /- 50 -/ some (.branch flagV false),
  /- 51 -/ some (.eor .indY),
  /- 52 -/ none,
  /- 53 -/ none,
  /- 54 -/ none,
  /- 55 -/ some (.eor .zpgX),
  /- 56 -/ some (.rmw .lsr .zpgX),
  /- 57 -/ none,
  /- 58 -/ some (.cli),
  /- 59 -/ some (.eor .absY),
  /- 5a -/ none,
  /- 5b -/ none,
  /- 5c -/ none,
  /- 5d -/ some (.eor .absX),
  /- 5e -/ some (.rmw .lsr .absX),
  /- 5f -/ none,
  /- 60 -/ some (.rts),
  /- 61 -/ some (.adc .indX),
  /- 62 -/ none,
  /- 63 -/ none,
  /- 64 -/ none,
  /- 65 -/ some (.adc .zpg),
  /- 66 -/ some (.rmw .ror .zpg),
  /- 67 -/ none,
  /- 68 -/ some (.pla),
  /- 69 -/ some (.adc .imm),
  /- 6a -/ some (.rmwA .ror),
  /- 6b -/ none,
  /- 6c -/ some (.jmpI),
  /- 6d -/ some (.adc .abs),
  /- 6e -/ some (.rmw .ror .abs),
  /- 6f -/ none,
  /- 70 -/ some (.branch flagV true),
  /- 71 -/ some (.adc .indY),
  /- 72 -/ none,
  /- 73 -/ none,
  /- 74 -/ none,
  /- 75 -/ some (.adc .zpgX),
  /- 76 -/ some (.rmw .ror .zpgX),
  /- 77 -/ none,
  /- 78 -/ some (.sei),
  /- 79 -/ some (.adc .absY),
  /- 7a -/ none,
  /- 7b -/ none,
  /- 7c -/ none,
  /- 7d -/ some (.adc .absX),
  /- 7e -/ some (.rmw .ror .absX),
  /- 7f -/ none,
  /- 80 -/ none,
  /- 81 -/ some (.sta 0 .indX),
  /- 82 -/ none,
  /- 83 -/ none,
  /- 84 -/ some (.st .y .zpg),
  /- 85 -/ some (.sta 0 .zpg),
  /- 86 -/ some (.st .x .zpg),
  /- 87 -/ none,
  /- 88 -/ some (.dey),
  /- 89 -/ none,
  /- 8a -/ some (.txa),
  /- 8b -/ none,
  /- 8c -/ some (.st .y .abs),
  /- 8d -/ some (.sta 0 .abs),
  /- 8e -/ some (.st .x .abs),
  /- 8f -/ none,
  /- 90 -/ some (.branch flagC false),
  /- 91 -/ some (.sta 0 .indY),
  /- 92 -/ none,
  /- 93 -/ none,
  /- 94 -/ some (.st .y .zpgX),
  /- 95 -/ some (.sta 0 .zpgX),
  /- 96 -/ some (.st .x .zpgY),
  /- 97 -/ none,
  /- 98 -/ some (.tya),
  /- 99 -/ some (.sta 0 .absY),
  /- 9a -/ some (.txs),
  /- 9b -/ none,
  /- 9c -/ none,
  /- 9d -/ some (.sta 1 .absX),
  /- 9e -/ none,
  /- 9f -/ none,
  /- a0 -/ some (.ld .y .imm),
  /- a1 -/ some (.lda .indX),
  /- a2 -/ some (.ld .x .imm),
  /- a3 -/ none,
  /- a4 -/ some (.ld .y .zpg),
  /- a5 -/ some (.lda .zpg),
  /- a6 -/ some (.ld .x .zpg),
  /- a7 -/ none,
  /- a8 -/ some (.tay),
  /- a9 -/ some (.lda .imm),
  /- aa -/ some (.tax),
  /- ab -/ none,
  /- ac -/ some (.ld .y .abs),
  /- ad -/ some (.lda .abs),
  /- ae -/ some (.ld .x .abs),
  /- af -/ none,
  /- b0 -/ some (.branch flagC true),
  /- b1 -/ some (.lda .indY),
  /- b2 -/ none,
  /- b3 -/ none,
  /- b4 -/ some (.ld .y .zpgX),
  /- b5 -/ some (.lda .zpgX),
  /- b6 -/ some (.ld .x .zpgY),
  /- b7 -/ none,
  /- b8 -/ some (.clv),
  /- b9 -/ some (.lda .absY),
  /- ba -/ some (.tsx),
  /- bb -/ none,
  /- bc -/ some (.ld .y .absX),
  /- bd -/ some (.lda .absX),
  /- be -/ some (.ld .x .absY),
  /- bf -/ none,
  /- c0 -/ some (.cmp .y .imm),
  /- c1 -/ some (.cmp .a .indX),
  /- c2 -/ none,
  /- c3 -/ none,
  /- c4 -/ some (.cmp .y .zpg),
  /- c5 -/ some (.cmp .a .zpg),
  /- c6 -/ some (.rmw .dec .zpg),
  /- c7 -/ none,
  /- c8 -/ some (.iny),
  /- c9 -/ some (.cmp .a .imm),
  /- ca -/ some (.dex),
  /- cb -/ none,
  /- cc -/ some (.cmp .y .abs),
  /- cd -/ some (.cmp .a .abs),
  /- ce -/ some (.rmw .dec .abs),
  /- cf -/ none,
  /- d0 -/ some (.branch flagZ false),
  /- d1 -/ some (.cmp .a .indY),
  /- d2 -/ none,
  /- d3 -/ none,
  /- d4 -/ none,
  /- d5 -/ some (.cmp .a .zpgX),
  /- d6 -/ some (.rmw .dec .zpgX),
  /- d7 -/ none,
  /- d8 -/ some (.cld),
  /- d9 -/ some (.cmp .a .absY),
  /- da -/ none,
  /- db -/ none,
  /- dc -/ none,
  /- dd -/ some (.cmp .a .absX),
  /- de -/ some (.rmw .dec .absX),
  /- df -/ none,
  /- e0 -/ some (.cmp .x .imm),
  /- e1 -/ some (.sbc .indX),
  /- e2 -/ none,
  /- e3 -/ none,
  /- e4 -/ some (.cmp .x .zpg),
  /- e5 -/ some (.sbc .zpg),
  /- e6 -/ some (.rmw .inc .zpg),
  /- e7 -/ none,
  /- e8 -/ some (.inx),
  /- e9 -/ some (.sbc .imm),
  /- ea -/ some (.nop),
  /- eb -/ none,
  /- ec -/ some (.cmp .x .abs),
  /- ed -/ some (.sbc .abs),
  /- ee -/ some (.rmw .inc .abs),
  /- ef -/ none,
  /- f0 -/ some (.branch flagZ true),
  /- f1 -/ some (.sbc .indY),
  /- f2 -/ none,
  /- f3 -/ none,
  /- f4 -/ none,
  /- f5 -/ some (.sbc .zpgX),
  /- f6 -/ some (.rmw .inc .zpgX),
  /- f7 -/ none,
  /- f8 -/ some (.sed),
  /- f9 -/ some (.sbc .absY),
  /- fa -/ none,
  /- fb -/ none,
  /- fc -/ none,
  /- fd -/ some (.sbc .absX),
  /- fe -/ some (.rmw .inc .absX),
  /- ff -/ none]

/-- disass_mos6502, glob.cc 56-232: code, branch, length, mnemonic; every mask is 0xff. -/
def disTab : List (Byte × Char × Nat × String) := [
  (0xea, ' ', 1, "NOP"),
  (0x00, ' ', 1, "BRK"),
  (0x40, 'x', 1, "RTI"),
  (0x58, ' ', 1, "CLI"),
  (0x78, ' ', 1, "SEI"),
  (0x08, ' ', 1, "PHP"),
  (0x18, ' ', 1, "CLC"),
  (0x28, ' ', 1, "PLP"),
  (0x38, ' ', 1, "SEC"),
  (0x48, ' ', 1, "PHA"),
  (0x68, ' ', 1, "PLA"),
  (0x88, ' ', 1, "DEY"),
  (0x98, ' ', 1, "TYA"),
  (0xa8, ' ', 1, "TAY"),
  (0xb8, ' ', 1, "CLV"),
  (0xc8, ' ', 1, "INY"),
  (0xd8, ' ', 1, "CLD"),
  (0xe8, ' ', 1, "INX"),
  (0xf8, ' ', 1, "SED"),
  (0x8a, ' ', 1, "TXA"),
  (0x9a, ' ', 1, "TXS"),
  (0xaa, ' ', 1, "TAX"),
  (0xba, ' ', 1, "TSX"),
  (0xca, ' ', 1, "DEX"),
  (0x01, ' ', 2, "ORA %x"),
  (0x11, ' ', 2, "ORA %y"),
  (0x05, ' ', 2, "ORA %z"),
  (0x15, ' ', 2, "ORA %X"),
  (0x09, ' ', 2, "ORA %#"),
  (0x19, ' ', 3, "ORA %p"),
  (0x0d, ' ', 3, "ORA %a"),
  (0x1d, ' ', 3, "ORA %i"),
  (0x21, ' ', 2, "AND %x"),
  (0x31, ' ', 2, "AND %y"),
  (0x25, ' ', 2, "AND %z"),
  (0x35, ' ', 2, "AND %X"),
  (0x29, ' ', 2, "AND %#"),
  (0x39, ' ', 3, "AND %p"),
  (0x2d, ' ', 3, "AND %a"),
  (0x3d, ' ', 3, "AND %i"),
  (0x41, ' ', 2, "EOR %x"),
  (0x51, ' ', 2, "EOR %y"),
  (0x45, ' ', 2, "EOR %z"),
  (0x55, ' ', 2, "EOR %X"),
  (0x49, ' ', 2, "EOR %#"),
  (0x59, ' ', 3, "EOR %p"),
  (0x4d, ' ', 3, "EOR %a"),
  (0x5d, ' ', 3, "EOR %i"),
  (0x61, ' ', 2, "ADC %x"),
  (0x71, ' ', 2, "ADC %y"),
  (0x65, ' ', 2, "ADC %z"),
  (0x75, ' ', 2, "ADC %X"),
  (0x69, ' ', 2, "ADC %#"),
  (0x79, ' ', 3, "ADC %p"),
  (0x6d, ' ', 3, "ADC %a"),
  (0x7d, ' ', 3, "ADC %i"),
  (0x81, ' ', 2, "STA %x"),
  (0x91, ' ', 2, "STA %y"),
  (0x85, ' ', 2, "STA %z"),
  (0x95, ' ', 2, "STA %X"),
  (0x99, ' ', 3, "STA %p"),
  (0x8d, ' ', 3, "STA %a"),
  (0x9d, ' ', 3, "STA %i"),
  (0xa1, ' ', 2, "LDA %x"),
  (0xb1, ' ', 2, "LDA %y"),
  (0xa5, ' ', 2, "LDA %z"),
  (0xb5, ' ', 2, "LDA %X"),
  (0xa9, ' ', 2, "LDA %#"),
  (0xb9, ' ', 3, "LDA %p"),
  (0xad, ' ', 3, "LDA %a"),
  (0xbd, ' ', 3, "LDA %i"),
  (0xc1, ' ', 2, "CMP %x"),
  (0xd1, ' ', 2, "CMP %y"),
  (0xc5, ' ', 2, "CMP %z"),
  (0xd5, ' ', 2, "CMP %X"),
  (0xc9, ' ', 2, "CMP %#"),
  (0xd9, ' ', 3, "CMP %p"),
  (0xcd, ' ', 3, "CMP %a"),
  (0xdd, ' ', 3, "CMP %i"),
  (0xe1, ' ', 2, "SBC %x"),
  (0xf1, ' ', 2, "SBC %y"),
  (0xe5, ' ', 2, "SBC %z"),
  (0xf5, ' ', 2, "SBC %X"),
  (0xe9, ' ', 2, "SBC %#"),
  (0xf9, ' ', 3, "SBC %p"),
  (0xed, ' ', 3, "SBC %a"),
  (0xfd, ' ', 3, "SBC %i"),
  (0x84, ' ', 2, "STY %z"),
  (0x94, ' ', 2, "STY %X"),
  (0x8c, ' ', 3, "STY %a"),
  (0x86, ' ', 2, "STX %z"),
  (0x96, ' ', 2, "STX %Y"),
  (0x8e, ' ', 3, "STX %a"),
  (0xa0, ' ', 2, "LDY %#"),
  (0xa4, ' ', 2, "LDY %z"),
  (0xb4, ' ', 2, "LDY %X"),
  (0xac, ' ', 3, "LDY %a"),
  (0xbc, ' ', 3, "LDY %i"),
  (0xa2, ' ', 2, "LDX %#"),
  (0xa6, ' ', 2, "LDX %z"),
  (0xb6, ' ', 2, "LDX %Y"),
  (0xae, ' ', 3, "LDX %a"),
  (0xbe, ' ', 3, "LDX %p"),
  (0xc0, ' ', 2, "CPY %#"),
  (0xc4, ' ', 2, "CPY %z"),
  (0xcc, ' ', 3, "CPY %a"),
  (0xe0, ' ', 2, "CPX %#"),
  (0xe4, ' ', 2, "CPX %z"),
  (0xec, ' ', 3, "CPX %a"),
  (0xe6, ' ', 2, "INC %z"),
  (0xf6, ' ', 2, "INC %X"),
  (0xee, ' ', 3, "INC %a"),
  (0xfe, ' ', 3, "INC %i"),
  (0xc6, ' ', 2, "DEC %z"),
  (0xd6, ' ', 2, "DEC %X"),
  (0xce, ' ', 3, "DEC %a"),
  (0xde, ' ', 3, "DEC %i"),
  (0x06, ' ', 2, "ASL %z"),
  (0x16, ' ', 2, "ASL %X"),
  (0x0a, ' ', 1, "ASL A"),
  (0x0e, ' ', 3, "ASL %a"),
  (0x1e, ' ', 3, "ASL %i"),
  (0x46, ' ', 2, "LSR %z"),
  (0x56, ' ', 2, "LSR %X"),
  (0x4a, ' ', 1, "LSR A"),
  (0x4e, ' ', 3, "LSR %a"),
  (0x5e, ' ', 3, "LSR %i"),
  (0x26, ' ', 2, "ROL %z"),
  (0x36, ' ', 2, "ROL %X"),
  (0x2a, ' ', 1, "ROL A"),
  (0x2e, ' ', 3, "ROL %a"),
  (0x3e, ' ', 3, "ROL %i"),
  (0x66, ' ', 2, "ROR %z"),
  (0x76, ' ', 2, "ROR %X"),
  (0x6a, ' ', 1, "ROR A"),
  (0x6e, ' ', 3, "ROR %a"),
  (0x7e, ' ', 3, "ROR %i"),
  (0x24, ' ', 2, "BIT %z"),
  (0x2c, ' ', 3, "BIT %a"),
  (0x4c, 'j', 3, "JMP %j"),
  (0x6c, 'x', 3, "JMP %J"),
  (0x20, 's', 3, "JSR %j"),
  (0x60, 'x', 1, "RTS"),
  (0x10, 'b', 2, "BPL %r"),
  (0x30, 'b', 2, "BMI %r"),
  (0x50, 'b', 2, "BVC %r"),
  (0x70, 'b', 2, "BVS %r"),
  (0x90, 'b', 2, "BCC %r"),
  (0xb0, 'b', 2, "BCS %r"),
  (0xd0, 'b', 2, "BNE %r"),
  (0xf0, 'b', 2, "BEQ %r")]

end Ucsim.M65
