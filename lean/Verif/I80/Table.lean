import Verif.I80.Inst

/-
Opcode and tick tables of the 8080/8085 simulator.  Written by tools/gen/i80.py from
/repo/src/sims/i8085.src: decode.h 31-237, dcmovrr.h 31-100, imovrr.h 1-70, i8080cl.h
151-362, i8085cl.h 34-48, i8080.cc 79-90, glob.cc 33-221.
-/
namespace Ucsim.I80

/-- Instructions common to both processors: decode.h names the opcode, i8080cl.h says what
the name does. -/
def table : List (Option Inst) := [
  /- 00 -/ some (.nop),
  /- 01 -/ some (.lxi .bc),
  /- 02 -/ some (.stax .bc),
  /- 03 -/ some (.inx .bc),
  /- 04 -/ some (.inr .b),
  /- 05 -/ some (.dcr .b),
  /- 06 -/ some (.mvi .b),
  /- 07 -/ some (.rlc),
  /- 08 -/ none,
  /- 09 -/ some (.dad .bc),
  /- 0a -/ some (.ldax .bc),
  /- 0b -/ some (.dcx .bc),
  /- 0c -/ some (.inr .c),
  /- 0d -/ some (.dcr .c),
  /- 0e -/ some (.mvi .c),
  /- 0f -/ some (.rrc),
  /- 10 -/ none,
  /- 11 -/ some (.lxi .de),
  /- 12 -/ some (.stax .de),
  /- 13 -/ some (.inx .de),
  /- 14 -/ some (.inr .d),
  /- 15 -/ some (.dcr .d),
  /- 16 -/ some (.mvi .d),
  /- 17 -/ some (.ral),
  /- 18 -/ none,
  /- 19 -/ some (.dad .de),
  /- 1a -/ some (.ldax .de),
  /- 1b -/ some (.dcx .de),
  /- 1c -/ some (.inr .e),
  /- 1d -/ some (.dcr .e),
  /- 1e -/ some (.mvi .e),
  /- 1f -/ some (.rar),
  /- 20 -/ none,
  /- 21 -/ some (.lxi .hl),
  /- 22 -/ some (.shld),
  /- 23 -/ some (.inx .hl),
  /- 24 -/ some (.inr .h),
  /- 25 -/ some (.dcr .h),
  /- 26 -/ some (.mvi .h),
  /- 27 -/ some (.daa),
  /- 28 -/ none,
  /- 29 -/ some (.dad .hl),
  /- 2a -/ some (.lhld),
  /- 2b -/ some (.dcx .hl),
  /- 2c -/ some (.inr .l),
  /- 2d -/ some (.dcr .l),
  /- 2e -/ some (.mvi .l),
  /- 2f -/ some (.cma),
  /- 30 -/ none,
  /- 31 -/ some (.lxi .sp),
  /- 32 -/ some (.sta),
  /- 33 -/ some (.inx .sp),
  /- 34 -/ some (.inr .m),
  /- 35 -/ some (.dcr .m),
  /- 36 -/ some (.mvi .m),
  /- 37 -/ some (.stc),
  /- 38 -/ none,
  /- 39 -/ some (.dad .sp),
  /- 3a -/ some (.lda),
  /- 3b -/ some (.dcx .sp),
  /- 3c -/ some (.inr .a),
  /- 3d -/ some (.dcr .a),
  /- 3e -/ some (.mvi .a),
  /- 3f -/ some (.cmc),
  /- 40 -/ some (.mov .b .b),
  /- 41 -/ some (.mov .b .c),
  /- 42 -/ some (.mov .b .d),
  /- 43 -/ some (.mov .b .e),
  /- 44 -/ some (.mov .b .h),
  /- 45 -/ some (.mov .b .l),
  /- 46 -/ some (.mov .b .m),
  /- 47 -/ some (.mov .b .a),
  /- 48 -/ some (.mov .c .b),
  /- 49 -/ some (.mov .c .c),
  /- 4a -/ some (.mov .c .d),
  /- 4b -/ some (.mov .c .e),
  /- 4c -/ some (.mov .c .h),
  /- 4d -/ some (.mov .c .l),
  /- 4e -/ some (.mov .c .m),
  /- 4f -/ some (.mov .c .a),
  /- 50 -/ some (.mov .d .b),
  /- 51 -/ some (.mov .d .c),
  /- 52 -/ some (.mov .d .d),
  /- 53 -/ some (.mov .d .e),
  /- 54 -/ some (.mov .d .h),
  /- 55 -/ some (.mov .d .l),
  /- 56 -/ some (.mov .d .m),
  /- 57 -/ some (.mov .d .a),
  /- 58 -/ some (.mov .e .b),
  /- 59 -/ some (.mov .e .c),
  /- 5a -/ some (.mov .e .d),
  /- 5b -/ some (.mov .e .e),
  /- 5c -/ some (.mov .e .h),
  /- 5d -/ some (.mov .e .l),
  /- 5e -/ some (.mov .e .m),
  /- 5f -/ some (.mov .e .a),
  /- 60 -/ some (.mov .h .b),
  /- 61 -/ some (.mov .h .c),
  /- 62 -/ some (.mov .h .d),
  /- 63 -/ some (.mov .h .e),
  /- 64 -/ some (.mov .h .h),
  /- 65 -/ some (.mov .h .l),
  /- 66 -/ some (.mov .h .m),
  /- 67 -/ some (.mov .h .a),
  /- 68 -/ some (.mov .l .b),
  /- 69 -/ some (.mov .l .c),
  /- 6a -/ some (.mov .l .d),
  /- 6b -/ some (.mov .l .e),
  /- 6c -/ some (.mov .l .h),
  /- 6d -/ some (.mov .l .l),
  /- 6e -/ some (.mov .l .m),
  /- 6f -/ some (.mov .l .a),
  /- 70 -/ some (.mov .m .b),
  /- 71 -/ some (.mov .m .c),
  /- 72 -/ some (.mov .m .d),
  /- 73 -/ some (.mov .m .e),
  /- 74 -/ some (.mov .m .h),
  /- 75 -/ some (.mov .m .l),
  /- 76 -/ some (.hlt),
  /- 77 -/ some (.mov .m .a),
  /- 78 -/ some (.mov .a .b),
  /- 79 -/ some (.mov .a .c),
  /- 7a -/ some (.mov .a .d),
  /- 7b -/ some (.mov .a .e),
  /- 7c -/ some (.mov .a .h),
  /- 7d -/ some (.mov .a .l),
  /- 7e -/ some (.mov .a .m),
  /- 7f -/ some (.mov .a .a),
  /- 80 -/ some (.add8 (.reg .b) false),
  /- 81 -/ some (.add8 (.reg .c) false),
  /- 82 -/ some (.add8 (.reg .d) false),
  /- 83 -/ some (.add8 (.reg .e) false),
  /- 84 -/ some (.add8 (.reg .h) false),
  /- 85 -/ some (.add8 (.reg .l) false),
  /- 86 -/ some (.add8 (.reg .m) false),
  /- 87 -/ some (.add8 (.reg .a) false),
  /- 88 -/ some (.add8 (.reg .b) true),
  /- 89 -/ some (.add8 (.reg .c) true),
  /- 8a -/ some (.add8 (.reg .d) true),
  /- 8b -/ some (.add8 (.reg .e) true),
  /- 8c -/ some (.add8 (.reg .h) true),
  /- 8d -/ some (.add8 (.reg .l) true),
  /- 8e -/ some (.add8 (.reg .m) true),
  /- 8f -/ some (.add8 (.reg .a) true),
  /- 90 -/ some (.sub8 (.reg .b) false false),
  /- 91 -/ some (.sub8 (.reg .c) false false),
  /- 92 -/ some (.sub8 (.reg .d) false false),
  /- 93 -/ some (.sub8 (.reg .e) false false),
  /- 94 -/ some (.sub8 (.reg .h) false false),
  /- 95 -/ some (.sub8 (.reg .l) false false),
  /- 96 -/ some (.sub8 (.reg .m) false false),
  /- 97 -/ some (.sub8 (.reg .a) false false),
  /- 98 -/ some (.sub8 (.reg .b) true false),
  /- 99 -/ some (.sub8 (.reg .c) true false),
  /- 9a -/ some (.sub8 (.reg .d) true false),
  /- 9b -/ some (.sub8 (.reg .e) true false),
  /- 9c -/ some (.sub8 (.reg .h) true false),
  /- 9d -/ some (.sub8 (.reg .l) true false),
  /- 9e -/ some (.sub8 (.reg .m) true false),
  /- 9f -/ some (.sub8 (.reg .a) true false),
  /- a0 -/ some (.ana (.reg .b)),
  /- a1 -/ some (.ana (.reg .c)),
  /- a2 -/ some (.ana (.reg .d)),
  /- a3 -/ some (.ana (.reg .e)),
  /- a4 -/ some (.ana (.reg .h)),
  /- a5 -/ some (.ana (.reg .l)),
  /- a6 -/ some (.ana (.reg .m)),
  /- a7 -/ some (.ana (.reg .a)),
  /- a8 -/ some (.xra (.reg .b)),
  /- a9 -/ some (.xra (.reg .c)),
  /- aa -/ some (.xra (.reg .d)),
  /- ab -/ some (.xra (.reg .e)),
  /- ac -/ some (.xra (.reg .h)),
  /- ad -/ some (.xra (.reg .l)),
  /- ae -/ some (.xra (.reg .m)),
  /- af -/ some (.xra (.reg .a)),
  /- b0 -/ some (.ora (.reg .b)),
  /- b1 -/ some (.ora (.reg .c)),
  /- b2 -/ some (.ora (.reg .d)),
  /- b3 -/ some (.ora (.reg .e)),
  /- b4 -/ some (.ora (.reg .h)),
  /- b5 -/ some (.ora (.reg .l)),
  /- b6 -/ some (.ora (.reg .m)),
  /- b7 -/ some (.ora (.reg .a)),
  /- b8 -/ some (.sub8 (.reg .b) false true),
  /- b9 -/ some (.sub8 (.reg .c) false true),
  /- ba -/ some (.sub8 (.reg .d) false true),
  /- bb -/ some (.sub8 (.reg .e) false true),
  /- bc -/ some (.sub8 (.reg .h) false true),
  /- bd -/ some (.sub8 (.reg .l) false true),
  /- be -/ some (.sub8 (.reg .m) false true),
  /- bf -/ some (.sub8 (.reg .a) false true),
  /- c0 -/ some (.retIf flagZ false),
  /- c1 -/ some (.pop .bc),
  /- c2 -/ some (.jmpIf flagZ false),
  /- c3 -/ some (.jmp),
  /- c4 -/ some (.callIf flagZ false),
  /- c5 -/ some (.push .bc),
  /- c6 -/ some (.add8 .imm false),
  /- c7 -/ some (.rst),
  /- c8 -/ some (.retIf flagZ true),
  /- c9 -/ some (.ret),
  /- ca -/ some (.jmpIf flagZ true),
  /- cb -/ none,
  /- cc -/ some (.callIf flagZ true),
  /- cd -/ some (.call),
  /- ce -/ some (.add8 .imm true),
  /- cf -/ some (.rst),
  /- d0 -/ some (.retIf flagC false),
  /- d1 -/ some (.pop .de),
  /- d2 -/ some (.jmpIf flagC false),
  /- d3 -/ some (.out),
  /- d4 -/ some (.callIf flagC false),
  /- d5 -/ some (.push .de),
  /- d6 -/ some (.sub8 .imm false false),
  /- d7 -/ some (.rst),
  /- d8 -/ some (.retIf flagC true),
  /- d9 -/ none,
  /- da -/ some (.jmpIf flagC true),
  /- db -/ some (.inp),
  /- dc -/ some (.callIf flagC true),
  /- dd -/ none,
  /- de -/ some (.sub8 .imm true false),
  /- df -/ some (.rst),
  /- e0 -/ some (.retIf flagP false),
  /- e1 -/ some (.pop .hl),
  /- e2 -/ some (.jmpIf flagP false),
  /- e3 -/ some (.xthl),
  /- e4 -/ some (.callIf flagP false),
  /- e5 -/ some (.push .hl),
  /- e6 -/ some (.ana .imm),
  /- e7 -/ some (.rst),
  /- e8 -/ some (.retIf flagP true),
  /- e9 -/ some (.pchl),
  /- ea -/ some (.jmpIf flagP true),
  /- eb -/ some (.xchg),
  /- ec -/ some (.callIf flagP true),
  /- ed -/ none,
  /- ee -/ some (.xra .imm),
  /- ef -/ some (.rst),
  /- f0 -/ some (.retIf flagS false),
  /- f1 -/ some (.popPsw),
  /- f2 -/ some (.jmpIf flagS false),
  /- f3 -/ some (.di),
  /- f4 -/ some (.callIf flagS false),
  /- f5 -/ some (.pushPsw),
  /- f6 -/ some (.ora .imm),
  /- f7 -/ some (.rst),
  /- f8 -/ some (.retIf flagS true),
  /- f9 -/ some (.sphl),
  /- fa -/ some (.jmpIf flagS true),
  /- fb -/ some (.ei),
  /- fc -/ some (.callIf flagS true),
  /- fd -/ none,
  /- fe -/ some (.sub8 .imm false true),
  /- ff -/ some (.rst)]

/-- Opcodes of the 8080 that have no instruction of their own, i8080.cc 79-90. -/
def alias80 : List (Byte × Byte) := [
  (0x10#8, 0x00#8), (0x20#8, 0x00#8), (0x30#8, 0x00#8), (0x08#8, 0x00#8), (0x18#8, 0x00#8), (0x28#8, 0x00#8), (0x38#8, 0x00#8), (0xd9#8, 0xc9#8), (0xcb#8, 0xc3#8), (0xdd#8, 0xcd#8), (0xed#8, 0xcd#8), (0xfd#8, 0xcd#8)]

/-- Instructions of the 8085 only, i8085cl.h 34-48. -/
def own85 : List (Byte × Inst) := [
  (0x08#8, .dsub), (0x10#8, .arhl), (0x18#8, .rdel), (0x20#8, .rim), (0x28#8, .ldhi), (0x30#8, .sim), (0x38#8, .ldsi), (0xcb#8, .rstv), (0xd9#8, .shlx), (0xdd#8, .jnx5), (0xed#8, .lhlx), (0xfd#8, .jx5)]

/-- glob.cc 164-181: 1 for an even number of ones (made flagP in si8085.cc 45-48). -/
def ptab : List Nat := [
  1, 0, 0, 1, 0, 1, 1, 0, 0, 1, 1, 0, 1, 0, 0, 1,
  0, 1, 1, 0, 1, 0, 0, 1, 1, 0, 0, 1, 0, 1, 1, 0,
  0, 1, 1, 0, 1, 0, 0, 1, 1, 0, 0, 1, 0, 1, 1, 0,
  1, 0, 0, 1, 0, 1, 1, 0, 0, 1, 1, 0, 1, 0, 0, 1,
  0, 1, 1, 0, 1, 0, 0, 1, 1, 0, 0, 1, 0, 1, 1, 0,
  1, 0, 0, 1, 0, 1, 1, 0, 0, 1, 1, 0, 1, 0, 0, 1,
  1, 0, 0, 1, 0, 1, 1, 0, 0, 1, 1, 0, 1, 0, 0, 1,
  0, 1, 1, 0, 1, 0, 0, 1, 1, 0, 0, 1, 0, 1, 1, 0,
  0, 1, 1, 0, 1, 0, 0, 1, 1, 0, 0, 1, 0, 1, 1, 0,
  1, 0, 0, 1, 0, 1, 1, 0, 0, 1, 1, 0, 1, 0, 0, 1,
  1, 0, 0, 1, 0, 1, 1, 0, 0, 1, 1, 0, 1, 0, 0, 1,
  0, 1, 1, 0, 1, 0, 0, 1, 1, 0, 0, 1, 0, 1, 1, 0,
  1, 0, 0, 1, 0, 1, 1, 0, 0, 1, 1, 0, 1, 0, 0, 1,
  0, 1, 1, 0, 1, 0, 0, 1, 1, 0, 0, 1, 0, 1, 1, 0,
  0, 1, 1, 0, 1, 0, 0, 1, 1, 0, 0, 1, 0, 1, 1, 0,
  1, 0, 0, 1, 0, 1, 1, 0, 0, 1, 1, 0, 1, 0, 0, 1]

/-- glob.cc 183-201 -/
def tick80 : List Nat := [
  4, 10, 7, 5, 5, 5, 7, 4, 4, 10, 7, 5, 5, 5, 7, 4,
  4, 10, 7, 5, 5, 5, 7, 4, 4, 10, 7, 5, 5, 5, 7, 4,
  4, 10, 16, 5, 5, 5, 7, 4, 4, 10, 16, 5, 5, 5, 7, 4,
  4, 10, 13, 5, 10, 10, 10, 4, 4, 10, 13, 5, 5, 5, 7, 4,
  5, 5, 5, 5, 5, 5, 7, 5, 5, 5, 5, 5, 5, 5, 7, 5,
  5, 5, 5, 5, 5, 5, 7, 5, 5, 5, 5, 5, 5, 5, 7, 5,
  5, 5, 5, 5, 5, 5, 7, 5, 5, 5, 5, 5, 5, 5, 7, 5,
  7, 7, 7, 7, 7, 7, 7, 7, 5, 5, 5, 5, 5, 5, 7, 5,
  4, 4, 4, 4, 4, 4, 7, 4, 4, 4, 4, 4, 4, 4, 7, 4,
  4, 4, 4, 4, 4, 4, 7, 4, 4, 4, 4, 4, 4, 4, 7, 4,
  4, 4, 4, 4, 4, 4, 7, 4, 4, 4, 4, 4, 4, 4, 7, 4,
  4, 4, 4, 4, 4, 4, 7, 4, 4, 4, 4, 4, 4, 4, 7, 4,
  2821, 10, 10, 10, 4363, 11, 7, 11, 2821, 10, 10, 10, 4363, 17, 7, 11,
  2821, 10, 10, 10, 4363, 11, 7, 11, 2821, 10, 10, 10, 4363, 17, 7, 11,
  2821, 10, 10, 18, 4363, 11, 7, 11, 2821, 5, 10, 5, 4363, 17, 7, 11,
  2821, 10, 10, 4, 4363, 11, 7, 11, 2821, 5, 10, 4, 4363, 17, 7, 11]

/-- glob.cc 203-221 -/
def tick85 : List Nat := [
  4, 10, 7, 6, 4, 4, 7, 4, 10, 10, 7, 6, 4, 4, 7, 4,
  7, 10, 7, 6, 4, 4, 7, 4, 10, 10, 7, 6, 4, 4, 7, 4,
  4, 10, 16, 6, 4, 4, 7, 4, 10, 10, 16, 6, 4, 4, 7, 4,
  4, 10, 13, 6, 10, 10, 10, 4, 10, 10, 13, 6, 4, 4, 7, 4,
  4, 4, 4, 4, 4, 4, 7, 4, 4, 4, 4, 4, 4, 4, 7, 4,
  4, 4, 4, 4, 4, 4, 7, 4, 4, 4, 4, 4, 4, 4, 7, 4,
  4, 4, 4, 4, 4, 4, 7, 4, 4, 4, 4, 4, 4, 4, 7, 4,
  7, 7, 7, 7, 7, 7, 5, 7, 4, 4, 4, 4, 5, 4, 7, 4,
  4, 4, 4, 4, 4, 4, 7, 4, 4, 4, 4, 4, 4, 4, 7, 4,
  4, 4, 4, 4, 4, 4, 7, 4, 4, 4, 4, 4, 4, 4, 7, 4,
  4, 4, 4, 4, 4, 4, 7, 4, 4, 4, 4, 4, 4, 4, 7, 4,
  4, 4, 4, 4, 4, 4, 7, 4, 4, 4, 4, 4, 4, 4, 7, 4,
  3078, 10, 2567, 10, 4617, 12, 7, 12, 3078, 10, 2567, 3078, 4617, 18, 7, 12,
  3078, 10, 2567, 10, 4617, 12, 7, 12, 3078, 10, 2567, 10, 4617, 2567, 7, 12,
  3078, 10, 2567, 16, 4617, 12, 7, 12, 3078, 6, 2567, 4, 4617, 26, 7, 12,
  3078, 10, 2567, 4, 4617, 12, 7, 12, 3078, 6, 2567, 4, 4617, 2567, 7, 12]

/-- glob.cc 33-125: code, mask, length, mnemonic (the field is_call is not given: false). -/
def disCommon : List (Byte × Byte × Nat × String) := [
  (0x00#8, 0xff#8, 1, "NOP"),
  (0x76#8, 0xff#8, 1, "HLT"),
  (0xfb#8, 0xff#8, 1, "EI"),
  (0xf3#8, 0xff#8, 1, "DI"),
  (0x40#8, 0xc0#8, 1, "MOV 'rm5','rm2'"),
  (0x06#8, 0xc7#8, 2, "MVI 'rm5',#'i8'"),
  (0x01#8, 0xcf#8, 3, "LXI 'rp5',#'i16'"),
  (0x3a#8, 0xff#8, 3, "LDA 'a16_8'"),
  (0x32#8, 0xff#8, 3, "STA 'a16_8'"),
  (0x2a#8, 0xff#8, 3, "LHLD 'a16_16'"),
  (0x22#8, 0xff#8, 3, "SHLD 'a16_16'"),
  (0x0a#8, 0xff#8, 1, "LDAX 'rp5_8'"),
  (0x1a#8, 0xff#8, 1, "LDAX 'rp5_8'"),
  (0x02#8, 0xff#8, 1, "STAX 'rp5_8'"),
  (0x12#8, 0xff#8, 1, "STAX 'rp5_8'"),
  (0xeb#8, 0xff#8, 1, "XCHG"),
  (0xdb#8, 0xff#8, 2, "IN 'in'"),
  (0xd3#8, 0xff#8, 2, "OUT 'out'"),
  (0xc5#8, 0xcf#8, 1, "PUSH 'srp'"),
  (0xc1#8, 0xcf#8, 1, "POP 'srp'"),
  (0xe3#8, 0xff#8, 1, "XTHL"),
  (0xf9#8, 0xff#8, 1, "SPHL"),
  (0x80#8, 0xf8#8, 1, "ADD 'rm2'"),
  (0xc6#8, 0xff#8, 2, "ADI #'i8'"),
  (0x88#8, 0xf8#8, 1, "ADC 'rm2'"),
  (0xce#8, 0xff#8, 2, "ACI #'i8'"),
  (0x90#8, 0xf8#8, 1, "SUB 'rm2'"),
  (0xd6#8, 0xff#8, 2, "SUI #'i8'"),
  (0x98#8, 0xf8#8, 1, "SBB 'rm2'"),
  (0xde#8, 0xff#8, 2, "SBI #'i8'"),
  (0xb8#8, 0xf8#8, 1, "CMP 'rm2'"),
  (0xfe#8, 0xff#8, 2, "CPI #'i8'"),
  (0x09#8, 0xcf#8, 1, "DAD 'rp5_16'"),
  (0x04#8, 0xc7#8, 1, "INR 'rm5'"),
  (0x05#8, 0xc7#8, 1, "DCR 'rm5'"),
  (0x03#8, 0xcf#8, 1, "INX 'rp5'"),
  (0x0b#8, 0xcf#8, 1, "DCX 'rp5'"),
  (0xa0#8, 0xf8#8, 1, "ANA 'rm2'"),
  (0xe6#8, 0xff#8, 2, "ANI #'i8'"),
  (0xb0#8, 0xf8#8, 1, "ORA 'rm2'"),
  (0xf6#8, 0xff#8, 2, "ORI #'i8'"),
  (0xa8#8, 0xf8#8, 1, "XOR 'rm2'"),
  (0xee#8, 0xff#8, 2, "XRI #'i8'"),
  (0x07#8, 0xff#8, 1, "RLC"),
  (0x0f#8, 0xff#8, 1, "RRC"),
  (0x17#8, 0xff#8, 1, "RAL"),
  (0x1f#8, 0xff#8, 1, "RAR"),
  (0x27#8, 0xff#8, 1, "DAA"),
  (0x2f#8, 0xff#8, 1, "CMA"),
  (0x3f#8, 0xff#8, 1, "CMC"),
  (0x37#8, 0xff#8, 1, "STC"),
  (0xc3#8, 0xff#8, 3, "JMP 'a16'"),
  (0xc2#8, 0xff#8, 3, "JNZ 'a16'"),
  (0xca#8, 0xff#8, 3, "JZ 'a16'"),
  (0xd2#8, 0xff#8, 3, "JNC 'a16'"),
  (0xda#8, 0xff#8, 3, "JC 'a16'"),
  (0xe2#8, 0xff#8, 3, "JPO 'a16'"),
  (0xea#8, 0xff#8, 3, "JPE 'a16'"),
  (0xf2#8, 0xff#8, 3, "JP 'a16'"),
  (0xfa#8, 0xff#8, 3, "JM 'a16'"),
  (0xcd#8, 0xff#8, 3, "CALL 'a16'"),
  (0xc4#8, 0xff#8, 3, "CNZ 'a16'"),
  (0xcc#8, 0xff#8, 3, "CZ 'a16'"),
  (0xd4#8, 0xff#8, 3, "CNC 'a16'"),
  (0xdc#8, 0xff#8, 3, "CC 'a16'"),
  (0xe4#8, 0xff#8, 3, "CPO 'a16'"),
  (0xec#8, 0xff#8, 3, "CPE 'a16'"),
  (0xf4#8, 0xff#8, 3, "CP 'a16'"),
  (0xfc#8, 0xff#8, 3, "CM 'a16'"),
  (0xc9#8, 0xff#8, 1, "RET"),
  (0xc0#8, 0xff#8, 1, "RNZ"),
  (0xc8#8, 0xff#8, 1, "RZ"),
  (0xd0#8, 0xff#8, 1, "RNC"),
  (0xd8#8, 0xff#8, 1, "RC"),
  (0xe0#8, 0xff#8, 1, "RPO"),
  (0xe8#8, 0xff#8, 1, "RPE"),
  (0xf0#8, 0xff#8, 1, "RP"),
  (0xf8#8, 0xff#8, 1, "RM"),
  (0xc7#8, 0xc7#8, 1, "RST 'rst'"),
  (0xe9#8, 0xff#8, 1, "PCHL")]

/-- glob.cc 127-142: code, mask, length, mnemonic (the field is_call is not given: false). -/
def dis80 : List (Byte × Byte × Nat × String) := [
  (0x10#8, 0xff#8, 1, "*NOP"),
  (0x20#8, 0xff#8, 1, "*NOP"),
  (0x30#8, 0xff#8, 1, "*NOP"),
  (0x08#8, 0xff#8, 1, "*NOP"),
  (0x18#8, 0xff#8, 1, "*NOP"),
  (0x28#8, 0xff#8, 1, "*NOP"),
  (0x38#8, 0xff#8, 1, "*NOP"),
  (0xd9#8, 0xff#8, 1, "*RET"),
  (0xcb#8, 0xff#8, 3, "*JMP 'a16'"),
  (0xdd#8, 0xff#8, 3, "*CALL 'a16'"),
  (0xed#8, 0xff#8, 3, "*CALL 'a16'"),
  (0xfd#8, 0xff#8, 3, "*CALL 'a16'")]

/-- glob.cc 144-161: code, mask, length, mnemonic (the field is_call is not given: false). -/
def dis85 : List (Byte × Byte × Nat × String) := [
  (0x20#8, 0xff#8, 1, "RIM"),
  (0x30#8, 0xff#8, 1, "SIM"),
  (0x10#8, 0xff#8, 1, "ARHL"),
  (0x18#8, 0xff#8, 1, "RDEL"),
  (0x08#8, 0xff#8, 1, "DSUB"),
  (0xdd#8, 0xff#8, 3, "JNX5 'a16'"),
  (0xfd#8, 0xff#8, 3, "JX5 'a16'"),
  (0xcb#8, 0xff#8, 1, "RSTV"),
  (0x28#8, 0xff#8, 2, "LDHI 'hli8'"),
  (0x38#8, 0xff#8, 2, "LDSI 'spi8'"),
  (0xed#8, 0xff#8, 1, "LHLX 'de16'"),
  (0xd9#8, 0xff#8, 1, "SHLX 'de16'")]

end Ucsim.I80
