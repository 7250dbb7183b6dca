import Verif.Z80.Inst

/-
Written by tools/mkz80.py from the switches and tables of /repo/src/sims/z80.src; every
row is one case.
-/
namespace Ucsim.Z80

/-- cl_z80::exec_inst z80.cc 655-833 and the functions of inst.cc it calls; CB, DD, ED, FD: prefix -/
def tab00 : Array Inst := #[
  .nop, .ld16 .bc, .ldMA .bc, .inc16 .bc,
  .inc8 (.r .b), .dec8 (.r .b), .ld (.r .b) .imm, .rlca,
  .exAF, .add16 .hl .bc, .ldAM .bc, .dec16 .bc,
  .inc8 (.r .c), .dec8 (.r .c), .ld (.r .c) .imm, .rrca,
  .djnz, .ld16 .de, .ldMA .de, .inc16 .de,
  .inc8 (.r .d), .dec8 (.r .d), .ld (.r .d) .imm, .rla,
  .jr, .add16 .hl .de, .ldAM .de, .dec16 .de,
  .inc8 (.r .e), .dec8 (.r .e), .ld (.r .e) .imm, .rra,
  .jrIf bitZ false, .ld16 .hl, .stRP .hl, .inc16 .hl,
  .inc8 (.r .h), .dec8 (.r .h), .ld (.r .h) .imm, .daa,
  .jrIf bitZ true, .add16 .hl .hl, .ldRP .hl, .dec16 .hl,
  .inc8 (.r .l), .dec8 (.r .l), .ld (.r .l) .imm, .cpl,
  .jrIf bitC false, .ld16 .sp, .stA, .inc16 .sp,
  .inc8 .m, .dec8 .m, .ld .m .imm, .scf,
  .jrIf bitC true, .add16 .hl .sp, .ldA, .dec16 .sp,
  .inc8 (.r .a), .dec8 (.r .a), .ld (.r .a) .imm, .ccf,
  .nop, .ld (.r .b) (.r .c), .ld (.r .b) (.r .d), .ld (.r .b) (.r .e),
  .ld (.r .b) (.r .h), .ld (.r .b) (.r .l), .ld (.r .b) .m, .ld (.r .b) (.r .a),
  .ld (.r .c) (.r .b), .nop, .ld (.r .c) (.r .d), .ld (.r .c) (.r .e),
  .ld (.r .c) (.r .h), .ld (.r .c) (.r .l), .ld (.r .c) .m, .ld (.r .c) (.r .a),
  .ld (.r .d) (.r .b), .ld (.r .d) (.r .c), .nop, .ld (.r .d) (.r .e),
  .ld (.r .d) (.r .h), .ld (.r .d) (.r .l), .ld (.r .d) .m, .ld (.r .d) (.r .a),
  .ld (.r .e) (.r .b), .ld (.r .e) (.r .c), .ld (.r .e) (.r .d), .nop,
  .ld (.r .e) (.r .h), .ld (.r .e) (.r .l), .ld (.r .e) .m, .ld (.r .e) (.r .a),
  .ld (.r .h) (.r .b), .ld (.r .h) (.r .c), .ld (.r .h) (.r .d), .ld (.r .h) (.r .e),
  .ld (.r .h) (.r .h), .ld (.r .h) (.r .l), .ld (.r .h) .m, .ld (.r .h) (.r .a),
  .ld (.r .l) (.r .b), .ld (.r .l) (.r .c), .ld (.r .l) (.r .d), .ld (.r .l) (.r .e),
  .ld (.r .l) (.r .h), .nop, .ld (.r .l) .m, .ld (.r .l) (.r .a),
  .ld .m (.r .b), .ld .m (.r .c), .ld .m (.r .d), .ld .m (.r .e),
  .ld .m (.r .h), .ld .m (.r .l), .halt, .ld .m (.r .a),
  .ld (.r .a) (.r .b), .ld (.r .a) (.r .c), .ld (.r .a) (.r .d), .ld (.r .a) (.r .e),
  .ld (.r .a) (.r .h), .ld (.r .a) (.r .l), .ld (.r .a) .m, .nop,
  .alu .add (.r .b), .alu .add (.r .c), .alu .add (.r .d), .alu .add (.r .e),
  .alu .add (.r .h), .alu .add (.r .l), .alu .add .m, .alu .add (.r .a),
  .alu .adc (.r .b), .alu .adc (.r .c), .alu .adc (.r .d), .alu .adc (.r .e),
  .alu .adc (.r .h), .alu .adc (.r .l), .alu .adc .m, .alu .adc (.r .a),
  .alu .sub (.r .b), .alu .sub (.r .c), .alu .sub (.r .d), .alu .sub (.r .e),
  .alu .sub (.r .h), .alu .sub (.r .l), .alu .sub .m, .alu .sub (.r .a),
  .alu .sbc (.r .b), .alu .sbc (.r .c), .alu .sbc (.r .d), .alu .sbc (.r .e),
  .alu .sbc (.r .h), .alu .sbc (.r .l), .alu .sbc .m, .alu .sbc (.r .a),
  .alu .and (.r .b), .alu .and (.r .c), .alu .and (.r .d), .alu .and (.r .e),
  .alu .and (.r .h), .alu .and (.r .l), .alu .and .m, .alu .and (.r .a),
  .alu .xor (.r .b), .alu .xor (.r .c), .alu .xor (.r .d), .alu .xor (.r .e),
  .alu .xor (.r .h), .alu .xor (.r .l), .alu .xor .m, .alu .xor (.r .a),
  .alu .or (.r .b), .alu .or (.r .c), .alu .or (.r .d), .alu .or (.r .e),
  .alu .or (.r .h), .alu .or (.r .l), .alu .or .m, .alu .or (.r .a),
  .alu .cp (.r .b), .alu .cp (.r .c), .alu .cp (.r .d), .alu .cp (.r .e),
  .alu .cp (.r .h), .alu .cp (.r .l), .alu .cp .m, .alu .cp (.r .a),
  .retIf bitZ false, .pop .bc, .jpIf bitZ false, .jp,
  .callIf bitZ false, .push .bc, .alu .add .imm, .rst 0x00#16,
  .retIf bitZ true, .ret, .jpIf bitZ true, .prefix,
  .callIf bitZ true, .call, .alu .adc .imm, .rst 0x08#16,
  .retIf bitC false, .pop .de, .jpIf bitC false, .outA,
  .callIf bitC false, .push .de, .alu .sub .imm, .rst 0x10#16,
  .retIf bitC true, .exx, .jpIf bitC true, .inA,
  .callIf bitC true, .prefix, .alu .sbc .imm, .rst 0x18#16,
  .retIf bitP false, .pop .hl, .jpIf bitP false, .exSP .hl,
  .callIf bitP false, .push .hl, .alu .and .imm, .rst 0x20#16,
  .retIf bitP true, .jpRP .hl, .jpIf bitP true, .exDEHL,
  .callIf bitP true, .prefix, .alu .xor .imm, .rst 0x28#16,
  .retIf bitS false, .popAF, .jpIf bitS false, .di,
  .callIf bitS false, .pushAF, .alu .or .imm, .rst 0x30#16,
  .retIf bitS true, .ldSP .hl, .jpIf bitS true, .ei,
  .callIf bitS true, .prefix, .alu .cp .imm, .rst 0x38#16]

/-- cl_z80::inst_cb and the functions it calls, inst_cb.cc -/
def tabCB : Array Inst := #[
  .rot .rlc (.r .b), .rot .rlc (.r .c), .rot .rlc (.r .d), .rot .rlc (.r .e),
  .rot .rlc (.r .h), .rot .rlc (.r .l), .rot .rlc .m, .rot .rlc (.r .a),
  .rot .rrc (.r .b), .rot .rrc (.r .c), .rot .rrc (.r .d), .rot .rrc (.r .e),
  .rot .rrc (.r .h), .rot .rrc (.r .l), .rot .rrc .m, .rot .rrc (.r .a),
  .rot .rl (.r .b), .rot .rl (.r .c), .rot .rl (.r .d), .rot .rl (.r .e),
  .rot .rl (.r .h), .rot .rl (.r .l), .rot .rl .m, .rot .rl (.r .a),
  .rot .rr (.r .b), .rot .rr (.r .c), .rot .rr (.r .d), .rot .rr (.r .e),
  .rot .rr (.r .h), .rot .rr (.r .l), .rot .rr .m, .rot .rr (.r .a),
  .rot .sla (.r .b), .rot .sla (.r .c), .rot .sla (.r .d), .rot .sla (.r .e),
  .rot .sla (.r .h), .rot .sla (.r .l), .rot .sla .m, .rot .sla (.r .a),
  .rot .sra (.r .b), .rot .sra (.r .c), .rot .sra (.r .d), .rot .sra (.r .e),
  .rot .sra (.r .h), .rot .sra (.r .l), .rot .sra .m, .rot .sra (.r .a),
  .rot .slia (.r .b), .rot .slia (.r .c), .rot .slia (.r .d), .rot .slia (.r .e),
  .rot .slia (.r .h), .rot .slia (.r .l), .rot .slia .m, .rot .slia (.r .a),
  .rot .srl (.r .b), .rot .srl (.r .c), .rot .srl (.r .d), .rot .srl (.r .e),
  .rot .srl (.r .h), .rot .srl (.r .l), .rot .srl .m, .rot .srl (.r .a),
  .bit 0 (.r .b), .bit 0 (.r .c), .bit 0 (.r .d), .bit 0 (.r .e),
  .bit 0 (.r .h), .bit 0 (.r .l), .bit 0 .m, .bit 0 (.r .a),
  .bit 1 (.r .b), .bit 1 (.r .c), .bit 1 (.r .d), .bit 1 (.r .e),
  .bit 1 (.r .h), .bit 1 (.r .l), .bit 1 .m, .bit 1 (.r .a),
  .bit 2 (.r .b), .bit 2 (.r .c), .bit 2 (.r .d), .bit 2 (.r .e),
  .bit 2 (.r .h), .bit 2 (.r .l), .bit 2 .m, .bit 2 (.r .a),
  .bit 3 (.r .b), .bit 3 (.r .c), .bit 3 (.r .d), .bit 3 (.r .e),
  .bit 3 (.r .h), .bit 3 (.r .l), .bit 3 .m, .bit 3 (.r .a),
  .bit 4 (.r .b), .bit 4 (.r .c), .bit 4 (.r .d), .bit 4 (.r .e),
  .bit 4 (.r .h), .bit 4 (.r .l), .bit 4 .m, .bit 4 (.r .a),
  .bit 5 (.r .b), .bit 5 (.r .c), .bit 5 (.r .d), .bit 5 (.r .e),
  .bit 5 (.r .h), .bit 5 (.r .l), .bit 5 .m, .bit 5 (.r .a),
  .bit 6 (.r .b), .bit 6 (.r .c), .bit 6 (.r .d), .bit 6 (.r .e),
  .bit 6 (.r .h), .bit 6 (.r .l), .bit 6 .m, .bit 6 (.r .a),
  .bit 7 (.r .b), .bit 7 (.r .c), .bit 7 (.r .d), .bit 7 (.r .e),
  .bit 7 (.r .h), .bit 7 (.r .l), .bit 7 .m, .bit 7 (.r .a),
  .res 0 (.r .b), .res 0 (.r .c), .res 0 (.r .d), .res 0 (.r .e),
  .res 0 (.r .h), .res 0 (.r .l), .res 0 .m, .res 0 (.r .a),
  .res 1 (.r .b), .res 1 (.r .c), .res 1 (.r .d), .res 1 (.r .e),
  .res 1 (.r .h), .res 1 (.r .l), .res 1 .m, .res 1 (.r .a),
  .res 2 (.r .b), .res 2 (.r .c), .res 2 (.r .d), .res 2 (.r .e),
  .res 2 (.r .h), .res 2 (.r .l), .res 2 .m, .res 2 (.r .a),
  .res 3 (.r .b), .res 3 (.r .c), .res 3 (.r .d), .res 3 (.r .e),
  .res 3 (.r .h), .res 3 (.r .l), .res 3 .m, .res 3 (.r .a),
  .res 4 (.r .b), .res 4 (.r .c), .res 4 (.r .d), .res 4 (.r .e),
  .res 4 (.r .h), .res 4 (.r .l), .res 4 .m, .res 4 (.r .a),
  .res 5 (.r .b), .res 5 (.r .c), .res 5 (.r .d), .res 5 (.r .e),
  .res 5 (.r .h), .res 5 (.r .l), .res 5 .m, .res 5 (.r .a),
  .res 6 (.r .b), .res 6 (.r .c), .res 6 (.r .d), .res 6 (.r .e),
  .res 6 (.r .h), .res 6 (.r .l), .res 6 .m, .res 6 (.r .a),
  .res 7 (.r .b), .res 7 (.r .c), .res 7 (.r .d), .res 7 (.r .e),
  .res 7 (.r .h), .res 7 (.r .l), .res 7 .m, .res 7 (.r .a),
  .set 0 (.r .b), .set 0 (.r .c), .set 0 (.r .d), .set 0 (.r .e),
  .set 0 (.r .h), .set 0 (.r .l), .set 0 .m, .set 0 (.r .a),
  .set 1 (.r .b), .set 1 (.r .c), .set 1 (.r .d), .set 1 (.r .e),
  .set 1 (.r .h), .set 1 (.r .l), .set 1 .m, .set 1 (.r .a),
  .set 2 (.r .b), .set 2 (.r .c), .set 2 (.r .d), .set 2 (.r .e),
  .set 2 (.r .h), .set 2 (.r .l), .set 2 .m, .set 2 (.r .a),
  .set 3 (.r .b), .set 3 (.r .c), .set 3 (.r .d), .set 3 (.r .e),
  .set 3 (.r .h), .set 3 (.r .l), .set 3 .m, .set 3 (.r .a),
  .set 4 (.r .b), .set 4 (.r .c), .set 4 (.r .d), .set 4 (.r .e),
  .set 4 (.r .h), .set 4 (.r .l), .set 4 .m, .set 4 (.r .a),
  .set 5 (.r .b), .set 5 (.r .c), .set 5 (.r .d), .set 5 (.r .e),
  .set 5 (.r .h), .set 5 (.r .l), .set 5 .m, .set 5 (.r .a),
  .set 6 (.r .b), .set 6 (.r .c), .set 6 (.r .d), .set 6 (.r .e),
  .set 6 (.r .h), .set 6 (.r .l), .set 6 .m, .set 6 (.r .a),
  .set 7 (.r .b), .set 7 (.r .c), .set 7 (.r .d), .set 7 (.r .e),
  .set 7 (.r .h), .set 7 (.r .l), .set 7 .m, .set 7 (.r .a)]

/-- cl_z80::inst_dd, inst_fd: inst_xd.cc; CB: prefix -/
def tabXD : Array Inst := #[
  .inv, .inv, .inv, .inv,
  .inv, .inv, .inv, .inv,
  .inv, .add16 .xx .bc, .inv, .inv,
  .inv, .inv, .inv, .inv,
  .inv, .inv, .inv, .inv,
  .inv, .inv, .inv, .inv,
  .inv, .add16 .xx .de, .inv, .inv,
  .inv, .inv, .inv, .inv,
  .inv, .ld16 .xx, .stRP .xx, .inc16 .xx,
  .inc8 (.r .xh), .dec8 (.r .xh), .ld (.r .xh) .imm, .inv,
  .inv, .add16 .xx .xx, .ldRP .xx, .dec16 .xx,
  .inc8 (.r .xl), .dec8 (.r .xl), .ld (.r .xl) .imm, .inv,
  .inv, .inv, .inv, .inv,
  .inc8 .xd, .dec8 .xd, .ld .xd .imm, .inv,
  .inv, .add16 .xx .sp, .inv, .inv,
  .inv, .inv, .inv, .inv,
  .inv, .inv, .inv, .inv,
  .ld (.r .b) (.r .xh), .ld (.r .b) (.r .xl), .ld (.r .b) .xd, .inv,
  .inv, .inv, .inv, .inv,
  .ld (.r .c) (.r .xh), .ld (.r .c) (.r .xl), .ld (.r .c) .xd, .inv,
  .inv, .inv, .inv, .inv,
  .ld (.r .d) (.r .xh), .ld (.r .d) (.r .xl), .ld (.r .d) .xd, .inv,
  .inv, .inv, .inv, .inv,
  .ld (.r .e) (.r .xh), .ld (.r .e) (.r .xl), .ld (.r .e) .xd, .inv,
  .ld (.r .xh) (.r .b), .ld (.r .xh) (.r .c), .ld (.r .xh) (.r .d), .ld (.r .xh) (.r .e),
  .nop, .ld (.r .xh) (.r .xl), .ld (.r .h) .xd, .ld (.r .xh) (.r .a),
  .ld (.r .xl) (.r .b), .ld (.r .xl) (.r .c), .ld (.r .xl) (.r .d), .ld (.r .xl) (.r .e),
  .ld (.r .xl) (.r .xh), .nop, .ld (.r .l) .xd, .ld (.r .xl) (.r .a),
  .ld .xd (.r .b), .ld .xd (.r .c), .ld .xd (.r .d), .ld .xd (.r .e),
  .ld .xd (.r .h), .ld .xd (.r .l), .inv, .ld .xd (.r .a),
  .inv, .inv, .inv, .inv,
  .ld (.r .a) (.r .xh), .ld (.r .a) (.r .xl), .ld (.r .a) .xd, .inv,
  .inv, .inv, .inv, .inv,
  .alu .add (.r .xh), .alu .add (.r .xl), .alu .add .xd, .inv,
  .inv, .inv, .inv, .inv,
  .alu .adc (.r .xh), .alu .adc (.r .xl), .alu .adc .xd, .inv,
  .inv, .inv, .inv, .inv,
  .alu .sub (.r .xh), .alu .sub (.r .xl), .alu .sub .xd, .inv,
  .inv, .inv, .inv, .inv,
  .alu .sbc (.r .xh), .alu .sbc (.r .xl), .alu .sbc .xd, .inv,
  .inv, .inv, .inv, .inv,
  .alu .and (.r .xh), .alu .and (.r .xl), .alu .and .xd, .inv,
  .inv, .inv, .inv, .inv,
  .alu .xor (.r .xh), .alu .xor (.r .xl), .alu .xor .xd, .inv,
  .inv, .inv, .inv, .inv,
  .alu .or (.r .xh), .alu .or (.r .xl), .alu .or .xd, .inv,
  .inv, .inv, .inv, .inv,
  .alu .cp (.r .xh), .alu .cp (.r .xl), .alu .cp .xd, .inv,
  .inv, .inv, .inv, .inv,
  .inv, .inv, .inv, .inv,
  .inv, .inv, .inv, .prefix,
  .inv, .inv, .inv, .inv,
  .inv, .inv, .inv, .inv,
  .inv, .inv, .inv, .inv,
  .inv, .inv, .inv, .inv,
  .inv, .inv, .inv, .inv,
  .inv, .pop .xx, .inv, .exSP .xx,
  .inv, .push .xx, .inv, .inv,
  .inv, .jpRP .xx, .inv, .inv,
  .inv, .inv, .inv, .inv,
  .inv, .inv, .inv, .inv,
  .inv, .inv, .inv, .inv,
  .inv, .ldSP .xx, .inv, .inv,
  .inv, .inv, .inv, .inv]

/-- cl_z80::inst_ddcb, inst_fdcb: inst_xxcb.cc -/
def tabXC : Array Inst := #[
  .xrot .rlc (some .b), .xrot .rlc (some .c), .xrot .rlc (some .d), .xrot .rlc (some .e),
  .xrot .rlc (some .h), .xrot .rlc (some .l), .xrot .rlc none, .xrot .rlc (some .a),
  .xrot .rrc (some .b), .xrot .rrc (some .c), .xrot .rrc (some .d), .xrot .rrc (some .e),
  .xrot .rrc (some .h), .xrot .rrc (some .l), .xrot .rrc none, .xrot .rrc (some .a),
  .xrot .rl (some .b), .xrot .rl (some .c), .xrot .rl (some .d), .xrot .rl (some .e),
  .xrot .rl (some .h), .xrot .rl (some .l), .xrot .rl none, .xrot .rl (some .a),
  .xrot .rr (some .b), .xrot .rr (some .c), .xrot .rr (some .d), .xrot .rr (some .e),
  .xrot .rr (some .h), .xrot .rr (some .l), .xrot .rr none, .xrot .rr (some .a),
  .xrot .sla (some .b), .xrot .sla (some .c), .xrot .sla (some .d), .xrot .sla (some .e),
  .xrot .sla (some .h), .xrot .sla (some .l), .xrot .sla none, .xrot .sla (some .a),
  .xrot .sra (some .b), .xrot .sra (some .c), .xrot .sra (some .d), .xrot .sra (some .e),
  .xrot .sra (some .h), .xrot .sra (some .l), .xrot .sra none, .xrot .sra (some .a),
  .xrot .slia (some .b), .xrot .slia (some .c), .xrot .slia (some .d), .xrot .slia (some .e),
  .xrot .slia (some .h), .xrot .slia (some .l), .xrot .slia none, .xrot .slia (some .a),
  .xrot .srl (some .b), .xrot .srl (some .c), .xrot .srl (some .d), .xrot .srl (some .e),
  .xrot .srl (some .h), .xrot .srl (some .l), .xrot .srl none, .xrot .srl (some .a),
  .inv, .inv, .inv, .inv,
  .inv, .inv, .xbit 0, .inv,
  .inv, .inv, .inv, .inv,
  .inv, .inv, .xbit 1, .inv,
  .inv, .inv, .inv, .inv,
  .inv, .inv, .xbit 2, .inv,
  .inv, .inv, .inv, .inv,
  .inv, .inv, .xbit 3, .inv,
  .inv, .inv, .inv, .inv,
  .inv, .inv, .xbit 4, .inv,
  .inv, .inv, .inv, .inv,
  .inv, .inv, .xbit 5, .inv,
  .inv, .inv, .inv, .inv,
  .inv, .inv, .xbit 6, .inv,
  .inv, .inv, .inv, .inv,
  .inv, .inv, .xbit 7, .inv,
  .xres 0 (some .b), .xres 0 (some .c), .xres 0 (some .d), .xres 0 (some .e),
  .xres 0 (some .h), .xres 0 (some .l), .xres 0 none, .xres 0 (some .a),
  .xres 1 (some .b), .xres 1 (some .c), .xres 1 (some .d), .xres 1 (some .e),
  .xres 1 (some .h), .xres 1 (some .l), .xres 1 none, .xres 1 (some .a),
  .xres 2 (some .b), .xres 2 (some .c), .xres 2 (some .d), .xres 2 (some .e),
  .xres 2 (some .h), .xres 2 (some .l), .xres 2 none, .xres 2 (some .a),
  .xres 3 (some .b), .xres 3 (some .c), .xres 3 (some .d), .xres 3 (some .e),
  .xres 3 (some .h), .xres 3 (some .l), .xres 3 none, .xres 3 (some .a),
  .xres 4 (some .b), .xres 4 (some .c), .xres 4 (some .d), .xres 4 (some .e),
  .xres 4 (some .h), .xres 4 (some .l), .xres 4 none, .xres 4 (some .a),
  .xres 5 (some .b), .xres 5 (some .c), .xres 5 (some .d), .xres 5 (some .e),
  .xres 5 (some .h), .xres 5 (some .l), .xres 5 none, .xres 5 (some .a),
  .xres 6 (some .b), .xres 6 (some .c), .xres 6 (some .d), .xres 6 (some .e),
  .xres 6 (some .h), .xres 6 (some .l), .xres 6 none, .xres 6 (some .a),
  .xres 7 (some .b), .xres 7 (some .c), .xres 7 (some .d), .xres 7 (some .e),
  .xres 7 (some .h), .xres 7 (some .l), .xres 7 none, .xres 7 (some .a),
  .xset 0 (some .b), .xset 0 (some .c), .xset 0 (some .d), .xset 0 (some .e),
  .xset 0 (some .h), .xset 0 (some .h), .xset 0 none, .xset 0 (some .a),
  .xset 1 (some .b), .xset 1 (some .c), .xset 1 (some .d), .xset 1 (some .e),
  .xset 1 (some .h), .xset 1 (some .h), .xset 1 none, .xset 1 (some .a),
  .xset 2 (some .b), .xset 2 (some .c), .xset 2 (some .d), .xset 2 (some .e),
  .xset 2 (some .h), .xset 2 (some .h), .xset 2 none, .xset 2 (some .a),
  .xset 3 (some .b), .xset 3 (some .c), .xset 3 (some .d), .xset 3 (some .e),
  .xset 3 (some .h), .xset 3 (some .h), .xset 3 none, .xset 3 (some .a),
  .xset 4 (some .b), .xset 4 (some .c), .xset 4 (some .d), .xset 4 (some .e),
  .xset 4 (some .h), .xset 4 (some .h), .xset 4 none, .xset 4 (some .a),
  .xset 5 (some .b), .xset 5 (some .c), .xset 5 (some .d), .xset 5 (some .e),
  .xset 5 (some .h), .xset 5 (some .h), .xset 5 none, .xset 5 (some .a),
  .xset 6 (some .b), .xset 6 (some .c), .xset 6 (some .d), .xset 6 (some .e),
  .xset 6 (some .h), .xset 6 (some .h), .xset 6 none, .xset 6 (some .a),
  .xset 7 (some .b), .xset 7 (some .c), .xset 7 (some .d), .xset 7 (some .e),
  .xset 7 (some .h), .xset 7 (some .h), .xset 7 none, .xset 7 (some .a)]

/-- cl_z80::inst_ed_ for CPU_Z80, inst_ed.cc -/
def tabED : Array Inst := #[
  .inv, .inv, .inv, .inv,
  .inv, .inv, .inv, .inv,
  .inv, .inv, .inv, .inv,
  .inv, .inv, .inv, .inv,
  .inv, .inv, .inv, .inv,
  .inv, .inv, .inv, .inv,
  .inv, .inv, .inv, .inv,
  .inv, .inv, .inv, .inv,
  .inv, .inv, .inv, .inv,
  .inv, .inv, .inv, .inv,
  .inv, .inv, .inv, .inv,
  .inv, .inv, .inv, .inv,
  .inv, .inv, .inv, .inv,
  .inv, .inv, .inv, .inv,
  .inv, .inv, .inv, .inv,
  .inv, .inv, .inv, .inv,
  .inC .b, .outC .b, .sbcHL .bc, .stRP .bc,
  .neg, .retN, .im 0, .ldIA,
  .inC .c, .outC .c, .adcHL .bc, .ldRP .bc,
  .inv, .retN, .inv, .ldRA,
  .inC .d, .outC .d, .sbcHL .de, .stRP .de,
  .inv, .inv, .im 1, .ldAI,
  .inC .e, .outC .e, .adcHL .de, .ldRP .de,
  .inv, .inv, .im 2, .ldAR,
  .inC .h, .outC .h, .sbcHL .hl, .stRP .hl,
  .inv, .inv, .inv, .rrd,
  .inC .l, .outC .l, .adcHL .hl, .ldRP .hl,
  .inv, .inv, .inv, .rld,
  .inF, .out0, .sbcHL .sp, .stRP .sp,
  .inv, .inv, .inv, .inv,
  .inC .a, .outC .a, .adcHL .sp, .ldRP .sp,
  .inv, .inv, .inv, .inv,
  .inv, .inv, .inv, .inv,
  .inv, .inv, .inv, .inv,
  .inv, .inv, .inv, .inv,
  .inv, .inv, .inv, .inv,
  .inv, .inv, .inv, .inv,
  .inv, .inv, .inv, .inv,
  .inv, .inv, .inv, .inv,
  .inv, .inv, .inv, .inv,
  .ldi, .cpi, .ini, .outi,
  .inv, .inv, .inv, .inv,
  .ldd, .cpd, .ind, .outd,
  .inv, .inv, .inv, .inv,
  .ldir, .cpir, .inir, .otir,
  .inv, .inv, .inv, .inv,
  .lddr, .cpdr, .indr, .otdr,
  .inv, .inv, .inv, .inv,
  .inv, .inv, .inv, .inv,
  .inv, .inv, .inv, .inv,
  .inv, .inv, .inv, .inv,
  .inv, .inv, .inv, .inv,
  .inv, .inv, .inv, .inv,
  .inv, .inv, .inv, .inv,
  .inv, .inv, .inv, .inv,
  .inv, .inv, .inv, .inv,
  .inv, .inv, .inv, .inv,
  .inv, .inv, .inv, .inv,
  .inv, .inv, .inv, .inv,
  .inv, .inv, .inv, .inv,
  .inv, .inv, .inv, .inv,
  .inv, .inv, .inv, .inv,
  .inv, .inv, .inv, .inv,
  .inv, .inv, .inv, .inv]

/-- z80_ttab_00, glob.cc 1316-1473; T(a,b) is a*256+b -/
def ttab00 : Array Nat := #[
  4, 10, 7, 6, 4, 4, 7, 4, 4, 11, 7, 6, 4, 4, 7, 4,
  3336, 10, 7, 6, 4, 4, 7, 4, 12, 11, 7, 6, 4, 4, 7, 4,
  3079, 10, 16, 6, 4, 4, 7, 4, 3079, 11, 16, 6, 4, 4, 7, 4,
  3079, 10, 13, 6, 7, 7, 10, 4, 3079, 11, 13, 6, 4, 4, 7, 4,
  4, 4, 4, 4, 4, 4, 7, 4, 4, 4, 4, 4, 4, 4, 7, 4,
  4, 4, 4, 4, 4, 4, 7, 4, 4, 4, 4, 4, 4, 4, 7, 4,
  4, 4, 4, 4, 4, 4, 7, 4, 4, 4, 4, 4, 4, 4, 7, 4,
  7, 7, 7, 7, 7, 7, 4, 7, 4, 4, 4, 4, 4, 4, 7, 4,
  4, 4, 4, 4, 4, 4, 7, 4, 4, 4, 4, 4, 4, 4, 7, 4,
  4, 4, 4, 4, 4, 4, 7, 4, 4, 4, 4, 4, 4, 4, 7, 4,
  4, 4, 4, 4, 4, 4, 7, 4, 4, 4, 4, 4, 4, 4, 7, 4,
  4, 4, 4, 4, 4, 4, 7, 4, 4, 4, 4, 4, 4, 4, 7, 4,
  2821, 10, 10, 10, 4362, 11, 7, 11, 2821, 10, 10, 0, 4362, 17, 7, 11,
  2821, 10, 10, 11, 4362, 11, 7, 11, 2821, 4, 10, 11, 4362, 0, 7, 11,
  2821, 10, 10, 19, 4362, 11, 7, 11, 2821, 4, 10, 4, 4362, 0, 7, 11,
  2821, 10, 10, 4, 4362, 11, 7, 11, 2821, 6, 10, 4, 4362, 0, 7, 11]

/-- z80_ttab_ed, glob.cc 1316-1473; T(a,b) is a*256+b -/
def ttabEd : Array Nat := #[
  0, 0, 0, 0, 0, 0, 0, 0, 0, 0, 0, 0, 0, 0, 0, 0,
  0, 0, 0, 0, 0, 0, 0, 0, 0, 0, 0, 0, 0, 0, 0, 0,
  0, 0, 0, 0, 0, 0, 0, 0, 0, 0, 0, 0, 0, 0, 0, 0,
  0, 0, 0, 0, 0, 0, 0, 0, 0, 0, 0, 0, 0, 0, 0, 0,
  12, 12, 15, 20, 8, 14, 8, 9, 12, 12, 15, 20, 0, 14, 0, 9,
  12, 12, 15, 20, 0, 0, 8, 9, 12, 1, 15, 20, 0, 0, 8, 9,
  12, 12, 15, 20, 0, 0, 0, 18, 12, 12, 15, 20, 0, 0, 0, 18,
  12, 12, 15, 20, 0, 0, 0, 0, 12, 12, 15, 20, 0, 0, 0, 0,
  0, 0, 0, 0, 0, 0, 0, 0, 0, 0, 0, 0, 0, 0, 0, 0,
  0, 0, 0, 0, 0, 0, 0, 0, 0, 0, 0, 0, 0, 0, 0, 0,
  16, 16, 16, 16, 0, 0, 0, 0, 16, 16, 16, 16, 0, 0, 0, 0,
  5392, 5392, 5392, 5392, 0, 0, 0, 0, 5392, 5392, 5392, 5392, 0, 0, 0, 0,
  0, 0, 0, 0, 0, 0, 0, 0, 0, 0, 0, 0, 0, 0, 0, 0,
  0, 0, 0, 0, 0, 0, 0, 0, 0, 0, 0, 0, 0, 0, 0, 0,
  0, 0, 0, 0, 0, 0, 0, 0, 0, 0, 0, 0, 0, 0, 0, 0,
  0, 0, 0, 0, 0, 0, 0, 0, 0, 0, 0, 0, 0, 0, 0, 0]

/-- z80_ttab_cb, glob.cc 1316-1473; T(a,b) is a*256+b -/
def ttabCb : Array Nat := #[
  8, 8, 8, 8, 8, 8, 15, 8, 8, 8, 8, 8, 8, 8, 15, 8,
  8, 8, 8, 8, 8, 8, 15, 8, 8, 8, 8, 8, 8, 8, 15, 8,
  8, 8, 8, 8, 8, 8, 15, 8, 8, 8, 8, 8, 8, 8, 15, 8,
  8, 8, 8, 8, 8, 8, 15, 8, 8, 8, 8, 8, 8, 8, 15, 8,
  8, 8, 8, 8, 8, 8, 15, 8, 8, 8, 8, 8, 8, 8, 15, 8,
  8, 8, 8, 8, 8, 8, 15, 8, 8, 8, 8, 8, 8, 8, 15, 8,
  8, 8, 8, 8, 8, 8, 15, 8, 8, 8, 8, 8, 8, 8, 15, 8,
  8, 8, 8, 8, 8, 8, 15, 8, 8, 8, 8, 8, 8, 8, 15, 8,
  8, 8, 8, 8, 8, 8, 15, 8, 8, 8, 8, 8, 8, 8, 15, 8,
  8, 8, 8, 8, 8, 8, 15, 8, 8, 8, 8, 8, 8, 8, 15, 8,
  8, 8, 8, 8, 8, 8, 15, 8, 8, 8, 8, 8, 8, 8, 15, 8,
  8, 8, 8, 8, 8, 8, 15, 8, 8, 8, 8, 8, 8, 8, 15, 8,
  8, 8, 8, 8, 8, 8, 15, 8, 8, 8, 8, 8, 8, 8, 15, 8,
  8, 8, 8, 8, 8, 8, 15, 8, 8, 8, 8, 8, 8, 8, 15, 8,
  8, 8, 8, 8, 8, 8, 15, 8, 8, 8, 8, 8, 8, 8, 15, 8,
  8, 8, 8, 8, 8, 8, 15, 8, 8, 8, 8, 8, 8, 8, 15, 8]

/-- z80_ttab_dd, glob.cc 1316-1473; T(a,b) is a*256+b -/
def ttabDd : Array Nat := #[
  0, 0, 0, 0, 0, 0, 0, 0, 0, 15, 0, 0, 0, 0, 0, 0,
  0, 0, 0, 0, 0, 0, 0, 0, 0, 15, 0, 0, 0, 0, 0, 0,
  0, 14, 20, 10, 8, 8, 11, 0, 0, 15, 20, 10, 8, 8, 11, 0,
  0, 0, 0, 0, 23, 23, 19, 0, 0, 15, 0, 0, 0, 0, 0, 0,
  0, 0, 0, 0, 8, 8, 19, 0, 0, 0, 0, 0, 8, 8, 19, 0,
  0, 0, 0, 0, 8, 8, 19, 0, 0, 0, 0, 0, 8, 8, 19, 0,
  8, 8, 8, 8, 8, 8, 19, 8, 8, 8, 8, 8, 8, 8, 19, 8,
  19, 19, 19, 19, 19, 19, 0, 19, 0, 0, 0, 0, 8, 8, 19, 0,
  0, 0, 0, 0, 8, 8, 19, 0, 0, 0, 0, 0, 8, 8, 19, 0,
  0, 0, 0, 0, 8, 8, 19, 0, 0, 0, 0, 0, 8, 8, 19, 0,
  0, 0, 0, 0, 8, 8, 19, 0, 0, 0, 0, 0, 8, 8, 19, 0,
  0, 0, 0, 0, 8, 8, 19, 0, 0, 0, 0, 0, 8, 8, 19, 0,
  0, 0, 0, 0, 0, 0, 0, 0, 0, 0, 0, 0, 0, 0, 0, 0,
  0, 0, 0, 0, 0, 0, 0, 0, 0, 0, 0, 0, 0, 0, 0, 0,
  0, 14, 0, 23, 0, 15, 0, 0, 0, 8, 0, 0, 0, 0, 0, 0,
  0, 0, 0, 0, 0, 0, 0, 0, 0, 10, 0, 0, 0, 0, 0, 0]

/-- z80_ttab_fd, glob.cc 1316-1473; T(a,b) is a*256+b -/
def ttabFd : Array Nat := #[
  0, 0, 0, 0, 0, 0, 0, 0, 0, 15, 0, 0, 0, 0, 0, 0,
  0, 0, 0, 0, 0, 0, 0, 0, 0, 15, 0, 0, 0, 0, 0, 0,
  0, 14, 20, 10, 8, 8, 11, 0, 0, 15, 20, 10, 8, 8, 11, 0,
  0, 0, 0, 0, 23, 23, 19, 0, 0, 15, 0, 0, 0, 0, 0, 0,
  0, 0, 0, 0, 8, 8, 19, 0, 0, 0, 0, 0, 8, 8, 19, 0,
  0, 0, 0, 0, 8, 8, 19, 0, 0, 0, 0, 0, 8, 8, 19, 0,
  8, 8, 8, 8, 8, 8, 19, 8, 8, 8, 8, 8, 8, 8, 19, 8,
  19, 19, 19, 19, 19, 19, 0, 19, 0, 0, 0, 0, 8, 8, 19, 0,
  0, 0, 0, 0, 8, 8, 19, 0, 0, 0, 0, 0, 8, 8, 19, 0,
  0, 0, 0, 0, 8, 8, 19, 0, 0, 0, 0, 0, 8, 8, 19, 0,
  0, 0, 0, 0, 8, 8, 19, 0, 0, 0, 0, 0, 8, 8, 19, 0,
  0, 0, 0, 0, 8, 8, 19, 0, 0, 0, 0, 0, 8, 8, 19, 0,
  0, 0, 0, 0, 0, 0, 0, 0, 0, 0, 0, 0, 0, 0, 0, 0,
  0, 0, 0, 0, 0, 0, 0, 0, 0, 0, 0, 0, 0, 0, 0, 0,
  0, 14, 0, 23, 0, 15, 0, 0, 0, 8, 0, 0, 0, 0, 0, 0,
  0, 0, 0, 0, 0, 0, 0, 0, 0, 10, 0, 0, 0, 0, 0, 0]

/-- z80_ttab_ddcb, glob.cc 1316-1473; T(a,b) is a*256+b -/
def ttabDdcb : Array Nat := #[
  23, 23, 23, 23, 23, 23, 23, 23, 23, 23, 23, 23, 23, 23, 23, 23,
  23, 23, 23, 23, 23, 23, 23, 23, 23, 23, 23, 23, 23, 23, 23, 23,
  23, 23, 23, 23, 23, 23, 23, 23, 23, 23, 23, 23, 23, 23, 23, 23,
  23, 23, 23, 23, 23, 23, 23, 23, 23, 23, 23, 23, 23, 23, 23, 23,
  20, 20, 20, 20, 20, 20, 20, 20, 20, 20, 20, 20, 20, 20, 20, 20,
  20, 20, 20, 20, 20, 20, 20, 20, 20, 20, 20, 20, 20, 20, 20, 20,
  20, 20, 20, 20, 20, 20, 20, 20, 20, 20, 20, 20, 20, 20, 20, 20,
  20, 20, 20, 20, 20, 20, 20, 20, 20, 20, 20, 20, 20, 20, 20, 20,
  23, 23, 23, 23, 23, 23, 23, 23, 23, 23, 23, 23, 23, 23, 23, 23,
  23, 23, 23, 23, 23, 23, 23, 23, 23, 23, 23, 23, 23, 23, 23, 23,
  23, 23, 23, 23, 23, 23, 23, 23, 23, 23, 23, 23, 23, 23, 23, 23,
  23, 23, 23, 23, 23, 23, 23, 23, 23, 23, 23, 23, 23, 23, 23, 23,
  23, 23, 23, 23, 23, 23, 23, 23, 23, 23, 23, 23, 23, 23, 23, 23,
  23, 23, 23, 23, 23, 23, 23, 23, 23, 23, 23, 23, 23, 23, 23, 23,
  23, 23, 23, 23, 23, 23, 23, 23, 23, 23, 23, 23, 23, 23, 23, 23,
  23, 23, 23, 23, 23, 23, 23, 23, 23, 23, 23, 23, 23, 23, 23, 23]

/-- z80_ttab_fdcb, glob.cc 1316-1473; T(a,b) is a*256+b -/
def ttabFdcb : Array Nat := #[
  23, 23, 23, 23, 23, 23, 23, 23, 23, 23, 23, 23, 23, 23, 23, 23,
  23, 23, 23, 23, 23, 23, 23, 23, 23, 23, 23, 23, 23, 23, 23, 23,
  23, 23, 23, 23, 23, 23, 23, 23, 23, 23, 23, 23, 23, 23, 23, 23,
  23, 23, 23, 23, 23, 23, 23, 23, 23, 23, 23, 23, 23, 23, 23, 23,
  20, 20, 20, 20, 20, 20, 20, 20, 20, 20, 20, 20, 20, 20, 20, 20,
  20, 20, 20, 20, 20, 20, 20, 20, 20, 20, 20, 20, 20, 20, 20, 20,
  20, 20, 20, 20, 20, 20, 20, 20, 20, 20, 20, 20, 20, 20, 20, 20,
  20, 20, 20, 20, 20, 20, 20, 20, 20, 20, 20, 20, 20, 20, 20, 20,
  23, 23, 23, 23, 23, 23, 23, 23, 23, 23, 23, 23, 23, 23, 23, 23,
  23, 23, 23, 23, 23, 23, 23, 23, 23, 23, 23, 23, 23, 23, 23, 23,
  23, 23, 23, 23, 23, 23, 23, 23, 23, 23, 23, 23, 23, 23, 23, 23,
  23, 23, 23, 23, 23, 23, 23, 23, 23, 23, 23, 23, 23, 23, 23, 23,
  23, 23, 23, 23, 23, 23, 23, 23, 23, 23, 23, 23, 23, 23, 23, 23,
  23, 23, 23, 23, 23, 23, 23, 23, 23, 23, 23, 23, 23, 23, 23, 23,
  23, 23, 23, 23, 23, 23, 23, 23, 23, 23, 23, 23, 23, 23, 23, 23,
  23, 23, 23, 23, 23, 23, 23, 23, 23, 23, 23, 23, 23, 23, 23, 23]

end Ucsim.Z80
