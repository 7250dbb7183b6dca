/-
The table of the AVR disassembler, /repo/src/sims/avr.src/glob.cc 33-152, generated from it.
-/
namespace Ucsim.Avr

/-- struct dis_entry (stypes.h); the branch character is left out. -/
structure DisEntry where
  code : Nat
  mask : Nat
  length : Nat
  mnemonic : String
  isCall : Bool

/-- disass_avr, glob.cc 33-152 -/
def disTab : List DisEntry := [
  ⟨0x0000, 0xffff, 1, "nop", false⟩,
  ⟨0x9488, 0xffff, 1, "clc", false⟩,
  ⟨0x94d8, 0xffff, 1, "clh", false⟩,
  ⟨0x94f8, 0xffff, 1, "cli", false⟩,
  ⟨0x94a8, 0xffff, 1, "cln", false⟩,
  ⟨0x94c8, 0xffff, 1, "cls", false⟩,
  ⟨0x94e8, 0xffff, 1, "clt", false⟩,
  ⟨0x94b8, 0xffff, 1, "clv", false⟩,
  ⟨0x9498, 0xffff, 1, "clz", false⟩,
  ⟨0x9408, 0xffff, 1, "sec", false⟩,
  ⟨0x9458, 0xffff, 1, "seh", false⟩,
  ⟨0x9478, 0xffff, 1, "sei", false⟩,
  ⟨0x9428, 0xffff, 1, "sen", false⟩,
  ⟨0x9448, 0xffff, 1, "ses", false⟩,
  ⟨0x9468, 0xffff, 1, "set", false⟩,
  ⟨0x9438, 0xffff, 1, "sev", false⟩,
  ⟨0x9418, 0xffff, 1, "sez", false⟩,
  ⟨0x1c00, 0xfc00, 1, "adc %d,%r", false⟩,
  ⟨0x0c00, 0xfc00, 1, "add %d,%r", false⟩,
  ⟨0x9600, 0xff00, 1, "adiw %2,%6", false⟩,
  ⟨0x2000, 0xfc00, 1, "and %d,%r", false⟩,
  ⟨0x7000, 0xf000, 1, "andi %D,%K", false⟩,
  ⟨0x9405, 0xfe0f, 1, "asr %d", false⟩,
  ⟨0x9488, 0xff8f, 1, "bclr %s", false⟩,
  ⟨0xf800, 0xfe08, 1, "bld %d,%b", false⟩,
  ⟨0xf400, 0xfc07, 1, "brcc %k", false⟩,
  ⟨0xf000, 0xfc07, 1, "brcs %k", false⟩,
  ⟨0xf001, 0xfc07, 1, "breq %k", false⟩,
  ⟨0xf404, 0xfc07, 1, "brge %k", false⟩,
  ⟨0xf405, 0xfc07, 1, "brhc %k", false⟩,
  ⟨0xf005, 0xfc07, 1, "brhs %k", false⟩,
  ⟨0xf407, 0xfc07, 1, "brid %k", false⟩,
  ⟨0xf007, 0xfc07, 1, "brie %k", false⟩,
  ⟨0xf000, 0xfc07, 1, "brlo %k", false⟩,
  ⟨0xf004, 0xfc07, 1, "brlt %k", false⟩,
  ⟨0xf002, 0xfc07, 1, "brmi %k", false⟩,
  ⟨0xf401, 0xfc07, 1, "brne %k", false⟩,
  ⟨0xf402, 0xfc07, 1, "brpl %k", false⟩,
  ⟨0xf400, 0xfc07, 1, "brsh %k", false⟩,
  ⟨0xf406, 0xfc07, 1, "brtc %k", false⟩,
  ⟨0xf006, 0xfc07, 1, "brts %k", false⟩,
  ⟨0xf403, 0xfc07, 1, "brvc %k", false⟩,
  ⟨0xf003, 0xfc07, 1, "brvs %k", false⟩,
  ⟨0xf400, 0xfc00, 1, "brbc %b,%k", false⟩,
  ⟨0xf000, 0xfc00, 1, "brbs %b,%k", false⟩,
  ⟨0x9408, 0xff8f, 1, "bset %s", false⟩,
  ⟨0xfa00, 0xfe00, 1, "bst %d,%b", false⟩,
  ⟨0x940e, 0xfe0e, 2, "call %A", true⟩,
  ⟨0x9800, 0xff00, 1, "cbi %P,%b", false⟩,
  ⟨0x9400, 0xfe0f, 1, "com %d", false⟩,
  ⟨0x1400, 0xfc00, 1, "cp %d,%r", false⟩,
  ⟨0x0400, 0xfc00, 1, "cpc %d,%r", false⟩,
  ⟨0x3000, 0xf000, 1, "cpi %D,%K", false⟩,
  ⟨0x1000, 0xfc00, 1, "cpse %d,%r", false⟩,
  ⟨0x940a, 0xfe0f, 1, "dec %d", false⟩,
  ⟨0x2400, 0xfc00, 1, "eor %d,%r", false⟩,
  ⟨0x9509, 0xff0f, 1, "icall", false⟩,
  ⟨0x9409, 0xff0f, 1, "ijmp", false⟩,
  ⟨0xb000, 0xf800, 1, "in %d,%p", false⟩,
  ⟨0x9403, 0xfe0f, 1, "inc %d", false⟩,
  ⟨0x940c, 0xfe0e, 2, "jmp %A", false⟩,
  ⟨0x900c, 0xfe0f, 1, "ld %d,X", false⟩,
  ⟨0x900d, 0xfe0f, 1, "ld %d,X+", false⟩,
  ⟨0x900e, 0xfe0f, 1, "ld %d,-X", false⟩,
  ⟨0x8008, 0xfe0f, 1, "ld %d,Y", false⟩,
  ⟨0x9009, 0xfe0f, 1, "ld %d,Y+", false⟩,
  ⟨0x900a, 0xfe0f, 1, "ld %d,-Y", false⟩,
  ⟨0x8008, 0xd208, 1, "ldd %d,Y+%q", false⟩,
  ⟨0x8000, 0xfe0f, 1, "ld %d,Z", false⟩,
  ⟨0x9001, 0xfe0f, 1, "ld %d,Z+", false⟩,
  ⟨0x9002, 0xfe0f, 1, "ld %d,-Z", false⟩,
  ⟨0x8000, 0xd208, 1, "ldd %d,Z+%q", false⟩,
  ⟨0xe000, 0xf000, 1, "ldi %D,%K", false⟩,
  ⟨0x9000, 0xfe0f, 2, "lds %d,%R", false⟩,
  ⟨0x95c8, 0xffff, 1, "lpm", false⟩,
  ⟨0x95d8, 0xffff, 1, "elpm", false⟩,
  ⟨0x9406, 0xfe0f, 1, "lsr %d", false⟩,
  ⟨0x2c00, 0xfc00, 1, "mov %d,%r", false⟩,
  ⟨0x9c00, 0xfc00, 1, "mul %d,%r", false⟩,
  ⟨0x9401, 0xfe0f, 1, "neg %d", false⟩,
  ⟨0x2800, 0xfc00, 1, "or %d,%r", false⟩,
  ⟨0x6000, 0xf000, 1, "ori %d,%K", false⟩,
  ⟨0xb800, 0xf800, 1, "out %p,%d", false⟩,
  ⟨0x900f, 0xfe0f, 1, "pop %d", false⟩,
  ⟨0x920f, 0xfe0f, 1, "push %d", false⟩,
  ⟨0xd000, 0xf000, 1, "rcall %a", false⟩,
  ⟨0x9508, 0xff9f, 1, "ret", false⟩,
  ⟨0x9518, 0xff9f, 1, "reti", false⟩,
  ⟨0xc000, 0xf000, 1, "rjmp %a", false⟩,
  ⟨0x9407, 0xfe0f, 1, "ror %d", false⟩,
  ⟨0x0800, 0xfc00, 1, "sbc %d,%r", false⟩,
  ⟨0x4000, 0xf000, 1, "sbci %D,%K", false⟩,
  ⟨0x9a00, 0xff00, 1, "sbi %P,%b", false⟩,
  ⟨0x9900, 0xff00, 1, "sbic %P,%b", false⟩,
  ⟨0x9b00, 0xff00, 1, "sbis %P,%b", false⟩,
  ⟨0x9700, 0xff00, 1, "sbiw %2,%6", false⟩,
  ⟨0x6000, 0xf000, 1, "sbr %D,%K", false⟩,
  ⟨0xfc00, 0xfe00, 1, "sbrc %d,%b", false⟩,
  ⟨0xfe00, 0xfe00, 1, "sbrs %d,%b", false⟩,
  ⟨0xef0f, 0xff0f, 1, "ser %D", false⟩,
  ⟨0x9588, 0xffef, 1, "sleep", false⟩,
  ⟨0x920c, 0xfe0f, 1, "st X,%d", false⟩,
  ⟨0x920d, 0xfe0f, 1, "st X+,%d", false⟩,
  ⟨0x920e, 0xfe0f, 1, "st -X,%d", false⟩,
  ⟨0x8208, 0xfe0f, 1, "st Y,%d", false⟩,
  ⟨0x9209, 0xfe0f, 1, "st Y+,%d", false⟩,
  ⟨0x920a, 0xfe0f, 1, "st -Y,%d", false⟩,
  ⟨0x8208, 0xd208, 1, "std Y+%q,%d", false⟩,
  ⟨0x8200, 0xfe0f, 1, "st Z,%d", false⟩,
  ⟨0x9201, 0xfe0f, 1, "st Z+,%d", false⟩,
  ⟨0x9202, 0xfe0f, 1, "st -Z,%d", false⟩,
  ⟨0x8200, 0xd208, 1, "std Z+%q,%d", false⟩,
  ⟨0x9200, 0xfe0f, 2, "sts %R,%d", false⟩,
  ⟨0x1800, 0xfc00, 1, "sub %d,%r", false⟩,
  ⟨0x5000, 0xf000, 1, "subi %D,%K", false⟩,
  ⟨0x9402, 0xfe0f, 1, "swap %d", false⟩,
  ⟨0x95a8, 0xffef, 1, "wdr", false⟩]

/-- The search of disass, inst_length, is_call and of the skip instructions: the first entry whose
code is that of the masked word (avr.cc 224-228, uc.cc 2626-2670, jump_inst.cc 188-193). -/
def disEntry (c : Nat) : Option DisEntry := disTab.find? (fun e => c &&& e.mask == e.code)

end Ucsim.Avr
