/-
The tables of the disassembler, /repo/src/sims/m68hc08.src/glob.cc, generated from it.
-/
namespace Ucsim.H08

/-- struct dis_entry; the mask is 0xff in all entries. -/
structure DisEntry where
  code : BitVec 8
  branch : Char
  length : Nat
  mnemonic : String
  isCall : Bool

/-- disass_hc08, glob.cc 46-333 -/
def disTab : List DisEntry := [
  ⟨0x00#8, 'R', 3, "brset #0,%d,%p", false⟩,
  ⟨0x01#8, 'R', 3, "brclr #0,%d,%p", false⟩,
  ⟨0x02#8, 'R', 3, "brset #1,%d,%p", false⟩,
  ⟨0x03#8, 'R', 3, "brclr #1,%d,%p", false⟩,
  ⟨0x04#8, 'R', 3, "brset #2,%d,%p", false⟩,
  ⟨0x05#8, 'R', 3, "brclr #2,%d,%p", false⟩,
  ⟨0x06#8, 'R', 3, "brset #3,%d,%p", false⟩,
  ⟨0x07#8, 'R', 3, "brclr #3,%d,%p", false⟩,
  ⟨0x08#8, 'R', 3, "brset #4,%d,%p", false⟩,
  ⟨0x09#8, 'R', 3, "brclr #4,%d,%p", false⟩,
  ⟨0x0a#8, 'R', 3, "brset #5,%d,%p", false⟩,
  ⟨0x0b#8, 'R', 3, "brclr #5,%d,%p", false⟩,
  ⟨0x0c#8, 'R', 3, "brset #6,%d,%p", false⟩,
  ⟨0x0d#8, 'R', 3, "brclr #6,%d,%p", false⟩,
  ⟨0x0e#8, 'R', 3, "brset #7,%d,%p", false⟩,
  ⟨0x0f#8, 'R', 3, "brclr #7,%d,%p", false⟩,
  ⟨0x10#8, ' ', 2, "bset #0,%d", false⟩,
  ⟨0x11#8, ' ', 2, "bclr #0,%d", false⟩,
  ⟨0x12#8, ' ', 2, "bset #1,%d", false⟩,
  ⟨0x13#8, ' ', 2, "bclr #1,%d", false⟩,
  ⟨0x14#8, ' ', 2, "bset #2,%d", false⟩,
  ⟨0x15#8, ' ', 2, "bclr #2,%d", false⟩,
  ⟨0x16#8, ' ', 2, "bset #3,%d", false⟩,
  ⟨0x17#8, ' ', 2, "bclr #3,%d", false⟩,
  ⟨0x18#8, ' ', 2, "bset #4,%d", false⟩,
  ⟨0x19#8, ' ', 2, "bclr #4,%d", false⟩,
  ⟨0x1a#8, ' ', 2, "bset #5,%d", false⟩,
  ⟨0x1b#8, ' ', 2, "bclr #5,%d", false⟩,
  ⟨0x1c#8, ' ', 2, "bset #6,%d", false⟩,
  ⟨0x1d#8, ' ', 2, "bclr #6,%d", false⟩,
  ⟨0x1e#8, ' ', 2, "bset #7,%d", false⟩,
  ⟨0x1f#8, ' ', 2, "bclr #7,%d", false⟩,
  ⟨0x20#8, 'R', 2, "bra %p", false⟩,
  ⟨0x21#8, 'R', 2, "brn %p", false⟩,
  ⟨0x22#8, 'R', 2, "bhi %p", false⟩,
  ⟨0x23#8, 'R', 2, "bls %p", false⟩,
  ⟨0x24#8, 'R', 2, "bcc %p", false⟩,
  ⟨0x25#8, 'R', 2, "bcs %p", false⟩,
  ⟨0x26#8, 'R', 2, "bne %p", false⟩,
  ⟨0x27#8, 'R', 2, "beq %p", false⟩,
  ⟨0x28#8, 'R', 2, "bhcc %p", false⟩,
  ⟨0x29#8, 'R', 2, "bhcs %p", false⟩,
  ⟨0x2a#8, 'R', 2, "bpl %p", false⟩,
  ⟨0x2b#8, 'R', 2, "bmi %p", false⟩,
  ⟨0x2c#8, 'R', 2, "bmc %p", false⟩,
  ⟨0x2d#8, 'R', 2, "bms %p", false⟩,
  ⟨0x2e#8, 'R', 2, "bil %p", false⟩,
  ⟨0x2f#8, 'R', 2, "bih %p", false⟩,
  ⟨0x30#8, ' ', 2, "neg %d", false⟩,
  ⟨0x31#8, 'R', 3, "cbeq %d,%p", false⟩,
  ⟨0x32#8, ' ', 3, "ldhx %x", false⟩,
  ⟨0x33#8, ' ', 2, "com %d", false⟩,
  ⟨0x34#8, ' ', 2, "lsr %d", false⟩,
  ⟨0x35#8, ' ', 2, "sthx %d", false⟩,
  ⟨0x36#8, ' ', 2, "ror %d", false⟩,
  ⟨0x37#8, ' ', 2, "asr %d", false⟩,
  ⟨0x38#8, ' ', 2, "lsl %d", false⟩,
  ⟨0x39#8, ' ', 2, "rol %d", false⟩,
  ⟨0x3a#8, ' ', 2, "dec %d", false⟩,
  ⟨0x3b#8, 'R', 3, "dbnz %d,%d", false⟩,
  ⟨0x3c#8, ' ', 2, "inc %d", false⟩,
  ⟨0x3d#8, ' ', 2, "tst %d", false⟩,
  ⟨0x3e#8, ' ', 3, "cphx %x", false⟩,
  ⟨0x3f#8, ' ', 2, "clr %d", false⟩,
  ⟨0x40#8, ' ', 1, "nega", false⟩,
  ⟨0x41#8, 'R', 3, "cbeqa %b,%p", false⟩,
  ⟨0x42#8, ' ', 1, "mul", false⟩,
  ⟨0x43#8, ' ', 1, "coma", false⟩,
  ⟨0x44#8, ' ', 1, "lsra", false⟩,
  ⟨0x45#8, ' ', 3, "ldhx %w", false⟩,
  ⟨0x46#8, ' ', 1, "rora", false⟩,
  ⟨0x47#8, ' ', 1, "asra", false⟩,
  ⟨0x48#8, ' ', 1, "lsla", false⟩,
  ⟨0x49#8, ' ', 1, "rola", false⟩,
  ⟨0x4a#8, ' ', 1, "deca", false⟩,
  ⟨0x4b#8, 'R', 2, "dbnza %p", false⟩,
  ⟨0x4c#8, ' ', 1, "inca", false⟩,
  ⟨0x4d#8, ' ', 1, "tsta", false⟩,
  ⟨0x4e#8, ' ', 3, "mov %d,%d", false⟩,
  ⟨0x4f#8, ' ', 1, "clra", false⟩,
  ⟨0x50#8, ' ', 1, "negx", false⟩,
  ⟨0x51#8, 'R', 3, "cbeqx %b,%p", false⟩,
  ⟨0x52#8, ' ', 1, "div", false⟩,
  ⟨0x53#8, ' ', 1, "comx", false⟩,
  ⟨0x54#8, ' ', 1, "lsrx", false⟩,
  ⟨0x55#8, ' ', 2, "ldhx %d", false⟩,
  ⟨0x56#8, ' ', 1, "rorx", false⟩,
  ⟨0x57#8, ' ', 1, "asrx", false⟩,
  ⟨0x58#8, ' ', 1, "lslx", false⟩,
  ⟨0x59#8, ' ', 1, "rolx", false⟩,
  ⟨0x5a#8, ' ', 1, "decx", false⟩,
  ⟨0x5b#8, 'R', 2, "dbnzx %p", false⟩,
  ⟨0x5c#8, ' ', 1, "incx", false⟩,
  ⟨0x5d#8, ' ', 1, "tstx", false⟩,
  ⟨0x5e#8, ' ', 3, "mov %d,x+", false⟩,
  ⟨0x5f#8, ' ', 1, "clrx", false⟩,
  ⟨0x60#8, ' ', 2, "neg %1,x", false⟩,
  ⟨0x61#8, 'R', 3, "cbeq %1,x+,%p", false⟩,
  ⟨0x62#8, ' ', 1, "nsa", false⟩,
  ⟨0x63#8, ' ', 2, "com %1,x", false⟩,
  ⟨0x64#8, ' ', 2, "lsr %1,x", false⟩,
  ⟨0x65#8, ' ', 3, "cphx %w", false⟩,
  ⟨0x66#8, ' ', 2, "ror %1,x", false⟩,
  ⟨0x67#8, ' ', 2, "asr %1,x", false⟩,
  ⟨0x68#8, ' ', 2, "lsl %1,x", false⟩,
  ⟨0x69#8, ' ', 2, "rol %1,x", false⟩,
  ⟨0x6a#8, ' ', 2, "dec %1,x", false⟩,
  ⟨0x6b#8, 'R', 2, "dbnz %1,x,%p", false⟩,
  ⟨0x6c#8, ' ', 2, "inc %1,x", false⟩,
  ⟨0x6d#8, ' ', 2, "tst %1,x", false⟩,
  ⟨0x6e#8, ' ', 3, "mov %b,%d", false⟩,
  ⟨0x6f#8, ' ', 2, "clr %1,x", false⟩,
  ⟨0x70#8, ' ', 1, "neg ,x", false⟩,
  ⟨0x71#8, 'R', 2, "cbeq ,x+,%p", false⟩,
  ⟨0x72#8, ' ', 1, "daa", false⟩,
  ⟨0x73#8, ' ', 1, "com ,x", false⟩,
  ⟨0x74#8, ' ', 1, "lsr ,x", false⟩,
  ⟨0x75#8, ' ', 2, "cphx %d", false⟩,
  ⟨0x76#8, ' ', 1, "ror ,x", false⟩,
  ⟨0x77#8, ' ', 1, "asr ,x", false⟩,
  ⟨0x78#8, ' ', 1, "lsl ,x", false⟩,
  ⟨0x79#8, ' ', 1, "rol ,x", false⟩,
  ⟨0x7a#8, ' ', 1, "dec ,x", false⟩,
  ⟨0x7b#8, 'R', 2, "dbnz ,x,%p", false⟩,
  ⟨0x7c#8, ' ', 1, "inc ,x", false⟩,
  ⟨0x7d#8, ' ', 1, "tst ,x", false⟩,
  ⟨0x7e#8, ' ', 2, "mov ,x+,%d", false⟩,
  ⟨0x7f#8, ' ', 1, "clr ,x", false⟩,
  ⟨0x80#8, ' ', 1, "rti", false⟩,
  ⟨0x81#8, ' ', 1, "rts", false⟩,
  ⟨0x82#8, ' ', 1, "bgnd", false⟩,
  ⟨0x83#8, ' ', 1, "swi", true⟩,
  ⟨0x84#8, ' ', 1, "tap", false⟩,
  ⟨0x85#8, ' ', 1, "tpa", false⟩,
  ⟨0x86#8, ' ', 1, "pula", false⟩,
  ⟨0x87#8, ' ', 1, "psha", false⟩,
  ⟨0x88#8, ' ', 1, "pulx", false⟩,
  ⟨0x89#8, ' ', 1, "pshx", false⟩,
  ⟨0x8a#8, ' ', 1, "pulh", false⟩,
  ⟨0x8b#8, ' ', 1, "pshh", false⟩,
  ⟨0x8c#8, ' ', 1, "clrh", false⟩,
  ⟨0x8e#8, ' ', 1, "stop", false⟩,
  ⟨0x8f#8, ' ', 1, "wait", false⟩,
  ⟨0x90#8, 'R', 2, "bge %p", false⟩,
  ⟨0x91#8, 'R', 2, "blt %p", false⟩,
  ⟨0x92#8, 'R', 2, "bgt %p", false⟩,
  ⟨0x93#8, 'R', 2, "ble %p", false⟩,
  ⟨0x94#8, ' ', 1, "txs", false⟩,
  ⟨0x95#8, ' ', 1, "tsx", false⟩,
  ⟨0x96#8, ' ', 3, "sthx %x", false⟩,
  ⟨0x97#8, ' ', 1, "tax", false⟩,
  ⟨0x98#8, ' ', 1, "clc", false⟩,
  ⟨0x99#8, ' ', 1, "sec", false⟩,
  ⟨0x9a#8, ' ', 1, "cli", false⟩,
  ⟨0x9b#8, ' ', 1, "sei", false⟩,
  ⟨0x9c#8, ' ', 1, "rsp", false⟩,
  ⟨0x9d#8, ' ', 1, "nop", false⟩,
  ⟨0x9f#8, ' ', 1, "txa", false⟩,
  ⟨0xa0#8, ' ', 2, "sub %b", false⟩,
  ⟨0xa1#8, ' ', 2, "cmp %b", false⟩,
  ⟨0xa2#8, ' ', 2, "sbc %b", false⟩,
  ⟨0xa3#8, ' ', 2, "cpx %b", false⟩,
  ⟨0xa4#8, ' ', 2, "and %b", false⟩,
  ⟨0xa5#8, ' ', 2, "bit %b", false⟩,
  ⟨0xa6#8, ' ', 2, "lda %b", false⟩,
  ⟨0xa7#8, ' ', 2, "ais %s", false⟩,
  ⟨0xa8#8, ' ', 2, "eor %b", false⟩,
  ⟨0xa9#8, ' ', 2, "adc %b", false⟩,
  ⟨0xaa#8, ' ', 2, "ora %b", false⟩,
  ⟨0xab#8, ' ', 2, "add %b", false⟩,
  ⟨0xad#8, 'R', 2, "bsr %d", true⟩,
  ⟨0xae#8, ' ', 2, "ldx %b", false⟩,
  ⟨0xaf#8, ' ', 2, "aix %s", false⟩,
  ⟨0xb0#8, ' ', 2, "sub %d", false⟩,
  ⟨0xb1#8, ' ', 2, "cmp %d", false⟩,
  ⟨0xb2#8, ' ', 2, "sbc %d", false⟩,
  ⟨0xb3#8, ' ', 2, "cpx %d", false⟩,
  ⟨0xb4#8, ' ', 2, "and %d", false⟩,
  ⟨0xb5#8, ' ', 2, "bit %d", false⟩,
  ⟨0xb6#8, ' ', 2, "lda %d", false⟩,
  ⟨0xb7#8, ' ', 2, "sta %d", false⟩,
  ⟨0xb8#8, ' ', 2, "eor %d", false⟩,
  ⟨0xb9#8, ' ', 2, "adc %d", false⟩,
  ⟨0xba#8, ' ', 2, "ora %d", false⟩,
  ⟨0xbb#8, ' ', 2, "add %d", false⟩,
  ⟨0xbc#8, 'A', 2, "jmp %d", false⟩,
  ⟨0xbd#8, 'A', 2, "jsr %d", true⟩,
  ⟨0xbe#8, ' ', 2, "ldx %d", false⟩,
  ⟨0xbf#8, ' ', 2, "stx %d", false⟩,
  ⟨0xc0#8, ' ', 3, "sub %x", false⟩,
  ⟨0xc1#8, ' ', 3, "cmp %x", false⟩,
  ⟨0xc2#8, ' ', 3, "sbc %x", false⟩,
  ⟨0xc3#8, ' ', 3, "cpx %x", false⟩,
  ⟨0xc4#8, ' ', 3, "and %x", false⟩,
  ⟨0xc5#8, ' ', 3, "bit %x", false⟩,
  ⟨0xc6#8, ' ', 3, "lda %x", false⟩,
  ⟨0xc7#8, ' ', 3, "sta %x", false⟩,
  ⟨0xc8#8, ' ', 3, "eor %x", false⟩,
  ⟨0xc9#8, ' ', 3, "adc %x", false⟩,
  ⟨0xca#8, ' ', 3, "ora %x", false⟩,
  ⟨0xcb#8, ' ', 3, "add %x", false⟩,
  ⟨0xcc#8, 'A', 3, "jmp %x", false⟩,
  ⟨0xcd#8, 'A', 3, "jsr %x", true⟩,
  ⟨0xce#8, ' ', 3, "ldx %x", false⟩,
  ⟨0xcf#8, ' ', 3, "stx %x", false⟩,
  ⟨0xd0#8, ' ', 3, "sub %2,x", false⟩,
  ⟨0xd1#8, ' ', 3, "cmp %2,x", false⟩,
  ⟨0xd2#8, ' ', 3, "sbc %2,x", false⟩,
  ⟨0xd3#8, ' ', 3, "cpx %2,x", false⟩,
  ⟨0xd4#8, ' ', 3, "and %2,x", false⟩,
  ⟨0xd5#8, ' ', 3, "bit %2,x", false⟩,
  ⟨0xd6#8, ' ', 3, "lda %2,x", false⟩,
  ⟨0xd7#8, ' ', 3, "sta %2,x", false⟩,
  ⟨0xd8#8, ' ', 3, "eor %2,x", false⟩,
  ⟨0xd9#8, ' ', 3, "adc %2,x", false⟩,
  ⟨0xda#8, ' ', 3, "ora %2,x", false⟩,
  ⟨0xdb#8, ' ', 3, "add %2,x", false⟩,
  ⟨0xdc#8, ' ', 3, "jmp %2,x", false⟩,
  ⟨0xdd#8, ' ', 3, "jsr %2,x", true⟩,
  ⟨0xde#8, ' ', 3, "ldx %2,x", false⟩,
  ⟨0xdf#8, ' ', 3, "stx %2,x", false⟩,
  ⟨0xe0#8, ' ', 2, "sub %1,x", false⟩,
  ⟨0xe1#8, ' ', 2, "cmp %1,x", false⟩,
  ⟨0xe2#8, ' ', 2, "sbc %1,x", false⟩,
  ⟨0xe3#8, ' ', 2, "cpx %1,x", false⟩,
  ⟨0xe4#8, ' ', 2, "and %1,x", false⟩,
  ⟨0xe5#8, ' ', 2, "bit %1,x", false⟩,
  ⟨0xe6#8, ' ', 2, "lda %1,x", false⟩,
  ⟨0xe7#8, ' ', 2, "sta %1,x", false⟩,
  ⟨0xe8#8, ' ', 2, "eor %1,x", false⟩,
  ⟨0xe9#8, ' ', 2, "adc %1,x", false⟩,
  ⟨0xea#8, ' ', 2, "ora %1,x", false⟩,
  ⟨0xeb#8, ' ', 2, "add %1,x", false⟩,
  ⟨0xec#8, ' ', 2, "jmp %1,x", false⟩,
  ⟨0xed#8, ' ', 2, "jsr %1,x", true⟩,
  ⟨0xee#8, ' ', 2, "ldx %1,x", false⟩,
  ⟨0xef#8, ' ', 2, "stx %1,x", false⟩,
  ⟨0xf0#8, ' ', 1, "sub ,x", false⟩,
  ⟨0xf1#8, ' ', 1, "cmp ,x", false⟩,
  ⟨0xf2#8, ' ', 1, "sbc ,x", false⟩,
  ⟨0xf3#8, ' ', 1, "cpx ,x", false⟩,
  ⟨0xf4#8, ' ', 1, "and ,x", false⟩,
  ⟨0xf5#8, ' ', 1, "bit ,x", false⟩,
  ⟨0xf6#8, ' ', 1, "lda ,x", false⟩,
  ⟨0xf7#8, ' ', 1, "sta ,x", false⟩,
  ⟨0xf8#8, ' ', 1, "eor ,x", false⟩,
  ⟨0xf9#8, ' ', 1, "adc ,x", false⟩,
  ⟨0xfa#8, ' ', 1, "ora ,x", false⟩,
  ⟨0xfb#8, ' ', 1, "add ,x", false⟩,
  ⟨0xfc#8, ' ', 1, "jmp ,x", false⟩,
  ⟨0xfd#8, ' ', 1, "jsr ,x", true⟩,
  ⟨0xfe#8, ' ', 1, "ldx ,x", false⟩,
  ⟨0xff#8, ' ', 1, "stx ,x", false⟩]

/-- disass_hc08_9e, glob.cc 336-392 -/
def dis9e : List DisEntry := [
  ⟨0x60#8, ' ', 2, "neg %1,sp", false⟩,
  ⟨0x61#8, 'R', 3, "cbeq %1,sp,%p", false⟩,
  ⟨0x63#8, ' ', 2, "com %1,sp", false⟩,
  ⟨0x64#8, ' ', 2, "lsr %1,sp", false⟩,
  ⟨0x66#8, ' ', 2, "ror %1,sp", false⟩,
  ⟨0x67#8, ' ', 2, "asr %1,sp", false⟩,
  ⟨0x68#8, ' ', 2, "lsl %1,sp", false⟩,
  ⟨0x69#8, ' ', 2, "rol %1,sp", false⟩,
  ⟨0x6a#8, ' ', 2, "dec %1,sp", false⟩,
  ⟨0x6b#8, 'R', 2, "dbnz %1,sp,%p", false⟩,
  ⟨0x6c#8, ' ', 2, "inc %1,sp", false⟩,
  ⟨0x6d#8, ' ', 2, "tst %1,sp", false⟩,
  ⟨0x6f#8, ' ', 2, "clr %1,sp", false⟩,
  ⟨0xae#8, ' ', 1, "ldhx ,x", false⟩,
  ⟨0xbe#8, ' ', 3, "ldhx %2,x", false⟩,
  ⟨0xce#8, ' ', 2, "ldhx %1,x", false⟩,
  ⟨0xd0#8, ' ', 3, "sub %2,sp", false⟩,
  ⟨0xd1#8, ' ', 3, "cmp %2,sp", false⟩,
  ⟨0xd2#8, ' ', 3, "sbc %2,sp", false⟩,
  ⟨0xd3#8, ' ', 3, "cpx %2,sp", false⟩,
  ⟨0xd4#8, ' ', 3, "and %2,sp", false⟩,
  ⟨0xd5#8, ' ', 3, "bit %2,sp", false⟩,
  ⟨0xd6#8, ' ', 3, "lda %2,sp", false⟩,
  ⟨0xd7#8, ' ', 3, "sta %2,sp", false⟩,
  ⟨0xd8#8, ' ', 3, "eor %2,sp", false⟩,
  ⟨0xd9#8, ' ', 3, "adc %2,sp", false⟩,
  ⟨0xda#8, ' ', 3, "ora %2,sp", false⟩,
  ⟨0xdb#8, ' ', 3, "add %2,sp", false⟩,
  ⟨0xde#8, ' ', 3, "ldx %2,sp", false⟩,
  ⟨0xdf#8, ' ', 3, "stx %2,sp", false⟩,
  ⟨0xe0#8, ' ', 2, "sub %1,sp", false⟩,
  ⟨0xe1#8, ' ', 2, "cmp %1,sp", false⟩,
  ⟨0xe2#8, ' ', 2, "sbc %1,sp", false⟩,
  ⟨0xe3#8, ' ', 2, "cpx %1,sp", false⟩,
  ⟨0xe4#8, ' ', 2, "and %1,sp", false⟩,
  ⟨0xe5#8, ' ', 2, "bit %1,sp", false⟩,
  ⟨0xe6#8, ' ', 2, "lda %1,sp", false⟩,
  ⟨0xe7#8, ' ', 2, "sta %1,sp", false⟩,
  ⟨0xe8#8, ' ', 2, "eor %1,sp", false⟩,
  ⟨0xe9#8, ' ', 2, "adc %1,sp", false⟩,
  ⟨0xea#8, ' ', 2, "ora %1,sp", false⟩,
  ⟨0xeb#8, ' ', 2, "add %1,sp", false⟩,
  ⟨0xee#8, ' ', 2, "ldx %1,sp", false⟩,
  ⟨0xef#8, ' ', 2, "stx %1,sp", false⟩,
  ⟨0xf3#8, ' ', 2, "cphx %1,sp", false⟩,
  ⟨0xfe#8, ' ', 2, "ldhx %1,sp", false⟩,
  ⟨0xff#8, ' ', 2, "sthx %1,sp", false⟩]

end Ucsim.H08
