/-
The table of the disassembler, /repo/src/sims/i8048.src/decode.h, generated from it: the entries
for the 8048 family (an '8' in the last column).
-/
namespace Ucsim.I48

/-- struct dis_entry (gen.h 2-3); the mask is 0xff in all entries.  `ticks`: machine cycles. -/
structure DisEntry where
  code : BitVec 8
  branch : Char
  length : Nat
  mnemonic : String
  isCall : Bool
  ticks : Nat

/-- dis_tab20 (glob.cc), decode.h 3-263 -/
def disTab : List DisEntry := [
  ⟨0x00#8, ' ', 1, "nop", false, 1⟩,
  ⟨0x02#8, ' ', 1, "outl bus,a", false, 2⟩,
  ⟨0x03#8, ' ', 2, "add a,'i8'", false, 2⟩,
  ⟨0x04#8, '_', 2, "jmp 'a11'", false, 2⟩,
  ⟨0x05#8, ' ', 1, "en i", false, 1⟩,
  ⟨0x07#8, ' ', 1, "dec a", false, 1⟩,
  ⟨0x08#8, ' ', 1, "ins a,bus", false, 2⟩,
  ⟨0x09#8, ' ', 1, "in a,p1", false, 2⟩,
  ⟨0x0a#8, ' ', 1, "in a,p2", false, 2⟩,
  ⟨0x0c#8, ' ', 1, "movd a,p4", false, 2⟩,
  ⟨0x0d#8, ' ', 1, "movd a,p5", false, 2⟩,
  ⟨0x0e#8, ' ', 1, "movd a,p6", false, 2⟩,
  ⟨0x0f#8, ' ', 1, "movd a,p7", false, 2⟩,
  ⟨0x10#8, ' ', 1, "inc @r0", false, 1⟩,
  ⟨0x11#8, ' ', 1, "inc @r1", false, 1⟩,
  ⟨0x12#8, 'i', 2, "jb0 'a8'", false, 2⟩,
  ⟨0x13#8, ' ', 2, "addc a,'i8'", false, 2⟩,
  ⟨0x14#8, '_', 2, "call 'a11'", false, 2⟩,
  ⟨0x15#8, ' ', 1, "dis i", false, 1⟩,
  ⟨0x16#8, 'i', 2, "jtf 'a8'", false, 2⟩,
  ⟨0x17#8, ' ', 1, "inc a", false, 1⟩,
  ⟨0x18#8, ' ', 1, "inc r0", false, 1⟩,
  ⟨0x19#8, ' ', 1, "inc r1", false, 1⟩,
  ⟨0x1a#8, ' ', 1, "inc r2", false, 1⟩,
  ⟨0x1b#8, ' ', 1, "inc r3", false, 1⟩,
  ⟨0x1c#8, ' ', 1, "inc r4", false, 1⟩,
  ⟨0x1d#8, ' ', 1, "inc r5", false, 1⟩,
  ⟨0x1e#8, ' ', 1, "inc r6", false, 1⟩,
  ⟨0x1f#8, ' ', 1, "inc r7", false, 1⟩,
  ⟨0x20#8, ' ', 1, "xch a,@r0", false, 1⟩,
  ⟨0x21#8, ' ', 1, "xch a,@r1", false, 1⟩,
  ⟨0x23#8, ' ', 2, "mov a,'i8'", false, 2⟩,
  ⟨0x24#8, '_', 2, "jmp 'a11'", false, 2⟩,
  ⟨0x25#8, ' ', 1, "en tcnti", false, 1⟩,
  ⟨0x26#8, 'i', 2, "jnt0 'a8'", false, 2⟩,
  ⟨0x27#8, ' ', 1, "clr a", false, 1⟩,
  ⟨0x28#8, ' ', 1, "xch a,r0", false, 1⟩,
  ⟨0x29#8, ' ', 1, "xch a,r1", false, 1⟩,
  ⟨0x2a#8, ' ', 1, "xch a,r2", false, 1⟩,
  ⟨0x2b#8, ' ', 1, "xch a,r3", false, 1⟩,
  ⟨0x2c#8, ' ', 1, "xch a,r4", false, 1⟩,
  ⟨0x2d#8, ' ', 1, "xch a,r5", false, 1⟩,
  ⟨0x2e#8, ' ', 1, "xch a,r6", false, 1⟩,
  ⟨0x2f#8, ' ', 1, "xch a,r7", false, 1⟩,
  ⟨0x30#8, ' ', 1, "xchd a,@r0", false, 1⟩,
  ⟨0x31#8, ' ', 1, "xchd a,@r1", false, 1⟩,
  ⟨0x32#8, 'i', 2, "jb1 'a8'", false, 2⟩,
  ⟨0x34#8, ' ', 2, "call 'a11'", false, 2⟩,
  ⟨0x35#8, ' ', 1, "dis tcnti", false, 1⟩,
  ⟨0x36#8, 'i', 2, "jt0 'a8'", false, 2⟩,
  ⟨0x37#8, ' ', 1, "cpl a", false, 1⟩,
  ⟨0x39#8, ' ', 1, "outl p1,a", false, 2⟩,
  ⟨0x3a#8, ' ', 1, "outl p2,a", false, 2⟩,
  ⟨0x3c#8, ' ', 1, "movd p4,a", false, 2⟩,
  ⟨0x3d#8, ' ', 1, "movd p5,a", false, 2⟩,
  ⟨0x3e#8, ' ', 1, "movd p6,a", false, 2⟩,
  ⟨0x3f#8, ' ', 1, "movd p7,a", false, 2⟩,
  ⟨0x40#8, ' ', 1, "orl a,@r0", false, 1⟩,
  ⟨0x41#8, ' ', 1, "orl a,@r1", false, 1⟩,
  ⟨0x42#8, ' ', 1, "mov a,t", false, 1⟩,
  ⟨0x43#8, ' ', 2, "orl a,'i8'", false, 2⟩,
  ⟨0x44#8, '_', 2, "jmp 'a11'", false, 2⟩,
  ⟨0x45#8, ' ', 1, "strt cnt", false, 1⟩,
  ⟨0x46#8, ' ', 2, "jnt1 'a8'", false, 2⟩,
  ⟨0x47#8, ' ', 1, "swap a", false, 1⟩,
  ⟨0x48#8, ' ', 1, "orl a,r0", false, 1⟩,
  ⟨0x49#8, ' ', 1, "orl a,r1", false, 1⟩,
  ⟨0x4a#8, ' ', 1, "orl a,r2", false, 1⟩,
  ⟨0x4b#8, ' ', 1, "orl a,r3", false, 1⟩,
  ⟨0x4c#8, ' ', 1, "orl a,r4", false, 1⟩,
  ⟨0x4d#8, ' ', 1, "orl a,r5", false, 1⟩,
  ⟨0x4e#8, ' ', 1, "orl a,r6", false, 1⟩,
  ⟨0x4f#8, ' ', 1, "orl a,r7", false, 1⟩,
  ⟨0x50#8, ' ', 1, "anl a,@r0", false, 1⟩,
  ⟨0x51#8, ' ', 1, "anl a,@r1", false, 1⟩,
  ⟨0x52#8, 'i', 2, "jb2 'a8'", false, 2⟩,
  ⟨0x53#8, ' ', 2, "anl a,'i8'", false, 1⟩,
  ⟨0x54#8, ' ', 2, "call 'a11'", false, 2⟩,
  ⟨0x55#8, ' ', 1, "strt t", false, 1⟩,
  ⟨0x56#8, 'i', 2, "jt1 'a8'", false, 2⟩,
  ⟨0x57#8, ' ', 1, "da a", false, 1⟩,
  ⟨0x58#8, ' ', 1, "anl a,r0", false, 1⟩,
  ⟨0x59#8, ' ', 1, "anl a,r1", false, 1⟩,
  ⟨0x5a#8, ' ', 1, "anl a,r2", false, 1⟩,
  ⟨0x5b#8, ' ', 1, "anl a,r3", false, 1⟩,
  ⟨0x5c#8, ' ', 1, "anl a,r4", false, 1⟩,
  ⟨0x5d#8, ' ', 1, "anl a,r5", false, 1⟩,
  ⟨0x5e#8, ' ', 1, "anl a,r6", false, 1⟩,
  ⟨0x5f#8, ' ', 1, "anl a,r7", false, 1⟩,
  ⟨0x60#8, ' ', 1, "add a,@r0", false, 1⟩,
  ⟨0x61#8, ' ', 1, "add a,@r1", false, 1⟩,
  ⟨0x62#8, ' ', 1, "mov t,a", false, 1⟩,
  ⟨0x64#8, '_', 2, "jmp 'a11'", false, 2⟩,
  ⟨0x65#8, ' ', 1, "stop tcnt", false, 1⟩,
  ⟨0x67#8, ' ', 1, "rrc a", false, 1⟩,
  ⟨0x68#8, ' ', 1, "add a,r0", false, 1⟩,
  ⟨0x69#8, ' ', 1, "add a,r1", false, 1⟩,
  ⟨0x6a#8, ' ', 1, "add a,r2", false, 1⟩,
  ⟨0x6b#8, ' ', 1, "add a,r3", false, 1⟩,
  ⟨0x6c#8, ' ', 1, "add a,r4", false, 1⟩,
  ⟨0x6d#8, ' ', 1, "add a,r5", false, 1⟩,
  ⟨0x6e#8, ' ', 1, "add a,r6", false, 1⟩,
  ⟨0x6f#8, ' ', 1, "add a,r7", false, 1⟩,
  ⟨0x70#8, ' ', 1, "adc a,@r0", false, 1⟩,
  ⟨0x71#8, ' ', 1, "adc a,@r1", false, 1⟩,
  ⟨0x72#8, 'i', 2, "jb3 'a8'", false, 2⟩,
  ⟨0x74#8, ' ', 2, "call 'a11'", false, 2⟩,
  ⟨0x75#8, ' ', 2, "ent0 clk", false, 2⟩,
  ⟨0x76#8, 'i', 2, "jf1 'a8'", false, 2⟩,
  ⟨0x77#8, ' ', 1, "rr a", false, 1⟩,
  ⟨0x78#8, ' ', 1, "adc a,r0", false, 1⟩,
  ⟨0x79#8, ' ', 1, "adc a,r1", false, 1⟩,
  ⟨0x7a#8, ' ', 1, "adc a,r2", false, 1⟩,
  ⟨0x7b#8, ' ', 1, "adc a,r3", false, 1⟩,
  ⟨0x7c#8, ' ', 1, "adc a,r4", false, 1⟩,
  ⟨0x7d#8, ' ', 1, "adc a,r5", false, 1⟩,
  ⟨0x7e#8, ' ', 1, "adc a,r6", false, 1⟩,
  ⟨0x7f#8, ' ', 1, "adc a,r7", false, 1⟩,
  ⟨0x80#8, ' ', 1, "movx a,@r0", false, 2⟩,
  ⟨0x81#8, ' ', 1, "movx a,@r1", false, 2⟩,
  ⟨0x83#8, '_', 1, "ret", false, 2⟩,
  ⟨0x84#8, '_', 2, "jmp 'a11'", false, 2⟩,
  ⟨0x85#8, ' ', 1, "clr f0", false, 1⟩,
  ⟨0x86#8, 'i', 2, "jni 'a8'", false, 2⟩,
  ⟨0x88#8, ' ', 2, "orl bus,'i8'", false, 2⟩,
  ⟨0x89#8, ' ', 2, "orl p1,'i8'", false, 2⟩,
  ⟨0x8a#8, ' ', 2, "orl p2,'i8'", false, 2⟩,
  ⟨0x8c#8, ' ', 1, "orld p4,a", false, 2⟩,
  ⟨0x8d#8, ' ', 1, "orld p5,a", false, 2⟩,
  ⟨0x8e#8, ' ', 1, "orld p6,a", false, 2⟩,
  ⟨0x8f#8, ' ', 1, "orld p7,a", false, 2⟩,
  ⟨0x90#8, ' ', 1, "movx @r0,a", false, 2⟩,
  ⟨0x91#8, ' ', 1, "movx @r1,a", false, 2⟩,
  ⟨0x92#8, 'i', 2, "jb4 'a8'", false, 2⟩,
  ⟨0x93#8, '_', 1, "retr", false, 2⟩,
  ⟨0x94#8, ' ', 2, "call 'a11'", false, 2⟩,
  ⟨0x95#8, ' ', 1, "cpl f0", false, 1⟩,
  ⟨0x96#8, ' ', 2, "jnz 'a8'", false, 2⟩,
  ⟨0x97#8, ' ', 1, "clr c", false, 1⟩,
  ⟨0x98#8, ' ', 1, "anl bus,'i8'", false, 2⟩,
  ⟨0x99#8, ' ', 2, "anl p1,'i8'", false, 2⟩,
  ⟨0x9a#8, ' ', 2, "anl p2,'i8'", false, 2⟩,
  ⟨0x9c#8, ' ', 1, "anl p4,a", false, 2⟩,
  ⟨0x9d#8, ' ', 1, "anl p5,a", false, 2⟩,
  ⟨0x9e#8, ' ', 1, "anl p6,a", false, 2⟩,
  ⟨0x9f#8, ' ', 1, "anl p7,a", false, 2⟩,
  ⟨0xa0#8, ' ', 1, "mov @r0,a", false, 2⟩,
  ⟨0xa1#8, ' ', 1, "mov @r1,a", false, 2⟩,
  ⟨0xa3#8, ' ', 1, "movp a,@a", false, 2⟩,
  ⟨0xa4#8, '_', 2, "jmp 'a11'", false, 2⟩,
  ⟨0xa5#8, ' ', 1, "clr f1", false, 1⟩,
  ⟨0xa7#8, ' ', 1, "cpl c", false, 1⟩,
  ⟨0xa8#8, ' ', 1, "mov r0,a", false, 1⟩,
  ⟨0xa9#8, ' ', 1, "mov r1,a", false, 1⟩,
  ⟨0xaa#8, ' ', 1, "mov r2,a", false, 1⟩,
  ⟨0xab#8, ' ', 1, "mov r3,a", false, 1⟩,
  ⟨0xac#8, ' ', 1, "mov r4,a", false, 1⟩,
  ⟨0xad#8, ' ', 1, "mov r5,a", false, 1⟩,
  ⟨0xae#8, ' ', 1, "mov r6,a", false, 1⟩,
  ⟨0xaf#8, ' ', 1, "mov r7,a", false, 1⟩,
  ⟨0xb0#8, ' ', 2, "mov @r0,'i8'", false, 2⟩,
  ⟨0xb1#8, ' ', 2, "mov @r1,'i8'", false, 2⟩,
  ⟨0xb2#8, 'i', 2, "jb5 'a8'", false, 2⟩,
  ⟨0xb3#8, '_', 1, "jmpp @a", false, 2⟩,
  ⟨0xb4#8, ' ', 2, "call 'a11'", false, 2⟩,
  ⟨0xb5#8, ' ', 1, "cpl f1", false, 1⟩,
  ⟨0xb6#8, 'i', 2, "jf0 'a8'", false, 2⟩,
  ⟨0xb8#8, ' ', 2, "mov r0,'i8'", false, 2⟩,
  ⟨0xb9#8, ' ', 2, "mov r1,'i8'", false, 2⟩,
  ⟨0xba#8, ' ', 2, "mov r2,'i8'", false, 2⟩,
  ⟨0xbb#8, ' ', 2, "mov r3,'i8'", false, 2⟩,
  ⟨0xbc#8, ' ', 2, "mov r4,'i8'", false, 2⟩,
  ⟨0xbd#8, ' ', 2, "mov r5,'i8'", false, 2⟩,
  ⟨0xbe#8, ' ', 2, "mov r6,'i8'", false, 2⟩,
  ⟨0xbf#8, ' ', 2, "mov r7,'i8'", false, 2⟩,
  ⟨0xc4#8, '_', 2, "jmp 'a11'", false, 2⟩,
  ⟨0xc5#8, ' ', 1, "sel rb0", false, 1⟩,
  ⟨0xc6#8, 'i', 2, "jz 'a8'", false, 2⟩,
  ⟨0xc7#8, ' ', 1, "mov a,psw", false, 1⟩,
  ⟨0xc8#8, ' ', 1, "dec r0", false, 1⟩,
  ⟨0xc9#8, ' ', 1, "dec r1", false, 1⟩,
  ⟨0xca#8, ' ', 1, "dec r2", false, 1⟩,
  ⟨0xcb#8, ' ', 1, "dec r3", false, 1⟩,
  ⟨0xcc#8, ' ', 1, "dec r4", false, 1⟩,
  ⟨0xcd#8, ' ', 1, "dec r5", false, 1⟩,
  ⟨0xce#8, ' ', 1, "dec r6", false, 1⟩,
  ⟨0xcf#8, ' ', 1, "dec r7", false, 1⟩,
  ⟨0xd0#8, ' ', 1, "xrl a,@r0", false, 1⟩,
  ⟨0xd1#8, ' ', 1, "xrl a,@r1", false, 1⟩,
  ⟨0xd2#8, 'i', 2, "jb6 'a8'", false, 2⟩,
  ⟨0xd3#8, ' ', 2, "xrl a,'i8'", false, 2⟩,
  ⟨0xd4#8, ' ', 2, "call 'a11'", false, 2⟩,
  ⟨0xd5#8, ' ', 1, "sel rb1", false, 1⟩,
  ⟨0xd7#8, ' ', 1, "mov psw,a", false, 1⟩,
  ⟨0xd8#8, ' ', 1, "xrl a,r0", false, 1⟩,
  ⟨0xd9#8, ' ', 1, "xrl a,r1", false, 1⟩,
  ⟨0xda#8, ' ', 1, "xrl a,r2", false, 1⟩,
  ⟨0xdb#8, ' ', 1, "xrl a,r3", false, 1⟩,
  ⟨0xdc#8, ' ', 1, "xrl a,r4", false, 1⟩,
  ⟨0xdd#8, ' ', 1, "xrl a,r5", false, 1⟩,
  ⟨0xde#8, ' ', 1, "xrl a,r6", false, 1⟩,
  ⟨0xdf#8, ' ', 1, "xrl a,r7", false, 1⟩,
  ⟨0xe3#8, ' ', 1, "movp3 a,@a", false, 2⟩,
  ⟨0xe4#8, '_', 2, "jmp 'a11'", false, 2⟩,
  ⟨0xe5#8, ' ', 1, "sel mb0", false, 1⟩,
  ⟨0xe6#8, ' ', 2, "jnc 'a8'", false, 2⟩,
  ⟨0xe7#8, ' ', 1, "rl a", false, 1⟩,
  ⟨0xe8#8, 'i', 2, "djnz r0,'a8'", false, 2⟩,
  ⟨0xe9#8, 'i', 2, "djnz r1,'a8'", false, 2⟩,
  ⟨0xea#8, 'i', 2, "djnz r2,'a8'", false, 2⟩,
  ⟨0xeb#8, 'i', 2, "djnz r3,'a8'", false, 2⟩,
  ⟨0xec#8, 'i', 2, "djnz r4,'a8'", false, 2⟩,
  ⟨0xed#8, 'i', 2, "djnz r5,'a8'", false, 2⟩,
  ⟨0xee#8, 'i', 2, "djnz r6,'a8'", false, 2⟩,
  ⟨0xef#8, 'i', 2, "djnz r7,'a8'", false, 2⟩,
  ⟨0xf0#8, ' ', 1, "mov a,@r0", false, 1⟩,
  ⟨0xf1#8, ' ', 1, "mov a,@r1", false, 1⟩,
  ⟨0xf2#8, 'i', 2, "jb7 'a8'", false, 2⟩,
  ⟨0xf4#8, ' ', 2, "call 'a11'", false, 2⟩,
  ⟨0xf5#8, ' ', 1, "sel mb1", false, 1⟩,
  ⟨0xf6#8, ' ', 2, "jc 'a8'", false, 2⟩,
  ⟨0xf7#8, ' ', 1, "rlc a", false, 1⟩,
  ⟨0xf8#8, ' ', 1, "mov a,r0", false, 1⟩,
  ⟨0xf9#8, ' ', 1, "mov a,r1", false, 1⟩,
  ⟨0xfa#8, ' ', 1, "mov a,r2", false, 1⟩,
  ⟨0xfb#8, ' ', 1, "mov a,r3", false, 1⟩,
  ⟨0xfc#8, ' ', 1, "mov a,r4", false, 1⟩,
  ⟨0xfd#8, ' ', 1, "mov a,r5", false, 1⟩,
  ⟨0xfe#8, ' ', 1, "mov a,r6", false, 1⟩,
  ⟨0xff#8, ' ', 1, "mov a,r7", false, 1⟩]

end Ucsim.I48
