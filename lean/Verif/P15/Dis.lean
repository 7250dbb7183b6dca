import Verif.P15.Step
/-
The disassembler tables of /repo/src/sims/p1516.src/glob.cc, made from its text by a script, and the
search in them (disassc, p1516.cc 266-306 and p2223.cc 196-246): the first entry that matches, and
the condition that is printed before its text.
-/
namespace Ucsim.P15

/-- struct dis_entry; `mac`: branch is 'M', such an entry is shown without a condition -/
structure Entry where
  code : Wd
  mask : Wd
  mac : Bool
  text : String

/-- disass_p1516, glob.cc 33-74 -/
def table15 : List Entry :=
  [
    ⟨0x08000000, 0x08000000, false, "call  %A"⟩,
    ⟨0xb4f00000, 0xfff00000, true, "jz    %O"⟩,
    ⟨0x94f00000, 0xfff00000, true, "jnz   %O"⟩,
    ⟨0x74f00000, 0xfff00000, true, "jc    %O"⟩,
    ⟨0x54f00000, 0xfff00000, true, "jnc   %O"⟩,
    ⟨0x04f00000, 0x1ff00000, true, "jmp   %O"⟩,
    ⟨0x04f00000, 0x0ff00000, false, "jump  %O"⟩,
    ⟨0x00000000, 0x0f000000, false, "nop"⟩,
    ⟨0x01000000, 0x0f000000, false, "ld    %d:=mem[%R]"⟩,
    ⟨0x02000000, 0x0f000000, false, "st    mem[%R]:=%d"⟩,
    ⟨0x03fe0000, 0x0fff0000, false, "ret"⟩,
    ⟨0x03000000, 0x0f000000, false, "mov   %d:=%a"⟩,
    ⟨0x04000000, 0x0f000000, false, "ldl0  %d:=%0"⟩,
    ⟨0x05000000, 0x0f000000, false, "ldl   %d:=%l"⟩,
    ⟨0x06000000, 0x0f000000, false, "ldh   %d:=%h"⟩,
    ⟨0x07000000, 0x0f000f80, false, "add   %d:=%a+%b"⟩,
    ⟨0x07000080, 0x0f000f80, false, "addc  %d:=%a+%b"⟩,
    ⟨0x07000100, 0x0f000f80, false, "sub   %d:=%a-%b"⟩,
    ⟨0x07000180, 0x0f000f80, false, "sbb   %d:=%a-%b"⟩,
    ⟨0x07000200, 0x0f000f80, false, "inc   %d:=%a+1"⟩,
    ⟨0x07000280, 0x0f000f80, false, "dec   %d:=%a-1"⟩,
    ⟨0x07000300, 0x0f000f80, false, "and   %d:=%a&%b"⟩,
    ⟨0x07000380, 0x0f000f80, false, "or    %d:=%a|%b"⟩,
    ⟨0x07000400, 0x0f000f80, false, "xor   %d:=%a^%b"⟩,
    ⟨0x07000480, 0x0f000f80, false, "shl   %d:=u(%a)<<1"⟩,
    ⟨0x07000500, 0x0f000f80, false, "shr   %d:=u(%a)>>1"⟩,
    ⟨0x07000800, 0x0f000f80, false, "sha   %d:=s(%a)>>1"⟩,
    ⟨0x07000580, 0x0f000f80, false, "rol   %d:=(C,%a)<<1"⟩,
    ⟨0x07000600, 0x0f000f80, false, "ror   %d:=(%a,C)>>1"⟩,
    ⟨0x07000680, 0x0f000f80, false, "mul   %d:=%a*%b"⟩,
    ⟨0x07000700, 0x0f000f80, false, "div   %d:=%a/%b"⟩,
    ⟨0x07000780, 0x0f000f80, false, "cmp   F:=%a-%b"⟩,
    ⟨0x07000880, 0x0f000f80, false, "setc"⟩,
    ⟨0x07000900, 0x0f000f80, false, "clrc"⟩]

/-- disass_p2223, glob.cc 76-186 -/
def table22 : List Entry :=
  [
    ⟨0xf4000000, 0xff000000, false, "ces 'ar'"⟩,
    ⟨0xf5000000, 0xff000000, false, "ces %d,'s20'"⟩,
    ⟨0x00000000, 0x0fffffff, false, "nop"⟩,
    ⟨0x00000000, 0x0fffff00, false, "'char8'"⟩,
    ⟨0x00f00e00, 0x00f00f00, false, "ret"⟩,
    ⟨0x11f20000, 0xffff0000, false, "jz 'j'"⟩,
    ⟨0x21f20000, 0xffff0000, false, "jnz 'j'"⟩,
    ⟨0x31f20000, 0xffff0000, false, "jc 'j'"⟩,
    ⟨0x41f20000, 0xffff0000, false, "jnc 'j'"⟩,
    ⟨0x01f20000, 0x0fff0000, false, "jmp 'j'"⟩,
    ⟨0x0d0d0000, 0x0f0f0000, false, "push %d"⟩,
    ⟨0x0f0d0000, 0x0f0f0000, false, "pop %d"⟩,
    ⟨0x00f00000, 0x0fff0000, false, "jp 'jp'"⟩,
    ⟨0x01040001, 0x0f0fffff, false, "inc %d"⟩,
    ⟨0x0104ffff, 0x0f0fffff, false, "dec %d"⟩,
    ⟨0x04000000, 0x0f000000, false, "call 'ar'"⟩,
    ⟨0x05000000, 0x0f000000, false, "call %d,'s20'"⟩,
    ⟨0x02000000, 0x0e0f0000, false, "zeb %d"⟩,
    ⟨0x02010000, 0x0e0f0000, false, "zew %d"⟩,
    ⟨0x02020000, 0x0e0f0000, false, "seb %d"⟩,
    ⟨0x02030000, 0x0e0f0000, false, "sew %d"⟩,
    ⟨0x02040000, 0x0e0f0000, false, "not %d:=~%d"⟩,
    ⟨0x02050000, 0x0e0f0000, false, "neg %d:=-%d"⟩,
    ⟨0x02060000, 0x0e0f0000, false, "ror %d:=(%d,C)>>1"⟩,
    ⟨0x02070000, 0x0e0f0000, false, "rol %d:=(C,%d)<<1"⟩,
    ⟨0x02080000, 0x0e0f0000, false, "shl %d:=u(%d)<<1"⟩,
    ⟨0x02090000, 0x0e0f0000, false, "shr %d:=u(%d)>>1"⟩,
    ⟨0x020a0000, 0x0e0f0000, false, "sha %d:=s(%d)>>1"⟩,
    ⟨0x020b0000, 0x0e0f0000, false, "sz F.SZ=%d"⟩,
    ⟨0x020c0000, 0x0e0f0000, false, "sec F.C=1"⟩,
    ⟨0x020d0000, 0x0e0f0000, false, "clc F.C=0"⟩,
    ⟨0x020e0000, 0x0e0f0000, false, "getf %d:=F"⟩,
    ⟨0x020f0000, 0x0e0f0000, false, "setf F:=%d"⟩,
    ⟨0x00000000, 0x0f0f0000, false, "mov %d:=%b"⟩,
    ⟨0x00030000, 0x0f0f0000, false, "sed %d:=s(%b)"⟩,
    ⟨0x00040000, 0x0f0f0000, false, "add %d:=%d+%b"⟩,
    ⟨0x00050000, 0x0f0f0000, false, "adc %d:=%d+%b"⟩,
    ⟨0x00060000, 0x0f0f0000, false, "sub %d:=%d-%b"⟩,
    ⟨0x00070000, 0x0f0f0000, false, "sbb %d:=%d-%b"⟩,
    ⟨0x00080000, 0x0f0f0000, false, "cmp F:=%d-%b"⟩,
    ⟨0x00090000, 0x0f0f0000, false, "mul %d:=%d*%b"⟩,
    ⟨0x000a0000, 0x0f0f0000, false, "plus %d:=%d+%b"⟩,
    ⟨0x000b0000, 0x0f0f0000, false, "btst F:=%d&%b"⟩,
    ⟨0x000c0000, 0x0f0f0000, false, "test F:=%d&%b"⟩,
    ⟨0x000d0000, 0x0f0f0000, false, "or %d:=%d&%b"⟩,
    ⟨0x000e0000, 0x0f0f0000, false, "xor %d:=%d^%b"⟩,
    ⟨0x000f0000, 0x0f0f0000, false, "and %d:=%d&%b"⟩,
    ⟨0x01000000, 0x0f0f0000, false, "mvl %d:=%l"⟩,
    ⟨0x01010000, 0x0f0f0000, false, "mvh %d:=%h"⟩,
    ⟨0x01020000, 0x0f0f0000, false, "mvzl %d:=%0"⟩,
    ⟨0x01030000, 0x0f0f0000, false, "mvs %d:=#'s16'"⟩,
    ⟨0x01040000, 0x0f0f0000, false, "add %d:=%d+#'s16'"⟩,
    ⟨0x01050000, 0x0f0f0000, false, "adc %d:=%d+#'s16'"⟩,
    ⟨0x01060000, 0x0f0f0000, false, "sub %d:=%d-#'s16'"⟩,
    ⟨0x01070000, 0x0f0f0000, false, "sbb %d:=%d-#'s16'"⟩,
    ⟨0x01080000, 0x0f0f0000, false, "cmp F:=%d-#'s16'"⟩,
    ⟨0x01090000, 0x0f0f0000, false, "mul %d:=%d*#'s16'"⟩,
    ⟨0x010a0000, 0x0f0f0000, false, "plus %d:=%d+#'s16'"⟩,
    ⟨0x010b0000, 0x0f0f0000, false, "btst F:=%d&#'u16'"⟩,
    ⟨0x010c0000, 0x0f0f0000, false, "test F:=%d&#'u16'"⟩,
    ⟨0x010d0000, 0x0f0f0000, false, "or %d:=%d|#'u16'"⟩,
    ⟨0x010e0000, 0x0f0f0000, false, "xor %d:=%d^#'u16'"⟩,
    ⟨0x010f0000, 0x0f0f0000, false, "and %d:=%d&#'and16'"⟩,
    ⟨0x08000000, 0x0f008000, false, "st mem[%a,%b]:=%d"⟩,
    ⟨0x09000000, 0x0f00c000, false, "st mem[%a-,%b]:=%d"⟩,
    ⟨0x09004000, 0x0f00c000, false, "st mem[-%a,%b]:=%d"⟩,
    ⟨0x09008000, 0x0f00c000, false, "st mem[%a+,%b]:=%d"⟩,
    ⟨0x0900c000, 0x0f00c000, false, "st mem[+%a,%b]:=%d"⟩,
    ⟨0x0a000000, 0x0f000000, false, "ld %d:=mem[%a,%b]"⟩,
    ⟨0x0b000000, 0x0f00c000, false, "ld %d:=mem[%a-,%b]"⟩,
    ⟨0x0b004000, 0x0f00c000, false, "ld %d:=mem[-%a,%b]"⟩,
    ⟨0x0b008000, 0x0f00c000, false, "ld %d:=mem[%a+,%b]"⟩,
    ⟨0x0b00c000, 0x0f00c000, false, "ld %d:=mem[+%a,%b]"⟩,
    ⟨0x0c000000, 0x0f000000, false, "st mem[%a,'s16']:=%d"⟩,
    ⟨0x0d000000, 0x0f000000, false, "st mem['*ra','s16']:=%d"⟩,
    ⟨0x0e000000, 0x0f000000, false, "ld %d:=mem[%a,'s16']"⟩,
    ⟨0x0f000000, 0x0f000000, false, "ld %d:=mem['*ra','s16']"⟩,
    ⟨0x06000000, 0x0f0f0000, false, "st mem['u16']:=%d"⟩,
    ⟨0x07000000, 0x0f0f0000, false, "ld %d:=mem['u16']"⟩,
    ⟨0x06014000, 0x0f0fe000, false, "getbz %d:=%b['ri0']"⟩,
    ⟨0x0601c000, 0x0f0fe000, false, "getbz %d:=%b['u2']"⟩,
    ⟨0x06016000, 0x0f0fe000, false, "getbs %d:=%b['ri0']"⟩,
    ⟨0x0601e000, 0x0f0fe000, false, "getbs %d:=%b['u2']"⟩,
    ⟨0x06010000, 0x0f0fc000, false, "getb %d:=%b['ri0']"⟩,
    ⟨0x06018000, 0x0f0fc000, false, "getb %d:=%b['u2']"⟩,
    ⟨0x07010000, 0x0f0f8000, false, "putb %d:=%b['ri0']"⟩,
    ⟨0x07018000, 0x0f0f8000, false, "putb %d:=%b['u2']"⟩,
    ⟨0x06020000, 0x0f0f0000, false, "rds %d:='sfr'"⟩,
    ⟨0x07020000, 0x0f0f0000, false, "wrs 'sfr':=%d"⟩]

/-- the loop of disassc, p1516.cc 275-284, p2223.cc 208-217 -/
def lookup (t : List Entry) (code : Wd) : Option Entry := t.find? (fun e => code &&& e.mask == e.code)

/-- The condition disassc prints, p1516.cc 286-303 -/
def prefix15 (e : Entry) (code : Wd) : String :=
  let data := (code &&& 0xf0000000#32) >>> 28
  if data &&& 1 == 0 || e.mac then "   "
  else
    (match (data >>> 2).toNat with
      | 0 => "S"
      | 1 => "C"
      | 2 => "Z"
      | _ => "O") ++ (if data &&& 2 == 0 then "0 " else "1 ")

/-- p2223.cc 221-246 -/
def prefix22 (e : Entry) (code : Wd) : String :=
  if e.mac then "   "
  else match ((code &&& 0xf0000000#32) >>> 28).toNat with
    | 0 => "   "
    | 1 => "EQ "
    | 2 => "NE "
    | 3 => "CS "
    | 4 => "CC "
    | 5 => "MI "
    | 6 => "PL "
    | 7 => "VS "
    | 8 => "VC "
    | 9 => "HI "
    | 10 => "LS "
    | 11 => "GE "
    | 12 => "LT "
    | 13 => "GT "
    | 14 => "LE "
    | _ => "   "

end Ucsim.P15
