import Verif.Spec.PdkDis
import Verif.Pdk.Insn
/-
C148: the disassembler of the PADAUK simulator: the tables of /repo/src/sims/pdk.src/glob.cc, made from
its text by a script, and cl_fpp::get_dis_entry and disassc, pdk.cc 395-517.

Simplifications: a line is given as characters and numbers with the way they are printed (printf is not
modelled), the blanks that bring the operands to column 9 are left out; a word has 16 bits.
-/
namespace Ucsim.Pdk.Dis

/-- struct dis_entry; the mask is given by the bits that are not compared -/
structure Entry where
  code : Word
  dont : Word
  text : String

/-- disass_pdk_13, glob.cc 46-144 -/
def table13 : List Entry :=
  [
    ⟨0x0000, 0x0000, "nop"⟩,
    ⟨0x003a, 0x0000, "ret"⟩,
    ⟨0x0100, 0x00ff, "ret %k"⟩,
    ⟨0x003b, 0x0000, "reti"⟩,
    ⟨0x1700, 0x00ff, "mov a,%k"⟩,
    ⟨0x0080, 0x001f, "mov %i,a"⟩,
    ⟨0x00a0, 0x001f, "mov a,%i"⟩,
    ⟨0x05c0, 0x003f, "mov %m,a"⟩,
    ⟨0x07c0, 0x003f, "mov a,%m"⟩,
    ⟨0x00c1, 0x001e, "ldt16 'M5'"⟩,
    ⟨0x00c0, 0x001e, "stt16 'M5'"⟩,
    ⟨0x00e1, 0x001e, "idxm a,'M5'"⟩,
    ⟨0x00e0, 0x001e, "idxm 'M5',a"⟩,
    ⟨0x09c0, 0x003f, "xch %m"⟩,
    ⟨0x0032, 0x0000, "push af"⟩,
    ⟨0x0033, 0x0000, "pop af"⟩,
    ⟨0x1000, 0x00ff, "add %k"⟩,
    ⟨0x0400, 0x003f, "add %m,a"⟩,
    ⟨0x0600, 0x003f, "add a,%m"⟩,
    ⟨0x1100, 0x00ff, "sub %k"⟩,
    ⟨0x0440, 0x003f, "sub %m,a"⟩,
    ⟨0x0640, 0x003f, "sub a,%m"⟩,
    ⟨0x0010, 0x0000, "addc"⟩,
    ⟨0x0480, 0x003f, "addc %m,a"⟩,
    ⟨0x0680, 0x003f, "addc a,%m"⟩,
    ⟨0x0800, 0x003f, "addc %m"⟩,
    ⟨0x0011, 0x0000, "subc"⟩,
    ⟨0x04c0, 0x003f, "subc %m,a"⟩,
    ⟨0x06c0, 0x003f, "subc a,%m"⟩,
    ⟨0x0840, 0x007f, "subc %m"⟩,
    ⟨0x0900, 0x003f, "inc %m"⟩,
    ⟨0x0940, 0x003f, "dec %m"⟩,
    ⟨0x0980, 0x003f, "clear %m"⟩,
    ⟨0x001a, 0x0000, "sr"⟩,
    ⟨0x0a80, 0x003f, "sr %m"⟩,
    ⟨0x001b, 0x0000, "sl"⟩,
    ⟨0x0ac0, 0x003f, "sl %m"⟩,
    ⟨0x001c, 0x0000, "src"⟩,
    ⟨0x0b00, 0x003f, "src %m"⟩,
    ⟨0x001d, 0x0000, "slc"⟩,
    ⟨0x0b40, 0x003f, "slc %m"⟩,
    ⟨0x1400, 0x00ff, "and %k"⟩,
    ⟨0x0500, 0x003f, "and %m,a"⟩,
    ⟨0x0700, 0x003f, "and a,%m"⟩,
    ⟨0x1500, 0x00ff, "or %k"⟩,
    ⟨0x0540, 0x003f, "or %m,a"⟩,
    ⟨0x0740, 0x003f, "or a,%m"⟩,
    ⟨0x1600, 0x00ff, "xor %k"⟩,
    ⟨0x0580, 0x003f, "xor %m,a"⟩,
    ⟨0x0780, 0x003f, "xor a,%m"⟩,
    ⟨0x0060, 0x001f, "xor %i,a"⟩,
    ⟨0x0018, 0x0000, "not"⟩,
    ⟨0x0a00, 0x003f, "not %m"⟩,
    ⟨0x0019, 0x0000, "neg"⟩,
    ⟨0x0a40, 0x003f, "neg %m"⟩,
    ⟨0x0e00, 0x00ff, "set0 %i,%n"⟩,
    ⟨0x0300, 0x00ef, "set0 'M4','n5'"⟩,
    ⟨0x0f00, 0x00ff, "set1 %i,%n"⟩,
    ⟨0x0310, 0x00ef, "set1 'M4',%n"⟩,
    ⟨0x0c00, 0x00ff, "t0sn %i,%n"⟩,
    ⟨0x0200, 0x00ef, "t0sn '4m','5n'"⟩,
    ⟨0x0d00, 0x00ff, "t1sn %i,%n"⟩,
    ⟨0x0210, 0x00ef, "t1sn '4M','5n'"⟩,
    ⟨0x1200, 0x00ff, "ceqsn %k"⟩,
    ⟨0x0b80, 0x003f, "ceqsn %m"⟩,
    ⟨0x1300, 0x00ff, "cneqsn %k"⟩,
    ⟨0x0bc0, 0x003f, "cneqsn %m"⟩,
    ⟨0x0012, 0x0000, "izsn"⟩,
    ⟨0x0880, 0x003f, "izsn %m"⟩,
    ⟨0x0013, 0x0000, "dzsn"⟩,
    ⟨0x08c0, 0x003f, "dzsn %m"⟩,
    ⟨0x1c00, 0x03ff, "call 'a10'"⟩,
    ⟨0x1800, 0x03ff, "goto 'a10'"⟩,
    ⟨0x001e, 0x0000, "swap"⟩,
    ⟨0x0017, 0x0000, "pcadd"⟩,
    ⟨0x0038, 0x0000, "engint"⟩,
    ⟨0x0039, 0x0000, "disint"⟩,
    ⟨0x0036, 0x0000, "stopsys"⟩,
    ⟨0x0037, 0x0000, "stopexe"⟩,
    ⟨0x0035, 0x0000, "reset"⟩,
    ⟨0x0030, 0x0000, "wdreset"⟩,
    ⟨0x0006, 0x0000, "ldsptl"⟩,
    ⟨0x0007, 0x0000, "ldspth"⟩,
    ⟨0x003c, 0x0000, "mul"⟩,
    ⟨0xff00, 0x0000, "putchar"⟩]

/-- disass_pdk_14, glob.cc 146-250 -/
def table14 : List Entry :=
  [
    ⟨0x0000, 0x0000, "nop"⟩,
    ⟨0x007a, 0x0000, "ret"⟩,
    ⟨0x0200, 0x00ff, "ret %k"⟩,
    ⟨0x007b, 0x0000, "reti"⟩,
    ⟨0x2f00, 0x00ff, "mov a,%k"⟩,
    ⟨0x0180, 0x003f, "mov %i,a"⟩,
    ⟨0x01c0, 0x003f, "mov a,%i"⟩,
    ⟨0x0b80, 0x007f, "mov %m,a"⟩,
    ⟨0x0f80, 0x007f, "mov a,%m"⟩,
    ⟨0x0301, 0x007e, "ldt16 'M7'"⟩,
    ⟨0x0300, 0x007e, "stt16 'M7'"⟩,
    ⟨0x0381, 0x007e, "idxm a,'M7'"⟩,
    ⟨0x0380, 0x007e, "idxm 'M7',a"⟩,
    ⟨0x1380, 0x007f, "xch %m"⟩,
    ⟨0x0072, 0x0000, "push af"⟩,
    ⟨0x0073, 0x0000, "pop af"⟩,
    ⟨0x2800, 0x00ff, "add %k"⟩,
    ⟨0x0800, 0x007f, "add %m,a"⟩,
    ⟨0x0c00, 0x007f, "add a,%m"⟩,
    ⟨0x2900, 0x00ff, "sub %k"⟩,
    ⟨0x0880, 0x007f, "sub %m,a"⟩,
    ⟨0x0c80, 0x007f, "sub a,%m"⟩,
    ⟨0x0060, 0x0000, "addc"⟩,
    ⟨0x0900, 0x007f, "addc %m,a"⟩,
    ⟨0x0d00, 0x007f, "addc a,%m"⟩,
    ⟨0x1000, 0x007f, "addc %m"⟩,
    ⟨0x0061, 0x0000, "subc"⟩,
    ⟨0x0980, 0x007f, "subc %m,a"⟩,
    ⟨0x0d80, 0x007f, "subc a,%m"⟩,
    ⟨0x1080, 0x007f, "subc %m"⟩,
    ⟨0x1200, 0x007f, "inc %m"⟩,
    ⟨0x1280, 0x007f, "dec %m"⟩,
    ⟨0x1300, 0x007f, "clear %m"⟩,
    ⟨0x006a, 0x0000, "sr"⟩,
    ⟨0x1500, 0x007f, "sr %m"⟩,
    ⟨0x006b, 0x0000, "sl"⟩,
    ⟨0x1580, 0x007f, "sl %m"⟩,
    ⟨0x006c, 0x0000, "src"⟩,
    ⟨0x1600, 0x007f, "src %m"⟩,
    ⟨0x006d, 0x0000, "slc"⟩,
    ⟨0x1680, 0x007f, "slc %m"⟩,
    ⟨0x2c00, 0x00ff, "and %k"⟩,
    ⟨0x0a00, 0x007f, "and %m,a"⟩,
    ⟨0x0e00, 0x007f, "and a,%m"⟩,
    ⟨0x2d00, 0x00ff, "or %k"⟩,
    ⟨0x0a80, 0x007f, "or %m,a"⟩,
    ⟨0x0e80, 0x007f, "or a,%m"⟩,
    ⟨0x2e00, 0x00ff, "xor %k"⟩,
    ⟨0x0b00, 0x007f, "xor %m,a"⟩,
    ⟨0x0f00, 0x007f, "xor a,%m"⟩,
    ⟨0x00c0, 0x003f, "xor %i,a"⟩,
    ⟨0x0068, 0x0000, "not"⟩,
    ⟨0x1400, 0x007f, "not %m"⟩,
    ⟨0x0069, 0x0000, "neg"⟩,
    ⟨0x1480, 0x007f, "neg %m"⟩,
    ⟨0x1c00, 0x01ff, "set0 %i,'n6'"⟩,
    ⟨0x2400, 0x01ff, "set0 'm6','n6'"⟩,
    ⟨0x1e00, 0x01ff, "set1 %i,'n6'"⟩,
    ⟨0x2600, 0x01ff, "set1 'm6','n6'"⟩,
    ⟨0x1800, 0x01ff, "t0sn %i,'n6"⟩,
    ⟨0x2000, 0x01ff, "t0sn 'm6','n6'"⟩,
    ⟨0x1a00, 0x01ff, "t1sn %i,'n6'"⟩,
    ⟨0x2200, 0x01ff, "t1sn 'm6','n6'"⟩,
    ⟨0x2a00, 0x00ff, "ceqsn %k"⟩,
    ⟨0x1700, 0x007f, "ceqsn %m"⟩,
    ⟨0x2b00, 0x00ff, "cneqsn %k"⟩,
    ⟨0x1780, 0x007f, "cneqsn %m"⟩,
    ⟨0x0062, 0x0000, "izsn"⟩,
    ⟨0x1100, 0x007f, "izsn %m"⟩,
    ⟨0x0063, 0x0000, "dzsn"⟩,
    ⟨0x1180, 0x007f, "dzsn %m"⟩,
    ⟨0x3800, 0x07ff, "call 'a11'"⟩,
    ⟨0x3000, 0x07ff, "goto 'a11'"⟩,
    ⟨0x0600, 0x007f, "comp a,%m"⟩,
    ⟨0x6800, 0x007f, "comp %m,a"⟩,
    ⟨0x0700, 0x007f, "nadd a,%m"⟩,
    ⟨0x0780, 0x007f, "nadd %m,a"⟩,
    ⟨0x006e, 0x0000, "swap"⟩,
    ⟨0x0067, 0x0000, "pcadd"⟩,
    ⟨0x0078, 0x0000, "engint"⟩,
    ⟨0x0079, 0x0000, "disint"⟩,
    ⟨0x0076, 0x0000, "stopsys"⟩,
    ⟨0x0077, 0x0000, "stopexe"⟩,
    ⟨0x0075, 0x0000, "reset"⟩,
    ⟨0x0070, 0x0000, "wdreset"⟩,
    ⟨0x0400, 0x01ff, "swapc %i,'n6'"⟩,
    ⟨0x0006, 0x0000, "ldsptl"⟩,
    ⟨0x0007, 0x0000, "ldspth"⟩,
    ⟨0x007c, 0x0000, "mul"⟩,
    ⟨0xff00, 0x0000, "putchar"⟩]

/-- disass_pdk_15, glob.cc 252-359 -/
def table15 : List Entry :=
  [
    ⟨0x0000, 0x0000, "nop"⟩,
    ⟨0x007a, 0x0000, "ret"⟩,
    ⟨0x0200, 0x00ff, "ret %k"⟩,
    ⟨0x007b, 0x0000, "reti"⟩,
    ⟨0x5700, 0x00ff, "mov a,%k"⟩,
    ⟨0x0100, 0x007f, "mov %i,a"⟩,
    ⟨0x0180, 0x007f, "mov a,%i"⟩,
    ⟨0x1700, 0x00ff, "mov %m,a"⟩,
    ⟨0x1f00, 0x00ff, "mov a,%m"⟩,
    ⟨0x0601, 0x00fe, "ldt16 'M8'"⟩,
    ⟨0x0600, 0x00fe, "stt16 'M8'"⟩,
    ⟨0x0701, 0x00fe, "idxm a,'M8'"⟩,
    ⟨0x0700, 0x00fe, "idxm 'M8',a"⟩,
    ⟨0x2700, 0x00ff, "xch %m"⟩,
    ⟨0x0072, 0x0000, "push af"⟩,
    ⟨0x0073, 0x0000, "pop af"⟩,
    ⟨0x5000, 0x00ff, "add %k"⟩,
    ⟨0x1000, 0x00ff, "add %m,a"⟩,
    ⟨0x1800, 0x00ff, "add a,%m"⟩,
    ⟨0x5100, 0x00ff, "sub %k"⟩,
    ⟨0x1100, 0x00ff, "sub %m,a"⟩,
    ⟨0x1900, 0x00ff, "sub a,%m"⟩,
    ⟨0x0060, 0x0000, "addc"⟩,
    ⟨0x1200, 0x00ff, "addc %m,a"⟩,
    ⟨0x1a00, 0x00ff, "addc a,%m"⟩,
    ⟨0x2000, 0x00ff, "addc %m"⟩,
    ⟨0x0061, 0x0000, "subc"⟩,
    ⟨0x1300, 0x00ff, "subc %m,a"⟩,
    ⟨0x1b00, 0x00ff, "subc a,%m"⟩,
    ⟨0x2100, 0x00ff, "subc %m"⟩,
    ⟨0x2400, 0x00ff, "inc %m"⟩,
    ⟨0x2500, 0x00ff, "dec %m"⟩,
    ⟨0x2600, 0x00ff, "clear %m"⟩,
    ⟨0x006a, 0x0000, "sr"⟩,
    ⟨0x2a00, 0x00ff, "sr %m"⟩,
    ⟨0x006b, 0x0000, "sl"⟩,
    ⟨0x2b00, 0x00ff, "sl %m"⟩,
    ⟨0x006c, 0x0000, "src"⟩,
    ⟨0x2c00, 0x00ff, "src %m"⟩,
    ⟨0x006d, 0x0000, "slc"⟩,
    ⟨0x2d00, 0x00ff, "slc %m"⟩,
    ⟨0x5400, 0x00ff, "and %k"⟩,
    ⟨0x1400, 0x00ff, "and %m,a"⟩,
    ⟨0x1c00, 0x00ff, "and a,%m"⟩,
    ⟨0x5500, 0x00ff, "or %k"⟩,
    ⟨0x1500, 0x00ff, "or %m,a"⟩,
    ⟨0x1d00, 0x00ff, "or a,%m"⟩,
    ⟨0x5600, 0x00ff, "xor %k"⟩,
    ⟨0x1600, 0x00ff, "xor %m,a"⟩,
    ⟨0x1e00, 0x00ff, "xor a,%m"⟩,
    ⟨0x0080, 0x007f, "xor %i,a"⟩,
    ⟨0x0068, 0x0000, "not"⟩,
    ⟨0x2800, 0x00ff, "not %m"⟩,
    ⟨0x0069, 0x0000, "neg"⟩,
    ⟨0x2900, 0x00ff, "neg %m"⟩,
    ⟨0x3800, 0x03ff, "set0 %i,'n7'"⟩,
    ⟨0x4800, 0x03ff, "set0 'm7','n7'"⟩,
    ⟨0x3c00, 0x03ff, "set1 %i,'n7'"⟩,
    ⟨0x4c00, 0x03ff, "set1 'm7','n7'"⟩,
    ⟨0x3000, 0x03ff, "t0sn %i,'n7'"⟩,
    ⟨0x4000, 0x03ff, "t0sn 'm7,'n7'"⟩,
    ⟨0x3400, 0x03ff, "t1sn %i,'n7'"⟩,
    ⟨0x4400, 0x03ff, "t1sn 'm7,'n7'"⟩,
    ⟨0x5200, 0x00ff, "ceqsn %k"⟩,
    ⟨0x2e00, 0x00ff, "ceqsn %m"⟩,
    ⟨0x5300, 0x00ff, "cneqsn %k"⟩,
    ⟨0x2f00, 0x00ff, "cneqsn %m"⟩,
    ⟨0x0062, 0x0000, "izsn"⟩,
    ⟨0x2200, 0x00ff, "izsn %m"⟩,
    ⟨0x0063, 0x0000, "dzsn"⟩,
    ⟨0x2300, 0x00ff, "dzsn %m"⟩,
    ⟨0x7000, 0x0fff, "call 'A12'"⟩,
    ⟨0x6000, 0x0fff, "goto 'A12'"⟩,
    ⟨0x0c00, 0x00ff, "comp a,%m"⟩,
    ⟨0x0d00, 0x00ff, "comp %m,a"⟩,
    ⟨0x0e00, 0x00ff, "nadd a,%m"⟩,
    ⟨0x0f00, 0x00ff, "nadd %m,a"⟩,
    ⟨0x006e, 0x0000, "swap"⟩,
    ⟨0x0067, 0x0000, "pcadd"⟩,
    ⟨0x0078, 0x0000, "engint"⟩,
    ⟨0x0079, 0x0000, "disint"⟩,
    ⟨0x0076, 0x0000, "stopsys"⟩,
    ⟨0x0077, 0x0000, "stopexe"⟩,
    ⟨0x0075, 0x0000, "reset"⟩,
    ⟨0x0070, 0x0000, "wdreset"⟩,
    ⟨0x5c00, 0x03ff, "swapc %i,'n7'"⟩,
    ⟨0x0006, 0x0000, "ldsptl"⟩,
    ⟨0x0007, 0x0000, "ldspth"⟩,
    ⟨0x007c, 0x0000, "mul"⟩,
    ⟨0x0500, 0x00ff, "ldtabl 'M8'"⟩,
    ⟨0x0501, 0x00ff, "ldtabh 'M8'"⟩,
    ⟨0xff00, 0x0000, "putchar"⟩]

/-- dis_tbl() of the three FPPs -/
def table : Var → List Entry
  | .p13 => table13
  | .p14 => table14
  | .p15 => table15

/-- `(code & mask) == code` of an entry, pdk.cc 401 -/
def Entry.hit (e : Entry) (w : Word) : Bool := w &&& ~~~e.dont == e.code

/-- cl_fpp::get_dis_entry, pdk.cc 395-406: the first entry that matches -/
def find (t : List Entry) (w : Word) : Option Entry := t.find? (·.hit w)

/-- a number in a line: `(code >> sh) & mask`, printed in a style -/
inductive Piece
  | ch (c : Char)
  | num (s : Style) (sh : Nat) (mask : Word)
  deriving DecidableEq

def Piece.out (w : Word) : Piece → Out
  | .ch c => .ch c
  | .num s sh m => .num s ((w >>> sh) &&& m).toNat

/-- the text between quotes, pdk.cc 441-486. It is given in reverse. -/
def quoted (fmt : List Char) : List Piece :=
  match fmt with
  | [] => [.ch '\'']
  | ['5', 'i'] => [.num .io 0 0x1f]
  | ['4', 'm'] => [.num .mem 0 0xf]
  | ['6', 'm'] => [.num .mem 0 0x3f]
  | ['7', 'm'] => [.num .mem 0 0x7f]
  | ['8', 'm'] => [.num .mem 0 0xff]
  | ['5', 'M'] => [.num .mem 0 (0x1f &&& ~~~1)]
  | ['7', 'M'] => [.num .mem 0 (0x7f &&& ~~~1)]
  | ['8', 'M'] => [.num .mem 0 (0xff &&& ~~~1)]
  | ['9', 'M'] => [.num .mem 0 (0x1ff &&& ~~~1)]
  | ['5', 'n'] => [.num .bit 5 7]
  | ['6', 'n'] => [.num .bit 6 7]
  | ['7', 'n'] => [.num .bit 7 7]
  | ['9', 'n'] => [.num .bit 9 7]
  | ['8', 'a'] => [.num .adr 0 0xff]
  | ['0', '1', 'a'] => [.num .adr 0 0x3ff]
  | ['1', '1', 'a'] => [.num .adr 0 0x7ff]
  | ['2', '1', 'a'] => [.num .adr 0 0xfff]
  | ['3', '1', 'a'] => [.num .adr 0 0x1fff]
  | ['4', 'd'] => [.num .bit 0 0xf]
  | ['5', 'd'] => [.num .bit 0 0x1f]
  | _ => []

/-- the character after a percent sign, pdk.cc 492-509 -/
def percent (v : Var) (c : Char) : List Piece :=
  match c with
  | 'm' => [.num .mem 0 (mMask v)]
  | 'M' => [.num .mem 0 (mMask v &&& ~~~1)]
  | 'k' => [.num .imm 0 0xff]
  | 'i' => [.num .io 0 (ioMask v)]
  | 'n' => [.num .bit 5 7]
  | _ => []

/-- where disassc is in the text: outside, after a percent sign, or in quotes with the reverse of
what was read -/
inductive St
  | txt | pct | quo (acc : List Char)

/-- the loop of cl_fpp::disassc, pdk.cc 430-514 -/
def scan (v : Var) : St → List Char → List Piece
  | .quo acc, [] => quoted acc
  | _, [] => []
  | .txt, c :: l =>
    if c = '\'' then scan v (.quo []) l else if c = '%' then scan v .pct l else .ch c :: scan v .txt l
  | .pct, c :: l => percent v c ++ scan v .txt l
  | .quo acc, c :: l => if c = '\'' then quoted acc ++ scan v .txt l else scan v (.quo (c :: acc)) l

/-- cl_fpp::disassc, pdk.cc 408-517; `none`: "-- UNKNOWN/INVALID" -/
def line (v : Var) (w : Word) : Option (List Out) :=
  (find (table v) w).map fun e => (scan v .txt e.text.toList).map (Piece.out w)

/-! ### Proofs -/

/-- no word can match both the instruction and the entry -/
def apart (op bits : Word) (e : Entry) : Bool :=
  (e.code &&& e.dont != 0) || ((op ^^^ e.code) &&& ~~~bits &&& ~~~e.dont != 0)

theorem apart_hit {op bits : Word} {e : Entry} (h : apart op bits e = true) {w : Word} (hw : w &&& ~~~bits = op) :
    e.hit w = false := by
  cases hh : e.hit w with
  | false => rfl
  | true =>
    unfold Entry.hit at hh
    have hh : w &&& ~~~e.dont = e.code := by simpa using hh
    unfold apart at h
    rw [← hw, ← hh] at h
    exfalso
    revert h
    simp only [Bool.or_eq_true, bne_iff_ne, ne_eq]
    rintro (h | h) <;> apply h <;> apply BitVec.eq_of_getLsbD_eq <;> intro i hi <;>
      rw [show (0 : Word).getLsbD i = false from BitVec.getLsbD_zero] <;>
      simp only [BitVec.getLsbD_and, BitVec.getLsbD_xor, BitVec.getLsbD_not, BitVec.getLsbD_zero, hi, decide_true, Bool.true_and]
    · cases w.getLsbD i <;> cases e.dont.getLsbD i <;> rfl
    · cases w.getLsbD i <;> cases e.dont.getLsbD i <;> cases bits.getLsbD i <;> rfl

theorem find_filter {op bits w : Word} (hw : w &&& ~~~bits = op) (t : List Entry) :
    find t w = find (t.filter fun e => !apart op bits e) w := by
  induction t with
  | nil => rfl
  | cons e t ih =>
    unfold find at ih ⊢
    cases ha : apart op bits e with
    | true => rw [List.find?_cons_of_neg (by rw [apart_hit ha hw]; decide), List.filter_cons_of_neg (by simp [ha])]; exact ih
    | false =>
      rw [List.filter_cons_of_pos (by simp [ha])]
      cases hh : e.hit w with
      | true => rw [List.find?_cons_of_pos (by exact hh), List.find?_cons_of_pos (by exact hh)]
      | false => rw [List.find?_cons_of_neg (by rw [hh]; decide), List.find?_cons_of_neg (by rw [hh]; decide)]; exact ih

/-- the pieces of a text whose operands are at the given places -/
def fillP : List Char → List Field → List Piece
  | [], _ => []
  | c :: l, fs =>
    match place c, fs with
    | some s, f :: fs => .num s f.shift (f.mask >>> f.shift) :: fillP l fs
    | _, _ => .ch c :: fillP l fs

theorem fillP_out (w : Word) (l : List Char) (fs : List Field) :
    (fillP l fs).map (Piece.out w) = fill l (fs.map (·.of w)) := by
  induction l generalizing fs with
  | nil => rfl
  | cons c l ih =>
    unfold fillP fill
    cases place c with
    | none => cases fs <;> simp [Piece.out, ih]
    | some s =>
      cases fs with
      | nil => have := ih []; simp at this; simp [Piece.out, this]
      | cons f fs =>
        simp only [List.map_cons, Piece.out, ih]
        rw [Field.of, BitVec.ushiftRight_and_distrib]

/-- the instructions whose lines are right -/
def shown (v : Var) (f : Form) : Bool :=
  match v, f with
  | _, .disgint => false
  | .p13, .alc true .m => false
  | .p13, .bit _ false => false
  | .p13, .tsn _ false => false
  | .p14, .comp true => false
  | .p15, .tsn _ false => false
  | .p15, .call => false
  | .p15, .goto => false
  | _, _ => true

def check (v : Var) (d : Doc) : Bool :=
  match (table v).filter fun e => !apart d.op d.opbits e with
  | [e] => e.code == d.op && e.dont == d.opbits && (scan v .txt e.text.toList == fillP (text d.form).toList d.fields)
  | _ => false

theorem checks (v : Var) : ∀ d ∈ docs v, shown v d.form = true → check v d = true := by
  cases v <;> decide +kernel

/-- C148: the line for every instruction is that of the instruction that is executed (step_enc and C138
to C143 say what that does) with its operands. What is missing: the instructions that `shown` leaves
out, see the theorems c148_false. -/
theorem c148_shown_partial {v : Var} {w : Word} {f : Form} {args : List Nat} (h : Enc v w f args) (hs : shown v f = true) :
    line v w = some (asm f args) := by
  obtain ⟨d, hd, rfl, hc, rfl⟩ := h
  have := checks v d hd hs
  unfold check at this
  split at this
  · rename_i e he
    simp only [Bool.and_eq_true, beq_iff_eq] at this
    obtain ⟨⟨h1, h2⟩, h3⟩ := this
    unfold line
    rw [find_filter hc, he]
    have hh : e.hit w = true := by unfold Entry.hit; rw [h1, h2, hc]; simp
    unfold find
    rw [List.find?_cons_of_pos (by exact hh)]
    simp only [Option.map_some, asm]
    rw [h3, fillP_out]
  · cases this

/-! What is shown is executed -/

/-- words that are shown but are no instructions here: reti, putchar, cneqsn of the PDK13, 0x6800 (comp) of
the PDK14 and ldtabl of the PDK15 -/
def ghosts : Var → List (Word × Word)
  | .p13 => [(0x003b, 0), (0xff00, 0), (0x1300, 0xff), (0x0bc0, 0x3f)]
  | .p14 => [(0x007b, 0), (0xff00, 0), (0x6800, 0x7f)]
  | .p15 => [(0x007b, 0), (0xff00, 0), (0x0500, 0xff)]

def known (v : Var) (e : Entry) : Bool :=
  e.code &&& e.dont != 0 || (docs v).any (fun d => d.op == e.code && d.opbits == e.dont) || (ghosts v).contains (e.code, e.dont)

theorem knowns (v : Var) : ∀ e ∈ table v, known v e = true := by
  cases v <;> decide +kernel

/-- C148: a word that is no instruction is shown as unknown, but for the `ghosts` -/
theorem c148_invalid_partial {v : Var} {w : Word} (h : ∀ f args, ¬ Enc v w f args)
    (hg : ∀ g ∈ ghosts v, w &&& ~~~g.2 ≠ g.1) : line v w = none := by
  unfold line
  cases hf : find (table v) w with
  | none => rfl
  | some e =>
    exfalso
    have hm := List.mem_of_find?_eq_some hf
    have hh : e.hit w = true := by have := List.find?_some hf; simpa using this
    have hh : w &&& ~~~e.dont = e.code := by unfold Entry.hit at hh; simpa using hh
    have hk := knowns v e hm
    unfold known at hk
    simp only [Bool.or_eq_true, bne_iff_ne, ne_eq] at hk
    rcases hk with (hk | hk) | hk
    · apply hk; rw [← hh]
      apply BitVec.eq_of_getLsbD_eq; intro i hi
      simp [BitVec.getLsbD_and, BitVec.getLsbD_not]
    · obtain ⟨d, hd, hx⟩ := List.any_eq_true.1 hk
      simp only [Bool.and_eq_true, beq_iff_eq] at hx
      exact h d.form _ ⟨d, hd, rfl, by rw [hx.2, hx.1]; exact hh, rfl⟩
    · have := hg (e.code, e.dont) (by simpa using hk)
      exact this hh

/-- the kinds of the pieces, without the values -/
def shape : Out → Option Char × Option Style
  | .ch c => (some c, none)
  | .num s _ => (none, some s)

/-- the numbers of a line -/
def nums : List Out → List Nat
  | [] => []
  | .num _ n :: l => n :: nums l
  | .ch _ :: l => nums l

/-- the number of operands that a text has places for -/
def places (l : List Char) : Nat := (l.filter fun c => (place c).isSome).length

theorem fill_nums (l : List Char) (ns : List Nat) (h : places l = ns.length) : nums (fill l ns) = ns := by
  induction l generalizing ns with
  | nil => cases ns with
    | nil => rfl
    | cons _ _ => simp [places] at h
  | cons c l ih =>
    unfold fill
    cases hp : place c with
    | none =>
      have h' : places l = ns.length := by rw [← h]; simp [places, hp]
      simp [nums, ih ns h']
    | some s =>
      cases ns with
      | nil => simp [places, hp] at h
      | cons n ns =>
        have h' : places l = ns.length := by
          have : places (c :: l) = places l + 1 := by simp [places, hp]
          rw [this] at h; simpa using h
        simp [nums, ih ns h']

def shapeC (c : Char) : Option Char × Option Style :=
  match place c with
  | some s => (none, some s)
  | none => (some c, none)

theorem fill_shape (l : List Char) (ns : List Nat) (h : places l = ns.length) : (fill l ns).map shape = l.map shapeC := by
  induction l generalizing ns with
  | nil => rfl
  | cons c l ih =>
    unfold fill
    cases hp : place c with
    | none =>
      have h' : places l = ns.length := by rw [← h]; simp [places, hp]
      simp [shape, shapeC, hp, ih ns h']
    | some s =>
      cases ns with
      | nil => simp [places, hp] at h
      | cons n ns =>
        have h' : places l = ns.length := by
          have : places (c :: l) = places l + 1 := by simp [places, hp]
          rw [this] at h; simpa using h
        simp [shape, shapeC, hp, ih ns h']

theorem docs_places (v : Var) : ∀ d ∈ docs v, places (text d.form).toList = d.fields.length := by
  cases v <;> decide +kernel

theorem docs_distinct (v : Var) : ∀ d ∈ docs v, ∀ d' ∈ docs v,
    (text d.form).toList.map shapeC = (text d'.form).toList.map shapeC → d.form = d'.form := by
  cases v <;> decide +kernel

/-- C148: two words shown by the same line are the same instruction with the same operands -/
theorem c148_same_partial {v : Var} {w w' : Word} {f f' : Form} {args args' : List Nat} (h : Enc v w f args)
    (h' : Enc v w' f' args') (hs : shown v f = true) (hs' : shown v f' = true) (hl : line v w = line v w') :
    f = f' ∧ args = args' := by
  rw [c148_shown_partial h hs, c148_shown_partial h' hs'] at hl
  have hl : asm f args = asm f' args' := Option.some.inj hl
  obtain ⟨d, hd, rfl, hc, rfl⟩ := h
  obtain ⟨d', hd', rfl, hc', rfl⟩ := h'
  have p : places (text d.form).toList = (d.fields.map (·.of w)).length := by rw [List.length_map]; exact docs_places v d hd
  have p' : places (text d'.form).toList = (d'.fields.map (·.of w')).length := by rw [List.length_map]; exact docs_places v d' hd'
  constructor
  · apply docs_distinct v d hd d' hd'
    have := congrArg (List.map shape) hl
    unfold asm at this
    rwa [fill_shape _ _ p, fill_shape _ _ p'] at this
  · have := congrArg nums hl
    unfold asm at this
    rwa [fill_nums _ _ p, fill_nums _ _ p'] at this

/-- t0sn 0x10,3 of the PDK14 -/
example : Enc .p14 0x18d0 (.tsn false true) [0x10, 3] ∧ shown .p14 (.tsn false true) = true ∧
    line .p14 0x18d0 = some [.ch 't', .ch '0', .ch 's', .ch 'n', .ch ' ', .num .io 0x10, .ch ',', .num .bit 3] := by
  refine ⟨⟨⟨.tsn false true, 0x1800, [⟨0x003f, 0⟩, ⟨0x01c0, 6⟩]⟩, by decide +kernel, rfl, by decide +kernel, by decide +kernel⟩, rfl, by decide +kernel⟩

/-- a word that is not an instruction and not shown as one -/
example : line .p13 0x0001 = none ∧ ∀ g ∈ ghosts .p13, (0x0001 : Word) &&& ~~~g.2 ≠ g.1 := by decide +kernel

/-- C148 is false: the target of call and goto of the PDK15 is not shown: two calls of different
subroutines have the same line -/
theorem c148_false_call : Enc .p15 0x7123 .call [0x123] ∧ Enc .p15 0x7456 .call [0x456] ∧
    line .p15 0x7123 = line .p15 0x7456 ∧ line .p15 0x7123 = some [.ch 'c', .ch 'a', .ch 'l', .ch 'l', .ch ' '] := by
  refine ⟨⟨⟨.call, 0x7000, [⟨0x0fff, 0⟩]⟩, by decide +kernel, rfl, by decide +kernel, by decide +kernel⟩,
    ⟨⟨.call, 0x7000, [⟨0x0fff, 0⟩]⟩, by decide +kernel, rfl, by decide +kernel, by decide +kernel⟩, by decide +kernel, by decide +kernel⟩

/-- C148 is false: `comp m,a` of the PDK14 and `subc m` of the PDK13 are shown as unknown -/
theorem c148_false_unknown : Enc .p14 0x0685 (.comp true) [5] ∧ line .p14 0x0685 = none ∧
    Enc .p13 0x0845 (.alc true .m) [5] ∧ line .p13 0x0845 = none := by
  refine ⟨⟨⟨.comp true, 0x0680, [⟨0x007f, 0⟩]⟩, by decide +kernel, rfl, by decide +kernel, by decide +kernel⟩, by decide +kernel,
    ⟨⟨.alc true .m, 0x0840, [⟨0x003f, 0⟩]⟩, by decide +kernel, rfl, by decide +kernel, by decide +kernel⟩, by decide +kernel⟩

/-- C148 is false: bits of memory on the PDK13 and PDK15: the operands are not shown -/
theorem c148_false_bits : line .p13 0x0321 = line .p13 0x0322 ∧ Enc .p13 0x0321 (.bit false false) [1, 1] ∧
    Enc .p13 0x0322 (.bit false false) [2, 1] ∧ line .p15 0x4085 = line .p15 0x4106 ∧
    Enc .p15 0x4085 (.tsn false false) [5, 1] ∧ Enc .p15 0x4106 (.tsn false false) [6, 2] := by
  refine ⟨by decide +kernel, ⟨⟨.bit false false, 0x0300, [⟨0x000f, 0⟩, ⟨0x00e0, 5⟩]⟩, by decide +kernel, rfl, by decide +kernel, by decide +kernel⟩,
    ⟨⟨.bit false false, 0x0300, [⟨0x000f, 0⟩, ⟨0x00e0, 5⟩]⟩, by decide +kernel, rfl, by decide +kernel, by decide +kernel⟩, by decide +kernel,
    ⟨⟨.tsn false false, 0x4000, [⟨0x007f, 0⟩, ⟨0x0380, 7⟩]⟩, by decide +kernel, rfl, by decide +kernel, by decide +kernel⟩,
    ⟨⟨.tsn false false, 0x4000, [⟨0x007f, 0⟩, ⟨0x0380, 7⟩]⟩, by decide +kernel, rfl, by decide +kernel, by decide +kernel⟩⟩

/-- C148 is false: reti is shown, but no instruction set executes it -/
theorem c148_false_ghost : line .p14 0x007b = some [.ch 'r', .ch 'e', .ch 't', .ch 'i'] ∧ pick (chain .p14) 0x007b = none ∧
    (line .p13 0x1305).isSome = true ∧ pick (chain .p13) 0x1305 = none := by decide +kernel

end Ucsim.Pdk.Dis
