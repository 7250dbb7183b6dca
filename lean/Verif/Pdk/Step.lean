import Verif.Spec.Pdk
/-
The PADAUK simulator of /repo/src/sims/pdk.src: the processors (FPP) of the PDK13, PDK14 and PDK15
(pdk.cc, inst.cc, pdk13.cc, pdk14.cc, pdk15.cc) and their sharing of one memory.

Simplifications: the program and data memories are total functions, what they give outside of the
memory (0x2000 words, 0x200 bytes) stands for the content of the dummy cell, mem.cc 1523-1531; the
FPP belongs to a chip (puc is not NULL); breakpoints, statistics, the oscillators and the time are not
modelled, T16 and the watchdog only by their counters (see Verif/Pdk/Hw.lean).
-/
namespace Ucsim.Pdk

/-- rA, rF, rSP and PC of a cl_fpp, pdkcl.h 123-133. rF and rSP are reached through the cells 0 and 2
of the io space, which act() points to the FPP that runs, pdk.cc 115-120. -/
structure Cpu where
  A : Byte
  F : Byte
  SP : Byte
  PC : Nat

/-- enum pdk_mode_t, pdkcl.h 73-77 -/
inductive Mode
  | run | pd | ps
  deriving DecidableEq

/-- What the FPPs share, cl_pdk, pdkcl.h 241-254: the memories, rFPPEN, nuof_fpp (fpps[i] is not NULL
for the i below it), rMULRH, the counter of T16 and of the watchdog, mode. -/
structure Sh where
  ram : Nat → Byte
  sfr : Nat → Byte
  rom : Nat → Word
  fppen : Byte
  n : Nat
  mulrh : Byte
  t16 : BitVec 16
  wdt : Nat
  mode : Mode

/-- one branch of the else-if chain of execute -/
structure Row where
  op : Word
  m : Word
  form : Form
  deriving DecidableEq

/-- The conditions of cl_fpp13::execute in their order, pdk13.cc 61-395, made from the text of the
file by a script: (op, m) of CODE_MASK(op, m), m = 0 for `code == op`; the name is the comment of the
branch. -/
def chain13 : List Row :=
  [
    ⟨0x0000, 0x0000, .nop⟩,
    ⟨0x0100, 0x00ff, .retk⟩,
    ⟨0x003a, 0x0000, .ret⟩,
    ⟨0x1700, 0x00ff, .movAK⟩,
    ⟨0x0080, 0x001f, .movIA⟩,
    ⟨0x00a0, 0x001f, .movAI⟩,
    ⟨0x05c0, 0x003f, .movMA⟩,
    ⟨0x07c0, 0x003f, .movAM⟩,
    ⟨0x00c1, 0x001e, .ldt16⟩,
    ⟨0x00c0, 0x001e, .stt16⟩,
    ⟨0x00e1, 0x001e, .idxmAM⟩,
    ⟨0x00e0, 0x001e, .idxmMA⟩,
    ⟨0x09c0, 0x003f, .xch⟩,
    ⟨0x0032, 0x0000, .pushaf⟩,
    ⟨0x0033, 0x0000, .popaf⟩,
    ⟨0x1000, 0x00ff, .alu .add .ak⟩,
    ⟨0x0600, 0x003f, .alu .add .am⟩,
    ⟨0x0400, 0x003f, .alu .add .ma⟩,
    ⟨0x1100, 0x00ff, .alu .sub .ak⟩,
    ⟨0x0640, 0x003f, .alu .sub .am⟩,
    ⟨0x0440, 0x003f, .alu .sub .ma⟩,
    ⟨0x0680, 0x003f, .alc false .am⟩,
    ⟨0x0480, 0x003f, .alc false .ma⟩,
    ⟨0x0010, 0x0000, .alc false .a⟩,
    ⟨0x0800, 0x003f, .alc false .m⟩,
    ⟨0x06c0, 0x003f, .alc true .am⟩,
    ⟨0x04c0, 0x003f, .alc true .ma⟩,
    ⟨0x0011, 0x0000, .alc true .a⟩,
    ⟨0x0840, 0x003f, .alc true .m⟩,
    ⟨0x0900, 0x003f, .inc⟩,
    ⟨0x0940, 0x003f, .dec⟩,
    ⟨0x0980, 0x003f, .clear⟩,
    ⟨0x001a, 0x0000, .sh .sr true⟩,
    ⟨0x0a80, 0x003f, .sh .sr false⟩,
    ⟨0x001b, 0x0000, .sh .sl true⟩,
    ⟨0x0ac0, 0x003f, .sh .sl false⟩,
    ⟨0x001c, 0x0000, .sh .src true⟩,
    ⟨0x0b00, 0x003f, .sh .src false⟩,
    ⟨0x001d, 0x0000, .sh .slc true⟩,
    ⟨0x0b40, 0x003f, .sh .slc false⟩,
    ⟨0x1400, 0x00ff, .alu .and .ak⟩,
    ⟨0x0700, 0x003f, .alu .and .am⟩,
    ⟨0x0500, 0x003f, .alu .and .ma⟩,
    ⟨0x1500, 0x00ff, .alu .or .ak⟩,
    ⟨0x0740, 0x003f, .alu .or .am⟩,
    ⟨0x0540, 0x003f, .alu .or .ma⟩,
    ⟨0x1600, 0x00ff, .alu .xor .ak⟩,
    ⟨0x0780, 0x003f, .alu .xor .am⟩,
    ⟨0x0580, 0x003f, .alu .xor .ma⟩,
    ⟨0x0060, 0x001f, .xorIA⟩,
    ⟨0x0018, 0x0000, .un false true⟩,
    ⟨0x0a00, 0x003f, .un false false⟩,
    ⟨0x0019, 0x0000, .un true true⟩,
    ⟨0x0a40, 0x003f, .un true false⟩,
    ⟨0x0e00, 0x00ff, .bit false true⟩,
    ⟨0x0300, 0x00ef, .bit false false⟩,
    ⟨0x0f00, 0x00ff, .bit true true⟩,
    ⟨0x0310, 0x00ef, .bit true false⟩,
    ⟨0x0c00, 0x00ff, .tsn false true⟩,
    ⟨0x0200, 0x00ef, .tsn false false⟩,
    ⟨0x0d00, 0x00ff, .tsn true true⟩,
    ⟨0x0210, 0x00ef, .tsn true false⟩,
    ⟨0x1200, 0x00ff, .ceq false true⟩,
    ⟨0x0b80, 0x003f, .ceq false false⟩,
    ⟨0x0012, 0x0000, .izs false true⟩,
    ⟨0x0880, 0x003f, .izs false false⟩,
    ⟨0x0013, 0x0000, .izs true true⟩,
    ⟨0x08c0, 0x003f, .izs true false⟩,
    ⟨0x1c00, 0x03ff, .call⟩,
    ⟨0x1800, 0x03ff, .goto⟩,
    ⟨0x001e, 0x0000, .swap⟩,
    ⟨0x0017, 0x0000, .pcadd⟩,
    ⟨0x0038, 0x0000, .engint⟩,
    ⟨0x0039, 0x0000, .disgint⟩,
    ⟨0x0036, 0x0000, .stopsys⟩,
    ⟨0x0037, 0x0000, .stopexe⟩,
    ⟨0x0035, 0x0000, .reset⟩,
    ⟨0x0030, 0x0000, .wdreset⟩,
    ⟨0x0006, 0x0000, .ldsptl⟩,
    ⟨0x0007, 0x0000, .ldspth⟩,
    ⟨0x003c, 0x0000, .mul⟩]

/-- The conditions of cl_fpp14::execute in their order, pdk14.cc 61-439, made from the text of the
file by a script: (op, m) of CODE_MASK(op, m), m = 0 for `code == op`; the name is the comment of the
branch. -/
def chain14 : List Row :=
  [
    ⟨0x0000, 0x0000, .nop⟩,
    ⟨0x0200, 0x00ff, .retk⟩,
    ⟨0x007a, 0x0000, .ret⟩,
    ⟨0x2f00, 0x00ff, .movAK⟩,
    ⟨0x0180, 0x003f, .movIA⟩,
    ⟨0x01c0, 0x003f, .movAI⟩,
    ⟨0x0b80, 0x007f, .movMA⟩,
    ⟨0x0f80, 0x007f, .movAM⟩,
    ⟨0x0301, 0x007e, .ldt16⟩,
    ⟨0x0300, 0x007e, .stt16⟩,
    ⟨0x0381, 0x007e, .idxmAM⟩,
    ⟨0x0380, 0x007e, .idxmMA⟩,
    ⟨0x1380, 0x007f, .xch⟩,
    ⟨0x0072, 0x0000, .pushaf⟩,
    ⟨0x0073, 0x0000, .popaf⟩,
    ⟨0x2800, 0x00ff, .alu .add .ak⟩,
    ⟨0x0c00, 0x007f, .alu .add .am⟩,
    ⟨0x0800, 0x007f, .alu .add .ma⟩,
    ⟨0x2900, 0x00ff, .alu .sub .ak⟩,
    ⟨0x0c80, 0x007f, .alu .sub .am⟩,
    ⟨0x0880, 0x007f, .alu .sub .ma⟩,
    ⟨0x0d00, 0x007f, .alc false .am⟩,
    ⟨0x0900, 0x007f, .alc false .ma⟩,
    ⟨0x0060, 0x0000, .alc false .a⟩,
    ⟨0x1000, 0x007f, .alc false .m⟩,
    ⟨0x0d80, 0x007f, .alc true .am⟩,
    ⟨0x0980, 0x007f, .alc true .ma⟩,
    ⟨0x0061, 0x0000, .alc true .a⟩,
    ⟨0x1080, 0x007f, .alc true .m⟩,
    ⟨0x1200, 0x007f, .inc⟩,
    ⟨0x1280, 0x007f, .dec⟩,
    ⟨0x1300, 0x007f, .clear⟩,
    ⟨0x006a, 0x0000, .sh .sr true⟩,
    ⟨0x1500, 0x007f, .sh .sr false⟩,
    ⟨0x006b, 0x0000, .sh .sl true⟩,
    ⟨0x1580, 0x007f, .sh .sl false⟩,
    ⟨0x006c, 0x0000, .sh .src true⟩,
    ⟨0x1600, 0x007f, .sh .src false⟩,
    ⟨0x006d, 0x0000, .sh .slc true⟩,
    ⟨0x1680, 0x007f, .sh .slc false⟩,
    ⟨0x2c00, 0x00ff, .alu .and .ak⟩,
    ⟨0x0e00, 0x007f, .alu .and .am⟩,
    ⟨0x0a00, 0x007f, .alu .and .ma⟩,
    ⟨0x2d00, 0x00ff, .alu .or .ak⟩,
    ⟨0x0e80, 0x007f, .alu .or .am⟩,
    ⟨0x0a80, 0x007f, .alu .or .ma⟩,
    ⟨0x2e00, 0x00ff, .alu .xor .ak⟩,
    ⟨0x0f00, 0x007f, .alu .xor .am⟩,
    ⟨0x0b00, 0x007f, .alu .xor .ma⟩,
    ⟨0x00c0, 0x003f, .xorIA⟩,
    ⟨0x0068, 0x0000, .un false true⟩,
    ⟨0x1400, 0x007f, .un false false⟩,
    ⟨0x0069, 0x0000, .un true true⟩,
    ⟨0x1480, 0x007f, .un true false⟩,
    ⟨0x1c00, 0x01ff, .bit false true⟩,
    ⟨0x2400, 0x01ff, .bit false false⟩,
    ⟨0x1e00, 0x01ff, .bit true true⟩,
    ⟨0x2600, 0x01ff, .bit true false⟩,
    ⟨0x1800, 0x01ff, .tsn false true⟩,
    ⟨0x2000, 0x01ff, .tsn false false⟩,
    ⟨0x1a00, 0x01ff, .tsn true true⟩,
    ⟨0x2200, 0x01ff, .tsn true false⟩,
    ⟨0x2a00, 0x00ff, .ceq false true⟩,
    ⟨0x1700, 0x007f, .ceq false false⟩,
    ⟨0x2b00, 0x00ff, .ceq true true⟩,
    ⟨0x1780, 0x007f, .ceq true false⟩,
    ⟨0x0062, 0x0000, .izs false true⟩,
    ⟨0x1100, 0x007f, .izs false false⟩,
    ⟨0x0063, 0x0000, .izs true true⟩,
    ⟨0x1180, 0x007f, .izs true false⟩,
    ⟨0x3800, 0x07ff, .call⟩,
    ⟨0x3000, 0x07ff, .goto⟩,
    ⟨0x0600, 0x007f, .comp false⟩,
    ⟨0x0680, 0x007f, .comp true⟩,
    ⟨0x0700, 0x007f, .nadd false⟩,
    ⟨0x0780, 0x007f, .nadd true⟩,
    ⟨0x006e, 0x0000, .swap⟩,
    ⟨0x0067, 0x0000, .pcadd⟩,
    ⟨0x0078, 0x0000, .engint⟩,
    ⟨0x0079, 0x0000, .disgint⟩,
    ⟨0x0076, 0x0000, .stopsys⟩,
    ⟨0x0077, 0x0000, .stopexe⟩,
    ⟨0x0075, 0x0000, .reset⟩,
    ⟨0x0070, 0x0000, .wdreset⟩,
    ⟨0x0400, 0x01ff, .swapc⟩,
    ⟨0x0006, 0x0000, .ldsptl⟩,
    ⟨0x0007, 0x0000, .ldspth⟩,
    ⟨0x007c, 0x0000, .mul⟩]

/-- The conditions of cl_fpp15::execute in their order, pdk15.cc 61-439, made from the text of the
file by a script: (op, m) of CODE_MASK(op, m), m = 0 for `code == op`; the name is the comment of the
branch. -/
def chain15 : List Row :=
  [
    ⟨0x0000, 0x0000, .nop⟩,
    ⟨0x0200, 0x00ff, .retk⟩,
    ⟨0x007a, 0x0000, .ret⟩,
    ⟨0x5700, 0x00ff, .movAK⟩,
    ⟨0x0100, 0x007f, .movIA⟩,
    ⟨0x0180, 0x007f, .movAI⟩,
    ⟨0x1700, 0x00ff, .movMA⟩,
    ⟨0x1f00, 0x00ff, .movAM⟩,
    ⟨0x0601, 0x00fe, .ldt16⟩,
    ⟨0x0600, 0x00fe, .stt16⟩,
    ⟨0x0701, 0x00fe, .idxmAM⟩,
    ⟨0x0700, 0x00fe, .idxmMA⟩,
    ⟨0x2700, 0x00ff, .xch⟩,
    ⟨0x0072, 0x0000, .pushaf⟩,
    ⟨0x0073, 0x0000, .popaf⟩,
    ⟨0x5000, 0x00ff, .alu .add .ak⟩,
    ⟨0x1800, 0x00ff, .alu .add .am⟩,
    ⟨0x1000, 0x00ff, .alu .add .ma⟩,
    ⟨0x5100, 0x00ff, .alu .sub .ak⟩,
    ⟨0x1900, 0x00ff, .alu .sub .am⟩,
    ⟨0x1100, 0x00ff, .alu .sub .ma⟩,
    ⟨0x1a00, 0x00ff, .alc false .am⟩,
    ⟨0x1200, 0x00ff, .alc false .ma⟩,
    ⟨0x0060, 0x0000, .alc false .a⟩,
    ⟨0x2000, 0x00ff, .alc false .m⟩,
    ⟨0x1b00, 0x00ff, .alc true .am⟩,
    ⟨0x1300, 0x00ff, .alc true .ma⟩,
    ⟨0x0061, 0x0000, .alc true .a⟩,
    ⟨0x2100, 0x00ff, .alc true .m⟩,
    ⟨0x2400, 0x00ff, .inc⟩,
    ⟨0x2500, 0x00ff, .dec⟩,
    ⟨0x2600, 0x00ff, .clear⟩,
    ⟨0x006a, 0x0000, .sh .sr true⟩,
    ⟨0x2a00, 0x00ff, .sh .sr false⟩,
    ⟨0x006b, 0x0000, .sh .sl true⟩,
    ⟨0x2b00, 0x00ff, .sh .sl false⟩,
    ⟨0x006c, 0x0000, .sh .src true⟩,
    ⟨0x2c00, 0x00ff, .sh .src false⟩,
    ⟨0x006d, 0x0000, .sh .slc true⟩,
    ⟨0x2d00, 0x00ff, .sh .slc false⟩,
    ⟨0x5400, 0x00ff, .alu .and .ak⟩,
    ⟨0x1c00, 0x00ff, .alu .and .am⟩,
    ⟨0x1400, 0x00ff, .alu .and .ma⟩,
    ⟨0x5500, 0x00ff, .alu .or .ak⟩,
    ⟨0x1d00, 0x00ff, .alu .or .am⟩,
    ⟨0x1500, 0x00ff, .alu .or .ma⟩,
    ⟨0x5600, 0x00ff, .alu .xor .ak⟩,
    ⟨0x1e00, 0x00ff, .alu .xor .am⟩,
    ⟨0x1600, 0x00ff, .alu .xor .ma⟩,
    ⟨0x0080, 0x007f, .xorIA⟩,
    ⟨0x0068, 0x0000, .un false true⟩,
    ⟨0x2800, 0x00ff, .un false false⟩,
    ⟨0x0069, 0x0000, .un true true⟩,
    ⟨0x2900, 0x00ff, .un true false⟩,
    ⟨0x3800, 0x03ff, .bit false true⟩,
    ⟨0x4800, 0x03ff, .bit false false⟩,
    ⟨0x3c00, 0x03ff, .bit true true⟩,
    ⟨0x4c00, 0x03ff, .bit true false⟩,
    ⟨0x3000, 0x03ff, .tsn false true⟩,
    ⟨0x4000, 0x03ff, .tsn false false⟩,
    ⟨0x3400, 0x03ff, .tsn true true⟩,
    ⟨0x4400, 0x03ff, .tsn true false⟩,
    ⟨0x5200, 0x00ff, .ceq false true⟩,
    ⟨0x2e00, 0x00ff, .ceq false false⟩,
    ⟨0x5300, 0x00ff, .ceq true true⟩,
    ⟨0x2f00, 0x00ff, .ceq true false⟩,
    ⟨0x0062, 0x0000, .izs false true⟩,
    ⟨0x2200, 0x00ff, .izs false false⟩,
    ⟨0x0063, 0x0000, .izs true true⟩,
    ⟨0x2300, 0x00ff, .izs true false⟩,
    ⟨0x7000, 0x0fff, .call⟩,
    ⟨0x6000, 0x0fff, .goto⟩,
    ⟨0x0c00, 0x00ff, .comp false⟩,
    ⟨0x0d00, 0x00ff, .comp true⟩,
    ⟨0x0e00, 0x00ff, .nadd false⟩,
    ⟨0x0f00, 0x00ff, .nadd true⟩,
    ⟨0x006e, 0x0000, .swap⟩,
    ⟨0x0067, 0x0000, .pcadd⟩,
    ⟨0x0078, 0x0000, .engint⟩,
    ⟨0x0079, 0x0000, .disgint⟩,
    ⟨0x0076, 0x0000, .stopsys⟩,
    ⟨0x0077, 0x0000, .stopexe⟩,
    ⟨0x0075, 0x0000, .reset⟩,
    ⟨0x0070, 0x0000, .wdreset⟩,
    ⟨0x5c00, 0x03ff, .swapc⟩,
    ⟨0x0006, 0x0000, .ldsptl⟩,
    ⟨0x0007, 0x0000, .ldspth⟩,
    ⟨0x007c, 0x0000, .mul⟩]

def chain : Var → List Row
  | .p13 => chain13
  | .p14 => chain14
  | .p15 => chain15

/-- CODE_MASK, pdkcl.h 69 -/
def Row.hit (r : Row) (code : Word) : Bool := (code &&& ~~~r.m) == r.op

/-- the first branch of execute whose condition holds -/
def pick : List Row → Word → Option Form
  | [], _ => none
  | r :: rs, code => if r.hit code then some r.form else pick rs code

/-- The masks of the operands in the bodies of execute, pdk13.cc, pdk14.cc, pdk15.cc: `code & 0x3F`,
`code & 0x7F`, `code & 0xFF` for memory, `code & 0x1F` ... for io, `code & 0x1E` ... for the word
operands, the memory operand and the bit number of the bit instructions, the target of call and
goto. -/
def mMask : Var → Word | .p13 => 0x3f | .p14 => 0x7f | .p15 => 0xff
def ioMask : Var → Word | .p13 => 0x1f | .p14 => 0x3f | .p15 => 0x7f
def wMask : Var → Word | .p13 => 0x1e | .p14 => 0x7e | .p15 => 0xfe
def bMask : Var → Word | .p13 => 0x0f | .p14 => 0x3f | .p15 => 0x7f
def nMask : Var → Word | .p13 => 0xe0 | .p14 => 0x1c0 | .p15 => 0x380
def nShift : Var → Nat | .p13 => 5 | .p14 => 6 | .p15 => 7
def jMask : Var → Word | .p13 => 0x3ff | .p14 => 0x7ff | .p15 => 0xfff

/-- a memory with one cell changed -/
def upd (f : Nat → Byte) (a : Nat) (x : Byte) : Nat → Byte := fun b => if b = a then x else f b

/-- add_to, inst.cc 38-52. `x & 0x7f` of an int is its residue modulo 128, `& 0xf` and `& 0xff`
alike. Returns the value and the new F. -/
def addTo (initial : Byte) (value : Int) (c : Nat) : Byte × Byte :=
  let r : Int := initial.toNat + value + c
  let r2 : Int := (initial.toNat : Int) % 128 + value % 128 + c
  let r3 : Int := (initial.toNat : Int) % 16 + value % 16 + c
  let f0 : Byte := if r % 256 = 0 then 1 else 0
  let C : Bool := decide (r > 0xff)
  let f1 : Byte := if C then f0 ||| 2 else f0
  let f2 : Byte := if r3 > 0xf then f1 ||| 4 else f1
  let hi : Bool := decide (128 ≤ r2 % 256)
  let f3 : Byte := if hi && !C then f2 ||| 8 else f2
  let f4 : Byte := if !hi && C then f3 ||| 8 else f3
  (BitVec.ofInt 8 r, f4)

/-- sub_to, inst.cc 63-76 -/
def subTo (initial : Byte) (value : Int) (c : Nat) : Byte × Byte :=
  let r : Int := initial.toNat - value - c
  let f0 : Byte := if r % 256 = 0 then 1 else 0
  let C : Bool := decide ((initial.toNat : Int) < value + c)
  let f1 : Byte := if C then f0 ||| 2 else f0
  let f2 : Byte := if value % 16 > (initial.toNat : Int) % 16 - c then f1 ||| 4 else f1
  let lo : Bool := decide ((initial.toNat : Int) % 128 - value % 128 - c < 0)
  let f3 : Byte := if C ^^ lo then f2 ||| 8 else f2
  (BitVec.ofInt 8 r, f3)

/-- fC, pdkcl.h 59 -/
def fC (F : Byte) : Nat := ((F &&& 2) >>> 1).toNat

/-- SETZ, SETC, pdkcl.h 66-67; store_flag(flag_c, ...) of pdk15.cc, inst.cc 90-100, does the same -/
def setZ (F : Byte) (b : Bool) : Byte := if b then F ||| 1 else F &&& ~~~1
def setC (F : Byte) (b : Bool) : Byte := if b then F ||| 2 else F &&& ~~~2

/-- 1 << n as a byte -/
def bitN (n : Nat) : Byte := 1#8 <<< n

/-- set_fppen, pdk.cc 861-877 -/
def setFppen (n : Nat) (val : Byte) : Byte :=
  let val : Byte := if val = 0 then 1 else val
  (List.range 8).foldl (fun v i => if i < n then v else v &&& ~~~bitN i) val

/-- get_io, pdkcl.h 183: the cell of the io space. Cell 9 has the operator cl_mulrh_op, pdk.cc
656-660, and gives rMULRH. -/
def getIo (a : Nat) (c : Cpu) (s : Sh) : Byte :=
  if a = 0 then c.F
  else if a = 1 then s.fppen
  else if a = 2 then c.SP
  else if a = 9 then s.mulrh
  else s.sfr a

/-- store_io, pdkcl.h 184, and sfr->write. Cell 1 has the operator cl_fppen_op, pdk.cc 634-638. -/
def putIo (a : Nat) (x : Byte) (c : Cpu) (s : Sh) : Cpu × Sh :=
  if a = 0 then ({ c with F := x }, s)
  else if a = 1 then (c, { s with fppen := setFppen s.n x })
  else if a = 2 then ({ c with SP := x }, s)
  else (c, { s with sfr := upd s.sfr a x })

/-- wr8, pdkcl.h 178 -/
def wr8 (a : Nat) (x : Byte) (s : Sh) : Sh := { s with ram := upd s.ram a x }

/-- the value of an operation on two bytes that sets only Z -/
def logic (o : Op) (x y : Byte) : Byte :=
  match o with
  | .and => x &&& y
  | .or => x ||| y
  | _ => x ^^^ y

/-- add, sub, and, or, xor with a constant, with memory, to memory: pdk14.cc 125-144, 226-265 (and the
same of pdk13.cc and pdk15.cc) -/
def runAlu (v : Var) (o : Op) (d : Dir) (code : Word) (c : Cpu) (s : Sh) : Cpu × Sh :=
  let k : Byte := code.setWidth 8
  let m : Nat := (code &&& mMask v).toNat
  match o, d with
  | .add, .ak => let r := addTo c.A k.toNat 0; ({ c with A := r.1, F := r.2 }, s)
  | .add, .am => let r := addTo c.A (s.ram m).toNat 0; ({ c with A := r.1, F := r.2 }, s)
  | .add, .ma => let r := addTo c.A (s.ram m).toNat 0; ({ c with F := r.2 }, wr8 m r.1 s)
  | .sub, .ak => let r := subTo c.A k.toNat 0; ({ c with A := r.1, F := r.2 }, s)
  | .sub, .am => let r := subTo c.A (s.ram m).toNat 0; ({ c with A := r.1, F := r.2 }, s)
  | .sub, .ma => let r := subTo (s.ram m) c.A.toNat 0; ({ c with F := r.2 }, wr8 m r.1 s)
  | o, .ak => let r := logic o c.A k; ({ c with A := r, F := setZ c.F (r == 0) }, s)
  | o, .am => let r := logic o c.A (s.ram m); ({ c with A := r, F := setZ c.F (r == 0) }, s)
  | o, .ma => let r := logic o c.A (s.ram m); ({ c with F := setZ c.F (r == 0) }, wr8 m r s)

/-- addc and subc, pdk14.cc 145-173 -/
def runAlc (v : Var) (sub : Bool) (d : DirC) (code : Word) (c : Cpu) (s : Sh) : Cpu × Sh :=
  let m : Nat := (code &&& mMask v).toNat
  let x := s.ram m
  let C := fC c.F
  match sub, d with
  | false, .am => let r := addTo c.A x.toNat C; ({ c with A := r.1, F := r.2 }, s)
  | false, .ma => let r := addTo c.A x.toNat C; ({ c with F := r.2 }, wr8 m r.1 s)
  | false, .a => let r := addTo c.A C 0; ({ c with A := r.1, F := r.2 }, s)
  | false, .m => let r := addTo x C 0; ({ c with F := r.2 }, wr8 m r.1 s)
  | true, .am => let r := subTo c.A x.toNat C; ({ c with A := r.1, F := r.2 }, s)
  | true, .ma => let r := subTo x c.A.toNat C; ({ c with F := r.2 }, wr8 m r.1 s)
  | true, .a => let r := subTo c.A C 0; ({ c with A := r.1, F := r.2 }, s)
  | true, .m => let r := subTo x C 0; ({ c with F := r.2 }, wr8 m r.1 s)

/-- sr, sl, src, slc, pdk14.cc 184-225: the value and the bit that goes to C -/
def shiftOf (o : Shift) (x : Byte) (C : Nat) : Byte × Bool :=
  match o with
  | .sr => (x >>> 1, x &&& 1 != 0)
  | .sl => (x <<< 1, x &&& 0x80 != 0)
  | .src => ((x >>> 1) ||| (BitVec.ofNat 8 C <<< 7), x &&& 1 != 0)
  | .slc => ((x <<< 1) ||| BitVec.ofNat 8 C, x &&& 0x80 != 0)

/-- execute, pdk13.cc 58-403, pdk14.cc 58-448, pdk15.cc 58-448: the body of the branch `f`. `c.PC` is
already after the instruction. The number is how often the branch calls tick(1). -/
def run (v : Var) (id : Nat) (f : Form) (code : Word) (c : Cpu) (s : Sh) : Cpu × Sh × Nat :=
  let m : Nat := (code &&& mMask v).toNat
  let io : Nat := (code &&& ioMask v).toNat
  let w : Nat := (code &&& wMask v).toNat
  let bm : Nat := (code &&& bMask v).toNat
  let nb : Nat := ((code &&& nMask v) >>> nShift v).toNat
  let k : Byte := code.setWidth 8
  let sp : Nat := c.SP.toNat
  match f with
  | .nop => (c, s, 0)
  | .retk =>
    let b := (c.SP - 2).toNat
    ({ c with A := k, SP := c.SP - 2, PC := (s.ram b).toNat + 256 * (s.ram (b + 1)).toNat }, s, 0)
  | .ret =>
    let b := (c.SP - 2).toNat
    ({ c with SP := c.SP - 2, PC := (s.ram b).toNat + 256 * (s.ram (b + 1)).toNat }, s, 0)
  | .movAK => ({ c with A := k }, s, 0)
  | .movIA => let r := putIo io c.A c s; (r.1, r.2, 0)
  | .movAI => ({ c with A := getIo io c s }, s, 0)
  | .movMA => (c, wr8 m c.A s, 0)
  | .movAM => ({ c with A := s.ram m }, s, 0)
  | .ldt16 => (c, wr8 (w + 1) ((s.t16 >>> 8).setWidth 8) (wr8 w (s.t16.setWidth 8) s), 0)
  | .stt16 => (c, { s with t16 := BitVec.ofNat 16 ((s.ram (w + 1)).toNat * 256 + (s.ram w).toNat) }, 0)
  | .idxmAM => ({ c with A := s.ram (s.ram w).toNat }, s, if v = .p13 then 0 else 1)
  | .idxmMA => (c, wr8 (s.ram w).toNat c.A s, if v = .p13 then 0 else 1)
  | .xch => ({ c with A := s.ram m }, wr8 m c.A s, 0)
  | .pushaf => ({ c with SP := c.SP + 2 }, wr8 (sp + 1) c.F (wr8 sp c.A s), 0)
  | .popaf =>
    if v = .p13 then
      ({ c with F := s.ram ((sp + (2 ^ 32 - 1)) % 2 ^ 32), A := s.ram ((sp + (2 ^ 32 - 2)) % 2 ^ 32), SP := c.SP - 2 }, s, 0)
    else
      ({ c with F := s.ram (c.SP - 1).toNat, A := s.ram (c.SP - 1 - 1).toNat, SP := c.SP - 1 - 1 }, s, 0)
  | .alu o d => let r := runAlu v o d code c s; (r.1, r.2, 0)
  | .alc sub d => let r := runAlc v sub d code c s; (r.1, r.2, 0)
  | .inc => let r := addTo (s.ram m) 1 0; ({ c with F := r.2 }, wr8 m r.1 s, 0)
  | .dec => let r := subTo (s.ram m) 1 0; ({ c with F := r.2 }, wr8 m r.1 s, 0)
  | .clear => (c, wr8 m 0 s, 0)
  | .sh o true => let r := shiftOf o c.A (fC c.F); ({ c with A := r.1, F := setC c.F r.2 }, s, 0)
  | .sh o false => let r := shiftOf o (s.ram m) (fC c.F); ({ c with F := setC c.F r.2 }, wr8 m r.1 s, 0)
  | .xorIA => let r := putIo io (c.A ^^^ getIo io c s) c s; (r.1, r.2, 0)
  | .un neg true =>
    let r : Byte := if neg then -c.A else ~~~c.A
    ({ c with A := r, F := setZ c.F (r == 0) }, s, 0)
  | .un neg false =>
    let r : Byte := if neg then -(s.ram m) else ~~~(s.ram m)
    ({ c with F := setZ c.F (r == 0) }, wr8 m r s, 0)
  | .bit one true =>
    let x := getIo io c s
    let r := putIo io (if one then x ||| bitN nb else x &&& ~~~bitN nb) c s
    (r.1, r.2, 0)
  | .bit one false =>
    let x := s.ram bm
    (c, wr8 bm (if one then x ||| bitN nb else x &&& ~~~bitN nb) s, 0)
  | .tsn one true =>
    ({ c with PC := if ((getIo io c s &&& bitN nb) != 0) == one then c.PC + 1 else c.PC }, s, 0)
  | .tsn one false =>
    ({ c with PC := if ((s.ram bm &&& bitN nb) != 0) == one then c.PC + 1 else c.PC }, s, 0)
  | .ceq ne kk =>
    let x : Byte := if kk then k else s.ram m
    ({ c with F := (subTo c.A x.toNat 0).2, PC := if (c.A == x) != ne then c.PC + 1 else c.PC }, s, 0)
  | .izs dec true =>
    let r := if dec then subTo c.A 1 0 else addTo c.A 1 0
    ({ c with A := r.1, F := r.2, PC := if r.1 = 0 then c.PC + 1 else c.PC }, s, 0)
  | .izs dec false =>
    let r := if dec then subTo (s.ram m) 1 0 else addTo (s.ram m) 1 0
    ({ c with F := r.2, PC := if r.1 = 0 then c.PC + 1 else c.PC }, wr8 m r.1 s, 0)
  | .call =>
    ({ c with SP := c.SP + 2, PC := (code &&& jMask v).toNat },
      wr8 (sp + 1) (BitVec.ofNat 8 (c.PC / 256)) (wr8 sp (BitVec.ofNat 8 c.PC) s), 1)
  | .goto => ({ c with PC := (code &&& jMask v).toNat }, s, 1)
  | .comp false => ({ c with F := (subTo c.A (s.ram m).toNat 0).2 }, s, 0)
  | .comp true => ({ c with F := (subTo (s.ram m) c.A.toNat 0).2 }, s, 0)
  | .nadd false => let r := addTo (s.ram m) (-(c.A.toNat : Int)) 0; ({ c with A := r.1, F := r.2 }, s, 0)
  | .nadd true => let r := addTo (-(s.ram m)) c.A.toNat 0; ({ c with F := r.2 }, wr8 m r.1 s, 0)
  | .swap => ({ c with A := (c.A <<< 4) ||| (c.A >>> 4) }, s, 0)
  | .pcadd => ({ c with PC := (c.PC + c.A.toNat + (2 ^ 32 - 1)) % 2 ^ 32 }, s, 0)
  | .engint => (c, s, 0)
  | .disgint => (c, s, 0)
  | .stopsys => (c, { s with mode := .pd }, 0)
  | .stopexe => (c, { s with mode := .ps }, 0)
  | .reset => ({ c with A := 0, PC := id }, s, 0)
  | .wdreset => (c, { s with wdt := 0 }, 0)
  | .swapc =>
    let d := getIo io c s
    let d' := if fC c.F ≠ 0 then d ||| bitN nb else d &&& ~~~bitN nb
    let r := putIo io d' { c with F := setC c.F ((d &&& bitN nb) != 0) } s
    (r.1, r.2, 0)
  | .ldsptl => ({ c with A := (s.rom sp).setWidth 8 }, s, 0)
  | .ldspth => ({ c with A := (s.rom (sp + 1)).setWidth 8 }, s, 0)
  | .mul =>
    let p : Nat := c.A.toNat * (getIo 8 c s).toNat
    ({ c with A := BitVec.ofNat 8 p }, { s with mulrh := BitVec.ofNat 8 (p / 256) }, 0)
  | .reti => (c, s, 0)
  | .ldtabl => (c, s, 0)
  | .ldtabh => (c, s, 0)
  | .putchar => (c, s, 0)

/-- What an instruction came to: the state and the cycles; `ok` is false for resINV_INST. -/
structure Out where
  cpu : Cpu
  sh : Sh
  cycles : Nat
  ok : Bool

/-- cl_fpp::exec_inst, pdk.cc 536-554, with fetch, uc.cc 3185-3197 (PCmask is 0xfff, pdk.cc 63) and
execute. No branch of execute is named reti, ldtabl, ldtabh or putchar. -/
def step (v : Var) (id : Nat) (c : Cpu) (s : Sh) : Out :=
  let code := s.rom c.PC
  let c' : Cpu := { c with PC := (c.PC + 1) % 4096 }
  match pick (chain v) code with
  | none => ⟨c', s, 1, false⟩
  | some f => let r := run v id f code c' s; ⟨r.1, r.2.1, 1 + r.2.2, true⟩

end Ucsim.Pdk
