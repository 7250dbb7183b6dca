/-
PADAUK PDK13, PDK14, PDK15: the names and codes of the instructions and what the flags mean, after the
data sheets. Independent of the model in Verif/Pdk.
-/
namespace Ucsim.Pdk

abbrev Byte := BitVec 8
/-- a word of the program memory -/
abbrev Word := BitVec 16

/-- The families with 13, 14 and 15 bit instructions. -/
inductive Var
  | p13 | p14 | p15
  deriving DecidableEq

/-- Operands of a two operand instruction: A and a constant, A and memory, memory and A. The result
goes into the first one. -/
inductive Dir
  | ak | am | ma
  deriving DecidableEq

/-- Operands of addc and subc: A and memory, memory and A, only A, only memory. -/
inductive DirC
  | am | ma | a | m
  deriving DecidableEq

inductive Op
  | add | sub | and | or | xor
  deriving DecidableEq

inductive Shift
  | sr | sl | src | slc
  deriving DecidableEq

/-- The instructions by name. `alc sub`: addc, subc. `sh`, `un`, `izs`: on A if the last flag is true,
else on memory. `un neg`: not, neg. `bit one io`: set0, set1 of an io register or memory bit.
`tsn one io`: t0sn, t1sn. `ceq ne k`: ceqsn, cneqsn with a constant or memory. `izs dec`: izsn, dzsn.
`comp mem`, `nadd mem`: memory is the first operand. -/
inductive Form
  | nop | retk | ret | movAK | movIA | movAI | movMA | movAM | ldt16 | stt16 | idxmAM | idxmMA
  | xch | pushaf | popaf
  | alu (o : Op) (d : Dir) | alc (sub : Bool) (d : DirC)
  | inc | dec | clear | sh (o : Shift) (onA : Bool) | xorIA | un (neg onA : Bool)
  | bit (one io : Bool) | tsn (one io : Bool) | ceq (ne k : Bool) | izs (dec onA : Bool)
  | call | goto | comp (mem : Bool) | nadd (mem : Bool)
  | swap | pcadd | engint | disgint | stopsys | stopexe | reset | wdreset | swapc
  | ldsptl | ldspth | mul | reti | ldtabl | ldtabh | putchar
  deriving DecidableEq

/-- A field of an instruction: the bits under `mask`, moved down by `shift`. -/
structure Field where
  mask : Word
  shift : Nat
  deriving DecidableEq

/-- the value of a field -/
def Field.of (f : Field) (code : Word) : Nat := ((code &&& f.mask) >>> f.shift).toNat

/-- An instruction: its code with all operands zero and the places of its operands in the order they
are written. -/
structure Doc where
  form : Form
  op : Word
  fields : List Field
  deriving DecidableEq

/-- the bits of the code that belong to operands -/
def Doc.opbits (d : Doc) : Word := d.fields.foldl (fun m f => m ||| f.mask) 0

/-- The instruction codes of the PDK13. -/
def doc13 : List Doc :=
  [
    ⟨.nop, 0x0000, []⟩,
    ⟨.ldsptl, 0x0006, []⟩,
    ⟨.ldspth, 0x0007, []⟩,
    ⟨.alc false .a, 0x0010, []⟩,
    ⟨.alc true .a, 0x0011, []⟩,
    ⟨.izs false true, 0x0012, []⟩,
    ⟨.izs true true, 0x0013, []⟩,
    ⟨.pcadd, 0x0017, []⟩,
    ⟨.un false true, 0x0018, []⟩,
    ⟨.un true true, 0x0019, []⟩,
    ⟨.sh .sr true, 0x001a, []⟩,
    ⟨.sh .sl true, 0x001b, []⟩,
    ⟨.sh .src true, 0x001c, []⟩,
    ⟨.sh .slc true, 0x001d, []⟩,
    ⟨.swap, 0x001e, []⟩,
    ⟨.wdreset, 0x0030, []⟩,
    ⟨.pushaf, 0x0032, []⟩,
    ⟨.popaf, 0x0033, []⟩,
    ⟨.reset, 0x0035, []⟩,
    ⟨.stopsys, 0x0036, []⟩,
    ⟨.stopexe, 0x0037, []⟩,
    ⟨.engint, 0x0038, []⟩,
    ⟨.disgint, 0x0039, []⟩,
    ⟨.ret, 0x003a, []⟩,
    ⟨.mul, 0x003c, []⟩,
    ⟨.xorIA, 0x0060, [⟨0x001f, 0⟩]⟩,
    ⟨.movIA, 0x0080, [⟨0x001f, 0⟩]⟩,
    ⟨.movAI, 0x00a0, [⟨0x001f, 0⟩]⟩,
    ⟨.stt16, 0x00c0, [⟨0x001e, 0⟩]⟩,
    ⟨.ldt16, 0x00c1, [⟨0x001e, 0⟩]⟩,
    ⟨.idxmMA, 0x00e0, [⟨0x001e, 0⟩]⟩,
    ⟨.idxmAM, 0x00e1, [⟨0x001e, 0⟩]⟩,
    ⟨.retk, 0x0100, [⟨0x00ff, 0⟩]⟩,
    ⟨.tsn false false, 0x0200, [⟨0x000f, 0⟩, ⟨0x00e0, 5⟩]⟩,
    ⟨.tsn true false, 0x0210, [⟨0x000f, 0⟩, ⟨0x00e0, 5⟩]⟩,
    ⟨.bit false false, 0x0300, [⟨0x000f, 0⟩, ⟨0x00e0, 5⟩]⟩,
    ⟨.bit true false, 0x0310, [⟨0x000f, 0⟩, ⟨0x00e0, 5⟩]⟩,
    ⟨.alu .add .ma, 0x0400, [⟨0x003f, 0⟩]⟩,
    ⟨.alu .sub .ma, 0x0440, [⟨0x003f, 0⟩]⟩,
    ⟨.alc false .ma, 0x0480, [⟨0x003f, 0⟩]⟩,
    ⟨.alc true .ma, 0x04c0, [⟨0x003f, 0⟩]⟩,
    ⟨.alu .and .ma, 0x0500, [⟨0x003f, 0⟩]⟩,
    ⟨.alu .or .ma, 0x0540, [⟨0x003f, 0⟩]⟩,
    ⟨.alu .xor .ma, 0x0580, [⟨0x003f, 0⟩]⟩,
    ⟨.movMA, 0x05c0, [⟨0x003f, 0⟩]⟩,
    ⟨.alu .add .am, 0x0600, [⟨0x003f, 0⟩]⟩,
    ⟨.alu .sub .am, 0x0640, [⟨0x003f, 0⟩]⟩,
    ⟨.alc false .am, 0x0680, [⟨0x003f, 0⟩]⟩,
    ⟨.alc true .am, 0x06c0, [⟨0x003f, 0⟩]⟩,
    ⟨.alu .and .am, 0x0700, [⟨0x003f, 0⟩]⟩,
    ⟨.alu .or .am, 0x0740, [⟨0x003f, 0⟩]⟩,
    ⟨.alu .xor .am, 0x0780, [⟨0x003f, 0⟩]⟩,
    ⟨.movAM, 0x07c0, [⟨0x003f, 0⟩]⟩,
    ⟨.alc false .m, 0x0800, [⟨0x003f, 0⟩]⟩,
    ⟨.alc true .m, 0x0840, [⟨0x003f, 0⟩]⟩,
    ⟨.izs false false, 0x0880, [⟨0x003f, 0⟩]⟩,
    ⟨.izs true false, 0x08c0, [⟨0x003f, 0⟩]⟩,
    ⟨.inc, 0x0900, [⟨0x003f, 0⟩]⟩,
    ⟨.dec, 0x0940, [⟨0x003f, 0⟩]⟩,
    ⟨.clear, 0x0980, [⟨0x003f, 0⟩]⟩,
    ⟨.xch, 0x09c0, [⟨0x003f, 0⟩]⟩,
    ⟨.un false false, 0x0a00, [⟨0x003f, 0⟩]⟩,
    ⟨.un true false, 0x0a40, [⟨0x003f, 0⟩]⟩,
    ⟨.sh .sr false, 0x0a80, [⟨0x003f, 0⟩]⟩,
    ⟨.sh .sl false, 0x0ac0, [⟨0x003f, 0⟩]⟩,
    ⟨.sh .src false, 0x0b00, [⟨0x003f, 0⟩]⟩,
    ⟨.sh .slc false, 0x0b40, [⟨0x003f, 0⟩]⟩,
    ⟨.ceq false false, 0x0b80, [⟨0x003f, 0⟩]⟩,
    ⟨.tsn false true, 0x0c00, [⟨0x001f, 0⟩, ⟨0x00e0, 5⟩]⟩,
    ⟨.tsn true true, 0x0d00, [⟨0x001f, 0⟩, ⟨0x00e0, 5⟩]⟩,
    ⟨.bit false true, 0x0e00, [⟨0x001f, 0⟩, ⟨0x00e0, 5⟩]⟩,
    ⟨.bit true true, 0x0f00, [⟨0x001f, 0⟩, ⟨0x00e0, 5⟩]⟩,
    ⟨.alu .add .ak, 0x1000, [⟨0x00ff, 0⟩]⟩,
    ⟨.alu .sub .ak, 0x1100, [⟨0x00ff, 0⟩]⟩,
    ⟨.ceq false true, 0x1200, [⟨0x00ff, 0⟩]⟩,
    ⟨.alu .and .ak, 0x1400, [⟨0x00ff, 0⟩]⟩,
    ⟨.alu .or .ak, 0x1500, [⟨0x00ff, 0⟩]⟩,
    ⟨.alu .xor .ak, 0x1600, [⟨0x00ff, 0⟩]⟩,
    ⟨.movAK, 0x1700, [⟨0x00ff, 0⟩]⟩,
    ⟨.goto, 0x1800, [⟨0x03ff, 0⟩]⟩,
    ⟨.call, 0x1c00, [⟨0x03ff, 0⟩]⟩]

/-- The instruction codes of the PDK14. -/
def doc14 : List Doc :=
  [
    ⟨.nop, 0x0000, []⟩,
    ⟨.ldsptl, 0x0006, []⟩,
    ⟨.ldspth, 0x0007, []⟩,
    ⟨.alc false .a, 0x0060, []⟩,
    ⟨.alc true .a, 0x0061, []⟩,
    ⟨.izs false true, 0x0062, []⟩,
    ⟨.izs true true, 0x0063, []⟩,
    ⟨.pcadd, 0x0067, []⟩,
    ⟨.un false true, 0x0068, []⟩,
    ⟨.un true true, 0x0069, []⟩,
    ⟨.sh .sr true, 0x006a, []⟩,
    ⟨.sh .sl true, 0x006b, []⟩,
    ⟨.sh .src true, 0x006c, []⟩,
    ⟨.sh .slc true, 0x006d, []⟩,
    ⟨.swap, 0x006e, []⟩,
    ⟨.wdreset, 0x0070, []⟩,
    ⟨.pushaf, 0x0072, []⟩,
    ⟨.popaf, 0x0073, []⟩,
    ⟨.reset, 0x0075, []⟩,
    ⟨.stopsys, 0x0076, []⟩,
    ⟨.stopexe, 0x0077, []⟩,
    ⟨.engint, 0x0078, []⟩,
    ⟨.disgint, 0x0079, []⟩,
    ⟨.ret, 0x007a, []⟩,
    ⟨.mul, 0x007c, []⟩,
    ⟨.xorIA, 0x00c0, [⟨0x003f, 0⟩]⟩,
    ⟨.movIA, 0x0180, [⟨0x003f, 0⟩]⟩,
    ⟨.movAI, 0x01c0, [⟨0x003f, 0⟩]⟩,
    ⟨.retk, 0x0200, [⟨0x00ff, 0⟩]⟩,
    ⟨.stt16, 0x0300, [⟨0x007e, 0⟩]⟩,
    ⟨.ldt16, 0x0301, [⟨0x007e, 0⟩]⟩,
    ⟨.idxmMA, 0x0380, [⟨0x007e, 0⟩]⟩,
    ⟨.idxmAM, 0x0381, [⟨0x007e, 0⟩]⟩,
    ⟨.swapc, 0x0400, [⟨0x003f, 0⟩, ⟨0x01c0, 6⟩]⟩,
    ⟨.comp false, 0x0600, [⟨0x007f, 0⟩]⟩,
    ⟨.comp true, 0x0680, [⟨0x007f, 0⟩]⟩,
    ⟨.nadd false, 0x0700, [⟨0x007f, 0⟩]⟩,
    ⟨.nadd true, 0x0780, [⟨0x007f, 0⟩]⟩,
    ⟨.alu .add .ma, 0x0800, [⟨0x007f, 0⟩]⟩,
    ⟨.alu .sub .ma, 0x0880, [⟨0x007f, 0⟩]⟩,
    ⟨.alc false .ma, 0x0900, [⟨0x007f, 0⟩]⟩,
    ⟨.alc true .ma, 0x0980, [⟨0x007f, 0⟩]⟩,
    ⟨.alu .and .ma, 0x0a00, [⟨0x007f, 0⟩]⟩,
    ⟨.alu .or .ma, 0x0a80, [⟨0x007f, 0⟩]⟩,
    ⟨.alu .xor .ma, 0x0b00, [⟨0x007f, 0⟩]⟩,
    ⟨.movMA, 0x0b80, [⟨0x007f, 0⟩]⟩,
    ⟨.alu .add .am, 0x0c00, [⟨0x007f, 0⟩]⟩,
    ⟨.alu .sub .am, 0x0c80, [⟨0x007f, 0⟩]⟩,
    ⟨.alc false .am, 0x0d00, [⟨0x007f, 0⟩]⟩,
    ⟨.alc true .am, 0x0d80, [⟨0x007f, 0⟩]⟩,
    ⟨.alu .and .am, 0x0e00, [⟨0x007f, 0⟩]⟩,
    ⟨.alu .or .am, 0x0e80, [⟨0x007f, 0⟩]⟩,
    ⟨.alu .xor .am, 0x0f00, [⟨0x007f, 0⟩]⟩,
    ⟨.movAM, 0x0f80, [⟨0x007f, 0⟩]⟩,
    ⟨.alc false .m, 0x1000, [⟨0x007f, 0⟩]⟩,
    ⟨.alc true .m, 0x1080, [⟨0x007f, 0⟩]⟩,
    ⟨.izs false false, 0x1100, [⟨0x007f, 0⟩]⟩,
    ⟨.izs true false, 0x1180, [⟨0x007f, 0⟩]⟩,
    ⟨.inc, 0x1200, [⟨0x007f, 0⟩]⟩,
    ⟨.dec, 0x1280, [⟨0x007f, 0⟩]⟩,
    ⟨.clear, 0x1300, [⟨0x007f, 0⟩]⟩,
    ⟨.xch, 0x1380, [⟨0x007f, 0⟩]⟩,
    ⟨.un false false, 0x1400, [⟨0x007f, 0⟩]⟩,
    ⟨.un true false, 0x1480, [⟨0x007f, 0⟩]⟩,
    ⟨.sh .sr false, 0x1500, [⟨0x007f, 0⟩]⟩,
    ⟨.sh .sl false, 0x1580, [⟨0x007f, 0⟩]⟩,
    ⟨.sh .src false, 0x1600, [⟨0x007f, 0⟩]⟩,
    ⟨.sh .slc false, 0x1680, [⟨0x007f, 0⟩]⟩,
    ⟨.ceq false false, 0x1700, [⟨0x007f, 0⟩]⟩,
    ⟨.ceq true false, 0x1780, [⟨0x007f, 0⟩]⟩,
    ⟨.tsn false true, 0x1800, [⟨0x003f, 0⟩, ⟨0x01c0, 6⟩]⟩,
    ⟨.tsn true true, 0x1a00, [⟨0x003f, 0⟩, ⟨0x01c0, 6⟩]⟩,
    ⟨.bit false true, 0x1c00, [⟨0x003f, 0⟩, ⟨0x01c0, 6⟩]⟩,
    ⟨.bit true true, 0x1e00, [⟨0x003f, 0⟩, ⟨0x01c0, 6⟩]⟩,
    ⟨.tsn false false, 0x2000, [⟨0x003f, 0⟩, ⟨0x01c0, 6⟩]⟩,
    ⟨.tsn true false, 0x2200, [⟨0x003f, 0⟩, ⟨0x01c0, 6⟩]⟩,
    ⟨.bit false false, 0x2400, [⟨0x003f, 0⟩, ⟨0x01c0, 6⟩]⟩,
    ⟨.bit true false, 0x2600, [⟨0x003f, 0⟩, ⟨0x01c0, 6⟩]⟩,
    ⟨.alu .add .ak, 0x2800, [⟨0x00ff, 0⟩]⟩,
    ⟨.alu .sub .ak, 0x2900, [⟨0x00ff, 0⟩]⟩,
    ⟨.ceq false true, 0x2a00, [⟨0x00ff, 0⟩]⟩,
    ⟨.ceq true true, 0x2b00, [⟨0x00ff, 0⟩]⟩,
    ⟨.alu .and .ak, 0x2c00, [⟨0x00ff, 0⟩]⟩,
    ⟨.alu .or .ak, 0x2d00, [⟨0x00ff, 0⟩]⟩,
    ⟨.alu .xor .ak, 0x2e00, [⟨0x00ff, 0⟩]⟩,
    ⟨.movAK, 0x2f00, [⟨0x00ff, 0⟩]⟩,
    ⟨.goto, 0x3000, [⟨0x07ff, 0⟩]⟩,
    ⟨.call, 0x3800, [⟨0x07ff, 0⟩]⟩]

/-- The instruction codes of the PDK15. -/
def doc15 : List Doc :=
  [
    ⟨.nop, 0x0000, []⟩,
    ⟨.ldsptl, 0x0006, []⟩,
    ⟨.ldspth, 0x0007, []⟩,
    ⟨.alc false .a, 0x0060, []⟩,
    ⟨.alc true .a, 0x0061, []⟩,
    ⟨.izs false true, 0x0062, []⟩,
    ⟨.izs true true, 0x0063, []⟩,
    ⟨.pcadd, 0x0067, []⟩,
    ⟨.un false true, 0x0068, []⟩,
    ⟨.un true true, 0x0069, []⟩,
    ⟨.sh .sr true, 0x006a, []⟩,
    ⟨.sh .sl true, 0x006b, []⟩,
    ⟨.sh .src true, 0x006c, []⟩,
    ⟨.sh .slc true, 0x006d, []⟩,
    ⟨.swap, 0x006e, []⟩,
    ⟨.wdreset, 0x0070, []⟩,
    ⟨.pushaf, 0x0072, []⟩,
    ⟨.popaf, 0x0073, []⟩,
    ⟨.reset, 0x0075, []⟩,
    ⟨.stopsys, 0x0076, []⟩,
    ⟨.stopexe, 0x0077, []⟩,
    ⟨.engint, 0x0078, []⟩,
    ⟨.disgint, 0x0079, []⟩,
    ⟨.ret, 0x007a, []⟩,
    ⟨.mul, 0x007c, []⟩,
    ⟨.xorIA, 0x0080, [⟨0x007f, 0⟩]⟩,
    ⟨.movIA, 0x0100, [⟨0x007f, 0⟩]⟩,
    ⟨.movAI, 0x0180, [⟨0x007f, 0⟩]⟩,
    ⟨.retk, 0x0200, [⟨0x00ff, 0⟩]⟩,
    ⟨.stt16, 0x0600, [⟨0x00fe, 0⟩]⟩,
    ⟨.ldt16, 0x0601, [⟨0x00fe, 0⟩]⟩,
    ⟨.idxmMA, 0x0700, [⟨0x00fe, 0⟩]⟩,
    ⟨.idxmAM, 0x0701, [⟨0x00fe, 0⟩]⟩,
    ⟨.comp false, 0x0c00, [⟨0x00ff, 0⟩]⟩,
    ⟨.comp true, 0x0d00, [⟨0x00ff, 0⟩]⟩,
    ⟨.nadd false, 0x0e00, [⟨0x00ff, 0⟩]⟩,
    ⟨.nadd true, 0x0f00, [⟨0x00ff, 0⟩]⟩,
    ⟨.alu .add .ma, 0x1000, [⟨0x00ff, 0⟩]⟩,
    ⟨.alu .sub .ma, 0x1100, [⟨0x00ff, 0⟩]⟩,
    ⟨.alc false .ma, 0x1200, [⟨0x00ff, 0⟩]⟩,
    ⟨.alc true .ma, 0x1300, [⟨0x00ff, 0⟩]⟩,
    ⟨.alu .and .ma, 0x1400, [⟨0x00ff, 0⟩]⟩,
    ⟨.alu .or .ma, 0x1500, [⟨0x00ff, 0⟩]⟩,
    ⟨.alu .xor .ma, 0x1600, [⟨0x00ff, 0⟩]⟩,
    ⟨.movMA, 0x1700, [⟨0x00ff, 0⟩]⟩,
    ⟨.alu .add .am, 0x1800, [⟨0x00ff, 0⟩]⟩,
    ⟨.alu .sub .am, 0x1900, [⟨0x00ff, 0⟩]⟩,
    ⟨.alc false .am, 0x1a00, [⟨0x00ff, 0⟩]⟩,
    ⟨.alc true .am, 0x1b00, [⟨0x00ff, 0⟩]⟩,
    ⟨.alu .and .am, 0x1c00, [⟨0x00ff, 0⟩]⟩,
    ⟨.alu .or .am, 0x1d00, [⟨0x00ff, 0⟩]⟩,
    ⟨.alu .xor .am, 0x1e00, [⟨0x00ff, 0⟩]⟩,
    ⟨.movAM, 0x1f00, [⟨0x00ff, 0⟩]⟩,
    ⟨.alc false .m, 0x2000, [⟨0x00ff, 0⟩]⟩,
    ⟨.alc true .m, 0x2100, [⟨0x00ff, 0⟩]⟩,
    ⟨.izs false false, 0x2200, [⟨0x00ff, 0⟩]⟩,
    ⟨.izs true false, 0x2300, [⟨0x00ff, 0⟩]⟩,
    ⟨.inc, 0x2400, [⟨0x00ff, 0⟩]⟩,
    ⟨.dec, 0x2500, [⟨0x00ff, 0⟩]⟩,
    ⟨.clear, 0x2600, [⟨0x00ff, 0⟩]⟩,
    ⟨.xch, 0x2700, [⟨0x00ff, 0⟩]⟩,
    ⟨.un false false, 0x2800, [⟨0x00ff, 0⟩]⟩,
    ⟨.un true false, 0x2900, [⟨0x00ff, 0⟩]⟩,
    ⟨.sh .sr false, 0x2a00, [⟨0x00ff, 0⟩]⟩,
    ⟨.sh .sl false, 0x2b00, [⟨0x00ff, 0⟩]⟩,
    ⟨.sh .src false, 0x2c00, [⟨0x00ff, 0⟩]⟩,
    ⟨.sh .slc false, 0x2d00, [⟨0x00ff, 0⟩]⟩,
    ⟨.ceq false false, 0x2e00, [⟨0x00ff, 0⟩]⟩,
    ⟨.ceq true false, 0x2f00, [⟨0x00ff, 0⟩]⟩,
    ⟨.tsn false true, 0x3000, [⟨0x007f, 0⟩, ⟨0x0380, 7⟩]⟩,
    ⟨.tsn true true, 0x3400, [⟨0x007f, 0⟩, ⟨0x0380, 7⟩]⟩,
    ⟨.bit false true, 0x3800, [⟨0x007f, 0⟩, ⟨0x0380, 7⟩]⟩,
    ⟨.bit true true, 0x3c00, [⟨0x007f, 0⟩, ⟨0x0380, 7⟩]⟩,
    ⟨.tsn false false, 0x4000, [⟨0x007f, 0⟩, ⟨0x0380, 7⟩]⟩,
    ⟨.tsn true false, 0x4400, [⟨0x007f, 0⟩, ⟨0x0380, 7⟩]⟩,
    ⟨.bit false false, 0x4800, [⟨0x007f, 0⟩, ⟨0x0380, 7⟩]⟩,
    ⟨.bit true false, 0x4c00, [⟨0x007f, 0⟩, ⟨0x0380, 7⟩]⟩,
    ⟨.alu .add .ak, 0x5000, [⟨0x00ff, 0⟩]⟩,
    ⟨.alu .sub .ak, 0x5100, [⟨0x00ff, 0⟩]⟩,
    ⟨.ceq false true, 0x5200, [⟨0x00ff, 0⟩]⟩,
    ⟨.ceq true true, 0x5300, [⟨0x00ff, 0⟩]⟩,
    ⟨.alu .and .ak, 0x5400, [⟨0x00ff, 0⟩]⟩,
    ⟨.alu .or .ak, 0x5500, [⟨0x00ff, 0⟩]⟩,
    ⟨.alu .xor .ak, 0x5600, [⟨0x00ff, 0⟩]⟩,
    ⟨.movAK, 0x5700, [⟨0x00ff, 0⟩]⟩,
    ⟨.swapc, 0x5c00, [⟨0x007f, 0⟩, ⟨0x0380, 7⟩]⟩,
    ⟨.goto, 0x6000, [⟨0x0fff, 0⟩]⟩,
    ⟨.call, 0x7000, [⟨0x0fff, 0⟩]⟩]

def docs : Var → List Doc
  | .p13 => doc13
  | .p14 => doc14
  | .p15 => doc15

/-- `code` is the instruction `f` with the operands `args`. -/
def Enc (v : Var) (code : Word) (f : Form) (args : List Nat) : Prop :=
  ∃ d ∈ docs v, d.form = f ∧ code &&& ~~~d.opbits = d.op ∧ args = d.fields.map (·.of code)

/-- The four flags in the register F: Z is bit 0, C bit 1, AC bit 2, OV bit 3. -/
def flags (z c ac ov : Bool) : Byte :=
  (if z then 1 else 0) + (if c then 2 else 0) + (if ac then 4 else 0) + (if ov then 8 else 0)

/-- is `x` not a value of a signed byte? -/
def outOfSigned (x : Int) : Bool := x < -128 || 127 < x

/-- The flags of x + y + cin: the result is zero, it does not fit in a byte, the low nibbles do not fit
in a nibble, the signed sum does not fit in a signed byte. -/
def addFlags (x y : Byte) (cin : Nat) : Byte :=
  flags ((x.toNat + y.toNat + cin) % 256 = 0) (255 < x.toNat + y.toNat + cin)
    (15 < x.toNat % 16 + y.toNat % 16 + cin) (outOfSigned (x.toInt + y.toInt + cin))

/-- The flags of x - y - cin: zero, borrow, borrow of the low nibble, signed overflow. -/
def subFlags (x y : Byte) (cin : Nat) : Byte :=
  flags ((x.toNat : Int) - y.toNat - cin = 0 ∨ (x.toNat : Int) - y.toNat - cin = -256)
    (x.toNat < y.toNat + cin) (x.toNat % 16 < y.toNat % 16 + cin)
    (outOfSigned (x.toInt - y.toInt - cin))

/-- the sum and difference modulo 256 -/
def addVal (x y : Byte) (cin : Nat) : Byte := x + y + BitVec.ofNat 8 cin
def subVal (x y : Byte) (cin : Nat) : Byte := x - y - BitVec.ofNat 8 cin

/-- the carry flag as a number -/
def cy (F : Byte) : Nat := if F.getLsbD 1 then 1 else 0

/-- F with Z replaced, with C replaced -/
def withZ (F : Byte) (z : Bool) : Byte := if z then F ||| 1 else F &&& ~~~1
def withC (F : Byte) (c : Bool) : Byte := if c then F ||| 2 else F &&& ~~~2

/-- and, or, xor bit by bit -/
def bitwise (o : Op) (x y : Bool) : Bool :=
  match o with
  | .and => x && y
  | .or => x || y
  | _ => x != y

/-- What a shift makes of `x` with the carry `c`: the number and the new carry. -/
def shifted (o : Shift) (x c : Nat) : Nat × Nat :=
  match o with
  | .sr => (x / 2, x % 2)
  | .sl => (2 * x % 256, x / 128)
  | .src => (x / 2 + 128 * c, x % 2)
  | .slc => (2 * x % 256 + c, x / 128)

/-- A number kept in bytes, the lowest first. -/
def bytesVal : List Byte → Nat
  | [] => 0
  | b :: bs => b.toNat + 256 * bytesVal bs

end Ucsim.Pdk
