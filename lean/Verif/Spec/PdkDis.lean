import Verif.Spec.Pdk
/-
How the instructions of the PADAUK chips are written, without reference to the simulator.
-/
namespace Ucsim.Pdk.Dis

/-- how a number is written: `[0x001f]`, `0x1f`, `#0x1f`, `7`, `0x01ff` -/
inductive Style
  | mem | io | imm | bit | adr
  deriving DecidableEq

/-- a line is made of characters and of numbers -/
inductive Out
  | ch (c : Char)
  | num (s : Style) (n : Nat)
  deriving DecidableEq

/-- the places of operands in the texts below -/
def place : Char → Option Style
  | 'M' => some .mem
  | 'I' => some .io
  | 'K' => some .imm
  | 'N' => some .bit
  | 'J' => some .adr
  | _ => none

/-- The texts. M is memory, I an io register, K a constant, N a bit number, J an address; instructions
on A alone and on A and a constant are written without the `a`. -/
def text : Form → String
  | .nop => "nop"
  | .retk => "ret K"
  | .ret => "ret"
  | .movAK => "mov a,K"
  | .movIA => "mov I,a"
  | .movAI => "mov a,I"
  | .movMA => "mov M,a"
  | .movAM => "mov a,M"
  | .ldt16 => "ldt16 M"
  | .stt16 => "stt16 M"
  | .idxmAM => "idxm a,M"
  | .idxmMA => "idxm M,a"
  | .xch => "xch M"
  | .pushaf => "push af"
  | .popaf => "pop af"
  | .alu .add .ak => "add K"
  | .alu .add .am => "add a,M"
  | .alu .add .ma => "add M,a"
  | .alu .sub .ak => "sub K"
  | .alu .sub .am => "sub a,M"
  | .alu .sub .ma => "sub M,a"
  | .alu .and .ak => "and K"
  | .alu .and .am => "and a,M"
  | .alu .and .ma => "and M,a"
  | .alu .or .ak => "or K"
  | .alu .or .am => "or a,M"
  | .alu .or .ma => "or M,a"
  | .alu .xor .ak => "xor K"
  | .alu .xor .am => "xor a,M"
  | .alu .xor .ma => "xor M,a"
  | .alc false .a => "addc"
  | .alc false .m => "addc M"
  | .alc false .am => "addc a,M"
  | .alc false .ma => "addc M,a"
  | .alc true .a => "subc"
  | .alc true .m => "subc M"
  | .alc true .am => "subc a,M"
  | .alc true .ma => "subc M,a"
  | .inc => "inc M"
  | .dec => "dec M"
  | .clear => "clear M"
  | .sh .sr true => "sr"
  | .sh .sr false => "sr M"
  | .sh .sl true => "sl"
  | .sh .sl false => "sl M"
  | .sh .src true => "src"
  | .sh .src false => "src M"
  | .sh .slc true => "slc"
  | .sh .slc false => "slc M"
  | .xorIA => "xor I,a"
  | .un false true => "not"
  | .un false false => "not M"
  | .un true true => "neg"
  | .un true false => "neg M"
  | .bit false true => "set0 I,N"
  | .bit false false => "set0 M,N"
  | .bit true true => "set1 I,N"
  | .bit true false => "set1 M,N"
  | .tsn false true => "t0sn I,N"
  | .tsn false false => "t0sn M,N"
  | .tsn true true => "t1sn I,N"
  | .tsn true false => "t1sn M,N"
  | .ceq false true => "ceqsn K"
  | .ceq false false => "ceqsn M"
  | .ceq true true => "cneqsn K"
  | .ceq true false => "cneqsn M"
  | .izs false true => "izsn"
  | .izs false false => "izsn M"
  | .izs true true => "dzsn"
  | .izs true false => "dzsn M"
  | .call => "call J"
  | .goto => "goto J"
  | .comp false => "comp a,M"
  | .comp true => "comp M,a"
  | .nadd false => "nadd a,M"
  | .nadd true => "nadd M,a"
  | .swap => "swap"
  | .pcadd => "pcadd"
  | .engint => "engint"
  | .disgint => "disgint"
  | .stopsys => "stopsys"
  | .stopexe => "stopexe"
  | .reset => "reset"
  | .wdreset => "wdreset"
  | .swapc => "swapc I,N"
  | .ldsptl => "ldsptl"
  | .ldspth => "ldspth"
  | .mul => "mul"
  | .reti => "reti"
  | .ldtabl => "ldtabl M"
  | .ldtabh => "ldtabh M"
  | .putchar => "putchar"

/-- a text with its operands -/
def fill : List Char → List Nat → List Out
  | [], _ => []
  | c :: l, ns =>
    match place c, ns with
    | some s, n :: ns => .num s n :: fill l ns
    | _, _ => .ch c :: fill l ns

/-- the line for an instruction -/
def asm (f : Form) (args : List Nat) : List Out := fill (text f).toList args

end Ucsim.Pdk.Dis
