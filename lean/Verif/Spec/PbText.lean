import Verif.Spec.Pb
/-
The text of an instruction of PicoBlaze, as an assembler reads it.
-/
namespace Ucsim.Pb

/-- a part of a text: words, a register, a number in hexadecimal or decimal digits -/
inductive Part | w (s : String) | reg (x : Reg) | hex (n : Nat) | dec (n : Nat) deriving DecidableEq

def partText : Part → String
  | .w s => s
  | .reg x => "s" ++ String.ofList (Nat.toDigits 16 x.toNat)
  | .hex n => "0x" ++ String.ofList (Nat.toDigits 16 n)
  | .dec n => String.ofList (Nat.toDigits 10 n)

/-- the name of the instruction, filled up with spaces to six characters -/
def name6 (s : String) : String := s ++ String.ofList (List.replicate (6 - s.length) ' ')

def aluName : Alu → String
  | .load => "LOAD" | .and => "AND" | .or => "OR" | .xor => "XOR" | .add => "ADD" | .addcy => "ADDCY" | .sub => "SUB" | .subcy => "SUBCY"
def tstName : Tst → String
  | .test => "TEST" | .compare => "COMPARE" | .testcy => "TESTCY" | .comparecy => "COMPARECY"
def shfName : Shf → String
  | .sl0 => "SL0" | .sl1 => "SL1" | .slx => "SLX" | .sla => "SLA" | .rl => "RL" | .sr0 => "SR0" | .sr1 => "SR1" | .srx => "SRX" | .sra => "SRA" | .rr => "RR"
def cndName : Cnd → String
  | .always => "" | .z => " Z" | .nz => " NZ" | .c => " C" | .nc => " NC"

/-- two operands -/
def two (n : String) (x : Reg) : Opd → List Part
  | .k v => [.w (name6 n ++ " "), .reg x, .w ",", .hex v.toNat]
  | .r y => [.w (name6 n ++ " "), .reg x, .w ",", .reg y]

/-- a port or a place of the scratch pad: a number or a register in parentheses; `sp` goes before the number -/
def ind (n : String) (x : Reg) (num : Byte → Part) (sp : String) : Opd → List Part
  | .k v => [.w (name6 n ++ " "), .reg x, .w ("," ++ sp), num v]
  | .r y => [.w (name6 n ++ " "), .reg x, .w ",(", .reg y, .w ")"]

def text : I → List Part
  | .alu f x o => two (aluName f) x o
  | .tst f x o => two (tstName f) x o
  | .shf f x => [.w (name6 (shfName f) ++ " "), .reg x]
  | .input x o => ind "INPUT" x (fun v => .dec v.toNat) "" o
  | .output x o => ind "OUTPUT" x (fun v => .dec v.toNat) "" o
  | .outputk v p => [.w "OUTPUTK ", .hex v.toNat, .w ",", .dec p.toNat]
  | .fetch x o => ind "FETCH" x (fun v => .hex v.toNat) " " o
  | .store x o => ind "STORE" x (fun v => .hex v.toNat) "" o
  | .jump c a => [.w (name6 "JUMP" ++ cndName c ++ " "), .hex a.toNat]
  | .call c a => [.w (name6 "CALL" ++ cndName c ++ " "), .hex a.toNat]
  | .ret c => [.w ("RETURN" ++ cndName c)]
  | .jumpAt x y => [.w (name6 "JUMP@" ++ " ("), .reg x, .w ", ", .reg y, .w ")"]
  | .callAt x y => [.w (name6 "CALL@" ++ " ("), .reg x, .w ", ", .reg y, .w ")"]
  | .loadRet x v => [.w "LOAD&RETURN ", .reg x, .w ",", .hex v.toNat]
  | .reti e => [.w (if e then "RETURNI ENABLE" else "RETURNI DISABLE")]
  | .intr e => [.w (if e then "ENABLE INTERRUPT" else "DISABLE INTERRUPT")]
  | .bank b => [.w (if b then "REGBANK B" else "REGBANK A")]
  | .star x y => [.w (name6 "STAR" ++ " "), .reg x, .w ",", .reg y]
  | .hwbuild x => [.w "HWBUILD ", .reg x]

def shown (i : I) : String := String.join ((text i).map partText)

end Ucsim.Pb
