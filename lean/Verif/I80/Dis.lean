import Verif.I80.Step

/-
Model of the 8080/8085 disassembler (text without the comment part) and of the tables the
`next` command uses.
-/
namespace Ucsim.I80

abbrev Entry := Byte × Byte × Nat × String

/-- The search loops in get_dis_entry, i8080.cc 187-198, i8085.cc 133-144, uc.cc 2636. -/
def look (tab : List Entry) (code : Byte) : Option Entry := tab.find? (fun e => code &&& e.2.1 = e.1)

/-- get_dis_entry, i8080.cc 181-201, i8085.cc 127-147 -/
def getDis (cpu : Cpu) (code : Byte) : Option Entry :=
  (look (match cpu with | .i8080 => dis80 | .i8085 => dis85) code).or (look disCommon code)

/-- cl_uc::inst_length, uc.cc 2625-2638; dis_tbl is disass_common for both processors
(i8080.cc 175-179). -/
def instLength (code : Byte) : Nat :=
  match look disCommon code with
  | some e => e.2.2.1
  | none => 1

/-- cl_uc::is_call, uc.cc 2656-2670: no entry of i8085.src/glob.cc has the field. -/
def isCall (_code : Byte) : Bool := false

/-- A piece of the text: a character, or a number of the instruction printed by %02x, %04x. -/
inductive Piece
  | ch (c : Char)
  /-- 0x%02x of rom->read(addr+1) -/
  | imm8
  /-- 0x%04x of read_addr(rom, addr+1) -/
  | imm16
  deriving DecidableEq, Repr

/-- i8080.cc 203-226 -/
def rmNames : List Char := ['B', 'C', 'D', 'E', 'H', 'L', 'M', 'A']
def rpNames : List String := ["B", "D", "H", "SP"]
def srpNames : List String := ["B", "D", "H", "PSW"]

def chs (s : String) : List Piece := s.toList.map .ch

/-- i8080.cc 302-390: what a quoted format puts in the text. -/
def fmtPieces (code : Byte) (fmt : List Char) : List Piece :=
  let n := code.toNat
  if fmt = [] then [.ch '\'']
  else if fmt = "rm5".toList then [.ch (rmNames.getD (n / 8 % 8) '?')]
  else if fmt = "rm2".toList then [.ch (rmNames.getD (n % 8) '?')]
  else if fmt = "i8".toList ∨ fmt = "hli8".toList ∨ fmt = "spi8".toList ∨ fmt = "in".toList ∨ fmt = "out".toList then [.imm8]
  else if fmt = "i16".toList ∨ fmt = "a16".toList ∨ fmt = "a16_8".toList ∨ fmt = "a16_16".toList then [.imm16]
  else if fmt = "rp5".toList ∨ fmt = "rp5_8".toList ∨ fmt = "rp5_16".toList then chs (rpNames.getD (n / 16 % 4) "")
  else if fmt = "srp".toList then chs (srpNames.getD (n / 16 % 4) "")
  else if fmt = "rst".toList then [.ch (Nat.digitChar (n / 8 % 8))]
  else []

/-- i8080.cc 284-408: the loop over the mnemonic.  `n`: characters left to look at (bounds the
recursion). -/
def scan (code : Byte) : Nat → List Char → Bool → List Piece → List Piece
  | 0, _, _, w => w
  | _, [], _, w => w
  | n + 1, c :: l, first, w =>
    let pad := c = ' ' ∧ first = true
    let w := if pad then w ++ List.replicate (6 - w.length) (.ch ' ') else w
    let first := if pad then false else first
    if c = '\'' then scan code n ((l.dropWhile (· ≠ '\'')).drop 1) first (w ++ fmtPieces code (l.takeWhile (· ≠ '\'')))
    else if c = '%' then scan code n (l.drop 1) first w
    else scan code n l first (w ++ [.ch c])

/-- cl_i8080::disassc, i8080.cc 266-410, up to printing of the numbers. -/
def dis (cpu : Cpu) (code : Byte) : List Piece :=
  match getDis cpu code with
  | none => chs "-- UNKNOWN/INVALID"
  | some e => scan code (e.2.2.2.toList.length + 1) e.2.2.2.toList true []

/-- printf("%0*x") -/
def hexDigits (k n : Nat) : List Char := ((List.range k).reverse.map (fun i => Nat.digitChar (n / 16 ^ i % 16)))

/-- The text: numbers printed. -/
def print (s : St) (addr : Word) : List Piece → List Char
  | [] => []
  | .ch c :: l => c :: print s addr l
  | .imm8 :: l => '0' :: 'x' :: (hexDigits 2 (rd s (addr.toNat + 1)).toNat ++ print s addr l)
  | .imm16 :: l => '0' :: 'x' :: (hexDigits 4 (readAddr s (addr.toNat + 1)) ++ print s addr l)

/-- cl_i8080::disassc -/
def disassc (cpu : Cpu) (s : St) (addr : Word) : List Char := print s addr (dis cpu (rd s addr.toNat))

end Ucsim.I80
