import Verif.Z80.Step
import Verif.Z80.DisTable

/-
Model of the Z80 disassembler, z80.cc 327-560.
-/
namespace Ucsim.Z80

/-- The search loops in get_disasm_info, e.g. z80.cc 385-388 -/
def lookDis (tab : List DisEntry) (code : Byte) : Option DisEntry := tab.find? (fun e => e.code == code)

/-- Entry, length without the entry's length, immed_offset: get_disasm_info, z80.cc 364-498, CPU_Z80.  `b i` is
the byte read at addr+i. -/
def disEntry (b : Nat → Byte) : Option DisEntry × Nat × Nat :=
  if b 0 = 0xcb#8 then (lookDis disCb (b 1), 1, 2)
  else if b 0 = 0xed#8 then (lookDis disEd (b 1), 1, 2)
  else if b 0 = 0xdd#8 then
    if b 1 = 0xcb#8 then (lookDis disDdcb (b 3), 2, 2) else (lookDis disDd (b 1), 1, 2)
  else if b 0 = 0xfd#8 then
    if b 1 = 0xcb#8 then (lookDis disFdcb (b 3), 2, 2) else (lookDis disFd (b 1), 1, 2)
  else (lookDis dis00 (b 0), 0, 1)

/-- inst_length, z80.cc 327-335: the length is 1 when it would be 0. -/
def disLen (b : Nat → Byte) : Nat :=
  match (disEntry b).1 with
  | some e => if e.length + (disEntry b).2.1 = 0 then 1 else e.length + (disEntry b).2.1
  | none => 1

/-- is_call, z80.cc 347-355; the last entry of each table (where a search in vain ends) has no is_call. -/
def disCall (b : Nat → Byte) : Bool :=
  match (disEntry b).1 with
  | some e => e.isCall
  | none => false

/-- A piece of the text: a character, or a number at an offset of the instruction. -/
inductive Piece
  | ch (c : Char)
  /-- %d of a signed char -/
  | signed (i : Nat)
  /-- 0x%04x, little endian -/
  | word (i : Nat)
  /-- 0x%04x, big endian -/
  | wordB (i : Nat)
  /-- 0x%02x -/
  | byte (i : Nat)
  deriving DecidableEq, Repr

/-- The loop of cl_z80::disass, z80.cc 511-558: `k` immed_offset, `w` the text so far. -/
def disScan : List Char → Bool → Nat → List Piece → List Piece
  | [], _, _, w => w
  | '%' :: c :: l, first, k, w =>
    if c = 'd' then disScan l first (k + 1) (w ++ [.signed k])
    else if c = 'w' then disScan l first (k + 2) (w ++ [.word k])
    else if c = 'W' then disScan l first (k + 2) (w ++ [.wordB k])
    else if c = 'b' then disScan l first (k + 1) (w ++ [.byte k])
    else disScan l first k (w ++ [.ch '?'])
  | c :: l, first, k, w =>
    if c = ' ' ∧ first = true then disScan l false k (w ++ List.replicate (6 - w.length) (.ch ' ') ++ [.ch c])
    else disScan l first k (w ++ [.ch c])

/-- cl_z80::disass, z80.cc 496-560, up to printing the numbers. -/
def disPieces (b : Nat → Byte) : List Piece :=
  match (disEntry b).1 with
  | some e => disScan e.mnemonic.toList true (disEntry b).2.2 []
  | none => "UNKNOWN/INVALID".toList.map .ch

/-- printf("%0*x") -/
def hexDigits (k n : Nat) : List Char := (List.range k).reverse.map (fun i => Nat.digitChar (n / 16 ^ i % 16))

def disPrint (b : Nat → Byte) : List Piece → List Char
  | [] => []
  | .ch c :: l => c :: disPrint b l
  | .signed i :: l => (toString (b i).toInt).toList ++ disPrint b l
  | .word i :: l => '0' :: 'x' :: (hexDigits 4 ((b (i + 1)).toNat * 256 + (b i).toNat) ++ disPrint b l)
  | .wordB i :: l => '0' :: 'x' :: (hexDigits 4 ((b i).toNat * 256 + (b (i + 1)).toNat) ++ disPrint b l)
  | .byte i :: l => '0' :: 'x' :: (hexDigits 2 (b i).toNat ++ disPrint b l)

/-- The text, the length and whether it is a call of the instruction at `addr`. -/
def disass (s : St) (addr : Nat) : List Char := disPrint (fun i => rd s (addr + i)) (disPieces (fun i => rd s (addr + i)))
def instLength (s : St) (addr : Nat) : Nat := disLen (fun i => rd s (addr + i))
def isCall (s : St) (addr : Nat) : Bool := disCall (fun i => rd s (addr + i))

end Ucsim.Z80
