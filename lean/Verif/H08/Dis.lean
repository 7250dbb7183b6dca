import Verif.H08.Step
import Verif.H08.DisTable

/-
Model of the disassembler of the M68HC08, m68hc08.cc 227-439.  No symbol is defined for the
addresses shown.
-/
namespace Ucsim.H08

/-- The search loops in get_disasm_info, m68hc08.cc 290-293 and 303-306 -/
def lookDis (tab : List DisEntry) (code : Byte) : Option DisEntry := tab.find? (fun e => e.code == code)

/-- Entry, length of the prefix, immed_offset: get_disasm_info, m68hc08.cc 267-330.  `b i` is the byte read at addr+i. -/
def disEntry (b : Nat → Byte) : Option DisEntry × Nat × Nat :=
  if b 0 = 0x9e#8 then (lookDis dis9e (b 1), 1, 2) else (lookDis disTab (b 0), 0, 1)

/-- inst_length, m68hc08.cc 227-236: the length is 1 when it would be 0. -/
def disLen (b : Nat → Byte) : Nat :=
  match (disEntry b).1 with
  | some e => if e.length + (disEntry b).2.1 = 0 then 1 else e.length + (disEntry b).2.1
  | none => 1

/-- is_call, m68hc08.cc 250-258; the last entry of each table has no is_call. -/
def disCall (b : Nat → Byte) : Bool :=
  match (disEntry b).1 with
  | some e => e.isCall
  | none => false

/-- A piece of the text: a character, or a number at an offset of the instruction. -/
inductive Piece
  | ch (c : Char)
  /-- %d of a signed char -/
  | signed (i : Nat)
  /-- $%04x -/
  | word (i : Nat)
  /-- $%02x -/
  | byte (i : Nat)
  /-- $%04x of the target of a branch -/
  | rel (i : Nat)
  deriving DecidableEq, Repr

/-- The loop of cl_hc08::disass, m68hc08.cc 352-436: `k` immed_offset, `w` the text so far.  %C
is only in the table of the 9S08. -/
def disScan : List Char → Bool → Nat → List Piece → List Piece
  | [], _, _, w => w
  | '%' :: c :: l, first, k, w =>
    if c = 's' then disScan l first (k + 1) (w ++ [.ch '#', .signed k])
    else if c = 'w' then disScan l first (k + 2) (w ++ [.ch '#', .word k])
    else if c = 'b' then disScan l first (k + 1) (w ++ [.ch '#', .byte k])
    else if c = 'x' then disScan l first (k + 2) (w ++ [.word k])
    else if c = 'd' then disScan l first (k + 1) (w ++ [.ch '*', .byte k])
    else if c = '2' then disScan l first (k + 2) (w ++ [.word k])
    else if c = '1' then disScan l first (k + 1) (w ++ [.byte k])
    else if c = 'p' then disScan l first (k + 1) (w ++ [.rel k])
    else disScan l first k (w ++ [.ch '?'])
  | c :: l, first, k, w =>
    if c = ' ' ∧ first = true then disScan l false k (w ++ List.replicate (6 - w.length) (.ch ' ') ++ [.ch c])
    else disScan l first k (w ++ [.ch c])

/-- cl_hc08::disass, m68hc08.cc 332-439, up to printing the numbers. -/
def disPieces (b : Nat → Byte) : List Piece :=
  match (disEntry b).1 with
  | some e => disScan e.mnemonic.toList true (disEntry b).2.2 []
  | none => "UNKNOWN/INVALID".toList.map .ch

/-- printf("%0*x") -/
def hexDigits (k n : Nat) : List Char := (List.range k).reverse.map (fun i => Nat.digitChar (n / 16 ^ i % 16))

/-- The numbers; `%p`: m68hc08.cc 412-419 -/
def disPrint (addr : Nat) (b : Nat → Byte) : List Piece → List Char
  | [] => []
  | .ch c :: l => c :: disPrint addr b l
  | .signed i :: l => (toString (b i).toInt).toList ++ disPrint addr b l
  | .word i :: l => '$' :: (hexDigits 4 ((b i).toNat * 256 + (b (i + 1)).toNat) ++ disPrint addr b l)
  | .byte i :: l => '$' :: (hexDigits 2 (b i).toNat ++ disPrint addr b l)
  | .rel i :: l => '$' :: (hexDigits 4 (((addr : Int) + i + 1 + (b i).toInt) % 0x10000).toNat ++ disPrint addr b l)

/-- The text, the length and whether it is a call of the instruction at `addr`. -/
def disass (s : St) (addr : Nat) : List Char := disPrint addr (fun i => rd s (addr + i)) (disPieces (fun i => rd s (addr + i)))
def instLength (s : St) (addr : Nat) : Nat := disLen (fun i => rd s (addr + i))
def isCall (s : St) (addr : Nat) : Bool := disCall (fun i => rd s (addr + i))

end Ucsim.H08
