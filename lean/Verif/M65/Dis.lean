import Verif.M65.Step

/-
Model of the 6502 disassembler (text without the comment part; no symbol is defined for the
addresses) and of what the `next` command uses.
-/
namespace Ucsim.M65

/-- get_dis_entry, mos6502.cc 258-271 -/
def getDis (code : Byte) : Option (Byte × Char × Nat × String) := disTab.find? (fun e => code = e.1)

/-- mos6502.cc 673-680 -/
def instLength (code : Byte) : Nat :=
  match getDis code with
  | some e => e.2.2.1
  | none => 0

/-- mos6502.cc 682-689 -/
def isCall (code : Byte) : Bool :=
  match getDis code with
  | some e => e.2.1 == 's' || e.2.1 == 'S'
  | none => false

/-- A piece of the text: a character, or a number printed with %02x, %04x. -/
inductive Piece
  | ch (c : Char)
  /-- $%02x of the second byte -/
  | b2
  /-- $%04x of the second byte -/
  | b4
  /-- $%04x of the second and third bytes -/
  | w
  /-- $%04x of the target of a branch -/
  | r
  deriving DecidableEq, Repr

/-- mos6502.cc 304-470: what `%c` puts in the text.  Only the formats of the table are here. -/
def fmt (c : Char) : List Piece :=
  match c with
  | 'x' => [.ch '(', .b2, .ch ',', .ch 'X', .ch ')']
  | 'y' => [.ch '(', .b2, .ch ',', .ch 'Y', .ch ')']
  | 'a' | 'j' => [.w]
  | 'J' => [.ch '(', .w, .ch ')']
  | 'z' => [.b4]
  | 'X' => [.b4, .ch ',', .ch 'X']
  | 'Y' => [.b4, .ch ',', .ch 'Y']
  | 'i' => [.w, .ch ',', .ch 'X']
  | 'p' => [.w, .ch ',', .ch 'Y']
  | 'r' => [.r]
  | '#' => [.ch '#', .b2]
  | _ => []

/-- mos6502.cc 290-480: the loop over the mnemonic.  The first blank is put at column 6. -/
def scan : List Char → Bool → List Piece → List Piece
  | [], _, w => w
  | ['%'], _, w => w
  | '%' :: c :: l, first, w => scan l first (w ++ fmt c)
  | c :: l, first, w =>
    let pad := c = ' ' ∧ first = true
    let w := if pad then w ++ List.replicate (6 - w.length) (.ch ' ') else w
    scan l (if pad then false else first) (w ++ [.ch c])

/-- cl_mos6502::disassc, mos6502.cc 273-483, up to printing of the numbers. -/
def dis (code : Byte) : List Piece :=
  match getDis code with
  | none => "-- UNKNOWN/INVALID".toList.map .ch
  | some e => scan e.2.2.2.toList true []

/-- printf("%0*x") -/
def hexDigits (k n : Nat) : List Char := (List.range k).reverse.map (fun i => Nat.digitChar (n / 16 ^ i % 16))

/-- Numbers printed. -/
def print (s : St) (addr : Nat) : List Piece → List Char
  | [] => []
  | .ch c :: l => c :: print s addr l
  | .b2 :: l => '$' :: (hexDigits 2 (rd s (addr + 1)).toNat ++ print s addr l)
  | .b4 :: l => '$' :: (hexDigits 4 (rd s (addr + 1)).toNat ++ print s addr l)
  | .w :: l => '$' :: (hexDigits 4 ((rd s (addr + 2)).toNat * 256 + (rd s (addr + 1)).toNat) ++ print s addr l)
  | .r :: l => '$' :: (hexDigits 4 (((addr : Int) + (rd s (addr + 1)).toInt + 2) % 0x10000).toNat ++ print s addr l)

/-- cl_mos6502::disassc -/
def disassc (s : St) (addr : Nat) : List Char := print s addr (dis (rd s addr))

/-- Where the `next` command (cmd_exec.cc 260-299) leaves the machine: on a call at the first
return to the address after it (a temporary breakpoint at the address plus the length), on other
instructions after one step.  Only this breakpoint is modelled. -/
def NextStop (s t : St) : Prop :=
  let c := rd s s.pc
  if isCall c then
    ∃ k, 1 ≤ k ∧ t = steps k s ∧ t.pc = s.pc + instLength c ∧ ∀ j, 1 ≤ j → j < k → (steps j s).pc ≠ s.pc + instLength c
  else t = (step s).2

end Ucsim.M65
