import Verif.I48.Step
import Verif.I48.DisTable
/-
Model of the disassembler of the MCS-48, i8020.cc 334-443.
-/
namespace Ucsim.I48

/-- dis_entry_of, i8020.cc 347-359 -/
def disEntry (code : Byte) : Option DisEntry := disTab.find? (fun e => e.code == code)

/-- inst_length, i8020.cc 438-443 -/
def instLength (code : Byte) : Nat := match disEntry code with
  | some e => e.length
  | none => 1

/-- is_call, uc.cc 2656-2670: no entry of decode.h, of whichever family, has is_call. -/
def isCall (code : Byte) : Bool := match disEntry code with
  | some e => e.isCall
  | none => false

/-- A piece of the text: a character, or a number. -/
inductive Piece
  | ch (c : Char)
  /-- #0x%02x of the second byte -/
  | imm
  /-- 0x%04x, the second byte in the page of the instruction -/
  | page
  /-- P.0x%04x, bits 5-7 of the code and the second byte -/
  | long
  deriving DecidableEq, Repr

/-- The loop of disassc, i8020.cc 384-433: `w` the text so far. -/
def disScan : List Char → Bool → List Piece → List Piece
  | [], _, w => w
  | '\'' :: 'i' :: '8' :: '\'' :: l, first, w => disScan l first (w ++ [.imm])
  | '\'' :: 'a' :: '8' :: '\'' :: l, first, w => disScan l first (w ++ [.page])
  | '\'' :: 'a' :: '1' :: '1' :: '\'' :: l, first, w => disScan l first (w ++ [.long])
  | c :: l, first, w =>
    if c = ' ' ∧ first = true then disScan l false (w ++ List.replicate (6 - w.length) (.ch ' ') ++ [.ch c])
    else disScan l first (w ++ [.ch c])

def disPieces (code : Byte) : List Piece := match disEntry code with
  | some e => disScan e.mnemonic.toList true []
  | none => "-- UNKNOWN/INVALID".toList.map .ch

/-- printf("%0*x") -/
def hexDigits (k n : Nat) : List Char := (List.range k).reverse.map (fun i => Nat.digitChar (n / 16 ^ i % 16))

/-- The numbers, i8020.cc 401-417: `b` the byte read at addr+1. -/
def disPrint (addr : Addr) (code b : Byte) : List Piece → List Char
  | [] => []
  | .ch c :: l => c :: disPrint addr code b l
  | .imm :: l => "#0x".toList ++ (hexDigits 2 b.toNat ++ disPrint addr code b l)
  | .page :: l => "0x".toList ++ (hexDigits 4 ((addr &&& 0xf00#12) ||| b.setWidth 12).toNat ++ disPrint addr code b l)
  | .long :: l => "P.0x".toList ++ (hexDigits 4 (((code &&& 0xe0#8).toNat <<< 3) + b.toNat) ++ disPrint addr code b l)

/-- The text of the instruction at `addr`. -/
def disass (s : St) (addr : Addr) : List Char :=
  disPrint addr (romRd s addr) (romRd s (addr + 1)) (disPieces (romRd s addr))

end Ucsim.I48
