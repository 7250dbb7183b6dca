import Verif.Avr.Step
/-
Model of the disassembler of the AVR, avr.cc 213-336, and of inst_length and is_call.
-/
namespace Ucsim.Avr

/-- cl_uc::is_call, uc.cc 2656-2670 -/
def isCall (s : St) (addr : Nat) : Bool := match disEntry (romRd s addr).toNat with
  | some e => e.isCall
  | none => false

/-- printf("%06x") -/
def hex6 (n : Nat) : List Char := let d := Nat.toDigits 16 n; List.replicate (6 - d.length) '0' ++ d
/-- printf("%d") of a number that is not negative -/
def dec (n : Nat) : List Char := Nat.toDigits 10 n

/-- The switch of disass, avr.cc 247-324: the text of one operand and the new value of `data`.
`nm a` is what addr_name (uc.cc 2689-) appends for the address `a` of the data memory: the names of
avr.cc 120-138.  Addresses of the program memory have no names (no symbols are loaded).  The
registers are formatted with the old value of `data`. -/
def disOp (nm : Nat → List Char) (s : St) (addr code data : Nat) (x : Char) : List Char × Nat :=
  let regOp (n : Nat) := ('r' :: dec data ++ nm n, n)
  match x with
  | 'd' => regOp ((code &&& 0x1f0) >>> 4)
  | 'D' => regOp (16 + ((code &&& 0xf0) >>> 4))
  | 'K' => (dec (((code &&& 0xf00) >>> 4) ||| (code &&& 0xf)), data)
  | 'r' => regOp (((code &&& 0x200) >>> 5) ||| (code &&& 0xf))
  | '2' => regOp (24 + 2 * ((code &&& 0x30) >>> 4))
  | '6' => (dec (((code &&& 0xc0) >>> 2) ||| (code &&& 0xf)), data)
  | 's' => (dec ((code &&& 0x70) >>> 4), data)
  | 'b' => (dec (code &&& 7), data)
  | 'k' => ("0x".toList ++ hex6 ((k7 code + (1 + addr)) % 0x100000000), data)
  | 'A' => ("0x".toList ++ hex6 (kh code * 0x10000 + (romRd s (addr + 1)).toNat), data)
  | 'P' => let d := (code &&& 0xf8) >>> 3; (dec d ++ nm (d + 0x20), d)
  | 'p' => let d := ((code &&& 0x600) >>> 5) ||| (code &&& 0xf); (dec d ++ nm (d + 0x20), d)
  | 'q' => (dec (((code &&& 0x2000) >>> 8) ||| ((code &&& 0xc00) >>> 7) ||| (code &&& 7)), data)
  | 'R' => ("0x".toList ++ hex6 (romRd s (addr + 1)).toNat ++ nm (romRd s (addr + 1)).toNat, data)
  | 'a' => ("0x".toList ++ hex6 (validate ((k12 code + 1 + addr) % 0x100000000)), data)
  | _ => (['?'], data)

/-- The loop of disass, avr.cc 237-333: `w` the text so far. -/
def disLoop (nm : Nat → List Char) (s : St) (addr code : Nat) : List Char → Nat → Bool → List Char → List Char
  | [], _, _, w => w
  | '%' :: x :: l, data, first, w => let (t, d) := disOp nm s addr code data x; disLoop nm s addr code l d first (w ++ t)
  | c :: l, data, first, w =>
    if c = ' ' ∧ first = true then disLoop nm s addr code l data false (w ++ List.replicate (6 - w.length) ' ' ++ [c])
    else disLoop nm s addr code l data first (w ++ [c])

/-- cl_avr::disass, avr.cc 213-336 -/
def disass (nm : Nat → List Char) (s : St) (addr : Nat) : List Char :=
  let code := (romRd s addr).toNat
  match disEntry code with
  | none => "UNKNOWN/INVALID".toList
  | some e => disLoop nm s addr code e.mnemonic.toList 0 true []

end Ucsim.Avr
