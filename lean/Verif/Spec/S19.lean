import Verif.Spec.Hex
/-
Specification of S-record lines and of OMF-51 content records.
-/
namespace Ucsim.Spec.S19
open Ucsim.Spec.Hex

/-- Value of an address written high byte first. -/
def be (l : List Nat) : Nat := l.foldl (fun a b => a * 256 + b) 0

/-- Number of address bytes of the data record types '1', '2', '3'. -/
def addrBytes (typ : Nat) : Option Nat :=
  if typ = 49 then some 2 else if typ = 50 then some 3 else if typ = 51 then some 4 else none

/-- `Line t l`: the line `t` (without its newline) has to store `l`.  A record is
`S`, a type digit, and bytes in hex: the count of the bytes that follow it, the
address, the data, the checksum (the lowest byte of the sum of all of them is
255); text behind it is ignored. -/
inductive Line : List Nat → List (Nat × Nat) → Prop
  /-- A right data record. -/
  | data {typ n : Nat} {text addr data tail : List Nat} {chk : Nat} :
      addrBytes typ = some n → addr.length = n →
      Spells text ((addr.length + data.length + 1) :: (addr ++ data ++ [chk])) →
      ((addr.length + data.length + 1) :: (addr ++ data ++ [chk])).sum % 256 = 255 →
      Line (83 :: typ :: (text ++ tail)) (seqAt (be addr) data)
  /-- Wrong checksum, in a record of any type. -/
  | wrong {typ : Nat} {text rest tail : List Nat} :
      Spells text (rest.length :: rest) →
      (rest.length :: rest).sum % 256 ≠ 255 →
      Line (83 :: typ :: (text ++ tail)) []
  /-- A record of another type (header, count, start address...). -/
  | otherType {typ : Nat} {text rest tail : List Nat} :
      Spells text (rest.length :: rest) → addrBytes typ = none → Line (83 :: typ :: (text ++ tail)) []
  /-- A data record without room for its address and checksum. -/
  | noAddr {typ n : Nat} {text rest tail : List Nat} :
      Spells text (rest.length :: rest) → addrBytes typ = some n → rest.length < n + 1 →
      Line (83 :: typ :: (text ++ tail)) []
  /-- Too short: no count, or fewer characters than the count tells. -/
  | noCount {t : List Nat} : t.length < 4 → Line t []
  | short {typ cnt : Nat} {text tail : List Nat} :
      Spells text [cnt] → (text ++ tail).length < 2 + 2 * cnt → Line (83 :: typ :: (text ++ tail)) []
  /-- Not an S-record. -/
  | other {c : Nat} {t : List Nat} : c ≠ 83 → Line (c :: t) []

/-- A line of a text file: no newline, no zero, 7-bit characters. -/
def TextLine (t : List Nat) : Prop := ∀ c ∈ t, c ≠ 10 ∧ c ≠ 13 ∧ 0 < c ∧ c < 128

/-- A file: lines, each ended by a newline character (10 or 13; CR LF is a newline
and an empty line ended by the other). -/
def fileOf : List (List Nat × Nat) → List Nat
  | [] => []
  | (t, nl) :: ls => t ++ nl :: fileOf ls

/-- An OMF-51 record: type, contents, checksum. -/
structure OmfRec where
  typ : Nat
  body : List Nat
  chk : Nat

/-- The bytes of a record: type, length of contents and checksum (low byte
first), contents, checksum. -/
def OmfRec.bytes (r : OmfRec) : List Nat :=
  r.typ :: (r.body.length + 1) % 256 :: (r.body.length + 1) / 256 :: (r.body ++ [r.chk])

/-- What a record has to store: a content record (type 6) holds a segment number,
an offset (low byte first) and the data for this offset. -/
def OmfRec.stores (r : OmfRec) : List (Nat × Nat) :=
  match r.typ, r.body with
  | 6, _ :: lo :: hi :: data => seqAt (hi * 256 + lo) data
  | _, _ => []

end Ucsim.Spec.S19
