/-
Specification of Intel HEX files, independent of the model of the program.
Characters are their codes.
-/
namespace Ucsim.Spec.Hex

/-- Value of a hexadecimal digit (either case). -/
def digit (c : Nat) : Option Nat :=
  if 48 ≤ c ∧ c ≤ 57 then some (c - 48)
  else if 65 ≤ c ∧ c ≤ 70 then some (c - 55)
  else if 97 ≤ c ∧ c ≤ 102 then some (c - 87)
  else none

/-- `Spells text bytes`: the text is the bytes written with two digits each. -/
inductive Spells : List Nat → List Nat → Prop
  | nil : Spells [] []
  | cons {a b x y : Nat} {t bs : List Nat} : digit a = some x → digit b = some y → Spells t bs →
      Spells (a :: b :: t) ((16 * x + y) :: bs)

/-- A record as written in the file: characters before it, its text after the
colon, and the fields the text spells. -/
structure Line where
  gap : List Nat
  text : List Nat
  addr : Nat
  typ : Nat
  data : List Nat
  sum : Nat

/-- The bytes of the record, checksum included. -/
def Line.bytes (r : Line) : List Nat :=
  r.data.length :: r.addr / 256 :: r.addr % 256 :: r.typ :: (r.data ++ [r.sum])

/-- Syntactically right record (the checksum may be wrong). -/
structure Line.Ok (r : Line) : Prop where
  gap : ∀ c ∈ r.gap, c ≠ 58 ∧ c < 256
  text : Spells r.text r.bytes
  addr : r.addr < 65536
  typ : r.typ < 256
  len : r.data.length < 256
  data : ∀ b ∈ r.data, b < 256
  sum : r.sum < 256

/-- The checksum matches. -/
def Line.good (r : Line) : Prop := r.bytes.sum % 256 = 0

instance (r : Line) : Decidable r.good := inferInstanceAs (Decidable (_ = _))

/-- The characters of the line. -/
def Line.chars (r : Line) : List Nat := r.gap ++ 58 :: r.text

/-- `data` placed from `addr`. -/
def seqAt (addr : Nat) : List Nat → List (Nat × Nat)
  | [] => []
  | b :: bs => (addr, b) :: seqAt (addr + 1) bs

/-- What a loader has to store, in order: data records (type 0) at base +
address, the base set by extended linear address records (type 4), loading ends
at an end record (type 1, whatever its checksum is); other records with a wrong
checksum are ignored. -/
def stores (base : Nat) : List Line → List (Nat × Nat)
  | [] => []
  | r :: rs =>
    if r.typ = 1 then []
    else if r.good then
      if r.typ = 0 then seqAt (base + r.addr) r.data ++ stores base rs
      else if r.typ = 4 ∧ 2 ≤ r.data.length then stores ((r.data.getD 0 0 * 256 + r.data.getD 1 0) * 65536) rs
      else stores base rs
    else stores base rs

/-- A file: lines, and what follows the last one (no colon in it). -/
def fileText (ls : List Line) (rest : List Nat) : List Nat := (ls.map Line.chars).flatten ++ rest

end Ucsim.Spec.Hex

namespace Ucsim.Spec.Hex

/-- Words written as `k` bytes each, low byte first. -/
def le (k : Nat) (ws : List Nat) : List Nat :=
  (ws.map fun w => (List.range k).map fun i => w / 256 ^ i % 256).flatten

/-- What has to be stored in a memory of `k` byte words, `ws r` being the words
of the data record `r`, if no extended address records are used. -/
def storesWords (k : Nat) (ws : Line → List Nat) : List Line → List (Nat × Nat)
  | [] => []
  | r :: rs =>
    if r.typ = 1 then []
    else if r.good ∧ r.typ = 0 then seqAt (r.addr / k) (ws r) ++ storesWords k ws rs
    else storesWords k ws rs

end Ucsim.Spec.Hex
