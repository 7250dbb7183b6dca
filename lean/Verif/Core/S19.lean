import Verif.Core.Hex
/-
Model of the S-record loader and of the OMF-51 loader.
Source: /repo/src/core/sim.src/uc.cc (h1, h2, a16, a24, a32, s19, read_s19_file,
cl_omf_rec, read_omf_file) and /repo/src/core/utils.src/fio.cc (get_s).

As in Core/Hex.lean a run is the list of the calls of `set_rom`; `none` = the
loader never returns.
-/
namespace Ucsim

/-- `chars::append(char)`, chars.cc 165-190: a zero is not appended. -/
def appendChar (s : List Int) (c : Int) : List Int := if c = 0 then s else s ++ [c]

/-- `(c == '\n') || (c == '\r')`. -/
def isNl (c : Int) : Bool := c = 10 || c = 13

/-- The first loop of `cl_f::get_s`, fio.cc 941-948, `c` being the last character
read: `none` in the result is `return s` at the end of the file.  The first
argument bounds the number of turns. -/
def getSSkip : Nat → Int → File → Option (Option Int × File)
  | 0, _, _ => none
  | n + 1, c, f =>
    if isNl c then
      if f.eof then some (none, f)
      else match f.getC with
        | none => none
        | some (c, f) => getSSkip n c f
    else some (some c, f)

/-- The second loop of `cl_f::get_s`, fio.cc 953-960. -/
def getSLoop : Nat → List Int → Int → File → Option (List Int × File)
  | 0, _, _, _ => none
  | n + 1, s, c, f =>
    if !f.eof && !isNl c then
      match f.getC with
      | none => none
      | some (c', f) => getSLoop n (appendChar s c) c' f
    else some (s, f)

/-- `cl_f::get_s`, fio.cc 933-963. -/
def File.getS (f : File) : Option (List Int × File) :=
  if f.eof then some ([], f)
  else match f.getC with
    | none => none
    | some (c, f) =>
      match getSSkip (f.left.length + 1) c f with
      | none => none
      | some (none, f) => some ([], f)
      | some (some c, f) =>
        if f.eof then some ([], f)
        else match f.getC with
          | none => none
          | some (c', f) => getSLoop (f.left.length + 1) (appendChar [] c) c' f

/-- `s[p]` of a C string.  (Positions behind the terminating zero are read only
from wide memories' records with a broken word; they are taken as zeros.) -/
def chAt (s : List Int) (p : Nat) : Int := s.getD p 0

/-- `h2`, uc.cc 2027-2036, with `h1` (2013-2025). -/
def h2 (s : List Int) (p : Nat) : Nat :=
  match hexVal (chAt s p), hexVal (chAt s (p + 1)) with
  | some x, some y => (16 * x + y).toNat
  | _, _ => 0

/-- `a16`, uc.cc 2038-2045. -/
def a16 (s : List Int) (p : Nat) : Nat := u32 (h2 s p * 256 + h2 s (p + 2))
/-- `a24`, uc.cc 2047-2056. -/
def a24 (s : List Int) (p : Nat) : Nat := u32 (u32 (h2 s p * 256 + h2 s (p + 2)) * 256 + h2 s (p + 4))
/-- `a32`, uc.cc 2058-2069. -/
def a32 (s : List Int) (p : Nat) : Nat :=
  u32 (u32 (u32 (h2 s p * 256 + h2 s (p + 2)) * 256 + h2 s (p + 4)) * 256 + h2 s (p + 6))

/-- The loop of `s19`, uc.cc 2084-2121, for widths up to 32 (above it does not
end); `left` is `data_bytes - b`, the first argument bounds the turns. -/
def s19Loop (width : Nat) (s : List Int) : Nat → Nat → Nat → Int → List (Nat × Nat)
  | 0, _, _, _ => []
  | n + 1, a, p, left =>
    if left > 0 then
      if width ≤ 8 then (a, h2 s p) :: s19Loop width s n (u32 (a + 1)) (p + 2) (left - 1)
      else if width ≤ 16 then
        (a, h2 s (p + 2) * 256 + h2 s p) :: s19Loop width s n (u32 (a + 1)) (p + 4) (left - 2)
      else if width ≤ 24 then
        (a, h2 s (p + 4) * 65536 + h2 s (p + 2) * 256 + h2 s p) :: s19Loop width s n (u32 (a + 1)) (p + 6) (left - 3)
      else
        (a, h2 s (p + 6) * 16777216 + h2 s (p + 4) * 65536 + h2 s (p + 2) * 256 + h2 s p) ::
          s19Loop width s n (u32 (a + 1)) (p + 8) (left - 4)
    else []

/-- Scaling of the address in `s19`, uc.cc 2078-2083 (all the conditions that
hold are applied, one after the other). -/
def s19Scale (width a : Nat) : Nat :=
  if width > 8 then
    let a := if width ≤ 16 then a / 2 else a
    let a := if width ≤ 24 then a / 3 else a
    if width ≤ 32 then a / 4 else a
  else a

/-- `s19`, uc.cc 2071-2124: calls of `set_rom` and the result. -/
def s19 (width : Nat) (a : Nat) (s : List Int) (p : Nat) (dataBytes : Int) : List (Nat × Nat) × Nat :=
  if dataBytes < 1 then ([], 0)
  else (s19Loop width s dataBytes.toNat (s19Scale width a) p dataBytes, dataBytes.toNat)

/-- The loop which adds up the bytes, uc.cc 2146-2153. -/
def s19Sum (s : List Int) : Nat → Nat → Nat
  | 0, _ => 0
  | n + 1, p => (if chAt s p ≠ 0 ∧ chAt s (p + 1) ≠ 0 then h2 s p else 0) + s19Sum s n (p + 2)

/-- The body of the loop of `read_s19_file`, uc.cc 2134-2192, for a line. -/
def s19Line (width : Nat) (s : List Int) : List (Nat × Nat) × Nat :=
  if s = [] then ([], 0)
  else if chAt s 0 ≠ 83 then ([], 0)
  else if s.length < 4 then ([], 0)
  else
    let cnt := h2 s 2
    if s.length < 4 + cnt * 2 then ([], 0)
    else
      let sum := s19Sum s cnt 2
      let chk := h2 s (2 + cnt * 2)
      if 255 - sum % 256 ≠ chk then ([], 0)
      else if chAt s 1 = 49 then s19 width (a16 s 4) s 8 ((cnt : Int) - 2 - 1)
      else if chAt s 1 = 50 then s19 width (a24 s 4) s 10 ((cnt : Int) - 3 - 1)
      else if chAt s 1 = 51 then s19 width (a32 s 4) s 12 ((cnt : Int) - 4 - 1)
      else ([], 0)

/-- The loop of `cl_uc::read_s19_file`, uc.cc 2131-2193: calls and `written`. -/
def s19Read (width : Nat) : Nat → File → Option (List (Nat × Nat) × Nat)
  | 0, _ => none
  | n + 1, f =>
    if f.eof then some ([], 0)
    else match f.getS with
      | none => none
      | some (s, f) =>
        match s19Read width n f with
        | none => none
        | some (cs, k) => some ((s19Line width s).1 ++ cs, (s19Line width s).2 + k)

/-- `cl_uc::read_s19_file`, uc.cc 2126-2194; every turn takes a byte at least. -/
def readS19 (width : Nat) (f : File) : Option (List (Nat × Nat) × Nat) := s19Read width (f.left.length + 1) f

/-- `cl_omf_rec::g`, uc.cc 291-297: the character as `unsigned char`. -/
def omfG (f : File) : Option (Nat × File) := f.getC.map fun r => (uchar r.1, r.2)

/-- The loop of `cl_omf_rec::read` over the contents, uc.cc 361-366: bytes, and
whether the end of the file was met. -/
def omfBytes : Nat → File → Option (List Nat × Bool × File)
  | 0, f => some ([], true, f)
  | n + 1, f =>
    match omfG f with
    | none => none
    | some (b, f) =>
      if f.eof then some ([b], false, f)
      else match omfBytes n f with
        | none => none
        | some (l, ok, f) => some (b :: l, ok, f)

/-- `cl_omf_rec::read`, uc.cc 332-371: type and contents (`rec`), or `none` when
it returns false.  `len` is `u16_t`: a length field of 0 gives 65535.  The
checksum is read and not used. -/
def omfRead (f : File) : Option (Option (Nat × List Nat) × File) :=
  if f.eof then some (none, f)
  else match omfG f with
    | none => none
    | some (typ, f) =>
      if f.eof then some (none, f)
      else match omfG f with
        | none => none
        | some (l, f) =>
          if f.eof then some (none, f)
          else match omfG f with
            | none => none
            | some (h, f) =>
              if f.eof then some (none, f)
              else match omfBytes ((h * 256 + l + 65535) % 65536) f with
                | none => none
                | some (_, false, f) => some (none, f)
                | some (rec, true, f) =>
                  match omfG f with
                  | none => none
                  | some (_, f) => some (some (typ, rec), f)

/-- `cl_omf_rec::pick_word`, uc.cc 299-311. -/
def omfWord (rec : List Nat) (i : Nat) : Nat :=
  if (i : Int) ≥ (rec.length : Int) - 1 then 0 else rec.getD (i + 1) 0 * 256 + rec.getD i 0

/-- The loop over the contents, uc.cc 1734-1739: `set_rom(is, addr+i, rec[i])`. -/
def omfStores (addr : Nat) : Nat → List Nat → List (Nat × Nat)
  | _, [] => []
  | i, b :: bs => (u32 (addr + i), b) :: omfStores addr (i + 1) bs

/-- One record, uc.cc 1729-1740. -/
def omfRecord (typ : Nat) (rec : List Nat) : List (Nat × Nat) :=
  if typ = 6 then omfStores (omfWord rec 1) 3 (rec.drop 3) else []

/-- The loop of `cl_uc::read_omf_file`, uc.cc 1723-1743. -/
def omfLoop : Nat → File → Option (List (Nat × Nat))
  | 0, _ => none
  | n + 1, f =>
    match omfRead f with
    | none => none
    | some (none, _) => some []
    | some (some (typ, rec), f) =>
      match omfLoop n f with
      | none => none
      | some cs => some (omfRecord typ rec ++ cs)

/-- `cl_uc::read_omf_file`, uc.cc 1723-1743. -/
def readOmf (f : File) : Option (List (Nat × Nat) × Nat) :=
  (omfLoop (f.left.length + 1) f).map fun cs => (cs, cs.length)

end Ucsim
