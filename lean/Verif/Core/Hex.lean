import Verif.Core.File
import Verif.Core.Mem
/-
Model of the content loaders and of the Intel HEX dump.
Source: /repo/src/core/sim.src/uc.cc (ReadInt, read_hex_file) and mem.cc
(dump_i).

The loader is modelled up to its calls of `set_rom`: it reads nothing back from
the memory and ignores the result of `set_rom`, so a run is the list of
`(address, value)` pairs passed to `set_rom`, in order (`calls`).  What the calls
do is modelled by `setRom` in Core/SetRom.lean.  `none` = the loader never
returns (`get_c` at the end of the file).
-/
namespace Ucsim

/-- ASCII value of a hex digit, `none` for another character. -/
def hexVal (c : Int) : Option Int :=
  if 48 ≤ c ∧ c ≤ 57 then some (c - 48)
  else if 65 ≤ c ∧ c ≤ 70 then some (c - 55)
  else if 97 ≤ c ∧ c ≤ 102 then some (c - 87)
  else none

/-- `strtol(s2, NULL, 16)` of a string of exactly two non-zero characters (C
standard): optional white space, optional sign, digits as far as they go.
("0x" followed by nothing is the digit 0.) -/
def strtol2 (a b : Int) : Int :=
  match hexVal a with
  | some x => match hexVal b with
    | some y => 16 * x + y
    | none => x
  | none =>
    if a = 32 ∨ (9 ≤ a ∧ a ≤ 13) ∨ a = 43 then (hexVal b).getD 0
    else if a = 45 then - (hexVal b).getD 0
    else 0

/-- The body of the loop in `ReadInt`, uc.cc 1437-1457: `none` in the first
component is `return 0` with `*ok` false. -/
def readByte (f : File) : Option (Option Int × File) :=
  if f.eof then some (none, f)
  else match f.getC with
    | none => none
    | some (c, f) =>
      if c < 0 ∨ c = 0 ∨ c > 255 then some (none, f)
      else if f.eof then some (none, f)
      else match f.getC with
        | none => none
        | some (d, f) =>
          if d < 0 ∨ d = 0 ∨ d > 255 then some (none, f)
          else some (some (strtol2 c d), f)

/-- `ReadInt`, uc.cc 1427-1460: value, `*ok`, file.  (`l` is `long`; with at most
two bytes it does not overflow.) -/
def readInt : Nat → Int → File → Option (Int × Bool × File)
  | 0, l, f => some (l, true, f)
  | n + 1, l, f =>
    match readByte f with
    | none => none
    | some (none, f) => some (0, false, f)
    | some (some v, f) => readInt n (l * 256 + v) f

/-- Conversion to `uchar`. -/
def uchar (v : Int) : Nat := (v % 256).toNat
/-- Conversion to `uint`. -/
def uint (v : Int) : Nat := (v % 4294967296).toNat

/-- The search of the colon, uc.cc 1606-1608: found or not.  The first argument
bounds the number of turns; `readHex` gives one more than the bytes left. -/
def skipTo : Nat → File → Option (Bool × File)
  | 0, _ => none
  | n + 1, f =>
    match f.getC with
    | none => none
    | some (c, f) =>
      if c = 58 then some (true, f)
      else if f.eof then some (false, f)
      else skipTo n f

/-- The data loop, uc.cc 1622-1626: `rec`, `ok`. -/
def readData : Nat → File → Option (List Nat × Bool × File)
  | 0, f => some ([], true, f)
  | n + 1, f =>
    match readInt 1 0 f with
    | none => none
    | some (v, ok, f) =>
      if ok then
        match readData n f with
        | none => none
        | some (l, ok, f) => some (uchar v :: l, ok, f)
      else some ([uchar v], false, f)

/-- Local variables of `read_hex_file` that live across records. -/
structure Hex where
  base : Nat
  addr : Nat
  rtyp : Nat
  getLow : Nat
  lows : List Nat
  written : Nat
  calls : List (Nat × Nat)
deriving DecidableEq, Repr

/-- uc.cc 1579-1590. -/
def Hex.init : Hex := ⟨0, 0, 0, 0, [0, 0, 0, 0], 0, []⟩

/-- `set_rom(is, base+addr, v, check)` followed by `addr++; written++`. -/
def Hex.store (h : Hex) (v : Nat) : Hex :=
  { h with calls := h.calls ++ [(u32 (h.base + h.addr), v)], addr := u32 (h.addr + 1), written := h.written + 1 }

/-- Word made of the collected bytes, uc.cc 1672-1677 (`int` arithmetic
converted to `t_mem`). -/
def lowsWord (l : List Nat) : Nat :=
  u32 (l.getD 3 0 * 16777216 + l.getD 2 0 * 65536 + l.getD 1 0 * 256 + l.getD 0 0)

/-- One data byte, uc.cc 1643-1687. -/
def Hex.byte (width : Nat) (h : Hex) (b : Nat) : Hex :=
  if width ≤ 8 then h.store b
  else if width ≤ 16 then
    if h.getLow = 0 then { h with lows := h.lows.set 0 b, getLow := h.getLow + 1 }
    else if h.getLow = 1 then
      let h := { h with lows := h.lows.set 1 b }
      { h.store (u32 (h.lows.getD 1 0 * 256 + h.lows.getD 0 0)) with getLow := 0 }
    else h
  else if width ≤ 32 then
    if h.getLow = 0 then { h with lows := h.lows.set 0 b, getLow := h.getLow + 1 }
    else if h.getLow = 1 then { h with lows := h.lows.set 1 b, getLow := h.getLow + 1 }
    else if h.getLow = 2 then { h with lows := h.lows.set 2 b, getLow := h.getLow + 1 }
    else if h.getLow = 3 then
      let h := { h with lows := h.lows.set 3 b }
      { h.store (lowsWord h.lows) with getLow := 0, lows := [0, 0, 0, 0] }
    else h
  else h

/-- Scaling of the record's address, uc.cc 1633-1641. -/
def scale (width addr : Nat) : Nat :=
  if width > 8 then
    if width ≤ 16 then addr / 2 else if width ≤ 24 then addr / 3 else if width ≤ 32 then addr / 4 else addr
  else addr

/-- Processing of a record with a right checksum, uc.cc 1631-1699. -/
def Hex.record (width : Nat) (h : Hex) (rtyp : Nat) (data : List Nat) : Hex :=
  if rtyp = 0 then data.foldl (Hex.byte width) { h with addr := scale width h.addr }
  else if rtyp = 4 then
    if data.length ≥ 2 then { h with base := u32 ((data.getD 0 0 * 256 + data.getD 1 0) * 65536) } else h
  else h

/-- Sum of bytes. -/
def sumOf (l : List Nat) : Nat := l.foldl (· + ·) 0

/-- One turn of the main loop after the colon, uc.cc 1614-1707: state, `ok`,
file. -/
def Hex.line (width : Nat) (h : Hex) (f : File) : Option (Hex × Bool × File) :=
  match readInt 1 0 f with
  | none => none
  | some (dnum, _, f) =>
    let dnum := uchar dnum
    match readInt 2 0 f with
    | none => none
    | some (addr, _, f) =>
      let addr := uint addr
      match readInt 1 0 f with
      | none => none
      | some (rtyp, ok, f) =>
        let rtyp := uchar rtyp
        let chk := dnum + addr % 256 + addr / 256 % 256 + rtyp
        let h := { h with addr := addr, rtyp := rtyp }
        if ok then
          match readData dnum f with
          | none => none
          | some (data, ok, f) =>
            if ok then
              match readInt 1 0 f with
              | none => none
              | some (sum, ok, f) =>
                if ok then
                  if (uchar sum + (chk + sumOf data) % 256) % 256 = 0
                  then some (h.record width rtyp data, true, f)
                  else some (h, true, f)
                else some (h, false, f)
            else some (h, false, f)
        else some (h, false, f)

/-- The main loop, uc.cc 1603-1708.  The first argument bounds the number of
records; each takes a byte at least. -/
def Hex.loop (width : Nat) : Nat → Hex → File → Option Hex
  | 0, _, _ => none
  | n + 1, h, f =>
    match skipTo (f.left.length + 1) f with
    | none => none
    | some (found, f) =>
      if found then
        match h.line width f with
        | none => none
        | some (h, ok, f) =>
          if ok = true ∧ h.rtyp ≠ 1 then Hex.loop width n h f else some h
      else some h

/-- The tail, uc.cc 1709-1718. -/
def Hex.tail (width : Nat) (h : Hex) : Hex :=
  if width > 8 then
    let lows := h.lows.take h.getLow ++ (List.replicate (4 - h.getLow) 0)
    { h with lows := lows, calls := h.calls ++ [(h.addr, lowsWord lows)] }
  else h

/-- `cl_uc::read_hex_file(is, f, check)`, uc.cc 1575-1721: `none` if it does not
return, else the calls of `set_rom` and the returned count. -/
def readHex (width : Nat) (f : File) : Option (List (Nat × Nat) × Nat) :=
  (Hex.loop width (f.left.length + 1) Hex.init f).map fun h => ((h.tail width).calls, h.written)

/-- Upper case hex digit, as `%X` prints it. -/
def hexDigit (n : Nat) : Nat := if n < 10 then 48 + n else 55 + n

/-- `%02X` of an unsigned char. -/
def hex2 (b : Nat) : List Nat := [hexDigit (b / 16), hexDigit (b % 16)]

/-- `%0kX`: at least `k` digits.  Digits from the highest. -/
def hexNum : Nat → Nat → List Nat
  | 0, _ => []
  | k + 1, n => hexNum k (n / 16) ++ [hexDigit (n % 16)]

/-- Number of hex digits of a u32 (1..8). -/
def hexLen (n : Nat) : Nat :=
  if n < 16 then 1 else if n < 256 then 2 else if n < 4096 then 3 else if n < 65536 then 4
  else if n < 1048576 then 5 else if n < 16777216 then 6 else if n < 268435456 then 7 else 8

/-- `%04X` of a u32. -/
def hex04 (n : Nat) : List Nat := hexNum (max 4 (hexLen n)) n

/-- One line of `dump_i`, mem.cc 656-676: `n = a-start_line`. -/
def dumpLine (rd : Nat → Nat) (start n : Nat) : List Nat :=
  let data := (List.range n).map fun i => rd (u32 (start + i)) % 256
  let sum := (n % 256 + start / 256 % 256 + start % 256 + sumOf data) % 256
  58 :: hex2 (n % 256) ++ hex04 start ++ [48, 48] ++ (data.map hex2).flatten ++ hex2 ((256 - sum) % 256) ++ [13, 10]

/-- The loop of `dump_i`, mem.cc 648-680; the first argument is the number of
addresses left (`stop - a + 1`). -/
def dumpLoop (rd : Nat → Nat) (bpl stop : Nat) : Nat → Nat → Nat → List Nat
  | 0, _, _ => []
  | k + 1, line, a =>
    let a := a + 1
    if a % bpl = 0 ∨ a > stop then dumpLine rd line (a - line) ++ dumpLoop rd bpl stop k a a
    else dumpLoop rd bpl stop k line a

/-- ":00000001FF\r\n", mem.cc 681. -/
def dumpEnd : List Nat := [58, 48, 48, 48, 48, 48, 48, 48, 49, 70, 70, 13, 10]

/-- `cl_memory::dump_i`, mem.cc 612-688, with `use_stop`: the printed text.
`rd` is what `read` returns, `lva`, `hva` the limits of the memory.  Only for
`hva < 2^32-1` (else `a` may wrap).  Returned value and `dump_finished` are not
modelled. -/
def dumpI (rd : Nat → Nat) (lva hva start stop bpl : Nat) : List Nat :=
  let start := if start < lva then lva else start
  let stop := if stop > hva then hva else stop
  if start > hva then []
  else if stop < lva then []
  else if start > stop then []
  else
    let bpl := if bpl > 32 then 32 else bpl
    dumpLoop rd bpl stop (stop + 1 - start) start start ++ dumpEnd

end Ucsim
