/-!
# The dump command

Models the listing of memory: `cl_memory::dump` (src/core/sim.src/mem.cc 213-518), `dump_s`
(523-577), `dump_b` (580-610) and the choice of the range by the command
(src/core/cmd.src/cmd_uc.cc 288-455).  `dump_i` is in `Core/Hex.lean`.

Simplified: what reading a location gives is a function of the address (`rd`; hardware whose
registers change when read, and breakpoints on reading, are not modelled); the variables at an
address are given in the order `cl_vars_iterator` yields them (`vars`); a line is described by what
is shown on it (address, name, values), its layout - `addr_format`, `data_format`, padding, the
characters column, colours - is not modelled.
-/

namespace Ucsim.Dump

/-- `t_addr` is 32 bits (stypes.h 60). -/
@[irreducible] def u32 (n : Nat) : Nat := n % 4294967296

/-- Subtraction of `t_addr`s. -/
@[irreducible] def sub32 (a b : Nat) : Nat := (a + (4294967296 - b % 4294967296)) % 4294967296

/-- A variable (varcl.h): its name, and its bits (high, low) unless `bitnr_high < 0`. -/
structure DVar where
  name : String
  bits : Option (Nat × Nat)
  deriving DecidableEq, Repr

/-- The memory dumped: `start_address`, `size` (memcl.h 127-130, 201-202), `width`, what `read`
returns, the variables, and for the program memory the length of the instruction at an address
(`uc->inst_length`). -/
structure DMem where
  lva : Nat
  size : Nat
  width : Nat
  rd : Nat → Nat
  vars : Nat → List DVar
  rom : Option (Nat → Nat) := none

/-- `highest_valid_address` (memcl.h 202). -/
def DMem.hva (m : DMem) : Nat := sub32 (u32 (m.lva + m.size)) 1

/-- `cl_dump_ads` (memcl.h 58-100): `none` is `use_start`/`use_stop` false (the field is then 0). -/
structure Ads where
  start : Option Nat
  stop : Option Nat
  deriving DecidableEq, Repr

/-- A line of a dump: the address unless it is left blank, the name, and what is shown. -/
inductive Line
  /-- values of locations -/
  | row (addr : Option Nat) (name : Option String) (vals : List Nat)
  /-- a name only -/
  | label (addr : Option Nat) (name : String)
  /-- the bits `hi:lo` of a location, their value -/
  | bits (addr : Option Nat) (name : Option String) (hi lo val : Nat)
  /-- a disassembled instruction -/
  | inst (addr : Nat)
  deriving DecidableEq, Repr

/-- What is asked: `smart`, and the bits (`bitnr_high`, `bitnr_low`) if any. -/
structure Ask where
  smart : Nat
  bits : Option (Nat × Nat)

/-- The variables of the loop (mem.cc 213-275). -/
structure DS where
  start : Nat
  stop : Nat
  up : Bool
  bpl : Int
  lines : Int
  state : Nat
  var : Option DVar
  rest : List DVar
  bitmode : Bool
  df : Nat

/-- "all the bits are contained within the requested range" (mem.cc 329-332, 374). -/
def inReq (q : Option (Nat × Nat)) (v : DVar) : Bool :=
  match q, v.bits with
  | none, _ => true
  | some _, none => true
  | some (bh, bl), some (h, l) => decide (h ≤ bh) && decide (l ≥ bl)

/-- Find the next relevant variable (mem.cc 321-337, 363-379). -/
def seek (q : Option (Nat × Nat)) : List DVar → Bool → Option DVar × List DVar × Bool
  | [], bm => (none, [], bm)
  | v :: t, bm => if inReq q v then (some v, t, bm || v.bits.isSome) else seek q t (bm || v.bits.isSome)

/-- The variable is to be shown now (mem.cc 343-347). -/
def shows (q : Option (Nat × Nat)) (width state : Nat) (v : DVar) : Bool :=
  v.bits.isNone ||
    (decide (state < 2) && (decide (v.bits = q) || (q.isNone && decide (v.bits = some (width - 1, 0))))) ||
    (decide (state = 2) && inReq q v)

/-- "If it aliases the previous we do not need to output data now" (mem.cc 386-391). -/
def aliases (q : Option (Nat × Nat)) (width state : Nat) (v u : DVar) : Bool :=
  decide (u.bits = v.bits) ||
    (decide (state = 1) && v.bits.isNone &&
      (decide (u.bits = some (width - 1, 0)) ||
        match q, u.bits with
        | some (bh, bl), some (h, l) => decide (h = bh) && decide (l ≥ bl)
        | _, _ => false))

/-- `ads->start+n*step`. -/
def nth (up : Bool) (start n : Nat) : Nat := if up then u32 (start + n) else sub32 start n

/-- How many locations come on a line (mem.cc 473-487): `k` more are allowed after `n`. -/
def rowLen (m : DMem) (smart : Bool) (up : Bool) (start stop : Nat) : Nat → Nat → Nat
  | 0, n => n
  | k + 1, n =>
    let a := nth up start n
    if m.lva ≤ a ∧ a ≤ m.hva ∧ a ≠ stop ∧ ¬ (smart = true ∧ n ≠ 0 ∧ m.vars a ≠ []) then
      rowLen m smart up start stop k (n + 1)
    else n

/-- The value of bits (mem.cc 435). -/
def field (x hi lo : Nat) : Nat := x / 2 ^ lo % 2 ^ (hi - lo + 1)

/-- The end of a line of values (mem.cc 470-513); `lab` and `adr` are what was printed before. -/
def dataRow (m : DMem) (k : Ask) (s : DS) (adr : Option Nat) (lab : Option String) : DS × List Line × Bool :=
  let n := rowLen m (decide (k.smart ≠ 0)) s.up s.start s.stop s.bpl.toNat 0
  let a := nth s.up s.start n
  let out := [Line.row adr lab ((List.range n).map fun i => m.rd (nth s.up s.start i))]
  let s := { s with start := a, df := a, state := 0 }
  if s.lines > 0 then
    ({ s with lines := s.lines - 1 }, out, decide (s.lines - 1 = 0))
  else (s, out, false)

/-- The bits to show (mem.cc 408-415). -/
def bitsShown (width state : Nat) (v : Option DVar) (q : Option (Nat × Nat)) : Nat × Nat :=
  match v.bind (fun v => v.bits) with
  | some h => if state = 2 then h else q.getD (width - 1, 0)
  | none => q.getD (width - 1, 0)

/-- A line of bits (mem.cc 404-467); `next` is `var_next`. -/
def bitRow (m : DMem) (k : Ask) (s : DS) (adr : Option Nat) (lab : Option String) (next : Option DVar) :
    DS × List Line × Bool :=
  let b := bitsShown m.width s.state s.var k.bits
  let out := [Line.bits adr lab b.1 b.2 (field (m.rd s.start) b.1 b.2)]
  let s := { s with lines := if s.lines > 0 then s.lines - 1 else s.lines, state := 2 }
  match next with
  | some v => ({ s with var := some v }, out, false)
  | none =>
    let a := nth s.up s.start 1
    let s := { s with start := a, df := a }
    if s.lines = 0 then (s, out, true)
    else ({ s with bitmode := decide (k.smart = 2) || (decide (k.smart ≠ 0) && k.bits.isSome), state := 0 }, out, false)

/-- A line of a labelled dump (mem.cc 343-513); `adr` is the address printed before. -/
def showVar (m : DMem) (k : Ask) (adr : Option Nat) (s : DS) : DS × List Line × Bool :=
  match s.var with
  | some v =>
    if shows k.bits m.width s.state v then
      let r := seek k.bits s.rest s.bitmode
      let s := { s with rest := r.2.1, bitmode := r.2.2 }
      match r.1 with
      | some u =>
        if aliases k.bits m.width s.state v u then
          ({ s with lines := if s.lines > 0 then s.lines - 1 else s.lines, var := some u },
            [Line.label adr v.name], false)
        else if s.bitmode then bitRow m k s adr (some v.name) (some u)
        else dataRow m k s adr (some v.name)
      | none =>
        if s.bitmode then bitRow m k s adr (some v.name) none
        else dataRow m k s adr (some v.name)
    else if s.bitmode then bitRow m k s adr none (some v)
    else dataRow m k s adr none
  | none =>
    if s.bitmode then bitRow m k s adr none none
    else dataRow m k s adr none

/-- One round of the loop (mem.cc 277-514) when lines are labelled (`smart`); the address is
printed if `state` is 0, and then the first variable is looked for (mem.cc 300-338). -/
def smartIter (m : DMem) (k : Ask) (s : DS) : DS × List Line × Bool :=
  if s.state = 0 then
    let r := seek k.bits (m.vars s.start) s.bitmode
    showVar m k (some s.start) { s with state := 1, var := r.1, rest := r.2.1, bitmode := r.2.2 }
  else showVar m k none s

/-- One round of the loop (mem.cc 277-514); the last result: the loop is left by `break`. -/
def iter (m : DMem) (k : Ask) (s : DS) : DS × List Line × Bool :=
  match (if k.smart ≠ 0 ∧ s.up = true then m.rom else none) with
  | some len =>
    -- mem.cc 279-287
    let a := u32 (s.start + len s.start)
    let t := { s with start := a, df := a }
    if s.lines > 0 then
      ({ t with lines := s.lines - 1 }, [Line.inst s.start], decide (s.lines - 1 = 0))
    else (t, [Line.inst s.start], false)
  | none =>
    if k.smart ≠ 0 then smartIter m k s
    else dataRow m k s (if s.state = 0 then some s.start else none) none

/-- The loop; `none`: not ended after that many rounds. -/
def loop (m : DMem) (k : Ask) : Nat → DS → Option (DS × List Line)
  | 0, _ => none
  | n + 1, s =>
    if (if s.up then s.start < s.stop else s.start > s.stop) then
      let r := iter m k s
      if r.2.2 then some (r.1, r.2.1)
      else (loop m k n r.1).map fun q => (q.1, r.2.1 ++ q.2)
    else some (s, [])

/-- Before the loop (mem.cc 222-275): `none`, nothing is to be shown. -/
def setup (m : DMem) (k : Ask) (df : Nat) (ads : Ads) (bpl : Int) : Option DS :=
  let bpl := if bpl < 0 then (if m.width > 16 then 4 else 8) else bpl
  let start := ads.start.getD df
  let start := if start < m.lva then m.lva else start
  if start > m.hva then none
  else
    let lines : Int := if ads.stop.isSome then -1 else 10
    let stop := ads.stop.getD m.hva
    let stop := if stop > m.hva then m.hva else stop
    if stop < m.lva then none
    else
      let bm := decide (k.smart = 2) || (decide (k.smart ≠ 0) && k.bits.isSome)
      if stop ≥ start then
        let stop := u32 (stop + 1)
        let bpl : Int := if u32 (start + bpl.toNat) > stop then (BitVec.ofNat 32 (sub32 stop start)).toInt else bpl
        some ⟨start, stop, true, bpl, lines, 0, none, [], bm, df⟩
      else
        let stop := sub32 stop 1
        let bpl : Int := if sub32 start bpl.toNat < stop then (BitVec.ofNat 32 (sub32 start stop)).toInt else bpl
        some ⟨start, stop, false, bpl, lines, 0, none, [], bm, df⟩

/-- The loop and the end of `dump` (mem.cc 277-518). -/
def listing (n : Nat) (m : DMem) (k : Ask) (df : Nat) : Option DS → Option (Nat × List Line)
  | none => some (df, [])
  | some s => (loop m k n s).map fun r => (if r.1.df ≥ m.hva then m.lva else r.1.df, r.2)

/-- `cl_memory::dump` (mem.cc 213-518): the new `dump_finished` and the lines; `none`: not ended
after `n` rounds. -/
def dump (n : Nat) (m : DMem) (k : Ask) (df : Nat) (ads : Ads) (bpl : Int) : Option (Nat × List Line) :=
  listing n m k df (setup m k df ads bpl)

/-- `f->write` of a character by `dump_s` (mem.cc 541-563): `c` is the low byte. -/
def escape (c : Nat) : List Char :=
  if c = 39 then ['\\', '\'']
  else if c = 34 then ['\\', '"']
  else if c = 63 then ['\\', '?']
  else if c = 92 then ['\\', '\\']
  else if c = 7 then ['\\', 'a']
  else if c = 8 then ['\\', 'b']
  else if c = 12 then ['\\', 'f']
  else if c = 10 then ['\\', 'n']
  else if c = 13 then ['\\', 'r']
  else if c = 9 then ['\\', 't']
  else if c = 11 then ['\\', 'v']
  else if 32 ≤ c ∧ c ≤ 126 then [Char.ofNat c]
  else ['\\', Char.ofNat (48 + c / 64), Char.ofNat (48 + c / 8 % 8), Char.ofNat (48 + c % 8)]

/-- The loop of `dump_s` (mem.cc 534-567): `a` the address, `last` the last character written;
`none`: not ended after that many rounds.  Gives the address it ends at, the last character, the
text. -/
def strLoop (m : DMem) : Nat → Nat → Nat → Option (Nat × Nat × List Char)
  | 0, _, _ => none
  | n + 1, a, last =>
    if m.rd a ≠ 0 ∧ a ≤ m.hva then
      let c := m.rd a % 256
      if a ≥ m.lva then (strLoop m n (u32 (a + 1)) c).map fun r => (r.1, r.2.1, escape c ++ r.2.2)
      else strLoop m n (u32 (a + 1)) last
    else some (a, last, [])

/-- `cl_memory::dump_s` (mem.cc 523-577), without colours. -/
def dumpS (n : Nat) (m : DMem) (ads : Ads) : Option (Nat × List Char) :=
  (strLoop m n (ads.start.getD 0) 10).map fun r =>
    (if r.1 ≥ m.hva then m.lva else r.1, r.2.2 ++ if r.2.1 ≠ 10 then ['\n'] else [])

/-- The loop of `dump_b` (mem.cc 591-603): the address it ends at, the bytes sent. -/
def binLoop (m : DMem) (stop : Nat) : Nat → Nat → Option (Nat × List Nat)
  | 0, _ => none
  | n + 1, a =>
    if a ≤ stop ∧ a ≤ m.hva then
      (binLoop m stop n (u32 (a + 1))).map fun r =>
        (r.1, (if a ≥ m.lva then [m.rd a % 256] else []) ++ r.2)
    else some (a, [])

/-- `cl_memory::dump_b` (mem.cc 580-610): `dump_finished`, the bytes sent, and the locations read
(each is read before the test of the loop: mem.cc 592, 601). -/
def dumpB (n : Nat) (m : DMem) (ads : Ads) (bpl : Int) : Option (Nat × List Nat × List Nat) :=
  let start := ads.start.getD 0
  let stop := match ads.stop with
    | some e => e
    | none => (BitVec.ofInt 32 ((start : Int) + 10 * bpl - 1)).toNat
  (binLoop m stop n start).map fun r =>
    (if r.1 ≥ m.hva then m.lva else r.1, r.2,
      (List.range (sub32 r.1 start + 1)).map fun i => u32 (start + i))

/-- The formats of the command (cmd_uc.cc 309-340). -/
inductive Fmt | dflt | bin | hex | str
  deriving DecidableEq

/-- The range the command chooses (cmd_uc.cc 369-433) from the addresses typed. -/
def cmdAds : Option Nat → Option Nat → Ads
  | none, _ => ⟨none, none⟩
  | some a, none => ⟨some a, some (u32 (a + 64))⟩
  | some a, some b => ⟨some a, some b⟩

/-- `dump [/h] memory [start [stop [bpl]]]` (cmd_uc.cc 369-450). -/
def dumpCmd (n : Nat) (m : DMem) (smart : Bool) (df : Nat) (a b : Option Nat) (bpl : Option Int) :
    Option (Nat × List Line) :=
  dump n m ⟨if smart then 1 else 0, none⟩ df (cmdAds a b) (bpl.getD (-1))

end Ucsim.Dump
