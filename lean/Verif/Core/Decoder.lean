import Verif.Core.Mem
import Verif.Core.Pobj

/-
Model of address decoders: /repo/src/core/sim.src/mem.cc 1809-1905 (address
space side) and 2290-2505 (cl_address_decoder), and of the command that creates
them, /repo/src/core/cmd.src/cmd_mem.cc 176-248.

Results are `Option`s: `none` = the C++ loop does not end (or the model ran out
of fuel; the theorems show that enough fuel exists).  The decoder list is
assumed to have fewer than 8192 members (see `CList` and C15 for that limit).
-/
namespace Ucsim

/-- Number of turns of `for (a= b; a <= e; a++)` with u32 `a`: the loop never
ends if e is 0xffffffff and it is entered. -/
def rangeLen (b e : Nat) : Option Nat :=
  if e < b then some 0 else if e = 4294967295 then none else some (e + 1 - b)

/-- cl_address_space::undecode_cell, mem.cc 1830-1840. -/
def Space.undecodeCell (s : Space) (a : Nat) : Space :=
  match s.idx? a with
  | none => s
  | some i => { s with cells := upd s.cells i (s.cells i).unDecode }

/-- cl_address_space::decode_cell, mem.cc 1810-1828. -/
def Space.decodeCell (chips : Nat → Chip) (s : Space) (a chip ca : Nat) : Space :=
  match s.idx? a with
  | none => s
  | some i =>
    let c := s.cells i
    let c := if !c.nonDec then c.unDecode else c
    { s with cells := upd s.cells i (c.decode (getSlot chips chip ca)) }

/-- `n` turns of an undecoding loop starting at address `a` (destructor, mem.cc
2313-2320; shrink_out_of, 2460-2467). -/
def Space.undecodeN : Nat → Nat → Space → Space
  | 0, _, s => s
  | n + 1, a, s => Space.undecodeN n (u32 (a + 1)) (s.undecodeCell a)

/-- `n` turns of the decoding loop of activate, mem.cc 2377-2385. -/
def Space.decodeN (chips : Nat → Chip) (chip : Nat) : Nat → Nat → Nat → Space → Space
  | 0, _, _, s => s
  | n + 1, a, ca, s =>
    Space.decodeN chips chip n (u32 (a + 1)) (u32 (ca + 1)) (s.decodeCell chips a chip ca)

/-- cl_address_decoder::~cl_address_decoder, mem.cc 2313-2320. -/
def Space.deleteDec (s : Space) (d : Dec) : Option Space :=
  (rangeLen d.asb d.ase).map (fun n => s.undecodeN n d.asb)

/-- cl_address_decoder::fully_covered_by, mem.cc 2400-2411. -/
def Dec.fullyCoveredBy (d : Dec) (b e : Nat) : Bool := b ≤ d.asb && e ≥ d.ase
/-- cl_address_decoder::is_in, mem.cc 2421-2432. -/
def Dec.isIn (d : Dec) (b e : Nat) : Bool :=
  (b ≥ d.asb && b ≤ d.ase) || (e ≥ d.asb && e ≤ d.ase)
/-- cl_address_decoder::covers, mem.cc 2441-2450. -/
def Dec.covers (d : Dec) (b e : Nat) : Bool := b ≥ d.asb && e ≤ d.ase

/-- The final part of cl_address_decoder::shrink_out_of, mem.cc 2468-2477: new
limits, and whether the decoder became unnecessary. -/
def Dec.shrunk (d : Dec) (b e : Nat) : Dec × Bool :=
  let d := if b > d.asb then { d with ase := subU b 1 } else d
  let d := if d.ase > e then
    { d with cb := u32 (d.cb + u32 (subU e d.asb + 1)), asb := u32 (e + 1) } else d
  (d, d.ase < d.asb)

/-- cl_address_decoder::shrink_out_of, mem.cc 2453-2478 (address_space is not
null). -/
def Space.shrinkOutOf (s : Space) (d : Dec) (b e : Nat) : Option (Space × Dec × Bool) :=
  let a := if b > d.asb then b else d.asb
  match rangeLen a (min e d.ase) with
  | none => none
  | some n => some (s.undecodeN n a, d.shrunk b e)

/-- An object address not used in the list. -/
def Space.freshId (s : Space) : Nat := s.decs.foldr (fun d m => max (d.id + 1) m) 0

/-- cl_address_decoder::split, mem.cc 2480-2501: the shrunken decoder and
perhaps a new one. -/
def Space.split (s : Space) (d : Dec) (b e : Nat) : Option (Space × Dec × Option Dec) :=
  if b > d.asb then
    let nd := if d.ase > e then
      some { id := s.freshId, chip := d.chip, asb := u32 (e + 1), ase := d.ase,
             cb := u32 (d.cb + u32 (subU e d.asb + 1)), act := false } else none
    match s.shrinkOutOf d b d.ase with
    | none => none
    | some (s', d', _) => some (s', d', nd)
  else if e < d.ase then
    let nd := if d.asb < b then
      some { id := s.freshId, chip := d.chip, asb := d.asb, ase := subU b 1,
             cb := d.cb, act := false } else none
    match s.shrinkOutOf d d.asb e with
    | none => none
    | some (s', d', _) => some (s', d', nd)
  else some (s, d, none)

/-- cl_decoder_list::compare, mem.cc 2977-2988, on as_begin. -/
def Dec.cmp (x y : Dec) : Int := if x.asb = y.asb then 0 else if x.asb < y.asb then -1 else 1

/-- `decoders->add(d)`: cl_sorted_list::add with Duplicates (mem.cc 2960-2965,
pobj.cc 677-688). -/
def Space.addDec (s : Space) (d : Dec) : Space :=
  match slSearch (fun y => Dec.cmp y d) true s.decs with
  | none => s
  | some (_, i) => { s with decs := s.decs.insertIdx i.toNat d }

/-- The loop of cl_address_space::undecode_area, mem.cc 1842-1907, from index
`i`.  `disconn(d)` of the item at index i removes that item because the pointers
in the list are different. -/
def undecLoop (activate : Space → Dec → Option (Space × Bool)) (skip b e : Nat) :
    Nat → Nat → Space → Option Space
  | 0, _, _ => none
  | f + 1, i, s =>
    match s.decs[i]? with
    | none => some s
    | some d =>
      if d.id = skip then undecLoop activate skip b e f (i + 1) s
      else if d.fullyCoveredBy b e then
        match ({ s with decs := s.decs.eraseIdx i } : Space).deleteDec d with
        | none => none
        | some s' => if s'.decs = [] then some s' else undecLoop activate skip b e f i s'
      else if d.covers b e then
        match s.split d b e with
        | none => none
        | some (s', d', nd) =>
          let s' := { s' with decs := s'.decs.set i d' }
          match nd with
          | none => undecLoop activate skip b e f (i + 1) s'
          | some nd =>
            match activate (s'.addDec nd) nd with
            | none => none
            | some (s'', _) => undecLoop activate skip b e f (i + 1) s''
      else if d.isIn b e then
        match s.shrinkOutOf d b e with
        | none => none
        | some (s', d', removable) =>
          let s' := { s' with decs := s'.decs.set i d' }
          if removable then
            match ({ s' with decs := s'.decs.eraseIdx i } : Space).deleteDec d' with
            | none => none
            | some s'' => if s''.decs = [] then some s'' else undecLoop activate skip b e f i s''
          else undecLoop activate skip b e f (i + 1) s'
      else undecLoop activate skip b e f (i + 1) s

/-- The tests at the beginning of cl_address_decoder::activate, mem.cc
2336-2374, in u32 arithmetic. -/
def actOk (chips : Nat → Chip) (s : Space) (d : Dec) : Bool :=
  match d.chip with
  | none => false
  | some m =>
    !d.act && d.asb ≤ d.ase && d.cb < (chips m).size &&
    !(d.asb < s.start || d.ase ≥ u32 (s.start + s.size)) &&
    !(subU d.ase d.asb > subU (chips m).size d.cb)

/-- `activated= true` of the object. -/
def Space.setAct (s : Space) (id : Nat) : Space :=
  { s with decs := s.decs.map (fun d => if d.id = id then { d with act := true } else d) }

/-- cl_address_decoder::activate, mem.cc 2328-2390.  The first argument bounds
the depth of the nesting activate - undecode_area - activate and the number of
turns of the undecode_area loop. -/
def activateF (chips : Nat → Chip) : Nat → Space → Dec → Option (Space × Bool)
  | 0, _, _ => none
  | f + 1, s, d =>
    if actOk chips s d then
      match undecLoop (activateF chips f) d.id d.asb d.ase (f + 1) 0 s with
      | none => none
      | some s' =>
        match d.chip, rangeLen d.asb d.ase with
        | some m, some n => some ((s'.decodeN chips m n d.asb d.cb).setAct d.id, true)
        | _, _ => none
    else some (s, false)

/-- `new cl_address_decoder; decoders->add(d); d->activate()`, as done by the
command (cmd_mem.cc 241-245) and by the CPU models (e.g. uc51.cc 941-945). -/
def addActivate (chips : Nat → Chip) (f : Nat) (s : Space) (b e chip cb : Nat) :
    Option (Space × Bool) :=
  let d : Dec := { id := s.freshId, chip := some chip, asb := b, ase := e, cb := cb, act := false }
  activateF chips f (s.addDec d) d

/-- The command `memory create addressdecoder`, cmd_mem.cc 226-247 (arguments
already parsed; highest_valid_address is start+size-1, memcl.h). -/
def cmdCreateDecoder (chips : Nat → Chip) (f : Nat) (s : Space) (b e chip cb : Nat) :
    Option (Space × Bool) :=
  if b > e then some (s, false)
  else if cb ≥ (chips chip).size then some (s, false)
  else if b < s.start ∨ e > subU (u32 (s.start + s.size)) 1 then some (s, false)
  else if subU e b > subU (chips chip).size cb then some (s, false)
  else addActivate chips f s b e chip cb

/-- cl_address_space::get_decoder_of, mem.cc 1796-1808. -/
def Space.decoderOf (s : Space) (a : Nat) : Option Dec := s.decs.find? (fun d => d.covers a a)

end Ucsim
