import Verif.Core.Decoder

/-
Model of /repo/src/core/sim.src/mem.cc: is_slot (2120-2141), valid_address,
inc_address, validate_address (145-190), search_next (690-741), the operator
array of a cell (1284-1396); and of /repo/src/core/cmd.src/cmd_uc.cc: the
`fill` (619-651) and `where` (657-696) commands.
-/
namespace Ucsim

/-- cl_memory_chip::is_slot, mem.cc 2120-2141, of a pointer `off` bytes after
the beginning of the array of the chip.  The three `if`s are not exclusive. -/
def Chip.isSlot (c : Chip) (off : Nat) : Option Nat :=
  if off > c.allocSize - 1 then none
  else
    let i := off
    let i := if c.width ≤ 16 then i / 2 else i
    let i := if c.width ≤ 32 then i / 4 else i
    some i

/-- cl_memory::valid_address, mem.cc 146-150. -/
def validAddr (start size addr : Nat) : Bool := addr ≥ start ∧ addr < u32 (start + size)

/-- cl_memory::inc_address(addr, val), mem.cc 153-162; the one argument version
(165-174) is `val = 1`.  In the first case the (signed) sum is converted to
unsigned for the `%`.  Division by zero (size 0) gives `none`. -/
def incAddr (start size addr : Nat) (val : Int) : Option Nat :=
  if size = 0 then none
  else if start = 0 then some (((addr + val) % 4294967296).toNat % size)
  else some (u32 (((subU addr start + val) % 4294967296).toNat % size + start))

/-- The loop of validate_address, mem.cc 180-181.  `none`: not ended. -/
def raiseLoop (start size : Nat) : Nat → Nat → Option Nat
  | 0, _ => none
  | f + 1, a => if a < start then raiseLoop start size f (u32 (a + size)) else some a

/-- cl_memory::validate_address, mem.cc 177-189. -/
def validateAddr (start size addr : Nat) : Option Nat :=
  (raiseLoop start size (start + 1) addr).bind fun a =>
    if a > u32 (start + size) then (if size = 0 then none else some (u32 (subU a start % size + start)))
    else some a

/-- isalpha/toupper of the C locale.  Arguments not representable as unsigned
char (and not EOF) are undefined behaviour: `none`. -/
def upperC (d : W) : Option W :=
  if d.toNat < 256 then
    some (if 97 ≤ d.toNat ∧ d.toNat ≤ 122 then d - 32#32 else d)
  else if d = 0xffffffff#32 then some d
  else none

/-- Body of the `for` loop of search_next, mem.cc 710-725: does the rest of the
pattern match from address `a`?  `none`: undefined behaviour. -/
def matchFrom (cs : Bool) (get : Nat → W) : List W → Nat → Option Bool
  | [], _ => some true
  | p :: ps, a =>
    if cs then (if get a = p then matchFrom cs get ps (u32 (a + 1)) else some false)
    else
      (upperC (get a)).bind fun d1 => (upperC p).bind fun d2 =>
        if d1 = d2 then matchFrom cs get ps (u32 (a + 1)) else some false

/-- The `while` loop of search_next, mem.cc 706-730; `none`: undefined
behaviour or not ended. -/
def searchLoop (cs : Bool) (get : Nat → W) (size : Nat) (pat : List W) : Nat → Nat → Option (Bool × Nat)
  | 0, _ => none
  | f + 1, a =>
    if u32 (a + pat.length) ≤ size then
      (matchFrom cs get pat a).bind fun m =>
        if m then some (true, a) else searchLoop cs get size pat f (u32 (a + 1))
    else some (false, a)

/-- cl_memory::search_next, mem.cc 690-735, as seen by a caller that passes
`*addr = a`.  `get` is the memory's get function; in range it has no side
effects. -/
def searchNext (cs : Bool) (get : Nat → W) (size : Nat) (pat : List W) (a : Nat) : Option (Bool × Nat) :=
  if u32 (a + pat.length) > size then some (false, a)
  else searchLoop cs get size pat (size + 1) a

/-- The loop of the `where` command, cmd_uc.cc 679-691: addresses dumped. -/
def whereLoop (cs : Bool) (get : Nat → W) (size : Nat) (pat : List W) : Nat → Nat → Option (List Nat)
  | 0, _ => none
  | f + 1, a =>
    (searchNext cs get size pat a).bind fun r =>
      if r.1 then (whereLoop cs get size pat f (u32 (r.2 + 1))).map (r.2 :: ·) else some []

/-- The `where` command, cmd_uc.cc 663-697 (an empty pattern is refused). -/
def whereCmd (cs : Bool) (get : Nat → W) (size : Nat) (pat : List W) : Option (List Nat) :=
  if pat.length = 0 then some [] else whereLoop cs get size pat (size + 1) 0

/-- The loop of the `fill` command, cmd_uc.cc 637-642. -/
def World.fillLoop (env : Env) (sp : Nat) (v : W) : Nat → Nat → World → World
  | 0, _, w => w
  | n + 1, a, w => World.fillLoop env sp v n (u32 (a + 1)) (w.write env sp a v).1

/-- The `fill` command, cmd_uc.cc 619-646.  `none`: `i <= end` with
end = 0xffffffff never fails. -/
def World.fillCmd (env : Env) (w : World) (sp b e : Nat) (v : W) : Option World :=
  (rangeLen b e).map fun n => w.fillLoop env sp v n b

/-! ### operator arrays -/

/-- An operator object (`id` stands for its address) and what it does. -/
structure OpObj where
  id : Nat
  op : MOp
deriving DecidableEq, Repr

/-- `cl_memory_operator **ops`, memcl.h 320: NULL or a NULL-terminated array. -/
abbrev OpArr := Option (List OpObj)

/-- append_operator, mem.cc 1294-1310. -/
def OpArr.append (a : OpArr) (o : OpObj) : OpArr :=
  match a with
  | none => some [o]
  | some l => some (l ++ [o])

/-- prepend_operator, mem.cc 1312-1327. -/
def OpArr.prepend (a : OpArr) (o : OpObj) : OpArr :=
  match a with
  | none => some [o]
  | some l => some (o :: l)

/-- The compaction loop `for (src=dst=0; ops[src]; src++) if (keep) ops[dst++]=
ops[src]` of remove_operator and del_operator: mem.cc 1333-1341, 1356-1367. -/
def keepLoop (keep : OpObj → Bool) : List OpObj → List OpObj
  | [] => []
  | o :: os => if keep o then o :: keepLoop keep os else keepLoop keep os

/-- remove_operator, mem.cc 1329-1348. -/
def OpArr.remove (a : OpArr) (id : Nat) : OpArr :=
  match a with
  | none => none
  | some l => let l' := keepLoop (fun o => o.id != id) l; if l' = [] then none else some l'

/-- cl_memory_operator::match(brk), memcl.h 231, 281. -/
def MOp.matchBrk (o : MOp) (bp : Nat) : Bool :=
  match o with
  | .wr b | .rd b => b == bp
  | _ => false

/-- cl_memory_operator::match(hw), memcl.h 230, 260. -/
def MOp.matchHw (o : MOp) (h : Nat) : Bool :=
  match o with
  | .hw k => k == h
  | _ => false

/-- del_operator(brk) and del_operator(hw), mem.cc 1350-1396.  The outer `none`:
`ops[dst]= NULL` with ops == NULL, undefined behaviour. -/
def OpArr.del (a : OpArr) (m : MOp → Bool) : Option OpArr :=
  match a with
  | none => none
  | some l => let l' := keepLoop (fun o => !(m o.op)) l; some (if l' = [] then none else some l')

/-- Operators that an access walks through (mem.cc 1212, 1248). -/
def OpArr.list (a : OpArr) : List OpObj := a.getD []

end Ucsim
