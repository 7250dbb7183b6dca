import Verif.Core.Mem
import Verif.Core.Pobj

/-
Model of the variable table: /repo/src/core/sim.src/var.cc and varcl.h.
-/
namespace Ucsim

/-- A C string without its terminating zero: the (unsigned) char codes. -/
abbrev CStr := List Nat

/-- strcmp of the C library. -/
def strcmp : CStr → CStr → Int
  | [], [] => 0
  | [], _ :: _ => -1
  | _ :: _, [] => 1
  | a :: as, b :: bs => if a = b then strcmp as bs else if a < b then -1 else 1

/-- What a variable stands for: a cell only (cl_cvar) or an address `addr` of
the memory with unique id `uid` (cl_var). -/
inductive Place
  | cell (c : Nat)
  | mem (uid addr : Nat)
deriving DecidableEq, Repr

/-- cl_cvar and cl_var, varcl.h 48-86.  The object is represented by its value:
the lists never hold two variables of the same name (theorem c16), so comparing
values is as good as comparing pointers.  A cl_var with a NULL memory is not
modelled. -/
structure Var where
  name : CStr
  place : Place
  hi : Int
  lo : Int
deriving DecidableEq, Repr

/-- Constructor of cl_cvar/cl_var, var.cc 38-57, 126-131: orders the bit
numbers. -/
def mkVar (name : CStr) (place : Place) (bh bl : Int) : Var :=
  if bl < bh then ⟨name, place, bh, bl⟩ else ⟨name, place, bl, bh⟩

/-- is_mem_var, varcl.h 63, 83. -/
def Var.isMem (v : Var) : Bool := match v.place with | .cell _ => false | .mem _ _ => true

/-- get_mem()->get_uid() (0 for a cell only variable, which is never asked). -/
def Var.uid (v : Var) : Nat := match v.place with | .cell _ => 0 | .mem u _ => u

/-- get_addr, varcl.h 62, 82. -/
def Var.addr (v : Var) : Nat := match v.place with | .cell _ => 0 | .mem _ a => a

/-- Difference of two 32 bit unsigned numbers assigned to an int. -/
def diffInt (a b : Nat) : Int := (BitVec.ofNat 32 a - BitVec.ofNat 32 b).toInt

/-- cl_var_by_addr_list::compare_addr, var.cc 206-219. -/
def cmpAddr (v : Var) (uid addr : Nat) : Int :=
  if diffInt v.uid uid ≠ 0 then diffInt v.uid uid else diffInt v.addr addr

/-- Comparison of the high bit numbers in compare_addr_and_bits, var.cc 232-236. -/
def cmpHi (vh h : Int) : Int := if vh < 0 then (if h < 0 then 0 else -1) else if h < 0 then 1 else h - vh

/-- Comparison of the low bit numbers, var.cc 237-241. -/
def cmpLo (vl l : Int) : Int := if vl < 0 then (if l < 0 then 0 else -1) else if l < 0 then 1 else vl - l

/-- cl_var_by_addr_list::compare_addr_and_bits, var.cc 221-244. -/
def cmpAddrBits (v : Var) (uid addr : Nat) (h l : Int) : Int :=
  if diffInt v.uid uid ≠ 0 then diffInt v.uid uid
  else if diffInt v.addr addr ≠ 0 then diffInt v.addr addr
  else if cmpHi v.hi h ≠ 0 then cmpHi v.hi h
  else cmpLo v.lo l

/-- cl_var_by_addr_list::compare, var.cc 246-258. -/
def cmpByAddr (a b : Var) : Int :=
  if cmpAddrBits a b.uid b.addr b.hi b.lo ≠ 0 then cmpAddrBits a b.uid b.addr b.hi b.lo
  else strcmp a.name b.name

/-- cl_var_by_name_list::compare of the names, var.cc 193-199. -/
def cmpByName (a b : Var) : Int := strcmp a.name b.name

/-- `for (l = i; l > 0 && !compare(Items[l-1]); l--);`, var.cc 281, 311. -/
def backLoop (cmp : Var → Int) (items : List Var) : Nat → Nat
  | 0 => 0
  | l + 1 => match items[l]? with
    | some x => if cmp x = 0 then backLoop cmp items l else l + 1
    | none => l + 1

/-- The loop of cl_var_by_addr_list::search, var.cc 269-284, 299-314.  The first
argument bounds the number of turns: a turn lowers `h` or (keeping `h`) raises
`l`, hence (n+2)^2 turns are enough for n items in any order. -/
def avLoop (cmp : Var → Int) (items : List Var) : Nat → Int → Int → Bool → Option (Bool × Int)
  | 0, _, _, _ => none
  | f + 1, l, h, res =>
    if l ≤ h then
      let i := (l + h) / 2
      if i < 0 then none
      else match items[i.toNat]? with
      | none => none
      | some x =>
        if cmp x < 0 then avLoop cmp items f (i + 1) h res
        else if cmp x = 0 then avLoop cmp items f (backLoop cmp items i.toNat) (i - 1) true
        else avLoop cmp items f l (i - 1) res
    else some (res, l)

/-- cl_var_by_addr_list::search(mem, addr, index), var.cc 260-288. -/
def searchAddr (items : List Var) (uid addr : Nat) : Option (Bool × Int) :=
  avLoop (fun v => cmpAddr v uid addr) items ((items.length + 2) * (items.length + 2)) 0 ((items.length : Int) - 1) false

/-- cl_var_by_addr_list::search(mem, addr, high, low, index), var.cc 290-318. -/
def searchBits (items : List Var) (uid addr : Nat) (h l : Int) : Option (Bool × Int) :=
  avLoop (fun v => cmpAddrBits v uid addr h l) items ((items.length + 2) * (items.length + 2)) 0 ((items.length : Int) - 1) false

/-- by_name.search(name, i), pobj.cc 695-721 (no duplicates). -/
def searchName (items : List Var) (name : CStr) : Option (Bool × Int) :=
  slSearch (fun v => strcmp v.name name) false items

/-- cl_var_list, varcl.h 140-151. -/
structure VarList where
  byName : CList Var
  byAddr : CList Var
  maxLen : Nat
  known : Bool
deriving DecidableEq, Repr

/-- Constructor, varcl.h 151, with lists (10, 10), varcl.h 92, 110. -/
def VarList.empty : VarList := ⟨⟨[], 10, 10⟩, ⟨[], 10, 10⟩, 0, true⟩

/-- The loop of get_max_name_len, var.cc 327-332. -/
def maxLenLoop : List Var → Nat → Nat
  | [], m => m
  | v :: vs, m => maxLenLoop vs (if v.name.length > m then v.name.length else m)

/-- cl_var_list::get_max_name_len, var.cc 320-338. -/
def VarList.getMaxLen (s : VarList) : VarList × Nat :=
  if s.known then (s, s.maxLen)
  else
    let m := maxLenLoop s.byName.items 0
    ({ s with maxLen := m, known := true }, m)

/-- cl_var_list::del, var.cc 340-358. -/
def VarList.del (s : VarList) (name : CStr) : Out (VarList × Bool) :=
  match searchName s.byName.items name with
  | none => .ub
  | some (false, _) => .ok (s, false)
  | some (true, i) =>
    match s.byName.get i with
    | .ok v =>
      match s.byAddr.disconn v, s.byName.disconnAt i with
      | .ok ba, .ok bn => .ok ({ s with byAddr := ba, byName := bn, known := false }, true)
      | .ub, _ => .ub
      | _, .ub => .ub
      | _, _ => .exit
    | .exit => .exit
    | .ub => .ub

/-- First character is a dot: a label made by `analyze`, var.cc 393. -/
def Var.isLabel (v : Var) : Bool := v.name.head? = some 46

/-- Same memory, address and bits, var.cc 389-391. -/
def Var.samePlace (v w : Var) : Bool := v.uid = w.uid ∧ v.addr = w.addr ∧ v.hi = w.hi ∧ v.lo = w.lo

/-- The `while` loop of add, var.cc 389-409, from index `i`: position of the
label to remove. -/
def labelLoop (items : List Var) (v : Var) : Nat → Nat → Option Nat
  | 0, _ => none
  | f + 1, i => match items[i]? with
    | none => none
    | some u => if u.samePlace v then (if u.isLabel then some i else labelLoop items v f (i + 1)) else none

/-- Removal of the label, var.cc 393-405. -/
def VarList.dropLabel (s : VarList) (item : Var) (i : Nat) : Out VarList :=
  match s.byAddr.get i with
  | .ok v =>
    match s.byAddr.disconnAt i, s.byName.disconn v with
    | .ok ba, .ok bn =>
      .ok { s with
        byAddr := ba,
        byName := bn,
        known := if v.name.length = s.maxLen ∧ item.name.length < s.maxLen then false else s.known }
    | .ub, _ => .ub
    | _, .ub => .ub
    | _, _ => .exit
  | .exit => .exit
  | .ub => .ub

/-- Removal of a label that analyze put at the place in the past, var.cc
383-409. -/
def VarList.supersede (s : VarList) (v : Var) (found : Bool) (i : Nat) : Out VarList :=
  if found then
    match labelLoop s.byAddr.items v s.byAddr.items.length i with
    | some j => s.dropLabel v j
    | none => .ok s
  else .ok s

/-- The part of add for memory variables, var.cc 379-413. -/
def VarList.addMem (s : VarList) (v : Var) : Out VarList :=
  match searchBits s.byAddr.items v.uid v.addr v.hi v.lo with
  | none => .ub
  | some (found, i) =>
    match s.supersede v found i.toNat with
    | .ok s1 =>
      match slAdd cmpByAddr false s1.byAddr v with
      | .ok ba => .ok { s1 with byAddr := ba }
      | .exit => .exit
      | .ub => .ub
    | .exit => .exit
    | .ub => .ub

/-- cl_var_list::add(item), var.cc 360-415. -/
def VarList.add (s : VarList) (v : Var) : Out VarList :=
  match s.del v.name with
  | .ok (s1, found) =>
    let s2 := if found then { s1 with known := true }
      else { s1 with maxLen := if v.name.length > s1.maxLen then v.name.length else s1.maxLen }
    match slAdd cmpByName false s2.byName v with
    | .ok bn =>
      let s3 := { s2 with byName := bn }
      if v.isMem then s3.addMem v else .ok s3
    | .exit => .exit
    | .ub => .ub
  | .exit => .exit
  | .ub => .ub

/-- Look a name up: `by_name.search(name, i)` and `by_name.at(i)`, as done by
cl_var_list::read (var.cc 499-512) and by the expression evaluator. -/
def VarList.lookup (s : VarList) (name : CStr) : Out (Option Var) :=
  match searchName s.byName.items name with
  | none => .ub
  | some (false, _) => .ok none
  | some (true, i) => match s.byName.get i with
    | .ok v => .ok (some v)
    | .exit => .exit
    | .ub => .ub

/-- The variables of an address: `by_addr.search(mem, addr, i)` and then the
following ones as long as memory and address agree, as cl_vars_iterator does
(var.cc 533-607) for an address without chip variables. -/
def VarList.varsAt (s : VarList) (uid addr : Nat) : Out (List Var) :=
  match searchAddr s.byAddr.items uid addr with
  | none => .ub
  | some (false, _) => .ok []
  | some (true, i) => .ok ((s.byAddr.items.drop i.toNat).takeWhile (fun v => v.uid = uid ∧ v.addr = addr))

end Ucsim
