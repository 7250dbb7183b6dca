/-
Model of cl_list and cl_sorted_list.
Source: /repo/src/core/utils.src/pobj.cc, pobjcl.h, pobjt.h.

A list is the sequence of its `count` items together with the capacity `limit`
of the allocated pointer array.  `t_index` is a C int (model: `Int`).
-/
namespace Ucsim

/-- Result of an operation: normal, program terminated by cl_list::error
(pobj.cc 414-421, `exit(code)`), or undefined behaviour (access outside of the
allocated pointer array). -/
inductive Out (σ : Type) where
  | ok (s : σ)
  | exit
  | ub
deriving DecidableEq, Repr

/-- `max_list_size`, pobjt.h 38: `0x10000/sizeof(void *)`, on a 64 bit host. -/
def maxListSize : Nat := 8192

/-- cl_list (pobjcl.h 114-160). -/
structure CList (α : Type) where
  items : List α
  limit : Nat
  delta : Nat
deriving DecidableEq, Repr

namespace CList
variable {α : Type}

def count (l : CList α) : Nat := l.items.length

/-- cl_list::set_limit, pobj.cc 587-615.  The copy of `count` pointers into an
array of `alimit` pointers overflows if alimit < count. -/
def setLimit (l : CList α) (alimit : Nat) : Out (CList α) :=
  let alimit := if alimit < l.count then l.count else alimit
  let alimit := if alimit > maxListSize then maxListSize else alimit
  if alimit ≠ l.limit then
    if l.count > alimit then .ub else .ok { l with limit := alimit }
  else .ok l

/-- Constructor, pobj.cc 255-264. -/
def new (alimit adelta : Nat) : Out (CList α) := setLimit ⟨[], 0, adelta⟩ alimit

/-- cl_list::add_at, pobj.cc 381-393.  The memmove size `(count-index)` wraps to
a huge number if index > count; the last moved pointer (or the new one) lands in
slot `count`, outside of the array if limit <= count. -/
def addAt (l : CList α) (index : Int) (x : α) : Out (CList α) :=
  if index < 0 then .exit
  else
    match (if l.count = l.limit then l.setLimit (l.count + l.delta) else .ok l) with
    | .ok l' =>
      if index.toNat > l'.count then .ub
      else if l'.limit ≤ l'.count then .ub
      else .ok { l' with items := l'.items.insertIdx index.toNat x }
    | .exit => .exit
    | .ub => .ub

/-- cl_list::add, pobj.cc 540-547. -/
def add (l : CList α) (x : α) : Out (CList α) := l.addAt l.count x

/-- cl_list::push, pobj.cc 557-564. -/
def push (l : CList α) (x : α) : Out (CList α) := if l.count ≠ 0 then l.addAt 0 x else l.add x

/-- cl_list::disconn_at, pobj.cc 314-322. -/
def disconnAt (l : CList α) (index : Int) : Out (CList α) :=
  if index < 0 ∨ index ≥ l.count then .exit
  else .ok { l with items := l.items.eraseIdx index.toNat }

/-- cl_list::index_of(item, idx), pobj.cc 509-520. -/
def indexOf? [DecidableEq α] (l : CList α) (x : α) : Option Nat := l.items.findIdx? (fun y => x = y)

/-- cl_list::disconn, pobj.cc 329-336. -/
def disconn [DecidableEq α] (l : CList α) (x : α) : Out (CList α) :=
  match l.indexOf? x with
  | some i => l.disconnAt i
  | none => .ok l

/-- cl_list::disconn_all, pobj.cc 343-347. -/
def disconnAll (l : CList α) : CList α := { l with items := [] }

/-- cl_list::put_at, pobj.cc 401-407: no test for negative indices. -/
def putAt (l : CList α) (index : Int) (x : α) : Out (CList α) :=
  if index ≥ l.count then .exit
  else if index < 0 then .ub
  else .ok { l with items := l.items.set index.toNat x }

/-- cl_list::at, pobjcl.h 127-132. -/
def get (l : CList α) (index : Int) : Out α :=
  if index < 0 ∨ index ≥ l.count then .exit
  else match l.items[index.toNat]? with
    | some x => .ok x
    | none => .ub

/-- cl_list::top, pobj.cc 486-491. -/
def top (l : CList α) : Option α := l.items.head?

/-- cl_list::pop, pobj.cc 474-484. -/
def pop (l : CList α) : Out (CList α) × Option α :=
  match l.items with
  | [] => (.ok l, none)
  | x :: _ => (l.disconnAt 0, some x)

end CList

/-- cl_sorted_list::search, pobj.cc 695-721: the loop on `l` and `h`.
`cmp x` is `compare(key_of(x), key)`.  `none`: an item outside of the list would
be read. -/
def slLoop {α : Type} (cmp : α → Int) (dup : Bool) (items : List α) (l h : Int) (res : Bool) :
    Option (Bool × Int) :=
  if _hlh : l ≤ h then
    let i := (l + h) / 2
    match (if i < 0 then none else items[i.toNat]?) with
    | none => none
    | some x =>
      if cmp x < 0 then slLoop cmp dup items (i + 1) h res
      else if cmp x = 0 then
        if dup then slLoop cmp dup items l (i - 1) true
        else slLoop cmp dup items i (i - 1) true
      else slLoop cmp dup items l (i - 1) res
  else some (res, l)
termination_by (h - l + 1).toNat
decreasing_by all_goals omega

/-- cl_sorted_list::search, pobj.cc 695-721. -/
def slSearch {α : Type} (cmp : α → Int) (dup : Bool) (items : List α) : Option (Bool × Int) :=
  slLoop cmp dup items 0 ((items.length : Int) - 1) false

/-- cl_sorted_list::add, pobj.cc 677-688. -/
def slAdd {α : Type} (cmp : α → α → Int) (dup : Bool) (l : CList α) (x : α) : Out (CList α) :=
  match slSearch (fun y => cmp y x) dup l.items with
  | none => .ub
  | some (found, i) => if !found || dup then l.addAt i x else .ok l

end Ucsim
