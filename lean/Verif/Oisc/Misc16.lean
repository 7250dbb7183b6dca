import Verif.Spec.Misc16
/-
The MISC16 simulator: /repo/src/sims/oisc.src/oisc.cc and misc16.cc.

Simplifications: the words of the rom space are 16 bits (C10); the cells of the UART (from 0xfffb) are
plain memory; breakpoints and statistics are left out.
-/
namespace Ucsim.Misc

/-- rA, rC (0 or 1), PC, and what is stored in the cells of rom -/
structure M where
  A : Word
  C : Bool
  PC : Word
  mem : Word → Word
  clocks : Nat

/-- the cells that have the operator cl_op_pass, misc16.cc 116-135 -/
def special (a : Word) : Bool :=
  a == 0 || a == 1 || a == 2 || a == 3 || a == 4 || a == 7 || a == 8 || a == 9 || a == 11 || a == 12 ||
  a == 13 || a == 14 || a == 15

/-- cl_misc16::read for addresses but 7, misc16.cc 225-238 -/
def readOp (m : M) (a : Word) : Word :=
  if a = 0 then m.PC else if a = 1 then m.PC + 2 else if a = 2 then m.PC + 4 else if a = 3 then m.PC + 6
  else if a = 8 then m.A else m.mem a

/-- cl_memory_cell::read, mem.cc 1203-1217, of a cell other than 7 -/
def rd1 (m : M) (a : Word) : Word := if special a then readOp m a else m.mem a

/-- cl_memory_cell::read, mem.cc 1203-1217, with case 7 of cl_misc16::read, misc16.cc 234 -/
def rd (m : M) (a : Word) : Word := if a = 7 then (if m.A = 7 then m.A else rd1 m m.A) else rd1 m a

/-- cl_misc16::sub, misc16.cc 77-86 -/
def sub (a b : Word) : Word × Bool :=
  let b := ~~~b
  let s := a + b + 1
  (s, if ((a &&& b) ||| ((a ||| b) &&& ~~~s)) &&& 0x8000 ≠ 0 then false else true)

/-- cl_misc16::add, misc16.cc 88-95 -/
def add (a b : Word) : Word × Bool :=
  let s := a + b
  (s, if ((a &&& b) ||| ((a ||| b) &&& ~~~s)) &&& 0x8000 ≠ 0 then true else false)

/-- cl_misc16::shift, misc16.cc 97-105 -/
def shift (c : Bool) (a : Word) : Word × Bool :=
  let s := a >>> 1
  (if c then s ||| 0x8000 else s, a &&& 1 != 0)

/-- cl_misc16::write for addresses but 7, misc16.cc 240-259: the state and the value that is returned -/
def writeOp (m : M) (a v : Word) : M × Word :=
  if a = 0 then ({ m with PC := v }, v)
  else if a = 1 then (if m.A.slt 0 then { m with PC := v } else m, v)
  else if a = 2 then (if m.A = 0 then { m with PC := v } else m, v)
  else if a = 4 then (if m.C then { m with PC := v } else m, v)
  else if a = 8 then ({ m with A := v }, v)
  else if a = 9 then let r := sub m.A v; ({ m with A := r.1, C := r.2 }, r.1)
  else if a = 11 then let r := add m.A v; ({ m with A := r.1, C := r.2 }, r.1)
  else if a = 12 then let r := m.A ^^^ v; ({ m with A := r }, r)
  else if a = 13 then let r := m.A ||| v; ({ m with A := r }, r)
  else if a = 14 then let r := m.A &&& v; ({ m with A := r }, r)
  else if a = 15 then let r := shift m.C v; ({ m with A := r.1, C := r.2 }, r.1)
  else (m, v)

/-- cl_memory_cell::write, mem.cc 1241-1259: the operator, then the store -/
def wr1 (m : M) (a v : Word) : M :=
  let r := if special a then writeOp m a v else (m, v)
  { r.1 with mem := upd r.1.mem a r.2 }

/-- cl_memory_cell::write with case 7 of cl_misc16::write, misc16.cc 248 -/
def wr (m : M) (a v : Word) : M :=
  if a = 7 then
    let m' := if m.A ≠ 7 then wr1 m m.A v else m
    { m' with mem := upd m'.mem 7 v }
  else wr1 m a v

/-- cl_oisc::exec_inst, oisc.cc 224-239 -/
def step (m : M) : M :=
  let src := rd m m.PC
  let dst := rd m (m.PC + 1)
  let tmp := rd m src
  let m := { m with PC := m.PC + 2 }
  let m := wr m dst tmp
  { m with clocks := m.clocks + 4 }

/-- cl_misc16::reset, misc16.cc 70-75 -/
def reset (m : M) : M := { m with PC := 0x10 }

def run : Nat → M → M
  | 0, m => m
  | n + 1, m => run n (step m)

/-- what the table speaks of: the first 16 words of memory are not memory -/
def view (m : M) : S := ⟨m.A, m.C, m.PC, fun a => if 16 ≤ a.toNat then m.mem a else 0⟩

/-- cl_misc16::dis_src, misc16.cc 148-161 -/
def disSrc (a : Word) : Option String :=
  if a = 0 then some "PC" else if a = 1 then some "PC+2" else if a = 2 then some "PC+4"
  else if a = 3 then some "PC+8" else if a = 7 then some "[A]" else if a = 8 then some "A" else none

/-- cl_misc16::dis_dst, misc16.cc 163-182 -/
def disDst (a : Word) : Option String :=
  if a = 0 then some "PC" else if a = 1 then some "PC(A<0)" else if a = 2 then some "PC(A==0)"
  else if a = 4 then some "PC(C)" else if a = 7 then some "[A]" else if a = 8 then some "A"
  else if a = 9 then some "A-" else if a = 11 then some "A+" else if a = 12 then some "A^"
  else if a = 13 then some "A|" else if a = 14 then some "A&" else if a = 15 then some ">>" else none

/-! ### C151 -/

theorem special_low {a : Word} (h : 16 ≤ a.toNat) : special a = false := by
  have h : a ∉ ([0, 1, 2, 3, 4, 7, 8, 9, 11, 12, 13, 14, 15] : List Word) := by
    intro hm
    simp at hm
    rcases hm with h | h | h | h | h | h | h | h | h | h | h | h | h <;> subst h <;> simp at h
  simp at h
  simp [special, h]

theorem ne_low {a : Word} (h : 16 ≤ a.toNat) (k : Nat) (hk : k < 16) : a ≠ BitVec.ofNat 16 k := by
  intro e; subst e; simp at h; omega

theorem rd_mem {m : M} {a : Word} (h : 16 ≤ a.toNat) : rd m a = m.mem a := by
  have h7 : a ≠ 7 := ne_low h 7 (by omega)
  unfold rd rd1; rw [if_neg h7, special_low h]; rfl

theorem rd1_mem {m : M} {a : Word} (h : 16 ≤ a.toNat) : rd1 m a = m.mem a := by simp [rd1, special_low h]

theorem view_ram {m : M} {a : Word} (h : 16 ≤ a.toNat) : (view m).ram a = m.mem a := by simp [view, h]

theorem srcOf_cases {a : Word} {d : Src} (h : srcOf a = some d) :
    (a = 0 ∧ d = .pc) ∨ (a = 1 ∧ d = .pc2) ∨ (a = 2 ∧ d = .pc4) ∨ (a = 3 ∧ d = .pc6) ∨ (a = 7 ∧ d = .ind) ∨ (a = 8 ∧ d = .acc) ∨ (16 ≤ a.toNat ∧ d = .mem a) := by
  unfold srcOf at h
  by_cases h0 : a = 0
  · rw [if_pos h0] at h; exact Or.inl ⟨h0, (Option.some.inj h).symm⟩
  rw [if_neg h0] at h
  by_cases h1 : a = 1
  · rw [if_pos h1] at h; exact Or.inr (Or.inl ⟨h1, (Option.some.inj h).symm⟩)
  rw [if_neg h1] at h
  by_cases h2 : a = 2
  · rw [if_pos h2] at h; exact Or.inr (Or.inr (Or.inl ⟨h2, (Option.some.inj h).symm⟩))
  rw [if_neg h2] at h
  by_cases h3 : a = 3
  · rw [if_pos h3] at h; exact Or.inr (Or.inr (Or.inr (Or.inl ⟨h3, (Option.some.inj h).symm⟩)))
  rw [if_neg h3] at h
  by_cases h7 : a = 7
  · rw [if_pos h7] at h; exact Or.inr (Or.inr (Or.inr (Or.inr (Or.inl ⟨h7, (Option.some.inj h).symm⟩))))
  rw [if_neg h7] at h
  by_cases h8 : a = 8
  · rw [if_pos h8] at h; exact Or.inr (Or.inr (Or.inr (Or.inr (Or.inr (Or.inl ⟨h8, (Option.some.inj h).symm⟩)))))
  rw [if_neg h8] at h
  by_cases hm : 16 ≤ a.toNat
  · rw [if_pos hm] at h; exact Or.inr (Or.inr (Or.inr (Or.inr (Or.inr (Or.inr (⟨hm, (Option.some.inj h).symm⟩))))))
  · rw [if_neg hm] at h; cases h

theorem dstOf_cases {a : Word} {d : Dst} (h : dstOf a = some d) :
    (a = 0 ∧ d = .pc) ∨ (a = 1 ∧ d = .ifNeg) ∨ (a = 2 ∧ d = .ifZero) ∨ (a = 4 ∧ d = .ifCarry) ∨ (a = 7 ∧ d = .ind) ∨ (a = 8 ∧ d = .acc) ∨ (a = 9 ∧ d = .sub) ∨ (a = 11 ∧ d = .add) ∨ (a = 12 ∧ d = .xor) ∨ (a = 13 ∧ d = .or) ∨ (a = 14 ∧ d = .and) ∨ (a = 15 ∧ d = .shr) ∨ (16 ≤ a.toNat ∧ d = .mem a) := by
  unfold dstOf at h
  by_cases h0 : a = 0
  · rw [if_pos h0] at h; exact Or.inl ⟨h0, (Option.some.inj h).symm⟩
  rw [if_neg h0] at h
  by_cases h1 : a = 1
  · rw [if_pos h1] at h; exact Or.inr (Or.inl ⟨h1, (Option.some.inj h).symm⟩)
  rw [if_neg h1] at h
  by_cases h2 : a = 2
  · rw [if_pos h2] at h; exact Or.inr (Or.inr (Or.inl ⟨h2, (Option.some.inj h).symm⟩))
  rw [if_neg h2] at h
  by_cases h4 : a = 4
  · rw [if_pos h4] at h; exact Or.inr (Or.inr (Or.inr (Or.inl ⟨h4, (Option.some.inj h).symm⟩)))
  rw [if_neg h4] at h
  by_cases h7 : a = 7
  · rw [if_pos h7] at h; exact Or.inr (Or.inr (Or.inr (Or.inr (Or.inl ⟨h7, (Option.some.inj h).symm⟩))))
  rw [if_neg h7] at h
  by_cases h8 : a = 8
  · rw [if_pos h8] at h; exact Or.inr (Or.inr (Or.inr (Or.inr (Or.inr (Or.inl ⟨h8, (Option.some.inj h).symm⟩)))))
  rw [if_neg h8] at h
  by_cases h9 : a = 9
  · rw [if_pos h9] at h; exact Or.inr (Or.inr (Or.inr (Or.inr (Or.inr (Or.inr (Or.inl ⟨h9, (Option.some.inj h).symm⟩))))))
  rw [if_neg h9] at h
  by_cases h11 : a = 11
  · rw [if_pos h11] at h; exact Or.inr (Or.inr (Or.inr (Or.inr (Or.inr (Or.inr (Or.inr (Or.inl ⟨h11, (Option.some.inj h).symm⟩)))))))
  rw [if_neg h11] at h
  by_cases h12 : a = 12
  · rw [if_pos h12] at h; exact Or.inr (Or.inr (Or.inr (Or.inr (Or.inr (Or.inr (Or.inr (Or.inr (Or.inl ⟨h12, (Option.some.inj h).symm⟩))))))))
  rw [if_neg h12] at h
  by_cases h13 : a = 13
  · rw [if_pos h13] at h; exact Or.inr (Or.inr (Or.inr (Or.inr (Or.inr (Or.inr (Or.inr (Or.inr (Or.inr (Or.inl ⟨h13, (Option.some.inj h).symm⟩)))))))))
  rw [if_neg h13] at h
  by_cases h14 : a = 14
  · rw [if_pos h14] at h; exact Or.inr (Or.inr (Or.inr (Or.inr (Or.inr (Or.inr (Or.inr (Or.inr (Or.inr (Or.inr (Or.inl ⟨h14, (Option.some.inj h).symm⟩))))))))))
  rw [if_neg h14] at h
  by_cases h15 : a = 15
  · rw [if_pos h15] at h; exact Or.inr (Or.inr (Or.inr (Or.inr (Or.inr (Or.inr (Or.inr (Or.inr (Or.inr (Or.inr (Or.inr (Or.inl ⟨h15, (Option.some.inj h).symm⟩)))))))))))
  rw [if_neg h15] at h
  by_cases hm : 16 ≤ a.toNat
  · rw [if_pos hm] at h; exact Or.inr (Or.inr (Or.inr (Or.inr (Or.inr (Or.inr (Or.inr (Or.inr (Or.inr (Or.inr (Or.inr (Or.inr (⟨hm, (Option.some.inj h).symm⟩))))))))))))
  · rw [if_neg hm] at h; cases h

theorem rd_src {m : M} {a : Word} {x : Src} {v : Word} (h1 : srcOf a = some x) (h2 : val (view m) x = some v) : rd m a = v := by
  rcases srcOf_cases h1 with ⟨rfl, rfl⟩ | ⟨rfl, rfl⟩ | ⟨rfl, rfl⟩ | ⟨rfl, rfl⟩ | ⟨rfl, rfl⟩ | ⟨rfl, rfl⟩ | ⟨ha, rfl⟩ <;>
    simp only [val] at h2
  · cases h2; rfl
  · cases h2; rfl
  · cases h2; rfl
  · cases h2; rfl
  · split at h2
    · rename_i hA
      have hA : 16 ≤ m.A.toNat := hA
      have h7 : m.A ≠ 7 := ne_low hA 7 (by omega)
      cases h2
      rw [show (view m).A = m.A from rfl, view_ram hA]
      unfold rd; rw [if_pos rfl, if_neg h7]; exact rd1_mem hA
    · cases h2
  · cases h2; rfl
  · cases h2; rw [view_ram ha, rd_mem ha]

theorem top_bit (x : Word) : (x &&& 0x8000 ≠ 0) ↔ x.getLsbD 15 = true := by
  rw [show (0x8000 : Word) = BitVec.twoPow 16 15 from by decide]
  rw [BitVec.and_twoPow]
  cases x.getLsbD 15
  · simp
  · simp only [if_true, iff_true]; decide

theorem getLsbD15 (x : Word) : x.getLsbD 15 = decide (32768 ≤ x.toNat) := by
  have h := BitVec.msb_eq_decide x
  rw [BitVec.msb_eq_getLsbD_last] at h
  exact h

theorem add_ok (a b : Word) : add a b = (BitVec.ofNat 16 (a.toNat + b.toNat), decide (65536 ≤ a.toNat + b.toNat)) := by
  have e : a + b = BitVec.ofNat 16 (a.toNat + b.toNat) := BitVec.eq_of_toNat_eq (by simp)
  have ha := a.isLt; have hb := b.isLt
  unfold add
  simp only [top_bit]
  simp only [BitVec.getLsbD_or, BitVec.getLsbD_and, BitVec.getLsbD_not]
  simp only [getLsbD15, BitVec.toNat_add]
  rw [← e]
  by_cases h1 : 32768 ≤ a.toNat <;> by_cases h2 : 32768 ≤ b.toNat <;> by_cases h3 : 32768 ≤ (a.toNat + b.toNat) % 2 ^ 16 <;>
    simp [h1, h2, h3] <;> first | omega | rfl | skip

theorem sub_ok (a b : Word) : sub a b = (BitVec.ofNat 16 (a.toNat + 65536 - b.toNat), decide (a.toNat < b.toNat)) := by
  have ha := a.isLt; have hb := b.isLt
  have e : a + ~~~b + 1 = BitVec.ofNat 16 (a.toNat + 65536 - b.toNat) := by
    apply BitVec.eq_of_toNat_eq; simp [BitVec.toNat_not]; omega
  have hn : (a + ~~~b + 1).toNat = (a.toNat + 65536 - b.toNat) % 65536 := by rw [e]; simp
  have hc : (~~~b).toNat = 65535 - b.toNat := by simp [BitVec.toNat_not]
  unfold sub
  simp only [top_bit]
  simp only [BitVec.getLsbD_or, BitVec.getLsbD_and, BitVec.getLsbD_not (x := a + ~~~b + 1)]
  simp only [getLsbD15, hn, hc]
  rw [← e]
  by_cases h1 : 32768 ≤ a.toNat <;> by_cases h2 : 32768 ≤ 65535 - b.toNat <;> by_cases h3 : 32768 ≤ (a.toNat + 65536 - b.toNat) % 65536 <;>
    simp [h1, h2, h3] <;> first | omega | rfl | skip

theorem shift_ok (c : Bool) (a : Word) : shift c a = (BitVec.ofNat 16 (a.toNat / 2 + if c then 32768 else 0), decide (a.toNat % 2 = 1)) := by
  unfold shift
  have h1 : (a &&& 1 != 0) = decide (a.toNat % 2 = 1) := by
    have e : (a &&& 1).toNat = a.toNat % 2 := by
      rw [BitVec.toNat_and]; exact Nat.and_one_is_mod _
    by_cases h : a.toNat % 2 = 1
    · have : a &&& 1 ≠ 0 := by intro h0; rw [h0] at e; simp at e; omega
      simp [h]; exact this
    · have : a &&& 1 = 0 := by apply BitVec.eq_of_toNat_eq; rw [e]; simp; omega
      rw [this]; simp [h]
  rw [h1]
  have ha := a.isLt
  have hs : (a >>> 1).toNat = a.toNat / 2 := by rw [BitVec.toNat_ushiftRight]; exact Nat.shiftRight_eq_div_pow _ 1
  refine Prod.ext ?_ rfl
  show (if c then a >>> 1 ||| 0x8000 else a >>> 1) = _
  apply BitVec.eq_of_toNat_eq
  cases c
  · simp [hs]; omega
  · simp only [if_true]
    rw [BitVec.toNat_or, hs]
    have := Nat.two_pow_add_eq_or_of_lt (i := 15) (b := a.toNat / 2) (by omega) 1
    rw [Nat.or_comm]
    show 32768 ||| a.toNat / 2 = _
    simp at this
    rw [← this]; simp; omega

theorem view_upd (m : M) (a v : Word) (h : 16 ≤ a.toNat) : view { m with mem := upd m.mem a v } = { view m with ram := upd (view m).ram a v } := by
  unfold view
  congr 1
  funext x
  simp only [upd]
  by_cases hx : x = a
  · subst hx; simp [h]
  · simp [hx]

theorem view_low (m : M) (a v : Word) (h : a.toNat < 16) : view { m with mem := upd m.mem a v } = view m := by
  unfold view
  congr 1
  funext x
  simp only [upd]
  by_cases hx : x = a
  · subst hx; rw [if_neg (by omega), if_neg (by omega)]
  · simp [hx]

theorem slt_zero (x : Word) : x.slt 0 = decide (32768 ≤ x.toNat) := by
  have := x.isLt
  rw [BitVec.slt_eq_decide]
  rw [BitVec.toInt_eq_toNat_cond]
  by_cases h : 2 * x.toNat < 2 ^ 16
  · rw [if_pos h]; simp; omega
  · rw [if_neg h]; simp; omega

theorem wr_dst {m : M} {a v : Word} {d : Dst} {s' : S} (h1 : dstOf a = some d) (h2 : put (view m) v d = some s') :
    view (wr m a v) = s' := by
  rcases dstOf_cases h1 with ⟨rfl, rfl⟩ | ⟨rfl, rfl⟩ | ⟨rfl, rfl⟩ | ⟨rfl, rfl⟩ | ⟨rfl, rfl⟩ | ⟨rfl, rfl⟩ | ⟨rfl, rfl⟩ | ⟨rfl, rfl⟩ | ⟨rfl, rfl⟩ | ⟨rfl, rfl⟩ | ⟨rfl, rfl⟩ | ⟨rfl, rfl⟩ | ⟨ha, rfl⟩ <;>
    simp only [put] at h2
  · cases h2; exact view_low _ 0 _ (by decide)
  · cases h2
    refine (view_low _ 1 _ (by decide)).trans ?_
    show view (if m.A.slt 0 then { m with PC := v } else m) = _
    rw [slt_zero, show (view m).A = m.A from rfl]
    by_cases h : 32768 ≤ m.A.toNat <;> simp [h] <;> rfl
  · cases h2
    refine (view_low _ 2 _ (by decide)).trans ?_
    show view (if m.A = 0 then { m with PC := v } else m) = _
    rw [show (view m).A = m.A from rfl]
    by_cases h : m.A = 0
    · simp [h]; rfl
    · have : m.A.toNat ≠ 0 := fun e => h (BitVec.eq_of_toNat_eq e)
      rw [if_neg h, if_neg this]; rfl
  · cases h2
    refine (view_low _ 4 _ (by decide)).trans ?_
    show view (if m.C then { m with PC := v } else m) = _
    rw [show (view m).C = m.C from rfl]
    cases hc : m.C <;> simp <;> simp [view, hc]
  · split at h2
    · rename_i hA
      have hA : 16 ≤ m.A.toNat := hA
      have h7 : m.A ≠ 7 := ne_low hA 7 (by omega)
      cases h2
      unfold wr
      simp only [if_true, ne_eq, h7, not_false_eq_true]
      rw [view_low _ 7 _ (by decide)]
      unfold wr1
      rw [special_low hA]
      simp only [Bool.false_eq_true, if_false]
      exact view_upd m m.A v hA
    · cases h2
  · cases h2; exact view_low _ 8 _ (by decide)
  · cases h2
    refine (view_low _ 9 _ (by decide)).trans ?_
    show view { m with A := (sub m.A v).1, C := (sub m.A v).2 } = _
    rw [sub_ok]; rfl
  · cases h2
    refine (view_low _ 11 _ (by decide)).trans ?_
    show view { m with A := (add m.A v).1, C := (add m.A v).2 } = _
    rw [add_ok]; rfl
  · cases h2; exact view_low _ 12 _ (by decide)
  · cases h2; exact view_low _ 13 _ (by decide)
  · cases h2; exact view_low _ 14 _ (by decide)
  · cases h2
    refine (view_low _ 15 _ (by decide)).trans ?_
    show view { m with A := (shift m.C v).1, C := (shift m.C v).2 } = _
    rw [shift_ok]; rfl
  · cases h2
    have h7 : a ≠ 7 := ne_low ha 7 (by omega)
    unfold wr wr1
    rw [if_neg h7, special_low ha]
    simp only [Bool.false_eq_true, if_false]
    exact view_upd m a v ha

theorem wr_clocks (m : M) (a v : Word) : (wr m a v).clocks = m.clocks := by
  have h : ∀ (m : M) (a : Word), (wr1 m a v).clocks = m.clocks := by
    intro m a
    have hw : (writeOp m a v).1.clocks = m.clocks := by
      simp only [writeOp, apply_ite Prod.fst, apply_ite M.clocks, ite_self]
    unfold wr1
    cases special a
    · rfl
    · exact hw
  unfold wr
  split
  · simp only []
    split
    · exact h m m.A
    · rfl
  · exact h m a

/-- C151: every instruction that the table describes does to A, C, PC and memory what the table says,
in four clocks -/
theorem c151_step {m : M} {s' : S} (h : sstep (view m) = some s') : view (step m) = s' ∧ (step m).clocks = m.clocks + 4 := by
  refine ⟨?_, ?_⟩
  · unfold sstep at h
    split at h
    · rename_i hpc
      obtain ⟨hp1, hp2⟩ := hpc
      have hp1 : 16 ≤ m.PC.toNat := hp1
      have hp2 : m.PC.toNat + 1 < 65536 := hp2
      have hq : 16 ≤ (m.PC + 1).toNat := by
        rw [BitVec.toNat_add]; show 16 ≤ (m.PC.toNat + 1) % 65536; omega
      rw [show (view m).PC = m.PC from rfl, view_ram hp1, view_ram hq] at h
      obtain ⟨x, hx, h⟩ := Option.bind_eq_some_iff.1 h
      obtain ⟨d, hd, h⟩ := Option.bind_eq_some_iff.1 h
      obtain ⟨v, hv, h⟩ := Option.bind_eq_some_iff.1 h
      have e1 : rd m m.PC = m.mem m.PC := rd_mem hp1
      have e2 : rd m (m.PC + 1) = m.mem (m.PC + 1) := rd_mem hq
      have e3 := rd_src hx hv
      show view (wr { m with PC := m.PC + 2 } (rd m (m.PC + 1)) (rd m (rd m m.PC))) = s'
      rw [e1, e2, e3]
      exact wr_dst (m := { m with PC := m.PC + 2 }) hd h
    · cases h
  · unfold step
    simp only []
    rw [wr_clocks]

/-- C151: programs of any length -/
theorem c151_programs (n : Nat) {m : M} {s' : S} (h : srun n (view m) = some s') :
    view (run n m) = s' ∧ (run n m).clocks = m.clocks + 4 * n := by
  induction n generalizing m with
  | zero => cases h; exact ⟨rfl, rfl⟩
  | succ n ih =>
    obtain ⟨s1, h1, h2⟩ := Option.bind_eq_some_iff.1 h
    obtain ⟨e1, e2⟩ := c151_step h1
    rw [← e1] at h2
    obtain ⟨r1, r2⟩ := ih h2
    exact ⟨r1, by show (run n (step m)).clocks = _; rw [r2, e2]; omega⟩

/-- C151: after reset execution begins at 16 -/
theorem c151_reset (m : M) : view (reset m) = { view m with PC := 16 } := rfl

/-! ### C152: a number of any length shifted right -/

theorem sstep_eq {s : S} {a d : Word} {x : Src} {y : Dst} {v : Word} {s' : S} (h1 : 16 ≤ s.PC.toNat) (h2 : s.PC.toNat + 1 < 65536)
    (ha : s.ram s.PC = a) (hd : s.ram (s.PC + 1) = d) (hx : srcOf a = some x) (hy : dstOf d = some y) (hv : val s x = some v)
    (hp : put { s with PC := s.PC + 2 } v y = some s') : sstep s = some s' := by
  subst ha hd
  unfold sstep
  rw [if_pos ⟨h1, h2⟩, hx, Option.bind_some, hy, Option.bind_some, hv, Option.bind_some, hp]

theorem low_ne {a : Word} (h : 16 ≤ a.toNat) : a ≠ 0 ∧ a ≠ 1 ∧ a ≠ 2 ∧ a ≠ 3 ∧ a ≠ 4 ∧ a ≠ 7 ∧ a ≠ 8 ∧ a ≠ 9 ∧ a ≠ 11 ∧ a ≠ 12 ∧ a ≠ 13 ∧ a ≠ 14 ∧ a ≠ 15 :=
  ⟨ne_low h 0 (by omega), ne_low h 1 (by omega), ne_low h 2 (by omega), ne_low h 3 (by omega), ne_low h 4 (by omega), ne_low h 7 (by omega),
    ne_low h 8 (by omega), ne_low h 9 (by omega), ne_low h 11 (by omega), ne_low h 12 (by omega), ne_low h 13 (by omega), ne_low h 14 (by omega),
    ne_low h 15 (by omega)⟩

theorem srcOf_mem {a : Word} (h : 16 ≤ a.toNat) : srcOf a = some (.mem a) := by
  obtain ⟨h0, h1, h2, h3, h4, h7, h8, h9, h11, h12, h13, h14, h15⟩ := low_ne h
  unfold srcOf
  rw [if_neg h0, if_neg h1, if_neg h2, if_neg h3, if_neg h7, if_neg h8, if_pos h]

theorem dstOf_mem {a : Word} (h : 16 ≤ a.toNat) : dstOf a = some (.mem a) := by
  obtain ⟨h0, h1, h2, h3, h4, h7, h8, h9, h11, h12, h13, h14, h15⟩ := low_ne h
  unfold dstOf
  rw [if_neg h0, if_neg h1, if_neg h2, if_neg h4, if_neg h7, if_neg h8, if_neg h9, if_neg h11, if_neg h12, if_neg h13, if_neg h14,
    if_neg h15, if_pos h]

theorem toNat_of {p : Nat} (h : p < 65536) : (BitVec.ofNat 16 p).toNat = p := Nat.mod_eq_of_lt h

theorem of_add (p k : Nat) : (BitVec.ofNat 16 p) + (BitVec.ofNat 16 k) = BitVec.ofNat 16 (p + k) := (BitVec.ofNat_add p k).symm

theorem of_ne {p q : Nat} (hp : p < 65536) (hq : q < 65536) (h : p ≠ q) : BitVec.ofNat 16 p ≠ BitVec.ofNat 16 q := by
  intro e; exact h (by rw [← toNat_of hp, ← toNat_of hq, e])

theorem num_upd {f : Word → Word} {a x n : Nat} {v : Word} (ha : a < 65536) (hx : x + n ≤ 65536) (h : a < x ∨ x + n ≤ a) :
    num (upd f (BitVec.ofNat 16 a) v) x n = num f x n := by
  induction n generalizing x with
  | zero => rfl
  | succ n ih =>
    unfold num
    rw [ih (by omega) (by omega)]
    simp only [upd]
    rw [if_neg (of_ne (by omega) ha (by omega))]

/-- C152: the number in the n words from x on is shifted right by one, through the carry, by one pair of
moves for each word (`mov >>,x+i` and `mov x+i,A`) -/
theorem c152_spec (n : Nat) {s : S} {p x : Nat} (hp : 16 ≤ p) (hpe : p + 4 * n ≤ 65536) (hx : 16 ≤ x) (hxe : x + n ≤ 65536)
    (hd : x + n ≤ p ∨ p + 4 * n ≤ x) (hpc : s.PC = BitVec.ofNat 16 p)
    (hc : ∀ i, i < n → s.ram (BitVec.ofNat 16 (p + 4 * i)) = BitVec.ofNat 16 (x + i) ∧ s.ram (BitVec.ofNat 16 (p + 4 * i + 1)) = 15 ∧
      s.ram (BitVec.ofNat 16 (p + 4 * i + 2)) = 8 ∧ s.ram (BitVec.ofNat 16 (p + 4 * i + 3)) = BitVec.ofNat 16 (x + i)) :
    ∃ s', srun (2 * n) s = some s' ∧ 2 * num s'.ram x n + s'.C.toNat = num s.ram x n + s.C.toNat * 65536 ^ n ∧
      s'.PC = BitVec.ofNat 16 (p + 4 * n) ∧ ∀ a, a < 65536 → (a < x ∨ x + n ≤ a) → s'.ram (BitVec.ofNat 16 a) = s.ram (BitVec.ofNat 16 a) := by
  induction n generalizing s p x with
  | zero => exact ⟨s, rfl, by simp [num], by rw [hpc]; rfl, fun a _ _ => rfl⟩
  | succ n ih =>
    obtain ⟨c0, c1, c2, c3⟩ := hc 0 (by omega)
    rw [Nat.mul_zero, Nat.add_zero] at c0 c1 c2 c3
    rw [Nat.add_zero] at c0 c3
    have hpn := toNat_of (p := p) (by omega)
    have hxn := toNat_of (p := x) (by omega)
    have e1 := sstep_eq (s := s) (a := BitVec.ofNat 16 x) (d := 15) (x := .mem (BitVec.ofNat 16 x)) (y := .shr)
      (v := s.ram (BitVec.ofNat 16 x)) (by rw [hpc, hpn]; exact hp) (by rw [hpc, hpn]; omega) (by rw [hpc]; exact c0)
      (by rw [hpc]; exact (congrArg s.ram (of_add p 1)).trans c1) (srcOf_mem (by omega)) (by decide) rfl rfl
    generalize hA : BitVec.ofNat 16 ((s.ram (BitVec.ofNat 16 x)).toNat / 2 + if s.C then 32768 else 0) = A at e1
    have hs1 : ∃ s1, s1 = ({ A := A, C := decide ((s.ram (BitVec.ofNat 16 x)).toNat % 2 = 1), PC := s.PC + 2, ram := s.ram } : S) := ⟨_, rfl⟩
    obtain ⟨s1, hs1⟩ := hs1
    have hpc1 : s1.PC = BitVec.ofNat 16 (p + 2) := by rw [hs1]; show s.PC + 2 = _; rw [hpc]; exact of_add p 2
    have hpn2 := toNat_of (p := p + 2) (by omega)
    have hr1 : s1.ram = s.ram := by rw [hs1]
    have e2 := sstep_eq (s := s1) (a := 8) (d := BitVec.ofNat 16 x) (x := .acc) (y := .mem (BitVec.ofNat 16 x)) (v := s1.A)
      (by rw [hpc1, hpn2]; omega) (by rw [hpc1, hpn2]; omega) (by rw [hpc1, hr1]; exact c2)
      (by rw [hpc1, hr1]; exact (congrArg s.ram (of_add (p + 2) 1)).trans c3) (by decide) (dstOf_mem (by omega)) rfl rfl
    have hs2 : ∃ s2, s2 = ({ A := s1.A, C := s1.C, PC := s1.PC + 2, ram := upd s1.ram (BitVec.ofNat 16 x) s1.A } : S) := ⟨_, rfl⟩
    obtain ⟨s2, hs2⟩ := hs2
    have hpc2 : s2.PC = BitVec.ofNat 16 (p + 4) := by rw [hs2]; show s1.PC + 2 = _; rw [hpc1]; exact of_add (p + 2) 2
    have hr2 : s2.ram = upd s.ram (BitVec.ofNat 16 x) A := by rw [hs2]; show upd s1.ram _ s1.A = _; rw [hr1, hs1]
    have hC2 : s2.C = decide ((s.ram (BitVec.ofNat 16 x)).toNat % 2 = 1) := by rw [hs2]; show s1.C = _; rw [hs1]
    have keep : ∀ a, a < 65536 → a ≠ x → s2.ram (BitVec.ofNat 16 a) = s.ram (BitVec.ofNat 16 a) := by
      intro a ha hne
      rw [hr2]; simp only [upd]; rw [if_neg (of_ne ha (by omega) hne)]
    obtain ⟨s', r1, r2, r3, r4⟩ := ih (s := s2) (p := p + 4) (x := x + 1) (by omega) (by omega) (by omega) (by omega) (by omega) hpc2
      (by
        intro i hi
        have hh := hc (i + 1) (by omega)
        rw [show p + 4 * (i + 1) = p + 4 + 4 * i by omega, show x + (i + 1) = x + 1 + i by omega] at hh
        rw [keep _ (by omega) (by omega), keep _ (by omega) (by omega), keep _ (by omega) (by omega), keep _ (by omega) (by omega)]
        exact hh)
    refine ⟨s', ?_, ?_, ?_, ?_⟩
    · show srun (2 * n + 1 + 1) s = _
      show (sstep s).bind (srun (2 * n + 1)) = _
      rw [e1, Option.bind_some]
      show (sstep _).bind (srun (2 * n)) = _
      rw [← hs1, e2, Option.bind_some, ← hs2]; exact r1
    · have hx' : s'.ram (BitVec.ofNat 16 x) = A := by
        rw [r4 x (by omega) (by omega), hr2]; simp [upd]
      have hAn : A.toNat = (s.ram (BitVec.ofNat 16 x)).toNat / 2 + s.C.toNat * 32768 := by
        rw [← hA]
        have := (s.ram (BitVec.ofNat 16 x)).isLt
        cases s.C <;> simp <;> omega
      have hn : num s2.ram (x + 1) n = num s.ram (x + 1) n := by
        rw [hr2]; exact num_upd (by omega) (by omega) (by omega)
      have hcn : s2.C.toNat = (s.ram (BitVec.ofNat 16 x)).toNat % 2 := by
        rw [hC2]
        rcases Nat.mod_two_eq_zero_or_one (s.ram (BitVec.ofNat 16 x)).toNat with h | h <;> simp [h]
      rw [hn, hcn] at r2
      show 2 * ((s'.ram (BitVec.ofNat 16 x)).toNat * 65536 ^ n + num s'.ram (x + 1) n) + s'.C.toNat
        = (s.ram (BitVec.ofNat 16 x)).toNat * 65536 ^ n + num s.ram (x + 1) n + s.C.toNat * 65536 ^ (n + 1)
      rw [hx', hAn, Nat.pow_succ]
      generalize hw : (s.ram (BitVec.ofNat 16 x)).toNat = w at *
      generalize hP : 65536 ^ n = P at *
      have hw2 : w = w / 2 * 2 + w % 2 := by omega
      generalize w / 2 = q at *
      generalize w % 2 = r at *
      subst hw2
      generalize s.C.toNat = c
      have : 2 * ((q + c * 32768) * P + num s'.ram (x + 1) n) + s'.C.toNat = 2 * (q * P) + c * (P * 65536) + (2 * num s'.ram (x + 1) n + s'.C.toNat) := by
        rw [Nat.add_mul, Nat.mul_add, Nat.mul_add, show c * 32768 * P = c * (P * 32768) by rw [Nat.mul_assoc, Nat.mul_comm 32768 P]]
        rw [show P * 65536 = P * 32768 * 2 by rw [Nat.mul_assoc], ← Nat.mul_assoc c (P * 32768) 2]
        generalize c * (P * 32768) = z
        generalize q * P = y
        omega
      rw [this, r2, Nat.add_mul, Nat.mul_assoc q 2 P, Nat.mul_left_comm q 2 P]
      generalize q * P = qP
      generalize c * (P * 65536) = cP
      generalize r * P = rP
      omega
    · rw [r3]; congr 1; omega
    · intro a ha h
      rw [r4 a ha (by omega)]
      exact keep a ha (by omega)

/-- C152: and so does the simulator, eight clocks for each word -/
theorem c152_shift (n : Nat) {m : M} {p x : Nat} (hp : 16 ≤ p) (hpe : p + 4 * n ≤ 65536) (hx : 16 ≤ x) (hxe : x + n ≤ 65536)
    (hd : x + n ≤ p ∨ p + 4 * n ≤ x) (hpc : (view m).PC = BitVec.ofNat 16 p)
    (hc : ∀ i, i < n → (view m).ram (BitVec.ofNat 16 (p + 4 * i)) = BitVec.ofNat 16 (x + i) ∧ (view m).ram (BitVec.ofNat 16 (p + 4 * i + 1)) = 15 ∧
      (view m).ram (BitVec.ofNat 16 (p + 4 * i + 2)) = 8 ∧ (view m).ram (BitVec.ofNat 16 (p + 4 * i + 3)) = BitVec.ofNat 16 (x + i)) :
    2 * num (view (run (2 * n) m)).ram x n + (view (run (2 * n) m)).C.toNat = num (view m).ram x n + (view m).C.toNat * 65536 ^ n ∧
      (view (run (2 * n) m)).PC = BitVec.ofNat 16 (p + 4 * n) ∧
      (∀ a, a < 65536 → (a < x ∨ x + n ≤ a) → (view (run (2 * n) m)).ram (BitVec.ofNat 16 a) = (view m).ram (BitVec.ofNat 16 a)) ∧
      (run (2 * n) m).clocks = m.clocks + 8 * n := by
  obtain ⟨s', h1, h2, h3, h4⟩ := c152_spec n hp hpe hx hxe hd hpc hc
  obtain ⟨e1, e2⟩ := c151_programs _ h1
  rw [e1]
  exact ⟨h2, h3, h4, by rw [e2]; omega⟩

/-! ### C153: comparisons -/

/-- what the three programs for comparing have in common: `mov A,x`, `mov A-,y` -/
theorem cmp_spec {s : S} {p x y : Nat} (hp : 16 ≤ p) (hpe : p + 4 ≤ 65536) (hx : 16 ≤ x) (hxe : x < 65536) (hy : 16 ≤ y) (hye : y < 65536)
    (hpc : s.PC = BitVec.ofNat 16 p) (h0 : s.ram (BitVec.ofNat 16 p) = BitVec.ofNat 16 x) (h1 : s.ram (BitVec.ofNat 16 (p + 1)) = 8)
    (h2 : s.ram (BitVec.ofNat 16 (p + 2)) = BitVec.ofNat 16 y) (h3 : s.ram (BitVec.ofNat 16 (p + 3)) = 9) :
    srun 2 s = some ⟨BitVec.ofNat 16 ((s.ram (BitVec.ofNat 16 x)).toNat + 65536 - (s.ram (BitVec.ofNat 16 y)).toNat),
      decide ((s.ram (BitVec.ofNat 16 x)).toNat < (s.ram (BitVec.ofNat 16 y)).toNat), BitVec.ofNat 16 (p + 4), s.ram⟩ := by
  have hpn := toNat_of (p := p) (by omega)
  have hpn2 := toNat_of (p := p + 2) (by omega)
  have hxn := toNat_of (p := x) (by omega)
  have hyn := toNat_of (p := y) (by omega)
  have e1 := sstep_eq (s := s) (a := BitVec.ofNat 16 x) (d := 8) (x := .mem (BitVec.ofNat 16 x)) (y := .acc)
    (v := s.ram (BitVec.ofNat 16 x)) (by rw [hpc, hpn]; exact hp) (by rw [hpc, hpn]; omega) (by rw [hpc]; exact h0)
    (by rw [hpc]; exact (congrArg s.ram (of_add p 1)).trans h1) (srcOf_mem (by omega)) (by decide) rfl rfl
  have hq : s.PC + 2 = BitVec.ofNat 16 (p + 2) := by rw [hpc]; exact of_add p 2
  have e2 := sstep_eq (s := ⟨s.ram (BitVec.ofNat 16 x), s.C, BitVec.ofNat 16 (p + 2), s.ram⟩) (a := BitVec.ofNat 16 y) (d := 9)
    (x := .mem (BitVec.ofNat 16 y)) (y := .sub) (v := s.ram (BitVec.ofNat 16 y)) (by show 16 ≤ (BitVec.ofNat 16 (p + 2)).toNat; omega)
    (by show (BitVec.ofNat 16 (p + 2)).toNat + 1 < _; omega) h2
    ((congrArg s.ram (of_add (p + 2) 1)).trans h3) (srcOf_mem (by omega)) (by decide) rfl rfl
  show (sstep s).bind (fun t => (sstep t).bind some) = _
  rw [e1, Option.bind_some]
  simp only []
  rw [hq, e2, Option.bind_some]
  simp only []
  rw [show (BitVec.ofNat 16 (p + 2) : Word) + 2 = BitVec.ofNat 16 (p + 4) from of_add (p + 2) 2]

/-- C153: the three conditional jumps after a comparison: less, equal, and negative difference -/
theorem c153_compare {m : M} {p x y t : Nat} (hp : 16 ≤ p) (hpe : p + 6 ≤ 65536) (hx : 16 ≤ x) (hxe : x < 65536) (hy : 16 ≤ y) (hye : y < 65536)
    (ht : 16 ≤ t) (hte : t < 65536)
    (hpc : (view m).PC = BitVec.ofNat 16 p) (h0 : (view m).ram (BitVec.ofNat 16 p) = BitVec.ofNat 16 x) (h1 : (view m).ram (BitVec.ofNat 16 (p + 1)) = 8)
    (h2 : (view m).ram (BitVec.ofNat 16 (p + 2)) = BitVec.ofNat 16 y) (h3 : (view m).ram (BitVec.ofNat 16 (p + 3)) = 9)
    (h4 : (view m).ram (BitVec.ofNat 16 (p + 4)) = BitVec.ofNat 16 t) (vx vy : Nat) (hvx : ((view m).ram (BitVec.ofNat 16 x)).toNat = vx)
    (hvy : ((view m).ram (BitVec.ofNat 16 y)).toNat = vy) :
    ((view m).ram (BitVec.ofNat 16 (p + 5)) = 4 →
      (view (run 3 m)).PC = if vx < vy then (view m).ram (BitVec.ofNat 16 t) else BitVec.ofNat 16 (p + 6)) ∧
    ((view m).ram (BitVec.ofNat 16 (p + 5)) = 2 →
      (view (run 3 m)).PC = if vx = vy then (view m).ram (BitVec.ofNat 16 t) else BitVec.ofNat 16 (p + 6)) ∧
    ((view m).ram (BitVec.ofNat 16 (p + 5)) = 1 →
      (view (run 3 m)).PC = if 32768 ≤ (vx + 65536 - vy) % 65536 then (view m).ram (BitVec.ofNat 16 t) else BitVec.ofNat 16 (p + 6)) := by
  have hc := cmp_spec hp (by omega) hx hxe hy hye hpc h0 h1 h2 h3
  rw [hvx, hvy] at hc
  have hpn4 := toNat_of (p := p + 4) (by omega)
  have htn := toNat_of (p := t) (by omega)
  have lx : vx < 65536 := by rw [← hvx]; exact BitVec.isLt _
  have ly : vy < 65536 := by rw [← hvy]; exact BitVec.isLt _
  have h6 : (BitVec.ofNat 16 (p + 4) : Word) + 2 = BitVec.ofNat 16 (p + 6) := of_add (p + 4) 2
  have go : ∀ (d : Word) (y' : Dst) (s' : S), (view m).ram (BitVec.ofNat 16 (p + 5)) = d → dstOf d = some y' →
      put ⟨BitVec.ofNat 16 (vx + 65536 - vy), decide (vx < vy), BitVec.ofNat 16 (p + 6), (view m).ram⟩ ((view m).ram (BitVec.ofNat 16 t)) y' = some s' →
      view (run 3 m) = s' := by
    intro d y' s' hd hy' hput
    have e3 := sstep_eq (s := ⟨BitVec.ofNat 16 (vx + 65536 - vy), decide (vx < vy), BitVec.ofNat 16 (p + 4), (view m).ram⟩) (a := BitVec.ofNat 16 t) (d := d)
      (x := .mem (BitVec.ofNat 16 t)) (y := y') (v := (view m).ram (BitVec.ofNat 16 t)) (s' := s')
      (by show 16 ≤ (BitVec.ofNat 16 (p + 4)).toNat; omega)
      (by show (BitVec.ofNat 16 (p + 4)).toNat + 1 < _; omega) h4
      ((congrArg (view m).ram (of_add (p + 4) 1)).trans hd) (srcOf_mem (by omega)) hy' rfl (by simp only []; rw [h6]; exact hput)
    have e : srun 3 (view m) = some s' := by
      show (sstep (view m)).bind (fun u => (sstep u).bind fun w => (sstep w).bind some) = _
      have hc' : (sstep (view m)).bind (fun u => (sstep u).bind some) = _ := hc
      obtain ⟨u, hu, hc'⟩ := Option.bind_eq_some_iff.1 hc'
      obtain ⟨w, hw, hc'⟩ := Option.bind_eq_some_iff.1 hc'
      cases hc'
      rw [hu, Option.bind_some, hw, Option.bind_some, e3, Option.bind_some]
    exact (c151_programs 3 e).1
  refine ⟨fun hd => ?_, fun hd => ?_, fun hd => ?_⟩
  · rw [go 4 .ifCarry _ hd (by decide) rfl]
    simp
  · rw [go 2 .ifZero _ hd (by decide) rfl]
    have : (BitVec.ofNat 16 (vx + 65536 - vy)).toNat = 0 ↔ vx = vy := by
      rw [BitVec.toNat_ofNat]; show _ % 65536 = 0 ↔ _; omega
    simp only [this]
  · rw [go 1 .ifNeg _ hd (by decide) rfl]
    simp only [BitVec.toNat_ofNat]

/-! ### C154: subroutines -/

/-- C154: `mov r,PC+4`, `mov PC,l` enters the subroutine whose address is in l and leaves the address of
the next instruction in r; `mov PC,r` goes back there, however long the subroutine took, if it left r alone -/
theorem c154_call {m : M} {p r l : Nat} (hp : 16 ≤ p) (hpe : p + 4 ≤ 65536) (hr : 16 ≤ r) (hre : r < 65536) (hl : 16 ≤ l) (hle : l < 65536)
    (hrp : r < p ∨ p + 4 ≤ r) (hrl : r ≠ l) (hpc : (view m).PC = BitVec.ofNat 16 p)
    (h0 : (view m).ram (BitVec.ofNat 16 p) = 2) (h1 : (view m).ram (BitVec.ofNat 16 (p + 1)) = BitVec.ofNat 16 r)
    (h2 : (view m).ram (BitVec.ofNat 16 (p + 2)) = BitVec.ofNat 16 l) (h3 : (view m).ram (BitVec.ofNat 16 (p + 3)) = 0) :
    (view (run 2 m)).PC = (view m).ram (BitVec.ofNat 16 l) ∧ (view (run 2 m)).ram (BitVec.ofNat 16 r) = BitVec.ofNat 16 (p + 4) ∧
      (∀ a, a ≠ BitVec.ofNat 16 r → (view (run 2 m)).ram a = (view m).ram a) ∧ (view (run 2 m)).A = (view m).A ∧ (view (run 2 m)).C = (view m).C := by
  have hpn := toNat_of (p := p) (by omega)
  have hpn2 := toNat_of (p := p + 2) (by omega)
  have hrn := toNat_of (p := r) (by omega)
  have hln := toNat_of (p := l) (by omega)
  have e1 := sstep_eq (s := view m) (a := 2) (d := BitVec.ofNat 16 r) (x := .pc4) (y := .mem (BitVec.ofNat 16 r))
    (v := (view m).PC + 4) (by rw [hpc, hpn]; exact hp) (by rw [hpc, hpn]; omega) (by rw [hpc]; exact h0)
    (by rw [hpc]; exact (congrArg (view m).ram (of_add p 1)).trans h1) (by decide) (dstOf_mem (by omega)) rfl rfl
  have hq : (view m).PC + 2 = BitVec.ofNat 16 (p + 2) := by rw [hpc]; exact of_add p 2
  have hq4 : (view m).PC + 4 = BitVec.ofNat 16 (p + 4) := by rw [hpc]; exact of_add p 4
  simp only [hq, hq4] at e1
  have k : ∀ a, a ≠ r → a < 65536 → upd (view m).ram (BitVec.ofNat 16 r) (BitVec.ofNat 16 (p + 4)) (BitVec.ofNat 16 a) = (view m).ram (BitVec.ofNat 16 a) := by
    intro a ha ha'
    simp only [upd]; rw [if_neg (of_ne ha' (by omega) ha)]
  have e2 := sstep_eq (s := ⟨(view m).A, (view m).C, BitVec.ofNat 16 (p + 2), upd (view m).ram (BitVec.ofNat 16 r) (BitVec.ofNat 16 (p + 4))⟩)
    (a := BitVec.ofNat 16 l) (d := 0)
    (x := .mem (BitVec.ofNat 16 l)) (y := .pc) (v := (view m).ram (BitVec.ofNat 16 l)) (by show 16 ≤ (BitVec.ofNat 16 (p + 2)).toNat; omega)
    (by show (BitVec.ofNat 16 (p + 2)).toNat + 1 < _; omega) ((k (p + 2) (by omega) (by omega)).trans h2)
    ((congrArg _ (of_add (p + 2) 1)).trans ((k (p + 3) (by omega) (by omega)).trans h3)) (srcOf_mem (by omega)) (by decide)
    (congrArg some (k l (by omega) hle)) rfl
  have e := fun s' (h : srun 2 (view m) = some s') => (c151_programs 2 h).1
  have hs : srun 2 (view m) = (sstep (view m)).bind (fun u => (sstep u).bind some) := rfl
  rw [e1, Option.bind_some, e2, Option.bind_some] at hs
  rw [e _ hs]
  refine ⟨rfl, by simp [upd], ?_, rfl, rfl⟩
  intro a ha
  simp only [upd]; rw [if_neg ha]

/-- C154: the return -/
theorem c154_return {m : M} {q r : Nat} (hq : 16 ≤ q) (hqe : q + 2 ≤ 65536) (hr : 16 ≤ r) (hre : r < 65536)
    (hpc : (view m).PC = BitVec.ofNat 16 q) (h0 : (view m).ram (BitVec.ofNat 16 q) = BitVec.ofNat 16 r)
    (h1 : (view m).ram (BitVec.ofNat 16 (q + 1)) = 0) :
    view (run 1 m) = { view m with PC := (view m).ram (BitVec.ofNat 16 r) } := by
  have hpn := toNat_of (p := q) (by omega)
  have hrn := toNat_of (p := r) (by omega)
  have e1 := sstep_eq (s := view m) (a := BitVec.ofNat 16 r) (d := 0) (x := .mem (BitVec.ofNat 16 r)) (y := .pc)
    (v := (view m).ram (BitVec.ofNat 16 r)) (by rw [hpc, hpn]; exact hq) (by rw [hpc, hpn]; omega) (by rw [hpc]; exact h0)
    (by rw [hpc]; exact (congrArg (view m).ram (of_add q 1)).trans h1) (srcOf_mem (by omega)) (by decide) rfl rfl
  have hs : srun 1 (view m) = (sstep (view m)).bind some := rfl
  rw [e1, Option.bind_some] at hs
  rw [(c151_programs 1 hs).1]

theorem run_add (a b : Nat) (m : M) : run (a + b) m = run b (run a m) := by
  induction a generalizing m with
  | zero => rw [Nat.zero_add]; rfl
  | succ a ih => rw [Nat.add_right_comm]; exact ih (step m)

/-- C154: call, a subroutine of any k instructions that keeps r, return -/
theorem c154_call_return {m : M} {p r l q k : Nat} (hp : 16 ≤ p) (hpe : p + 4 ≤ 65536) (hr : 16 ≤ r) (hre : r < 65536) (hl : 16 ≤ l) (hle : l < 65536)
    (hrp : r < p ∨ p + 4 ≤ r) (hrl : r ≠ l) (hpc : (view m).PC = BitVec.ofNat 16 p)
    (h0 : (view m).ram (BitVec.ofNat 16 p) = 2) (h1 : (view m).ram (BitVec.ofNat 16 (p + 1)) = BitVec.ofNat 16 r)
    (h2 : (view m).ram (BitVec.ofNat 16 (p + 2)) = BitVec.ofNat 16 l) (h3 : (view m).ram (BitVec.ofNat 16 (p + 3)) = 0)
    (hq : 16 ≤ q) (hqe : q + 2 ≤ 65536) (hk : (view (run (2 + k) m)).PC = BitVec.ofNat 16 q)
    (hret : (view (run (2 + k) m)).ram (BitVec.ofNat 16 q) = BitVec.ofNat 16 r) (hret1 : (view (run (2 + k) m)).ram (BitVec.ofNat 16 (q + 1)) = 0)
    (hkeep : (view (run (2 + k) m)).ram (BitVec.ofNat 16 r) = (view (run 2 m)).ram (BitVec.ofNat 16 r)) :
    view (run (2 + k + 1) m) = { view (run (2 + k) m) with PC := BitVec.ofNat 16 (p + 4) } := by
  rw [run_add (2 + k) 1, c154_return hq hqe hr hre hk hret hret1, hkeep,
    (c154_call hp hpe hr hre hl hle hrp hrl hpc h0 h1 h2 h3).2.1]

/-! ### C155: the text of an instruction -/

/-- four hex digits, `%04x` -/
def hex4 (a : Word) : String := String.ofList ((List.range 4).map fun i => ((Nat.toDigits 16 (a.toNat / 16 ^ (3 - i) % 16)).getD 0 '0'))

/-- cl_oisc::disassc, oisc.cc 125-201: the mnemonic in six columns and a space, the destination, a comma, the source -/
def disassc (m : M) (a : Word) : String :=
  let src := rd m a
  let dst := rd m (a + 1)
  "mov    " ++ ((disDst dst).getD ("0x" ++ hex4 dst)) ++ "," ++ ((disSrc src).getD ("0x" ++ hex4 src))

theorem disDst_ok {a : Word} {y : Dst} (h : dstOf a = some y) : disDst a = dstName y := by
  rcases dstOf_cases h with ⟨rfl, rfl⟩ | ⟨rfl, rfl⟩ | ⟨rfl, rfl⟩ | ⟨rfl, rfl⟩ | ⟨rfl, rfl⟩ | ⟨rfl, rfl⟩ | ⟨rfl, rfl⟩ | ⟨rfl, rfl⟩ | ⟨rfl, rfl⟩ | ⟨rfl, rfl⟩ | ⟨rfl, rfl⟩ | ⟨rfl, rfl⟩ | ⟨ha, rfl⟩
  all_goals first | rfl | skip
  obtain ⟨h0, h1, h2, h3, h4, h7, h8, h9, h11, h12, h13, h14, h15⟩ := low_ne ha
  unfold disDst
  rw [if_neg h0, if_neg h1, if_neg h2, if_neg h4, if_neg h7, if_neg h8, if_neg h9, if_neg h11, if_neg h12, if_neg h13, if_neg h14, if_neg h15]
  rfl

theorem disSrc_ok {a : Word} {x : Src} (h : srcOf a = some x) (hx : x ≠ .pc6) : disSrc a = srcName x := by
  rcases srcOf_cases h with ⟨rfl, rfl⟩ | ⟨rfl, rfl⟩ | ⟨rfl, rfl⟩ | ⟨rfl, rfl⟩ | ⟨rfl, rfl⟩ | ⟨rfl, rfl⟩ | ⟨ha, rfl⟩
  · rfl
  · rfl
  · rfl
  · exact (hx rfl).elim
  · rfl
  · rfl
  · obtain ⟨h0, h1, h2, h3, h4, h7, h8, h9, h11, h12, h13, h14, h15⟩ := low_ne ha
    unfold disSrc
    rw [if_neg h0, if_neg h1, if_neg h2, if_neg h3, if_neg h7, if_neg h8]
    rfl

/-- C155: the text of an instruction of the table names its destination and its source, a memory operand
by its address (partial: the source PC+6) -/
theorem c155_text_partial {m : M} {a s d : Word} {x : Src} {y : Dst} (h1 : 16 ≤ a.toNat) (h2 : a.toNat + 1 < 65536)
    (hs : (view m).ram a = s) (hd : (view m).ram (a + 1) = d) (hx : srcOf s = some x) (hy : dstOf d = some y) (hne : x ≠ .pc6) :
    disassc m a = "mov    " ++ ((dstName y).getD ("0x" ++ hex4 d)) ++ "," ++ ((srcName x).getD ("0x" ++ hex4 s)) := by
  have hq : 16 ≤ (a + 1).toNat := by
    rw [BitVec.toNat_add]; show 16 ≤ (a.toNat + 1) % 65536; omega
  rw [view_ram h1] at hs
  rw [view_ram hq] at hd
  unfold disassc
  rw [rd_mem h1, rd_mem hq, hs, hd]
  simp only []
  rw [disDst_ok hy, disSrc_ok hx hne]

/-- C155 is false for the source 3: it is PC+6, as it runs, but the text says PC+8 -/
theorem c155_false_pc6 : disSrc 3 = some "PC+8" ∧ srcOf 3 = some .pc6 ∧ srcName .pc6 = some "PC+6" ∧ ∀ m : M, rd m 3 = m.PC + 6 :=
  ⟨rfl, rfl, rfl, fun _ => rfl⟩

/-! ### Cases that meet the hypotheses -/

/-- a small machine: the words `l` from 16 on -/
def demo (l : List Word) : M := ⟨5, true, 16, fun a => l.getD (a.toNat - 16) 0, 0⟩

-- add the word at 20 to A
example : (sstep (view (demo [20, 11, 0, 0, 7]))).map (·.A) = some 12 := by decide +kernel
example : (view (step (demo [20, 11, 0, 0, 7]))).A = 12 := by decide +kernel
example : (srun 2 (view (demo [24, 9, 8, 24, 0, 0, 0, 0, 7]))).map (fun s => (s.A, s.C, s.ram 24)) = some (65534, true, 65534) := by decide +kernel
-- two words shifted
example : 2 * num (view (run 4 (demo [24, 15, 8, 24, 25, 15, 8, 25, 7, 1]))).ram 24 2 + (view (run 4 (demo [24, 15, 8, 24, 25, 15, 8, 25, 7, 1]))).C.toNat
    = 7 * 65536 + 1 + 65536 ^ 2 := by
  have h := (c152_shift 2 (m := demo [24, 15, 8, 24, 25, 15, 8, 25, 7, 1]) (p := 16) (x := 24) (by decide) (by decide) (by decide) (by decide) (by decide)
    (by decide) (by decide +kernel)).1
  exact h.trans (by decide +kernel)
-- compare 3 with 4
example : (view (run 3 (demo [22, 8, 23, 9, 24, 4, 3, 4, 100]))).PC = 100 :=
  ((c153_compare (m := demo [22, 8, 23, 9, 24, 4, 3, 4, 100]) (p := 16) (x := 22) (y := 23) (t := 24) (by decide) (by decide) (by decide) (by decide) (by decide) (by decide)
    (by decide) (by decide) (by decide) (by decide +kernel) (by decide +kernel) (by decide +kernel) (by decide +kernel) (by decide +kernel) 3 4
    (by decide +kernel) (by decide +kernel)).1 (by decide +kernel)).trans (by decide +kernel)
-- call a subroutine of one instruction, at 20, and return
example : view (run (2 + 1 + 1) (demo [2, 30, 26, 0, 24, 8, 30, 0, 9, 0, 20])) = { view (run (2 + 1) (demo [2, 30, 26, 0, 24, 8, 30, 0, 9, 0, 20])) with PC := 20 } :=
  c154_call_return (m := demo [2, 30, 26, 0, 24, 8, 30, 0, 9, 0, 20]) (p := 16) (r := 30) (l := 26) (q := 22) (k := 1) (by decide) (by decide) (by decide) (by decide)
    (by decide) (by decide) (by decide) (by decide) (by decide) (by decide +kernel) (by decide +kernel) (by decide +kernel) (by decide +kernel)
    (by decide) (by decide) (by decide +kernel) (by decide +kernel) (by decide +kernel) (by decide +kernel)
example : disassc (demo [20, 11]) 16 = "mov    A+,0x0014" := by decide +kernel

end Ucsim.Misc
