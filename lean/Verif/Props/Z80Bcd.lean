import Verif.Props.Z80

/-
C89: decimal arithmetic of the Z80: ADD, ADC, SUB, SBC followed by DAA.
-/
namespace Ucsim.Z80
open Isa (Mach)

/-- Two decimal digits in a byte. -/
def bcd (n : Nat) : Byte := BitVec.ofNat 8 (n / 10 % 10 * 16 + n % 10)

/-- The value of the operand of ADD A.., ADC A.., SUB.., SBC A..: a register, a byte of memory at
HL, IX+d or IY+d, or a number in the instruction; `o` 0 to 3 is the operation. -/
def operand (m : Mach) : Option (BitVec 3 × Byte) :=
  match m.ins.1 with
  | .alu o k => some (o, m.get k)
  | .alun o => some (o, m.imm8 m.ins.2)
  | _ => none

/-- Table of DAA after an addition, after a subtraction. -/
theorem daa_add (c : Bool) : ∀ x, x < 100 → ∀ y, y < 100 →
    (let n := (bcd x).toNat + (bcd y).toNat + c.toNat
     let r : Byte := BitVec.ofNat 8 n
     ((Isa.daaTable false (decide (256 ≤ n)) (decide (16 ≤ (bcd x).toNat % 16 + (bcd y).toNat % 16 + c.toNat)) (r.toNat / 16) (r.toNat % 16)).map
        (fun p => (r + p.1, p.2))) = some (bcd ((x + y + c.toNat) % 100), decide (100 ≤ x + y + c.toNat))) := by
  cases c <;> decide +kernel

theorem daa_sub (c : Bool) : ∀ x, x < 100 → ∀ y, y < 100 →
    (let n : Int := ((bcd x).toNat : Int) - (bcd y).toNat - c.toNat
     let r : Byte := BitVec.ofInt 8 n
     ((Isa.daaTable true (decide ((bcd x).toNat < (bcd y).toNat + c.toNat)) (decide ((bcd x).toNat % 16 < (bcd y).toNat % 16 + c.toNat)) (r.toNat / 16) (r.toNat % 16)).map
        (fun p => (r + p.1, p.2))) = some (bcd ((x + 100 - y - c.toNat) % 100), decide (x < y + c.toNat))) := by
  cases c <;> decide +kernel

theorem daa_of (m : Mach) (u : Isa.Und) (v : Byte) (c : Bool)
    (h : (Isa.daaTable m.f.n m.f.cy m.f.h (m.a.toNat / 16) (m.a.toNat % 16)).map (fun p => (m.a + p.1, p.2)) = some (v, c)) :
    (m.daa u).a = v ∧ (m.daa u).f.cy = c ∧ Isa.daaTable m.f.n m.f.cy m.f.h (m.a.toNat / 16) (m.a.toNat % 16) ≠ none := by
  unfold Mach.daa
  generalize Isa.daaTable m.f.n m.f.cy m.f.h (m.a.toNat / 16) (m.a.toNat % 16) = t at h ⊢
  cases t with
  | none => cases h
  | some p =>
    obtain ⟨p1, p2⟩ := p
    simp only [Option.map_some, Option.some.injEq, Prod.mk.injEq] at h
    exact ⟨h.1, h.2, by simp⟩

theorem low_bcd : ∀ y, y < 100 → (bcd y).toNat % 16 ≠ 15 := by decide

/-- The first of the two instructions. -/
theorem alu_step (s : St) (hp : s.pc < 0x10000) (o : BitVec 3) (y : Nat) (hy : y < 100) (hi : operand (abs s) = some (o, bcd y)) :
    abs (step s).2 = ((abs s).alu o (bcd y)).next (abs s).ins.2 ∧ (step s).2.pc < 0x10000 := by
  have nd : ∀ (o : BitVec 3), ¬ Isa.aluDiffers (abs s) o (bcd y) := fun o h => low_bcd y hy h.2.2
  have key : ¬ Isa.Differs (abs s) (abs s).ins.2 (abs s).ins.1 ∧ Isa.step (seen s) (abs s) = ((abs s).alu o (bcd y)).next (abs s).ins.2 := by
    unfold operand at hi
    unfold Isa.step
    generalize (abs s).ins = i at hi ⊢
    obtain ⟨i, len⟩ := i
    dsimp only at hi ⊢
    split at hi
    · simp only [Option.some.injEq, Prod.mk.injEq] at hi
      obtain ⟨rfl, h⟩ := hi
      simp only [Isa.Differs, Isa.exec, h]
      exact ⟨nd _, trivial⟩
    · simp only [Option.some.injEq, Prod.mk.injEq] at hi
      obtain ⟨rfl, h⟩ := hi
      simp only [Isa.Differs, Isa.exec, h]
      exact ⟨nd _, trivial⟩
    · cases hi
  have r := step_ok s hp key.1
  rw [← key.2]
  exact ⟨r.1, r.2.1⟩

theorem alu_keeps (m : Mach) (o : BitVec 3) (v : Byte) (len : Nat) :
    ((m.alu o v).next len).mem = m.mem ∧ ((m.alu o v).next len).pc = m.pc + BitVec.ofNat 16 len := by
  constructor <;> · unfold Mach.alu Mach.next; split <;> rfl

/-- DAA. -/
theorem daa_step (s : St) (hp : s.pc < 0x10000) (h : (abs s).mem (abs s).pc = 0x27#8)
    (hn : Isa.daaTable (abs s).f.n (abs s).f.cy (abs s).f.h ((abs s).a.toNat / 16) ((abs s).a.toNat % 16) ≠ none) :
    abs (step s).2 = ((abs s).daa (seen s)).next 1 := by
  have hi : (abs s).ins = (.daa, 1) := by
    unfold Mach.ins; rw [h]; rfl
  have hd : ¬ Isa.Differs (abs s) (abs s).ins.2 (abs s).ins.1 := by rw [hi]; exact hn
  rw [(step_ok s hp hd).1]
  unfold Isa.step
  rw [hi]; rfl

/-- **C89**, addition: ADD A,.. or ADC A,.. on two numbers of two decimal digits, then DAA, leaves the
last two digits of the sum in A and the decimal carry in C. -/
theorem c89_add (s : St) (hp : s.pc < 0x10000) (o : BitVec 3) (c : Bool) (x y : Nat) (hx : x < 100) (hy : y < 100)
    (hi : operand (abs s) = some (o, bcd y)) (ho : (o = 0 ∧ c = false) ∨ (o = 1 ∧ c = (abs s).f.cy))
    (ha : s.a = bcd x) (hd : s.mem ((abs s).pc + BitVec.ofNat 16 (abs s).ins.2) = 0x27#8) :
    (steps 2 s).a = bcd ((x + y + c.toNat) % 100) ∧ (abs (steps 2 s)).f.cy = decide (100 ≤ x + y + c.toNat) ∧
      (abs (steps 2 s)).pc = (abs s).pc + BitVec.ofNat 16 (abs s).ins.2 + 1 ∧ (steps 2 s).mem = s.mem := by
  obtain ⟨k, kp⟩ := alu_step s hp o y hy hi
  obtain ⟨km, kc⟩ := alu_keeps (abs s) o (bcd y) (abs s).ins.2
  have e : (abs s).alu o (bcd y) = (abs s).addA (bcd y) c := by
    rcases ho with ⟨rfl, rfl⟩ | ⟨rfl, rfl⟩ <;> rfl
  have hm : (abs (step s).2).mem (abs (step s).2).pc = 0x27#8 := by
    rw [k, km, kc]; exact hd
  have t := daa_add c x hx y hy
  have ha' : (abs s).a = bcd x := ha
  obtain ⟨d1, d2, d3⟩ := daa_of (abs (step s).2) (seen (step s).2) (bcd ((x + y + c.toNat) % 100)) (decide (100 ≤ x + y + c.toNat)) (by
    rw [k, e, ← t, ← ha']; rfl)
  have r := daa_step (step s).2 kp hm d3
  refine ⟨?_, ?_, ?_, ?_⟩
  · exact (congrArg Mach.a r).trans d1
  · exact (congrArg (fun m => m.f.cy) r).trans d2
  · refine (congrArg Mach.pc r).trans ?_
    have : (((abs (step s).2).daa (seen (step s).2)).next 1).pc = (abs (step s).2).pc + 1 := by
      unfold Mach.daa Mach.next; split <;> rfl
    rw [this, k, kc]
  · refine (congrArg Mach.mem r).trans ?_
    have : (((abs (step s).2).daa (seen (step s).2)).next 1).mem = (abs (step s).2).mem := by
      unfold Mach.daa Mach.next; split <;> rfl
    rw [this, k, km]; rfl

/-- **C89**, subtraction: SUB.. or SBC A,.., then DAA: the difference (100 more when it is negative) and
the decimal borrow. -/
theorem c89_sub (s : St) (hp : s.pc < 0x10000) (o : BitVec 3) (c : Bool) (x y : Nat) (hx : x < 100) (hy : y < 100)
    (hi : operand (abs s) = some (o, bcd y)) (ho : (o = 2 ∧ c = false) ∨ (o = 3 ∧ c = (abs s).f.cy))
    (ha : s.a = bcd x) (hd : s.mem ((abs s).pc + BitVec.ofNat 16 (abs s).ins.2) = 0x27#8) :
    (steps 2 s).a = bcd ((x + 100 - y - c.toNat) % 100) ∧ (abs (steps 2 s)).f.cy = decide (x < y + c.toNat) ∧
      (abs (steps 2 s)).pc = (abs s).pc + BitVec.ofNat 16 (abs s).ins.2 + 1 ∧ (steps 2 s).mem = s.mem := by
  obtain ⟨k, kp⟩ := alu_step s hp o y hy hi
  obtain ⟨km, kc⟩ := alu_keeps (abs s) o (bcd y) (abs s).ins.2
  have e : (abs s).alu o (bcd y) = (abs s).subA (bcd y) c := by
    rcases ho with ⟨rfl, rfl⟩ | ⟨rfl, rfl⟩ <;> rfl
  have hm : (abs (step s).2).mem (abs (step s).2).pc = 0x27#8 := by
    rw [k, km, kc]; exact hd
  have t := daa_sub c x hx y hy
  have ha' : (abs s).a = bcd x := ha
  obtain ⟨d1, d2, d3⟩ := daa_of (abs (step s).2) (seen (step s).2) (bcd ((x + 100 - y - c.toNat) % 100)) (decide (x < y + c.toNat)) (by
    rw [k, e, ← t, ← ha']; rfl)
  have r := daa_step (step s).2 kp hm d3
  refine ⟨?_, ?_, ?_, ?_⟩
  · exact (congrArg Mach.a r).trans d1
  · exact (congrArg (fun m => m.f.cy) r).trans d2
  · refine (congrArg Mach.pc r).trans ?_
    have : (((abs (step s).2).daa (seen (step s).2)).next 1).pc = (abs (step s).2).pc + 1 := by
      unfold Mach.daa Mach.next; split <;> rfl
    rw [this, k, kc]
  · refine (congrArg Mach.mem r).trans ?_
    have : (((abs (step s).2).daa (seen (step s).2)).next 1).mem = (abs (step s).2).mem := by
      unfold Mach.daa Mach.next; split <;> rfl
    rw [this, k, km]; rfl

/-- 49 + 49 + 1 = 99 with ADC A,B; 13 - 27 with SUB n: 86 and a borrow. -/
example : let s := { demo (prog [0x88, 0x27]) with a := 0x49, b := 0x49, f := 1 }
    operand (abs s) = some (1, bcd 49) ∧ (abs s).f.cy = true ∧ s.a = bcd 49 ∧ s.mem ((abs s).pc + BitVec.ofNat 16 (abs s).ins.2) = 0x27#8 ∧
      (steps 2 s).a = 0x99 := by decide +kernel
example : let s := { demo (prog [0xd6, 0x27, 0x27]) with a := 0x13 }
    operand (abs s) = some (2, bcd 27) ∧ s.a = bcd 13 ∧ s.mem ((abs s).pc + BitVec.ofNat 16 (abs s).ins.2) = 0x27#8 ∧
      (steps 2 s).a = 0x86 ∧ (abs (steps 2 s)).f.cy = true := by decide +kernel

end Ucsim.Z80
