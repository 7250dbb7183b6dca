import Verif.Pdk.Insn
/-
Numbers of any length: sums and differences with addc and subc, byte by byte.
-/
namespace Ucsim.Pdk

/-- the state after some instructions -/
def stepN (v : Var) (id : Nat) : Nat → Cpu × Sh → Cpu × Sh
  | 0, p => p
  | n + 1, p => stepN v id n ((step v id p.1 p.2).cpu, (step v id p.1 p.2).sh)

/-- `n` bytes of the memory from address `a` -/
def bytesAt (ram : Nat → Byte) (a : Nat) : Nat → List Byte
  | 0 => []
  | n + 1 => ram a :: bytesAt ram (a + 1) n

theorem bytesAt_congr {f g : Nat → Byte} {n a : Nat} (h : ∀ i, i < n → f (a + i) = g (a + i)) :
    bytesAt f a n = bytesAt g a n := by
  induction n generalizing a with
  | zero => rfl
  | succ n ih =>
    simp only [bytesAt]
    rw [ih (a := a + 1) (fun i hi => by have := h (i + 1) (by omega); rwa [show a + 1 + i = a + (i + 1) by omega])]
    have := h 0 (by omega)
    simp at this; rw [this]

/-- The program at `p`: for each byte, mov a,[x+i] and addc [y+i],a (or subc). -/
def ChainAt (v : Var) (sub : Bool) (rom : Nat → Word) (p x y n : Nat) : Prop :=
  ∀ i, i < n → Enc v (rom (p + 2 * i)) .movAM [x + i] ∧ Enc v (rom (p + 2 * i + 1)) (.alc sub .ma) [y + i]

theorem digit (sub : Bool) (x y : Byte) (c : Nat) (hc : c ≤ 1) :
    if sub then (arith sub x y c).1.toNat + y.toNat + c = x.toNat + 256 * cy (arith sub x y c).2
    else (arith sub x y c).1.toNat + 256 * cy (arith sub x y c).2 = x.toNat + y.toNat + c := by
  have hx := x.isLt; have hy := y.isLt
  cases sub
  · have h1 : (addVal x y c).toNat = (x.toNat + y.toNat + c) % 256 := by
      simp [addVal, BitVec.toNat_add]
    have h2 : cy (addFlags x y c) = if 255 < x.toNat + y.toNat + c then 1 else 0 := by
      rw [addFlags, cy_flags]; simp
    simp only [arith, h1, h2, Bool.false_eq_true, if_false]
    split <;> omega
  · have h1 : (subVal x y c).toNat = (x.toNat + 512 - y.toNat - c) % 256 := by
      simp [subVal, BitVec.toNat_sub]; omega
    have h2 : cy (subFlags x y c) = if x.toNat < y.toNat + c then 1 else 0 := by
      rw [subFlags, cy_flags]; simp
    simp only [arith, h1, h2, if_true]
    split <;> omega

theorem movAM_step {v : Var} {id : Nat} {c : Cpu} {s : Sh} {m : Nat} (h : Enc v (s.rom c.PC) .movAM [m]) :
    step v id c s = ⟨{ c with A := s.ram m, PC := nextPC c.PC }, s, 1, true⟩ := by
  have hk := arg1 (w := mMask v) h rfl
  rw [step_enc h]
  simp only [run, hk]

/-- C139: a number of any length in memory at `x` is added to (subtracted from) the one at `y`, with the
carry that was there before, and C tells the carry (borrow) of the whole. Nothing else changes but A and
the flags. -/
theorem c139_long_add (v : Var) (id : Nat) (sub : Bool) (n : Nat) (c : Cpu) (s : Sh) (p x y : Nat)
    (hp : c.PC = p) (hfit : p + 2 * n < 4096) (hprog : ChainAt v sub s.rom p x y n)
    (hdis : x + n ≤ y ∨ y + n ≤ x) :
    (let r := stepN v id (2 * n) (c, s)
     (if sub then bytesVal (bytesAt r.2.ram y n) + bytesVal (bytesAt s.ram x n) + cy c.F =
          bytesVal (bytesAt s.ram y n) + 256 ^ n * cy r.1.F
      else bytesVal (bytesAt r.2.ram y n) + 256 ^ n * cy r.1.F =
          bytesVal (bytesAt s.ram y n) + bytesVal (bytesAt s.ram x n) + cy c.F) ∧
     r.1.PC = p + 2 * n ∧ r.1.SP = c.SP ∧
     (∀ a, a < y ∨ y + n ≤ a → r.2.ram a = s.ram a) ∧ r.2 = { s with ram := r.2.ram }) := by
  induction n generalizing c s p x y with
  | zero => cases sub <;> simp [stepN, bytesAt, bytesVal, hp]
  | succ n ih =>
    have h0 := hprog 0 (by omega)
    simp only [Nat.mul_zero, Nat.add_zero] at h0
    have e1 : step v id c s = ⟨{ c with A := s.ram x, PC := p + 1 }, s, 1, true⟩ := by
      rw [movAM_step (by rw [hp]; exact h0.1)]
      simp only [hp, nextPC]
      rw [Nat.mod_eq_of_lt (by omega)]
    have e2 := c138_c_ma_partial (v := v) (id := id) (c := { c with A := s.ram x, PC := p + 1 }) (s := s) sub h0.2
    have hn2 : nextPC (p + 1) = p + 2 := by unfold nextPC; omega
    simp only [hn2] at e2
    have hr : stepN v id (2 * (n + 1)) (c, s) =
        stepN v id (2 * n) ({ A := s.ram x, F := (arith sub (s.ram y) (s.ram x) (cy c.F)).2, SP := c.SP, PC := p + 2 },
          { s with ram := upd s.ram y (arith sub (s.ram y) (s.ram x) (cy c.F)).1 }) := by
      rw [show 2 * (n + 1) = (2 * n + 1) + 1 by omega]
      simp only [stepN, e1, e2]
    rw [hr]
    have hd := digit sub (s.ram y) (s.ram x) (cy c.F) (cy_le _)
    generalize hg : arith sub (s.ram y) (s.ram x) (cy c.F) = g at *
    have key := ih { A := s.ram x, F := g.2, SP := c.SP, PC := p + 2 } { s with ram := upd s.ram y g.1 } (p + 2) (x + 1) (y + 1) rfl
      (by omega) (by
        intro i hi
        have := hprog (i + 1) (by omega)
        simp only at this ⊢
        rw [show p + 2 + 2 * i = p + 2 * (i + 1) by omega, show x + 1 + i = x + (i + 1) by omega, show y + 1 + i = y + (i + 1) by omega]
        exact this) (by omega)
    simp only at key ⊢
    obtain ⟨k1, k2, k3, k4, k5⟩ := key
    have hy : bytesAt (upd s.ram y g.1) (y + 1) n = bytesAt s.ram (y + 1) n :=
      bytesAt_congr (fun i hi => by simp only [upd]; rw [if_neg (by omega)])
    have hx : bytesAt (upd s.ram y g.1) (x + 1) n = bytesAt s.ram (x + 1) n :=
      bytesAt_congr (fun i hi => by simp only [upd]; rw [if_neg (by omega)])
    have hr0 := k4 y (by omega)
    simp only [upd, if_true] at hr0
    rw [hy, hx] at k1
    refine ⟨?_, by omega, k3, ?_, ?_⟩
    · simp only [bytesAt, bytesVal, hr0]
      cases sub
      · simp only [Bool.false_eq_true, if_false] at hd k1 ⊢
        rw [Nat.pow_succ, Nat.mul_comm (256 ^ n) 256, Nat.mul_assoc]
        omega
      · simp only [if_true] at hd k1 ⊢
        rw [Nat.pow_succ, Nat.mul_comm (256 ^ n) 256, Nat.mul_assoc]
        omega
    · intro a ha
      rw [k4 a (by omega)]
      simp only [upd]; rw [if_neg (by omega)]
    · exact k5

/-- a program that adds two bytes at 0x10 to those at 0x20 of the PDK14 -/
def exAdd : Sh :=
  { exSh 0 0 with
    ram := fun a => if a = 0x10 then 0xff else if a = 0x11 then 0x12 else if a = 0x20 then 2 else if a = 0x21 then 0xf0 else 0
    rom := fun a => if a = 7 then 0x0f90 else if a = 8 then 0x0920 else if a = 9 then 0x0f91 else if a = 10 then 0x0921 else 0 }

-- 0x12ff + 0xf002 = 0x10301
example : ChainAt .p14 false exAdd.rom 7 0x10 0x20 2 ∧
    bytesVal (bytesAt (stepN .p14 0 4 (exCpu 0 0 0, exAdd)).2.ram 0x20 2) = 0x0301 ∧
    cy (stepN .p14 0 4 (exCpu 0 0 0, exAdd)).1.F = 1 := by
  refine ⟨?_, by decide +kernel, by decide +kernel⟩
  intro i hi
  rcases (by omega : i = 0 ∨ i = 1) with h | h <;> subst h <;> decide +kernel

end Ucsim.Pdk
