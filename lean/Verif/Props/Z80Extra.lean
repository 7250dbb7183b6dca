import Verif.Z80.Reset
import Verif.Proof.Z80R
import Verif.Props.Z80

/-
C91: reset and the refresh register of the Z80.
-/
namespace Ucsim.Z80
open Isa (Mach)

/-- First bytes that only select another page of instructions. -/
def isPrefix (c : Byte) : Bool := c == 0xcb#8 || c == 0xed#8 || c == 0xdd#8 || c == 0xfd#8

/-- Opcode fetches (M1 cycles) of an instruction: one per opcode byte, two with prefixes. -/
def m1 (c : Byte) : Nat := if isPrefix c then 2 else 1

/-- R after `n` opcode fetches: seven bits are counted, the eighth one stays. -/
def refreshed (r : Byte) (n : Nat) : Byte := BitVec.ofNat 8 (r.toNat / 128 * 128 + (r.toNat + n) % 128)

theorem incR_ok : ∀ r : Byte, incR r = refreshed r 1 := by decide +kernel

theorem refreshed_add (r : Byte) (n k : Nat) : refreshed (refreshed r n) k = refreshed r (n + k) := by
  have e : ∀ (q : Byte) (j : Nat), (refreshed q j).toNat = q.toNat / 128 * 128 + (q.toNat + j) % 128 := by
    intro q j
    unfold refreshed
    rw [BitVec.toNat_ofNat]
    have := q.isLt
    omega
  apply BitVec.eq_of_toNat_eq
  rw [e, e, e]
  have := r.isLt
  omega

theorem tab00_noR : ∀ c : Byte, at_ tab00 c ≠ .ldRA := by decide +kernel

theorem step_refresh (s : St) (hp : s.pc < 0x10000) (h : isPrefix (s.mem (abs s).pc) = false) : (step s).2.r = refreshed s.r 1 := by
  rw [← incR_ok]
  apply step_r
  have c : (fetch s).1 = s.mem (abs s).pc := by
    show rd s s.pc = _
    unfold rd; rw [if_pos hp]; rfl
  rw [c]
  clear c
  generalize s.mem (abs s).pc = c at h ⊢
  unfold isPrefix at h
  simp only [Bool.or_eq_false_iff, beq_eq_false_iff_ne] at h
  obtain ⟨⟨⟨h1, h2⟩, h3⟩, h4⟩ := h
  unfold find
  rw [if_neg h1, if_neg h2, if_neg (fun k => k.elim h3 h4)]
  have k := tab00_noR c
  generalize at_ tab00 c = i at k ⊢
  exact k

/-- **C91**, R: instructions without prefix count one each in the low seven bits. -/
theorem c91_refresh_partial (n : Nat) (s : St) (h : ∀ k, k < n → (steps k s).pc < 0x10000 ∧ isPrefix ((steps k s).mem (abs (steps k s)).pc) = false) :
    (steps n s).r = refreshed s.r n := by
  induction n generalizing s with
  | zero =>
    show s.r = refreshed s.r 0
    unfold refreshed
    have := s.r.isLt
    apply BitVec.eq_of_toNat_eq
    rw [BitVec.toNat_ofNat]; omega
  | succ n ih =>
    have k := h 0 (by omega)
    rw [show steps (n + 1) s = steps n (step s).2 from rfl, ih (step s).2 (fun j hj => h (j + 1) (by omega)), step_refresh s k.1 k.2, refreshed_add]
    congr 1; omega

/-- **C91**, reset: execution starts at 0 with interrupts disabled in mode 0, SP and AF are FFFF; memory, ports and the other
registers are as they were. -/
theorem c91_reset_partial (s : St) :
    abs (reset s) = { abs s with pc := 0, iff1 := false, iff2 := false, im := 0, sp := 0xffff, a := 0xff, f := ⟨true, true, true, true, true, true⟩ } ∧
      (reset s).ticks = 0 ∧ (reset s).mem = s.mem := by
  refine ⟨?_, rfl, rfl⟩
  unfold reset abs
  congr 1
  exact (by decide : Isa.Flags.ofByte 0xff#8 = ⟨true, true, true, true, true, true⟩)

/-- 200 NOPs from R = 0xff. -/
example : refreshed 0xff 200 = 0xc7 ∧ isPrefix 0x00 = false ∧ (steps 3 { demo (prog []) with r := 0xff }).r = 0x82 := by decide +kernel

/-! #### Where it is false -/

/-- RLC B has two opcode fetches, one is counted. -/
theorem c91_false_prefix : let s := { demo (prog [0xcb, 0x00]) with r := 0 }
    (step s).2.r = 1 ∧ refreshed s.r (m1 (s.mem (abs s).pc)) = 2 := by decide +kernel
/-- Reset clears neither I nor R (the manual: both are 0). -/
theorem c91_false_reset : (reset (demo (prog []))).iv = 0x3f ∧ (reset (demo (prog []))).r = 0x7f := by decide +kernel

end Ucsim.Z80
