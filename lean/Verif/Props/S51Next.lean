import Verif.S51.Next
import Verif.Props.S51Flow
import Verif.Props.I80Dis

/-
C64: the `next` command steps over subroutine calls.
-/
namespace Ucsim.S51
open Spec

variable {H : Type} (P : Hw H)

theorem after'_add (m n : Nat) (s : St H) : after' P (m + n) s = after' P n (after' P m s) := by
  induction m generalizing s with
  | zero => rw [Nat.zero_add]; rfl
  | succ m ih => rw [Nat.add_right_comm]; exact ih _

/-- LCALL or ACALL. -/
def IsCallOp (c : Byte) : Prop := c = 0x12#8 ∨ c.toNat % 32 = 0x11
instance (c : Byte) : Decidable (IsCallOp c) := by unfold IsCallOp; infer_instance

/-- The table knows every call but ACALL to page 0 (0x11), and nothing else. -/
theorem isCall_ok : ∀ c : Byte, c ≠ 0x11#8 → (isCall c = true ↔ IsCallOp c) := by decide +kernel

theorem call_len : ∀ c : Byte, IsCallOp c → disLen c = if c = 0x12#8 then 3 else 2 := by decide +kernel

/-- **C64**: `next` on an instruction that is no call executes just that. -/
theorem c64_step (s t : St H) (h : ¬ IsCallOp (s.rom s.pc)) : NextStop P s t ↔ t = (execInst P s).2 := by
  have hn : isCall (s.rom s.pc) = false := by
    have : ∀ c : Byte, ¬ IsCallOp c → isCall c = false := by decide +kernel
    exact this _ h
  unfold NextStop
  simp only [hn, Bool.false_eq_true, if_false]

/-- **C64**: `next` on a call (other than 0x11) stops when the subroutine has returned: if
the subroutine comes to its RET after `k` instructions with its return address in place,
and nothing before is executed at the return address, the command stops there, with SP as
before the call; and nowhere else. -/
theorem c64_call_partial (s : St H) (h : Ok P s) (hc : IsCallOp (s.rom s.pc)) (h11 : s.rom s.pc ≠ 0x11#8)
    (hend : s.pc + disLen (s.rom s.pc) < 0x10000) (hr : StackRoom P s 2) (k : Nat)
    (ht : Ok P (after' P (k + 1) s)) (hop : code (after' P (k + 1) s) 0 = 0x22#8)
    (hsp : sp (after' P (k + 1) s) = sp (execInst P s).2)
    (hm : ∀ i, 1 ≤ i → i ≤ 2 → (after' P (k + 1) s).iram ((sp s + i) % 256) = (execInst P s).2.iram ((sp s + i) % 256))
    (hno : ∀ j, 1 ≤ j → j ≤ k + 1 → (after' P j s).pc ≠ s.pc + disLen (s.rom s.pc)) :
    ∀ t, NextStop P s t ↔ t = after' P (k + 2) s ∧ t.pc = s.pc + disLen (s.rom s.pc) ∧ sp t = sp s := by
  have hcall : ∃ target, Called s (execInst P s).2 (s.pc + disLen (s.rom s.pc)) target := by
    have hp := h.pc
    have hcd : code s 0 = s.rom s.pc := by
      show s.rom ((s.pc + 0) % 0x10000) = _
      rw [Nat.add_zero, Nat.mod_eq_of_lt hp]
    rw [call_len _ hc] at *
    rcases hc with hc | hc
    · rw [if_pos hc] at *
      have := c36_lcall P s h (by rw [hcd, hc]) hr
      rw [Nat.mod_eq_of_lt hend] at this
      exact ⟨_, this⟩
    · have hne : ¬ s.rom s.pc = 0x12#8 := fun e => by rw [e] at hc; exact absurd hc (by decide)
      rw [if_neg hne] at *
      have := c36_acall P s h (by rw [hcd]; exact hc) hr
      rw [Nat.mod_eq_of_lt hend] at this
      exact ⟨_, this⟩
  obtain ⟨target, hcall⟩ := hcall
  obtain ⟨p1, p2⟩ := c36_call_ret P s _ (after' P (k + 1) s) _ target hend hcall hr ht hsp hm hop
  have e : after' P (k + 2) s = (execInst P (after' P (k + 1) s)).2 := by
    rw [show k + 2 = (k + 1) + 1 from rfl, after'_add]; rfl
  have hi : isCall (s.rom s.pc) = true := (isCall_ok _ h11).mpr hc
  intro t
  unfold NextStop
  simp only [hi, if_true]
  constructor
  · rintro ⟨n, h1, rfl, h2, h3⟩
    have hn : n = k + 2 := by
      rcases Nat.lt_trichotomy n (k + 2) with g | g | g
      · exact absurd h2 (hno n h1 (by omega))
      · exact g
      · exact absurd (by rw [e]; exact p1) (h3 (k + 2) (by omega) g)
    subst hn
    exact ⟨rfl, h2, by rw [e]; exact p2⟩
  · rintro ⟨rfl, h2, -⟩
    exact ⟨k + 2, by omega, rfl, h2, fun j h1 h3 => hno j h1 (by omega)⟩

/-- ACALL to page 0 (opcode 0x11) is not known as a call: `next` stops inside of the
subroutine. -/
theorem c64_false_acall (s t : St H) (hop : s.rom s.pc = 0x11#8) :
    NextStop P s t ↔ t = (execInst P s).2 := by
  have hn : isCall (s.rom s.pc) = false := by rw [hop]; decide
  unfold NextStop
  simp only [hn, Bool.false_eq_true, if_false]

/-- ... at its first instruction. -/
theorem c64_false_acall_pc (s t : St H) (h : Ok P s) (hr : StackRoom P s 2) (hop : s.rom s.pc = 0x11#8)
    (hn : NextStop P s t) : t.pc = page11 s ∧ sp t = (sp s + 2) % 256 := by
  rw [c64_false_acall P s t hop] at hn
  subst hn
  have hcd : code s 0 = s.rom s.pc := by
    show s.rom ((s.pc + 0) % 0x10000) = _
    rw [Nat.add_zero, Nat.mod_eq_of_lt h.pc]
  have := c36_acall P s h (by rw [hcd, hop]; decide) hr
  exact ⟨this.pc, this.sp⟩

/-- The hypotheses can be met: LCALL 0005; NOP; NOP; 0005: INC A; RET. -/
example : let s := Demo.st [0x12#8, 0#8, 5#8, 0#8, 0#8, 0x04#8, 0x22#8] 0#8 0#8 0#8 7#8
    Ok Demo.hw s ∧ IsCallOp (s.rom s.pc) ∧ s.rom s.pc ≠ 0x11#8 ∧ StackRoom Demo.hw s 2 ∧
    code (after' Demo.hw 2 s) 0 = 0x22#8 ∧ sp (after' Demo.hw 2 s) = sp (execInst Demo.hw s).2 ∧
    (∀ j, 1 ≤ j → j ≤ 2 → (after' Demo.hw j s).pc ≠ 3) ∧ (after' Demo.hw 3 s).pc = 3 := by
  refine ⟨Demo.ok _ _ _ _ _, by decide, by decide, room256 _ rfl _ _, by decide, by decide, ?_, by decide⟩
  intro j h1 h2
  have : j = 1 ∨ j = 2 := by omega
  rcases this with rfl | rfl <;> decide

end Ucsim.S51

namespace Ucsim.I80

/-- Where `next` leaves the 8080/8085: as `S51.NextStop`, with this simulator's tables. -/
def NextStop (cpu : Cpu) (s t : St) : Prop :=
  let c := s.mem s.pc
  if isCall c then
    ∃ k, 1 ≤ k ∧ t = steps cpu k s ∧ t.pc.toNat = s.pc.toNat + instLength c ∧
      ∀ j, 1 ≤ j → j < k → (steps cpu j s).pc.toNat ≠ s.pc.toNat + instLength c
  else t = (step cpu s).2

/-- `next` knows no calls of the 8080/8085: on CALL it stops at the first instruction of the
subroutine, just as `step` does. -/
theorem c64_false_i80 (cpu : Cpu) (s t : St) (h : s.mem s.pc = 0xcd#8) (hn : NextStop cpu s t) :
    t = (step cpu s).2 ∧ t.pc = (abs s).imm16 ∧ t.sp = s.sp - 2 := by
  have e : t = (step cpu s).2 := hn
  have k := step_ok cpu s (by rw [h]; exact fun h => h)
  have k2 : Isa.step (cpu == .i8085) 0x2a#8 s.f (abs s) = { (abs s).push (s.pc + 3) with pc := (abs s).imm16 } := by
    unfold Isa.step
    rw [show (abs s).mem (abs s).pc = 0xcd#8 from h]; rfl
  rw [k2, ← e] at k
  exact ⟨e, congrArg Isa.Mach.pc k, congrArg Isa.Mach.sp k⟩

end Ucsim.I80
