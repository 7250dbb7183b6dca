import Verif.Proof.S51TimerEq
import Verif.Spec.S51Cycles
import Verif.S51.Demo

/- C49: machine cycles. -/
namespace Ucsim.S51
open Spec

variable {H : Type} (P : Hw H)

theorem manual_extra : ∀ c : Byte, 1 + extra (decode c) = manualCycles c := by decide +kernel

/-- C49: an instruction takes the machine cycles the manual says, whatever its operands
and the outcome of its condition. -/
theorem c49_inst (s : St H) (hp : s.pc < 0x10000) : (execInst P s).2.total = s.total + manualCycles (code s 0) := by
  have e : (fetch P s).1 = code s 0 := by
    show (if s.pc < 0x10000 then s.rom s.pc else _) = s.rom ((s.pc + 0) % 0x10000)
    rw [if_pos hp, Nat.add_zero, Nat.mod_eq_of_lt hp]
  rw [(execInst_cyc P s).2, e, ← manual_extra]; omega

theorem clear_total (i : ItSrc) (s : St H) : (i.clear P s).2.total = s.total := by
  unfold ItSrc.clear
  split
  · have h : Cost (H := H) 0 (do let v ← sfrGet i.srcAddr; let _ ← sfrWrite P i.srcAddr (v &&& ~~~i.srcMask)) :=
      Cost.bind0 (sfrGet_co _) fun _ => Cost.bind0 (sfrWrite_co P _ _) fun _ => Cost.pure _
    exact (h s).2
  · rfl

theorem accept_total (l : ItLevel) (s : St H) : (acceptIt P l s).2.total = s.total + 1 := by
  have h := lcallTo_co P l.addr (tick 1 (pushLevel l (wake s).2).2).2
  exact h.2

theorem interrupt_total (s : St H) : (doInterrupt P s).2.total = s.total + (if (doInterrupt P s).1 = .interrupt then 1 else 0) := by
  unfold doInterrupt
  split
  · rfl
  · split
    · rfl
    · split
      · rfl
      · rename_i i _
        unfold takeIt
        split
        · rfl
        · show (acceptIt P _ (i.clear P s).2).2.total = _
          rw [accept_total, clear_total, if_pos rfl]

theorem doInterrupt_not_selfjump (s : St H) : (doInterrupt P s).1 ≠ .selfjump := by
  unfold doInterrupt
  split
  · exact fun h => by cases h
  · split
    · exact fun h => by cases h
    · split
      · exact fun h => by cases h
      · unfold takeIt; split <;> exact fun h => by cases h

/-- C49: a step takes the cycles of its instruction (one cycle while waiting in a power
saving mode) and one more when it ends with accepting an interrupt. -/
theorem c49_step (s : St H) (hp : s.pc < 0x10000) :
    (doInst P s).2.total = s.total + (if s.state = .go then manualCycles (code s 0) else 1) +
      (if (doInst P s).1 = .interrupt then 1 else 0) := by
  have hr : (runPart P s).2.total = s.total + (if s.state = .go then manualCycles (code s 0) else 1) := by
    unfold runPart
    split
    · show (tickHw P _ _).2.total = _
      rw [tickHw_total]
      exact c49_inst P ({ s with wasReti := false, cyc := 0 } : St H) hp
    · rfl
  simp only [doInst]
  split
  · rw [hr]; rfl
  · have hi := interrupt_total P (runPart P s).2
    rw [hr] at hi
    split
    · rename_i hgo
      rw [hgo] at hi
      show (idlePd P _).2.total = _ + (if (Res.go = Res.interrupt) then 1 else 0)
      rw [← hi]
      unfold idlePd; split <;> rfl
    · exact hi

/-- What a run takes: the sum over its steps. -/
def spent : Nat → St H → Nat
  | 0, _ => 0
  | n + 1, s => spent n s + (if (steps P n s).state = .go then manualCycles (code (steps P n s) 0) else 1) +
      (if (doInst P (steps P n s)).1 = .interrupt then 1 else 0)

/-- C49: the cycle counter after any number of steps. -/
theorem c49_run (s : St H) (n : Nat) (hp : ∀ k, k < n → (steps P k s).pc < 0x10000) : (steps P n s).total = s.total + spent P n s := by
  induction n with
  | zero => rfl
  | succ n ih =>
    show (doInst P (steps P n s)).2.total = _
    rw [c49_step P _ (hp n (by omega)), ih (fun k hk => hp k (by omega))]
    show _ = s.total + (_ + _ + _)
    omega

/-- MUL AB, DJNZ taken and not taken. -/
example : (execInst Demo.hw (Demo.st [0xa4#8] 3#8 4#8 0#8 7#8)).2.total = 4 := by decide +kernel
example : (execInst Demo.hw (Demo.st [0xd8#8, 0x10#8] 3#8 4#8 0#8 7#8)).2.total = 2 ∧
    (execInst Demo.hw (Demo.st [0xd8#8, 0x10#8] 3#8 4#8 0#8 7#8)).2.pc = 0x12 := by decide +kernel

end Ucsim.S51
