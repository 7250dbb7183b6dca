import Verif.Spec.S51Isa
import Verif.Spec.S51
/-!
The simulated machine seen as the machine of the manual.
-/
namespace Ucsim.S51
open Isa (Cpu)

variable {H : Type}

/-- The memories of the simulated machine. -/
def toCpu (s : St H) : Cpu := ⟨s.pc, s.iram, s.sfr, s.xram, s.rom⟩

/-- A register without side effects: reads deliver what is stored, writes store, no
device reacts, its bits neither. -/
structure PlainSfr (P : Hw H) (a : Nat) : Prop where
  rd : ∀ h f l, P.sfrRd h f a l = f a
  eff : ∀ h f l, P.sfrRdEff h f a l = h
  wr : ∀ h f v, P.sfrWr h f a v = (v, h, f)
  bit : ∀ b, b / 8 * 8 = a → ∀ h f v, P.bitWr h f b v = (h, f)

/-- A directly addressed location that acts like memory: internal memory, a register
of the CPU, or a register of a device without side effects. -/
def Tame (P : Hw H) (a : Nat) : Prop := a < 0x80 ∨ isCore a = true ∨ PlainSfr P a

/-- No device reacts to writing bits of the registers of the CPU. -/
def CoreBits (P : Hw H) : Prop := ∀ b, isCore (b / 8 * 8) = true → ∀ h f v, P.bitWr h f b v = (h, f)

/-- The instruction uses nothing but memories and registers of the CPU, and is one the
simulator does as the manual says: not the reserved opcode, not PUSH SP, MOVC within
64K, stack and pointers within internal memory, no direct write to PSW (which could
set the parity flag). -/
structure Own (P : Hw H) (c : Cpu) : Prop where
  own : ∀ a ∈ c.touched, a.toNat < 0x80 ∨ isCore a.toNat = true
  ind : ∀ a ∈ c.reached, a.toNat < P.iramSize
  tab : ∀ a ∈ c.table, a < 0x10000
  known : c.code 0 ≠ 0xa5#8
  pushSp : c.code 0 = 0xc0#8 → c.code 1 ≠ 0x81#8
  psw : c.writesPsw = false

/-- The devices do not change IE and PCON (they may change all others). -/
def LeavesIE (P : Hw H) : Prop := ∀ h f, (P.tick h f).2 IE = f IE ∧ (P.tick h f).2 PCON = f PCON

end Ucsim.S51
