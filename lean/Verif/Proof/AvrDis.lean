import Verif.Avr.Dis
import Verif.Proof.AvrSel2
/- The entries of the disassembler's table for all instructions of the manual. -/
namespace Ucsim.Avr

open Isa (Ins)

/-- The instructions without an entry in the table. -/
def noEntry (i : Ins) : Bool := i.op == .movw || i.op == .muls || i.op == .mulsu || i.op == .fmul || i.op == .fmuls || i.op == .fmulsu
  || i.op == .lpm || i.op == .lpmp

/-- The name of a jump or call. -/
def jumpName (i : Ins) : Option String := match i.op with
  | .rjmp => some "rjmp %a"
  | .rcall => some "rcall %a"
  | .jmp => some "jmp %A"
  | .call => some "call %A"
  | .brbs => (["brcs %k", "breq %k", "brmi %k", "brvs %k", "brlt %k", "brhs %k", "brts %k", "brie %k"] : List String)[i.x]?
  | .brbc => (["brcc %k", "brne %k", "brpl %k", "brvc %k", "brge %k", "brhc %k", "brtc %k", "brid %k"] : List String)[i.x]?
  | _ => none

def disChk (l : List DisEntry) (c : Nat) : Bool := match Isa.decode c with
  | none => true
  | some i => match l.find? (fun e => c &&& e.mask == e.code) with
    | none => noEntry i
    | some e => !noEntry i && e.isCall == (i.op == .call) && (match jumpName i with
      | none => true
      | some n => e.mnemonic == n)

def disBlk (n : Nat) : Bool := upto (fun h => upto (fun lo => disChk (byHi DisEntry.mask DisEntry.code (16 * n + h) disTab) ((16 * n + h) * 256 + lo)) 256) 16

set_option maxRecDepth 100000
set_option maxHeartbeats 0
theorem dis_0 : disBlk 0 = true := by decide +kernel
theorem dis_1 : disBlk 1 = true := by decide +kernel
theorem dis_2 : disBlk 2 = true := by decide +kernel
theorem dis_3 : disBlk 3 = true := by decide +kernel
theorem dis_4 : disBlk 4 = true := by decide +kernel
theorem dis_5 : disBlk 5 = true := by decide +kernel
theorem dis_6 : disBlk 6 = true := by decide +kernel
theorem dis_7 : disBlk 7 = true := by decide +kernel
theorem dis_8 : disBlk 8 = true := by decide +kernel
theorem dis_9 : disBlk 9 = true := by decide +kernel
theorem dis_a : disBlk 10 = true := by decide +kernel
theorem dis_b : disBlk 11 = true := by decide +kernel
theorem dis_c : disBlk 12 = true := by decide +kernel
theorem dis_d : disBlk 13 = true := by decide +kernel
theorem dis_e : disBlk 14 = true := by decide +kernel
theorem dis_f : disBlk 15 = true := by decide +kernel


theorem disBlk_all (n : Nat) (h : n < 16) : disBlk n = true := by
  have : n = 0 ∨ n = 1 ∨ n = 2 ∨ n = 3 ∨ n = 4 ∨ n = 5 ∨ n = 6 ∨ n = 7 ∨ n = 8 ∨ n = 9 ∨ n = 10 ∨ n = 11 ∨ n = 12 ∨
    n = 13 ∨ n = 14 ∨ n = 15 := by omega
  rcases this with h | h | h | h | h | h | h | h | h | h | h | h | h | h | h | h <;> subst h
  · exact dis_0
  · exact dis_1
  · exact dis_2
  · exact dis_3
  · exact dis_4
  · exact dis_5
  · exact dis_6
  · exact dis_7
  · exact dis_8
  · exact dis_9
  · exact dis_a
  · exact dis_b
  · exact dis_c
  · exact dis_d
  · exact dis_e
  · exact dis_f

theorem dis_chk (c : Nat) (h : c < 0x10000) : disChk disTab c = true := by
  have hb := upto_spec _ _ (upto_spec _ _ (disBlk_all (c / 4096) (by omega)) (c / 256 % 16) (by omega)) (c % 256) (by omega)
  rw [show 16 * (c / 4096) + c / 256 % 16 = c / 256 by omega] at hb
  unfold disChk at hb ⊢
  rw [← find_byHi DisEntry.mask DisEntry.code (c / 256) (c % 256) (by omega) (by omega) disTab] at hb
  rw [show c / 256 * 256 + c % 256 = c by omega] at hb
  exact hb

/-- The entry of an instruction. -/
theorem dis_entry (c : Nat) (h : c < 0x10000) (i : Ins) (hi : Isa.decode c = some i) :
    (noEntry i = true ∧ disEntry c = none) ∨
    ∃ e, disEntry c = some e ∧ noEntry i = false ∧ e.isCall = (i.op == .call) ∧ ∀ n, jumpName i = some n → e.mnemonic = n := by
  have := dis_chk c h
  unfold disChk at this
  rw [hi] at this
  unfold disEntry
  cases he : disTab.find? (fun e => c &&& e.mask == e.code) with
  | none => rw [he] at this; exact Or.inl ⟨this, rfl⟩
  | some e =>
    rw [he] at this
    simp only [Bool.and_eq_true, Bool.not_eq_true', beq_iff_eq] at this
    refine Or.inr ⟨e, rfl, this.1.1, this.1.2, ?_⟩
    intro n hn
    have h3 := this.2
    rw [hn] at h3
    exact beq_iff_eq.mp h3

end Ucsim.Avr
