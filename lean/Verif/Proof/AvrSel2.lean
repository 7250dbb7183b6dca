import Verif.Proof.AvrSel
/- The instruction selected by the simulator is that of the manual (continued). -/
namespace Ucsim.Avr

theorem selBlk_all (n : Nat) (h : n < 16) : selBlk n = true := by
  have : n = 0 ∨ n = 1 ∨ n = 2 ∨ n = 3 ∨ n = 4 ∨ n = 5 ∨ n = 6 ∨ n = 7 ∨ n = 8 ∨ n = 9 ∨ n = 10 ∨ n = 11 ∨ n = 12 ∨
    n = 13 ∨ n = 14 ∨ n = 15 := by omega
  rcases this with h | h | h | h | h | h | h | h | h | h | h | h | h | h | h | h <;> subst h
  · exact sel_0
  · exact sel_1
  · exact sel_2
  · exact sel_3
  · exact sel_4
  · exact sel_5
  · exact sel_6
  · exact sel_7
  · exact sel_8
  · exact sel_9
  · exact sel_a
  · exact sel_b
  · exact sel_c
  · exact sel_d
  · exact sel_e
  · exact sel_f

theorem sel_chk (c : Nat) (h : c < 0x10000) : selChk cases c = true := by
  have hb := upto_spec _ _ (upto_spec _ _ (selBlk_all (c / 4096) (by omega)) (c / 256 % 16) (by omega)) (c % 256) (by omega)
  rw [show 16 * (c / 4096) + c / 256 % 16 = c / 256 by omega] at hb
  unfold selChk at hb ⊢
  rw [← find_byHi (·.1) (·.2.1) (c / 256) (c % 256) (by omega) (by omega) cases] at hb
  rw [show c / 256 * 256 + c % 256 = c by omega] at hb
  exact hb

/-- A word without a member function is no instruction. -/
theorem select_none (c : Nat) (h : c < 0x10000) (hs : select c = none) : Isa.decode c = none ∧ accepted c = false := by
  have := sel_chk c h
  unfold selChk at this
  unfold select at hs
  rw [Option.map_eq_none_iff] at hs
  rw [hs] at this
  simpa using this

theorem select_some (c : Nat) (h : c < 0x10000) (f : Fn) (hs : select c = some f) :
    Isa.decode c = ofFn f c ∧ accepted c = (ofFn f c == none) := by
  have := sel_chk c h
  unfold selChk at this
  unfold select at hs
  rw [Option.map_eq_some_iff] at hs
  obtain ⟨e, he, hf⟩ := hs
  rw [he] at this
  simp only [hf] at this
  simpa using this

/-! ### Lengths -/

/-- The entries of two words are of the group 0x9000; the others have the length 1. -/
theorem dis_long : disTab.all (fun e => e.length == 1 || (e.length == 2 && e.mask &&& 0xf000 == 0xf000 && e.code &&& 0xf000 == 0x9000)) = true := by
  decide +kernel

def lenChk (l : List DisEntry) (c : Nat) : Bool := match l.find? (fun e => c &&& e.mask == e.code) with
  | none => Isa.twoWords c == false
  | some e => e.length == if Isa.twoWords c then 2 else 1

set_option maxRecDepth 100000 in
set_option maxHeartbeats 0 in
theorem len_9 : upto (fun h => upto (fun lo => lenChk (byHi DisEntry.mask DisEntry.code (0x90 + h) disTab) ((0x90 + h) * 256 + lo)) 256) 16 = true := by
  decide +kernel

theorem two_words_9 (c : Nat) (h : c < 0x10000) (h9 : c / 4096 ≠ 9) : Isa.twoWords c = false := by
  have hd : ∀ i, Isa.decode c = some i → (i.op == .lds || i.op == .sts || i.op == .jmp || i.op == .call) = false := by
    intro i hi
    unfold Isa.decode at hi
    dsimp only at hi
    (repeat' split at hi) <;> first | (exfalso; omega) | (cases hi; rfl) | (cases hi; dsimp only; (repeat' split) <;> rfl) | cases hi
  unfold Isa.twoWords
  split
  · exact hd _ ‹_›
  · rfl

/-- The length of the table is that of the manual. -/
theorem disEntry_length (c : Nat) (h : c < 0x10000) (e : DisEntry) (he : disEntry c = some e) :
    e.length = if Isa.twoWords c then 2 else 1 := by
  by_cases h9 : c / 4096 = 9
  · have hb := upto_spec _ _ (upto_spec _ _ len_9 (c / 256 % 16) (by omega)) (c % 256) (by omega)
    rw [show 0x90 + c / 256 % 16 = c / 256 by omega] at hb
    unfold lenChk at hb
    rw [← find_byHi DisEntry.mask DisEntry.code (c / 256) (c % 256) (by omega) (by omega) disTab] at hb
    rw [show c / 256 * 256 + c % 256 = c by omega] at hb
    unfold disEntry at he
    rw [he] at hb
    exact beq_iff_eq.mp hb
  · rw [two_words_9 c h h9]
    have hm := List.mem_of_find?_eq_some he
    have hp := List.find?_some he
    have hl := List.all_eq_true.mp dis_long e hm
    simp only [Bool.or_eq_true, Bool.and_eq_true, beq_iff_eq] at hl hp
    rcases hl with hl | hl
    · exact hl
    · exfalso
      have h1 : c &&& 0xf000 = 0x9000 := by
        rw [← hl.2, ← hp, Nat.and_assoc, hl.1.2]
      have h2 : (c &&& 0xf000) >>> 12 = 9 := by rw [h1]; rfl
      rw [Nat.shiftRight_and_distrib, show (0xf000 : Nat) >>> 12 = 2 ^ 4 - 1 from rfl, Nat.and_two_pow_sub_one_eq_mod,
        Nat.shiftRight_eq_div_pow] at h2
      omega

theorem disEntry_none (c : Nat) (h : c < 0x10000) (he : disEntry c = none) : Isa.twoWords c = false := by
  by_cases h9 : c / 4096 = 9
  · have hb := upto_spec _ _ (upto_spec _ _ len_9 (c / 256 % 16) (by omega)) (c % 256) (by omega)
    rw [show 0x90 + c / 256 % 16 = c / 256 by omega] at hb
    unfold lenChk at hb
    rw [← find_byHi DisEntry.mask DisEntry.code (c / 256) (c % 256) (by omega) (by omega) disTab] at hb
    rw [show c / 256 * 256 + c % 256 = c by omega] at hb
    unfold disEntry at he
    rw [he] at hb
    exact beq_iff_eq.mp hb
  · exact two_words_9 c h h9

end Ucsim.Avr
