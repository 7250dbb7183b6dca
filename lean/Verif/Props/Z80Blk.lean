import Verif.Props.Z80
import Verif.Proof.Z80Blk

/-
C88: LDIR and LDDR copy a block, CPIR finds a byte.
-/
namespace Ucsim.Z80
open Isa (nth)

/-- **C88**, copying: `n` is the content of BC (65536 when it is 0).  As long as the instruction
is not overwritten before its last round, after n rounds the machine stands behind it with BC = 0 and HL,
DE moved by n; if no source byte is overwritten before it is copied, every byte of the source is
found in the destination.  Nothing else of the memory has changed. -/
theorem c88_copy (dn : Bool) (n : Nat) (s : St) (hp : s.pc < 0x10000) (h0 : (abs s).mem (abs s).pc = 0xed#8)
    (h1 : (abs s).mem ((abs s).pc + 1) = if dn then 0xb8#8 else 0xb0#8)
    (hn : 1 ≤ n ∧ n ≤ 65536) (hbc : (abs s).BC = BitVec.ofNat 16 n)
    (hov : ∀ k, k + 1 < n → nth dn (abs s).DE k ≠ (abs s).pc ∧ nth dn (abs s).DE k ≠ (abs s).pc + 1) :
    (abs (steps n s)).pc = (abs s).pc + 2 ∧ (abs (steps n s)).BC = 0 ∧ (abs (steps n s)).HL = nth dn (abs s).HL n ∧
      (abs (steps n s)).DE = nth dn (abs s).DE n ∧ (abs (steps n s)).f = { (abs s).f with h := false, n := false, pv := false } ∧
      (abs (steps n s)).a = (abs s).a ∧ (abs (steps n s)).sp = (abs s).sp ∧ (abs (steps n s)).ix = (abs s).ix ∧ (abs (steps n s)).iy = (abs s).iy ∧
      ((∀ i j, i < j → j < n → nth dn (abs s).DE i ≠ nth dn (abs s).HL j) →
        ∀ k, k < n → (steps n s).mem (nth dn (abs s).DE k) = s.mem (nth dn (abs s).HL k)) ∧
      (∀ a, (∀ k, k < n → a ≠ nth dn (abs s).DE k) → (steps n s).mem a = s.mem a) := by
  obtain ⟨n, rfl⟩ : ∃ n', n = n' + 1 := ⟨n - 1, by omega⟩
  have r := ld_run dn n s hp h0 h1 (by omega) hbc (fun k hk => hov k (by omega))
  have M : (steps (n + 1) s).mem = Isa.copied dn (n + 1) (abs s).HL (abs s).DE (abs s).mem := congrArg Isa.Mach.mem r
  rw [r]
  refine ⟨rfl, word_hl _, word_hl _, word_hl _, rfl, rfl, rfl, rfl, rfl, ?_, ?_⟩
  · intro ho k hk
    rw [M]; exact copied_at dn (n + 1) _ _ _ hn.2 ho k hk
  · intro a ha
    rw [M]; exact copied_other dn (n + 1) _ _ _ a ha

/-- **C88**, overlapping: LDIR with DE = HL + 1 fills with the first byte, as the manual's copying byte by byte does. -/
theorem c88_bytewise (dn : Bool) (n : Nat) (s : St) (hp : s.pc < 0x10000) (h0 : (abs s).mem (abs s).pc = 0xed#8)
    (h1 : (abs s).mem ((abs s).pc + 1) = if dn then 0xb8#8 else 0xb0#8)
    (hn : 1 ≤ n ∧ n ≤ 65536) (hbc : (abs s).BC = BitVec.ofNat 16 n)
    (hov : ∀ k, k + 1 < n → nth dn (abs s).DE k ≠ (abs s).pc ∧ nth dn (abs s).DE k ≠ (abs s).pc + 1) :
    (steps n s).mem = Isa.copied dn n (abs s).HL (abs s).DE s.mem := by
  obtain ⟨n, rfl⟩ : ∃ n', n = n' + 1 := ⟨n - 1, by omega⟩
  exact congrArg Isa.Mach.mem (ld_run dn n s hp h0 h1 (by omega) hbc (fun k hk => hov k (by omega)))

/-- **C88**, searching: CPIR stops behind the first byte equal to A. -/
theorem c88_found (n k : Nat) (s : St) (hp : s.pc < 0x10000) (h0 : (abs s).mem (abs s).pc = 0xed#8)
    (h1 : (abs s).mem ((abs s).pc + 1) = 0xb1#8) (hn : n ≤ 65536) (hbc : (abs s).BC = BitVec.ofNat 16 n) (hk : k < n)
    (hne : ∀ i, i < k → s.mem (nth false (abs s).HL i) ≠ s.a) (he : s.mem (nth false (abs s).HL k) = s.a) :
    (∀ i, i ≤ k → (abs (steps i s)).pc = (abs s).pc) ∧ (abs (steps (k + 1) s)).pc = (abs s).pc + 2 ∧
      (abs (steps (k + 1) s)).HL = nth false (abs s).HL (k + 1) ∧ (abs (steps (k + 1) s)).BC = BitVec.ofNat 16 (n - (k + 1)) ∧
      (abs (steps (k + 1) s)).f.z = true ∧ (steps (k + 1) s).mem = s.mem ∧ (steps (k + 1) s).a = s.a := by
  have sw : ∀ (n : Nat) (s : St), steps (n + 1) s = (step (steps n s)).2 := by
    intro n
    induction n with
    | zero => intro s; rfl
    | succ n ih => intro s; exact ih (step s).2
  refine ⟨fun i hi => (cpir_run i n s hp h0 h1 hbc hn (by omega) (fun j hj => hne j (by omega))).2.1, ?_⟩
  obtain ⟨r1, r2, r3, r4, r5, r6⟩ := cpir_run k n s hp h0 h1 hbc hn hk hne
  obtain ⟨c1, -⟩ := cpir_step (steps k s) r1 (by rw [r3, r2]; exact h0) (by rw [r3, r2]; exact h1)
  have eq : (abs (steps k s)).mem (abs (steps k s)).HL = (abs (steps k s)).a := by rw [r3, r4, r5]; exact he
  have stop : (true && ((abs (steps k s)).BC - 1).toNat != 0 && (abs (steps k s)).a != (abs (steps k s)).mem (abs (steps k s)).HL) = false := by
    rw [eq]; simp
  unfold Isa.Mach.blockCp at c1
  simp only [stop, Bool.false_eq_true, if_false] at c1
  rw [sw]
  refine ⟨?_, ?_, ?_, ?_, ?_, ?_⟩
  · rw [c1]; show (abs (steps k s)).pc + 2 = _; rw [r2]
  · rw [c1]
    refine (word_hl _).trans ?_
    show Isa.Mach.step1 false (abs (steps k s)).HL = _
    rw [r5]
    unfold Isa.Mach.step1 nth
    simp only [Bool.false_eq_true, if_false]
    rw [BitVec.add_assoc]
    congr 1
    apply BitVec.eq_of_toNat_eq; simp
  · rw [c1]
    refine (word_hl _).trans ?_
    rw [r6, show n - k = n - (k + 1) + 1 by omega, pred_word]
  · rw [c1]
    show ((BitVec.ofInt 8 _ : Byte).toNat == 0) = true
    rw [eq]; simp
  · have : (abs (step (steps k s)).2).mem = (abs (steps k s)).mem := by rw [c1]; rfl
    exact this.trans r3
  · have : (abs (step (steps k s)).2).a = (abs (steps k s)).a := by rw [c1]; rfl
    exact this.trans r4

/-- **C88**, searching in vain: CPIR ends with BC = 0 and Z clear when no byte equals A. -/
theorem c88_absent (n : Nat) (s : St) (hp : s.pc < 0x10000) (h0 : (abs s).mem (abs s).pc = 0xed#8)
    (h1 : (abs s).mem ((abs s).pc + 1) = 0xb1#8) (hn : 1 ≤ n ∧ n ≤ 65536) (hbc : (abs s).BC = BitVec.ofNat 16 n)
    (hne : ∀ i, i < n → s.mem (nth false (abs s).HL i) ≠ s.a) :
    (abs (steps n s)).pc = (abs s).pc + 2 ∧ (abs (steps n s)).HL = nth false (abs s).HL n ∧ (abs (steps n s)).BC = 0 ∧
      (abs (steps n s)).f.z = false ∧ (abs (steps n s)).f.pv = false ∧ (steps n s).mem = s.mem ∧ (steps n s).a = s.a := by
  have sw : ∀ (n : Nat) (s : St), steps (n + 1) s = (step (steps n s)).2 := by
    intro n
    induction n with
    | zero => intro s; rfl
    | succ n ih => intro s; exact ih (step s).2
  obtain ⟨k, rfl⟩ : ∃ n', n = n' + 1 := ⟨n - 1, by omega⟩
  obtain ⟨r1, r2, r3, r4, r5, r6⟩ := cpir_run k (k + 1) s hp h0 h1 hbc hn.2 (by omega) (fun i hi => hne i (by omega))
  obtain ⟨c1, -⟩ := cpir_step (steps k s) r1 (by rw [r3, r2]; exact h0) (by rw [r3, r2]; exact h1)
  have ne : (abs (steps k s)).a ≠ (abs (steps k s)).mem (abs (steps k s)).HL := by
    rw [r3, r4, r5]; exact fun e => hne k (by omega) e.symm
  have b0 : (abs (steps k s)).BC - 1 = 0#16 := by rw [r6, show k + 1 - k = 0 + 1 by omega, pred_word]
  have stop : (true && ((abs (steps k s)).BC - 1).toNat != 0 && (abs (steps k s)).a != (abs (steps k s)).mem (abs (steps k s)).HL) = false := by
    rw [b0]; simp
  unfold Isa.Mach.blockCp at c1
  simp only [stop, Bool.false_eq_true, if_false] at c1
  rw [sw]
  refine ⟨?_, ?_, ?_, ?_, ?_, ?_, ?_⟩
  · rw [c1]; show (abs (steps k s)).pc + 2 = _; rw [r2]
  · rw [c1]
    refine (word_hl _).trans ?_
    show Isa.Mach.step1 false (abs (steps k s)).HL = _
    rw [r5]
    unfold Isa.Mach.step1 nth
    simp only [Bool.false_eq_true, if_false]
    rw [BitVec.add_assoc]
    congr 1
    apply BitVec.eq_of_toNat_eq; simp
  · rw [c1]
    exact (word_hl _).trans b0
  · rw [c1]
    show ((BitVec.ofInt 8 (((abs (steps k s)).a.toNat : Int) - ((abs (steps k s)).mem (abs (steps k s)).HL).toNat - (false.toNat : Nat)) : Byte).toNat == 0) = false
    have := diff0 (abs (steps k s)).a ((abs (steps k s)).mem (abs (steps k s)).HL)
    simp only [Bool.toNat_false, Int.natCast_zero, Int.sub_zero] at this ⊢
    rw [← this, ← beq_toNat]
    rw [beq_eq_false_iff_ne]
    exact fun e => ne (BitVec.eq_of_toNat_eq e)
  · rw [c1]
    show (((abs (steps k s)).BC - 1).toNat != 0) = false
    rw [b0]; rfl
  · have : (abs (step (steps k s)).2).mem = (abs (steps k s)).mem := by rw [c1]; rfl
    exact this.trans r3
  · have : (abs (step (steps k s)).2).a = (abs (steps k s)).a := by rw [c1]; rfl
    exact this.trans r4

/-- LDIR of three bytes. -/
example : let s := { demo (also 0x4010 1 (also 0x4011 2 (also 0x4012 3 (prog [0xed, 0xb0])))) with b := 0, c := 3 }
    (steps 3 s).mem 0x3020 = 1 ∧ (steps 3 s).mem 0x3021 = 2 ∧ (steps 3 s).mem 0x3022 = 3 ∧ (steps 3 s).mem 0x3023 = 0 ∧ (steps 3 s).pc = 0x102 ∧
      (abs s).BC = 3 ∧ (abs s).mem (abs s).pc = 0xed#8 ∧ (abs s).mem ((abs s).pc + 1) = 0xb0#8 := by decide +kernel
/-- CPIR finds 0x12 at the third place. -/
example : let s := { demo (also 0x4012 0x12 (prog [0xed, 0xb1])) with b := 0, c := 9 }
    (steps 3 s).pc = 0x102 ∧ (steps 3 s).l = 0x13 ∧ (steps 3 s).c = 6 ∧ (abs (steps 3 s)).f.z = true ∧ (steps 2 s).pc = 0x100 := by decide +kernel

/-- CPDR stops at the byte found, not behind it. -/
theorem c88_false_cpdr : let s := { demo (also 0x400e 0x12 (prog [0xed, 0xb9])) with b := 0, c := 9 }
    (steps 3 s).pc = 0x102 ∧ (abs (steps 3 s)).HL = 0x400e ∧ nth true (abs s).HL 3 = 0x400d ∧ (abs (steps 3 s)).BC = 7 := by decide +kernel

end Ucsim.Z80
