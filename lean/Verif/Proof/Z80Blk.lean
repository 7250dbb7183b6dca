import Verif.Proof.Z80Io
import Verif.Spec.Z80Blk

/-
LDIR, LDDR, CPIR as a whole.
-/
namespace Ucsim.Z80
open Isa (Flags Differs copied nth)

theorem decode_ed (b1 b3 : Byte) : Isa.decode 0xed#8 b1 b3 = Isa.decodeED b1 := rfl

theorem nth_succ (dn : Bool) (a : Word) (k : Nat) : nth dn a (k + 1) = nth dn (Isa.Mach.step1 dn a) k := by
  unfold nth Isa.Mach.step1
  have e : (BitVec.ofNat 16 (k + 1) : Word) = BitVec.ofNat 16 k + 1#16 := by
    apply BitVec.eq_of_toNat_eq; simp
  cases dn
  · simp only [Bool.false_eq_true, if_false, e]
    rw [BitVec.add_comm (BitVec.ofNat 16 k), ← BitVec.add_assoc]; rfl
  · simp only [if_true, e]
    apply BitVec.eq_of_toNat_eq
    simp only [BitVec.toNat_sub, BitVec.toNat_add, BitVec.toNat_ofNat]
    have := a.isLt
    simp
    omega
theorem nth_zero (dn : Bool) (a : Word) : nth dn a 0 = a := by cases dn <;> simp [nth]

theorem pred_word (n : Nat) : (BitVec.ofNat 16 (n + 1) : Word) - 1 = BitVec.ofNat 16 n := by
  apply BitVec.eq_of_toNat_eq; simp only [BitVec.toNat_sub, BitVec.toNat_ofNat]; simp; omega

theorem word_hl' (v : Word) : Isa.word (Isa.hiByte v) (Isa.loByte v) = v := word_hl v

/-- One round of LDIR, LDDR. -/
theorem ld_round (dn : Bool) (u : Isa.Und) (m : Isa.Mach) (hi : m.ins = (.bld dn true, 2)) :
    Isa.step u m = m.blockLd u dn true := by unfold Isa.step; rw [hi]; rfl

/-- The machine after the whole block. -/
def ldEnd (dn : Bool) (n : Nat) (m : Isa.Mach) : Isa.Mach :=
  { (((m.setPair (.idx .hl) (nth dn m.HL n)).setPair .de (nth dn m.DE n)).setPair .bc 0) with
    mem := copied dn n m.HL m.DE m.mem, pc := m.pc + 2, f := { m.f with h := false, n := false, pv := false } }

def ldCode (dn : Bool) : Byte := if dn then 0xb8#8 else 0xb0#8

theorem ld_ins (dn : Bool) (m : Isa.Mach) (h0 : m.mem m.pc = 0xed#8) (h1 : m.mem (m.pc + 1) = ldCode dn) : m.ins = (.bld dn true, 2) := by
  unfold Isa.Mach.ins
  rw [h0, h1, decode_ed]
  cases dn <;> rfl

theorem ld_run (dn : Bool) (n : Nat) (s : St) (hp : s.pc < 0x10000) (h0 : (abs s).mem (abs s).pc = 0xed#8)
    (h1 : (abs s).mem ((abs s).pc + 1) = ldCode dn) (hn : n < 65536) (hbc : (abs s).BC = BitVec.ofNat 16 (n + 1))
    (hov : ∀ k, k < n → nth dn (abs s).DE k ≠ (abs s).pc ∧ nth dn (abs s).DE k ≠ (abs s).pc + 1) :
    abs (steps (n + 1) s) = ldEnd dn (n + 1) (abs s) := by
  induction n generalizing s with
  | zero =>
    have hi := ld_ins dn (abs s) h0 h1
    obtain ⟨k1, -, -, -⟩ := step_ok s hp (by rw [hi]; exact fun h => h)
    show abs (step s).2 = _
    rw [k1, ld_round dn _ _ hi]
    unfold Isa.Mach.blockLd ldEnd
    have e : (abs s).BC - 1 = 0#16 := by rw [hbc, pred_word]
    rw [e]
    have z : (true && (0#16).toNat != 0) = false := rfl
    simp only [z, Bool.false_eq_true, if_false, nth_succ, nth_zero]
    rfl
  | succ n ih =>
    have hi := ld_ins dn (abs s) h0 h1
    obtain ⟨k1, k2, -, -⟩ := step_ok s hp (by rw [hi]; exact fun h => h)
    rw [ld_round dn _ _ hi] at k1
    have e : (abs s).BC - 1 = BitVec.ofNat 16 (n + 1) := by rw [hbc, pred_word]
    have nz : (true && ((abs s).BC - 1).toNat != 0) = true := by
      rw [e]; simp; omega
    unfold Isa.Mach.blockLd at k1
    simp only [nz, if_true] at k1
    have hov0 := hov 0 (by omega)
    rw [nth_zero] at hov0
    have M : (abs (step s).2).mem = fun x => if x = (abs s).DE then (abs s).mem (abs s).HL else (abs s).mem x := by rw [k1]; rfl
    have P : (abs (step s).2).pc = (abs s).pc := by rw [k1]; rfl
    have D : (abs (step s).2).DE = Isa.Mach.step1 dn (abs s).DE := by rw [k1]; exact word_hl _
    have H : (abs (step s).2).HL = Isa.Mach.step1 dn (abs s).HL := by rw [k1]; exact word_hl _
    have B : (abs (step s).2).BC = BitVec.ofNat 16 (n + 1) := by rw [k1, ← e]; exact word_hl _
    have r := ih (step s).2 k2 (by rw [M, P]; simp only; rw [if_neg (fun h => hov0.1 h.symm)]; exact h0)
      (by rw [M, P]; simp only; rw [if_neg (fun h => hov0.2 h.symm)]; exact h1) (by omega) B
      (by intro k hk; rw [D, P, ← nth_succ]; exact hov (k + 1) (by omega))
    show abs (steps (n + 1) (step s).2) = _
    rw [r]
    unfold ldEnd
    rw [M, P, D, H, nth_succ dn (abs s).HL (n + 1), nth_succ dn (abs s).DE (n + 1)]
    rw [k1]
    rfl

/-! ### What is copied -/

theorem copied_other (dn : Bool) (n : Nat) (h d : Word) (m : Word → Byte) (a : Word) (ha : ∀ k, k < n → a ≠ nth dn d k) :
    copied dn n h d m a = m a := by
  induction n generalizing h d m with
  | zero => rfl
  | succ n ih =>
    unfold copied
    rw [ih _ _ _ (fun k hk => by rw [← nth_succ]; exact ha (k + 1) (by omega))]
    have := ha 0 (by omega)
    rw [nth_zero] at this
    simp only [if_neg this]

theorem nth_ne (dn : Bool) (d : Word) (k : Nat) (hk : k + 1 < 65536) : d ≠ nth dn d (k + 1) := by
  intro e
  have e := congrArg BitVec.toNat e
  have := d.isLt
  unfold nth at e
  cases dn
  · simp only [Bool.false_eq_true, if_false, BitVec.toNat_add, BitVec.toNat_ofNat] at e; omega
  · simp only [if_true, BitVec.toNat_sub, BitVec.toNat_ofNat] at e; omega

theorem copied_at (dn : Bool) (n : Nat) (h d : Word) (m : Word → Byte) (hn : n ≤ 65536)
    (ho : ∀ i j, i < j → j < n → nth dn d i ≠ nth dn h j) (k : Nat) (hk : k < n) : copied dn n h d m (nth dn d k) = m (nth dn h k) := by
  induction n generalizing h d m k with
  | zero => omega
  | succ n ih =>
    unfold copied
    cases k with
    | zero =>
      rw [nth_zero, nth_zero, copied_other]
      · simp
      · intro j hj
        rw [← nth_succ]
        exact nth_ne dn d j (by omega)
    | succ k =>
      rw [nth_succ, ih _ _ _ (by omega) (fun i j hij hj => by
        rw [← nth_succ, ← nth_succ]; exact ho (i + 1) (j + 1) (by omega) (by omega)) k (by omega), ← nth_succ]
      have := ho 0 (k + 1) (by omega) hk
      rw [nth_zero] at this
      exact if_neg (Ne.symm this)

/-! ### CPIR -/

theorem ed_done (s : St) (h : s.pc < 0x10000) (h0 : (abs s).mem (abs s).pc = 0xed#8) :
    found s = at_ tabED (s.mem ((abs s).pc + 1)) ∧
      done s = exec (abs s).pc.toNat .ix 0 (at_ tabED (s.mem ((abs s).pc + 1))) (adv (abs s).pc 2 (begun s)) := by
  have hw : (abs s).pc.toNat = s.pc := by
    show (BitVec.ofNat 16 s.pc : Word).toNat = s.pc
    rw [BitVec.toNat_ofNat, Nat.mod_eq_of_lt h]
  have f1 : fetch (adv (abs s).pc 1 (begun s)) = (s.mem ((abs s).pc + 1), adv (abs s).pc 2 (begun s)) := fetch_adv (abs s).pc 1 (begun s)
  have fe : find (s.mem (abs s).pc) (adv (abs s).pc 1 (begun s)) =
      { inst := at_ tabED (s.mem ((abs s).pc + 1)), x := .ix, off := 0, st := adv (abs s).pc 2 (begun s) } := by
    have h0 : s.mem (abs s).pc = 0xed#8 := h0
    unfold find
    rw [h0, if_neg (by decide), if_pos rfl, f1]
  constructor
  · show (find (s.mem (abs s).pc) (adv (abs s).pc 1 (begun s))).inst = _
    rw [fe]
  · unfold done
    rw [hw]
    show exec s.pc (find (s.mem (abs s).pc) (adv (abs s).pc 1 (begun s))).x (find (s.mem (abs s).pc) (adv (abs s).pc 1 (begun s))).off
      (find (s.mem (abs s).pc) (adv (abs s).pc 1 (begun s))).inst (find (s.mem (abs s).pc) (adv (abs s).pc 1 (begun s))).st = _
    rw [fe]

theorem cpir_step (s : St) (h : s.pc < 0x10000) (h0 : (abs s).mem (abs s).pc = 0xed#8) (h1 : (abs s).mem ((abs s).pc + 1) = 0xb1#8) :
    abs (step s).2 = { (abs s).blockCp false true with f := { ((abs s).blockCp false true).f with h := false } } ∧ (step s).2.pc < 0x10000 := by
  obtain ⟨e1, e2⟩ := ed_done s h h0
  have h1 : s.mem ((abs s).pc + 1) = 0xb1#8 := h1
  have t : at_ tabED 0xb1#8 = .cpir := by decide +kernel
  rw [h1, t] at e1 e2
  obtain ⟨d1, -, -⟩ := step_done s h (by rw [e1]; simp)
  have k : abs (step s).2 = abs (done s) := by rw [d1]; rfl
  constructor
  · rw [k, e2]
    exact cpir_h .ix 0 (begun s) (abs s).pc { fl := 0, x35 := 0, r := 0 }
  · rw [d1]
    show (done s).pc < _
    rw [e2]
    exact exec_pc _ _ _ _ _ (BitVec.isLt _) (BitVec.isLt _) (by simp) (by simp) (by simp)

/-- CPIR after `k` rounds, none of which found the byte. -/
theorem cpir_run (k n : Nat) (s : St) (h : s.pc < 0x10000) (h0 : (abs s).mem (abs s).pc = 0xed#8) (h1 : (abs s).mem ((abs s).pc + 1) = 0xb1#8)
    (hbc : (abs s).BC = BitVec.ofNat 16 n) (hn : n ≤ 65536) (hk : k < n)
    (hne : ∀ i, i < k → (abs s).mem (nth false (abs s).HL i) ≠ (abs s).a) :
    (steps k s).pc < 0x10000 ∧ (abs (steps k s)).pc = (abs s).pc ∧ (abs (steps k s)).mem = (abs s).mem ∧ (abs (steps k s)).a = (abs s).a ∧
      (abs (steps k s)).HL = nth false (abs s).HL k ∧ (abs (steps k s)).BC = BitVec.ofNat 16 (n - k) := by
  induction k generalizing s n with
  | zero => exact ⟨h, rfl, rfl, rfl, (nth_zero ..).symm, hbc⟩
  | succ k ih =>
    obtain ⟨k1, k2⟩ := cpir_step s h h0 h1
    have ne0 := hne 0 (by omega)
    rw [nth_zero] at ne0
    obtain ⟨n', rfl⟩ : ∃ n', n = n' + 1 := ⟨n - 1, by omega⟩
    have e : (abs s).BC - 1 = BitVec.ofNat 16 n' := by rw [hbc, pred_word]
    have nz : (true && ((abs s).BC - 1).toNat != 0 && (abs s).a != (abs s).mem (abs s).HL) = true := by
      rw [e]
      simp only [BitVec.toNat_ofNat, Bool.true_and, Bool.and_eq_true, bne_iff_ne]
      exact ⟨by omega, fun e => ne0 e.symm⟩
    unfold Isa.Mach.blockCp at k1
    simp only [nz, if_true] at k1
    have M : (abs (step s).2).mem = (abs s).mem := by rw [k1]; rfl
    have P : (abs (step s).2).pc = (abs s).pc := by rw [k1]; rfl
    have A : (abs (step s).2).a = (abs s).a := by rw [k1]; rfl
    have H : (abs (step s).2).HL = Isa.Mach.step1 false (abs s).HL := by rw [k1]; exact word_hl _
    have B : (abs (step s).2).BC = BitVec.ofNat 16 n' := by rw [k1, ← e]; exact word_hl _
    obtain ⟨r1, r2, r3, r4, r5, r6⟩ := ih n' (step s).2 k2 (by rw [M, P]; exact h0) (by rw [M, P]; exact h1) B (by omega) (by omega)
      (fun i hi => by rw [M, A, H, ← nth_succ]; exact hne (i + 1) (by omega))
    exact ⟨r1, r2.trans P, r3.trans M, r4.trans A, by rw [nth_succ, ← H]; exact r5, by rw [show n' + 1 - (k + 1) = n' - k by omega]; exact r6⟩

end Ucsim.Z80
